import Verif.Lemmas.Calendar
import Verif.Lemmas.Finitary

/-! # `initialize` as a whole -/

set_option autoImplicit false

namespace Ramp

variable {α β : Type}

theorem returns_of_bind {m : Sim α} {f : α → Sim β} {b : β} (h : Returns (m >>= f) b) : ∃ a, Returns m a ∧ Returns (f a) b := by
  obtain ⟨r, r', h⟩ := h
  cases hr : m r with
  | error e => rw [bind_error hr] at h; cases h
  | ok p =>
    obtain ⟨a, r1⟩ := p
    rw [bind_ok hr] at h
    exact ⟨a, ⟨r, r1, hr⟩, ⟨r1, r', h⟩⟩

theorem returns_attempt_ok {m : Sim α} {a : α} : Returns (attempt m) (.ok a) ↔ Returns m a := by
  constructor
  · rintro ⟨r, r', h⟩
    unfold attempt at h
    cases hm : m r with
    | error e => rw [hm] at h; cases h
    | ok p => rw [hm] at h; cases h; exact ⟨r, _, hm⟩
  · rintro ⟨r, r', h⟩
    exact ⟨r, r', by unfold attempt; rw [h]⟩

theorem returns_attempt_error {m : Sim α} {e : Err} : Returns (attempt m) (.error e) ↔ Raises m e := by
  constructor
  · rintro ⟨r, r', h⟩
    unfold attempt at h
    cases hm : m r with
    | error e => rw [hm] at h; cases h; exact ⟨r, hm⟩
    | ok p => rw [hm] at h; cases h
  · rintro ⟨r, h⟩
    exact ⟨r, r, by unfold attempt; rw [h]⟩

/-- `core.py:231-234`: forget the days of an initialised use case. -/
def resetDays (uc : UseCase) (args : InitArgs) : UseCase :=
  if uc.isInitialized ∧ args.force = true then { uc with days := none } else uc

/-- A successful `initialize` leaves an initialised use case untouched, or chooses the days, the powers, the peak and the index. -/
def InitDone (env : Env) (uc : UseCase) (args : InitArgs) (uc' : UseCase) : Prop :=
  ∃ uc1 pe r, initCalendar env (resetDays uc args) args = (uc1, .ok ()) ∧ Returns (peakTimeRangeOf uc1.users pe) r ∧
    (match args.peakEnlarge with | none => pe = uc1.peakEnlarge | some x => x = .float pe ∧ 0 ≤ pe) ∧
    uc' = initIndex { uc1 with peakEnlarge := pe, peakTimeRange := some r }

theorem returns_setPeak {uc uc' : UseCase} {x : PyNum} {res : Except Err Unit} (h : Returns (setPeakEnlarge uc x) (uc', res)) :
    (∃ q r, x = .float q ∧ 0 ≤ q ∧ Returns (peakTimeRangeOf uc.users q) r ∧ res = .ok () ∧
      uc' = { uc with peakEnlarge := q, peakTimeRange := some r }) ∨
    (∃ q e, x = .float q ∧ 0 ≤ q ∧ Raises (peakTimeRangeOf uc.users q) e ∧ res = .error e ∧ uc' = { uc with peakEnlarge := q }) ∨
    (∃ q, x = .float q ∧ q < 0 ∧ res = .error .valueError ∧ uc' = uc) ∨
    (x = .other ∧ res = .error .typeError ∧ uc' = uc) := by
  cases x with
  | other =>
    have := returns_pure.1 h
    cases this
    exact .inr (.inr (.inr ⟨rfl, rfl, rfl⟩))
  | float q =>
    unfold setPeakEnlarge at h
    simp only at h
    split_ifs at h with hq
    · obtain ⟨a, h1, h2⟩ := returns_of_bind h
      cases a with
      | error e =>
        have := returns_pure.1 h2
        cases this
        exact .inr (.inl ⟨q, e, rfl, hq, returns_attempt_error.1 h1, rfl, rfl⟩)
      | ok r =>
        have := returns_pure.1 h2
        cases this
        exact .inl ⟨q, r, rfl, hq, returns_attempt_ok.1 h1, rfl, rfl⟩
    · have := returns_pure.1 h
      cases this
      exact .inr (.inr (.inl ⟨q, rfl, lt_of_not_ge hq, rfl, rfl⟩))

theorem returns_init {env : Env} {uc uc' : UseCase} {args : InitArgs} (h : Returns (initUseCase env uc args) (uc', .ok ())) :
    (uc.isInitialized = true ∧ args.force = false ∧ uc' = uc) ∨
      (¬ (uc.isInitialized = true ∧ args.force = false) ∧ InitDone env uc args uc') := by
  unfold initUseCase at h
  by_cases hi : uc.isInitialized = true ∧ args.force = false
  · rw [if_pos hi] at h
    have := returns_pure.1 h
    cases this
    exact .inl ⟨hi.1, hi.2, rfl⟩
  · rw [if_neg hi] at h
    right
    refine ⟨hi, ?_⟩
    have hr : (if uc.isInitialized = true ∧ args.force = true then { uc with days := none } else uc) = resetDays uc args := rfl
    simp only [hr] at h
    cases hc : initCalendar env (resetDays uc args) args with
    | mk uc1 r1 =>
      rw [hc] at h
      cases r1 with
      | error e => simp only at h; have := returns_pure.1 h; cases this
      | ok _ =>
        simp only at h
        cases hp : args.peakEnlarge with
        | some x =>
          rw [hp] at h
          simp only at h
          obtain ⟨⟨uc2, r2⟩, h1, h2⟩ := returns_of_bind h
          cases r2 with
          | error e => have := returns_pure.1 h2; cases this
          | ok _ =>
            have h3 := returns_pure.1 h2
            rcases returns_setPeak h1 with ⟨q, r, rfl, hq, hret, _, rfl⟩ | ⟨q, e, _, _, _, hh, _⟩ | ⟨q, _, _, hh, _⟩ | ⟨_, hh, _⟩
            · refine ⟨uc1, q, r, hc, hret, ?_, ?_⟩
              · rw [hp]; exact ⟨rfl, hq⟩
              · simp only at h3
                exact congrArg Prod.fst h3
            · cases hh
            · cases hh
            · cases hh
        | none =>
          rw [hp] at h
          simp only at h
          obtain ⟨a, h1, h2⟩ := returns_of_bind h
          cases a with
          | error e => have := returns_pure.1 h2; cases this
          | ok r =>
            have h3 := returns_pure.1 h2
            refine ⟨uc1, uc1.peakEnlarge, r, hc, returns_attempt_ok.1 h1, ?_, ?_⟩
            · rw [hp]
            · exact congrArg Prod.fst h3

/-- The fields of a use case just initialised. -/
theorem InitDone.fields {env : Env} {uc uc' : UseCase} {args : InitArgs} (h : InitDone env uc args uc') :
    (∃ d ds, uc'.days = some (d :: ds)) ∧ (∃ n, uc'.numDays = some n) ∧ uc'.isInitialized = true ∧ uc'.dateStart = uc.dateStart ∧
      uc'.dateEnd = uc.dateEnd ∧ uc'.appliances = uc.appliances := by
  obtain ⟨uc1, pe, r, hc, _, _, rfl⟩ := h
  obtain ⟨⟨d, ds, hd⟩, n, hn⟩ := initCalendar_days hc
  have hs := initCalendar_same env (resetDays uc args) args
  rw [hc] at hs
  simp only at hs
  have hr : (resetDays uc args).dateStart = uc.dateStart ∧ (resetDays uc args).dateEnd = uc.dateEnd ∧
      (resetDays uc args).appliances = uc.appliances := by unfold resetDays; split_ifs <;> exact ⟨rfl, rfl, rfl⟩
  unfold SameBut at hs
  have h1 : uc1.dateStart = uc.dateStart := by rw [hs]; exact hr.1
  have h2 : uc1.dateEnd = uc.dateEnd := by rw [hs]; exact hr.2.1
  have h3 : uc1.appliances = uc.appliances := by rw [hs]; exact hr.2.2
  have hi : initIndex { uc1 with peakEnlarge := pe, peakTimeRange := some r } =
      { uc1 with peakEnlarge := pe, peakTimeRange := some r, datetimeindex := some (minuteRange d ((d :: ds).getLast (by simp) + 1440 - 1)) } := by
    unfold initIndex
    simp only [hd]
  rw [hi]
  refine ⟨⟨d, ds, hd⟩, ⟨n, hn⟩, ?_, h1, h2, h3⟩
  simp [UseCase.isInitialized, hn]

/-- A consistent calendar when the days are chosen by `initialize`. -/
theorem InitDone.consistent {env : Env} {uc uc' : UseCase} {args : InitArgs} (h : InitDone env uc args uc')
    (hd : (resetDays uc args).days = none ∨ (uc.dateStart.isSome ∧ uc.dateEnd.isSome)) : ConsistentCalendar uc' := by
  obtain ⟨uc1, pe, r, hc, _, _, rfl⟩ := h
  have hd' : (resetDays uc args).days = none ∨ ((resetDays uc args).dateStart.isSome ∧ (resetDays uc args).dateEnd.isSome) := by
    rcases hd with hd | hd
    · exact .inl hd
    · right
      unfold resetDays
      split_ifs <;> exact hd
  obtain ⟨d, n, hn, h1, h2⟩ := initCalendar_consistent hd' hc
  rw [initIndex_daysFrom (uc := { uc1 with peakEnlarge := pe, peakTimeRange := some r }) (d := d) (n := n) hn h1]
  exact ⟨d, n, hn, h1, h2, rfl⟩

/-! ## Which days -/

theorem daysFrom_inj_length {d : ℤ} {n m : ℕ} (h : n = m) : daysFrom d n = daysFrom d m := by rw [h]

theorem initDates_num {env : Env} {uc : UseCase} {args : InitArgs} {n : ℤ} (hd : uc.days = none)
    (hn : args.numDays = some n ∨ (args.numDays = none ∧ uc.numDays = some n)) :
    (initDates (initNumDays uc args.numDays)).numDays = some n ∧
    (initDates (initNumDays uc args.numDays)).dateStart = uc.dateStart ∧ (initDates (initNumDays uc args.numDays)).dateEnd = uc.dateEnd ∧
    ((initDates (initNumDays uc args.numDays)).days = none ∨
      (0 ≤ n ∧ (initDates (initNumDays uc args.numDays)).days = some (daysFrom (firstDay env uc n) n.toNat))) := by
  have h0 : (initNumDays uc args.numDays).numDays = some n ∧ (initNumDays uc args.numDays).days = none ∧
      (initNumDays uc args.numDays).dateStart = uc.dateStart ∧ (initNumDays uc args.numDays).dateEnd = uc.dateEnd := by
    rcases hn with hn | ⟨hn, hu⟩
    · rw [hn]; simp [initNumDays, hd]
    · rw [hn]; simp [initNumDays, hd, hu]
  obtain ⟨h1, h2, h3, h4⟩ := h0
  unfold initDates
  rw [h3, h4, h1]
  cases hs : uc.dateStart with
  | none => simp only; exact ⟨h1, by rw [h3, hs], h4, .inl h2⟩
  | some s =>
    cases he : uc.dateEnd with
    | none => simp only; exact ⟨h1, by rw [h3, hs], by rw [h4, he], .inl h2⟩
    | some e =>
      simp only
      split_ifs with hne
      · exact ⟨rfl, rfl, rfl, .inl rfl⟩
      · rw [dateRange_eq, daysFrom_length] at hne
        simp only [not_not] at hne
        simp only
        rw [dateRange_eq, daysFrom_length]
        refine ⟨by rw [hne], by simp, by simp, .inr ⟨by omega, ?_⟩⟩
        simp only [firstDay, hs]
        congr 2
        omega

theorem chooseDays_first (env : Env) (uc v : UseCase) (n : ℤ) (hs : v.dateStart = uc.dateStart) (he : v.dateEnd = uc.dateEnd) :
    chooseDays env v.dateStart v.dateEnd n = if n < 0 then .error .valueError else .ok (daysFrom (firstDay env uc n) n.toNat) := by
  rw [hs, he]
  unfold firstDay
  cases uc.dateStart with
  | some s => exact dateRangeFrom_eq s n
  | none => cases uc.dateEnd with
    | some e => exact dateRangeTo_eq e n
    | none => exact dateRangeFrom_eq _ n

/-- `initCalendar` after the dates have been looked at. -/
def calendarFrom (env : Env) (v : UseCase) : UseCase × Except Err Unit :=
  match initInput env v with
  | (uc, .error e) => (uc, .error e)
  | (uc, .ok ()) => match initDays env uc with
    | (uc, .error e) => (uc, .error e)
    | (uc, .ok ()) => checkPowers (uc.numDays.getD 0) uc.appliances uc

theorem initCalendar_eq (env : Env) (uc : UseCase) (args : InitArgs) :
    initCalendar env uc args = calendarFrom env (initDates (initNumDays uc args.numDays)) := rfl

theorem showDays_none {uc : UseCase} (h : uc.days = some []) : showDays uc = (uc, .error .indexError) := by
  unfold showDays; rw [h]

theorem showDays_some {uc : UseCase} {d : ℤ} {ds : List ℤ} (h : uc.days = some (d :: ds)) : showDays uc = (uc, .ok ()) := by
  unfold showDays; rw [h]

theorem calendarFrom_num {env : Env} {v : UseCase} {n d : ℤ} (hn : v.numDays = some n)
    (hd : v.days = none ∨ (0 ≤ n ∧ v.days = some (daysFrom d n.toNat)))
    (hc : chooseDays env v.dateStart v.dateEnd n = if n < 0 then .error .valueError else .ok (daysFrom d n.toNat)) :
    (1 ≤ n → calendarFrom env v = checkPowers n v.appliances { v with days := some (daysFrom d n.toNat) }) ∧
    (n = 0 → (calendarFrom env v).2 = .error .indexError) ∧ (n < 0 → (calendarFrom env v).2 = .error .valueError) := by
  have hi : initInput env v = (v, .ok ()) := by unfold initInput; rw [hn]
  unfold calendarFrom
  rw [hi]
  simp only
  have hdays : (1 ≤ n → initDays env v = ({ v with days := some (daysFrom d n.toNat) }, .ok ())) ∧
      (n = 0 → (initDays env v).2 = .error .indexError) ∧ (n < 0 → (initDays env v).2 = .error .valueError) := by
    unfold initDays
    rcases hd with hd | ⟨h0, hd⟩
    · rw [hd, hn]
      simp only [Option.getD_some]
      rw [hc]
      refine ⟨fun h => ?_, fun h => ?_, fun h => ?_⟩
      · rw [if_neg (by omega)]
        simp only
        obtain ⟨m, hm⟩ : ∃ m, n.toNat = m + 1 := ⟨n.toNat - 1, by omega⟩
        rw [hm]
        rw [showDays_some (d := d) (ds := daysFrom (d + 1440) m) rfl]
      · subst h
        rw [if_neg (by omega)]
        rfl
      · rw [if_pos h]
    · rw [hd]
      simp only
      refine ⟨fun h => ?_, fun h => ?_, fun h => by omega⟩
      · obtain ⟨m, hm⟩ : ∃ m, n.toNat = m + 1 := ⟨n.toNat - 1, by omega⟩
        rw [hm] at hd ⊢
        rw [showDays_some (d := d) (ds := daysFrom (d + 1440) m) hd, ← hd]
      · subst h
        rw [showDays_none hd]
  refine ⟨fun h => ?_, fun h => ?_, fun h => ?_⟩
  · rw [hdays.1 h]
    simp only [hn, Option.getD_some]
  · have := hdays.2.1 h
    revert this
    cases initDays env v with
    | mk a b => rintro rfl; rfl
  · have := hdays.2.2 h
    revert this
    cases initDays env v with
    | mk a b => rintro rfl; rfl

/-- The days chosen for a known number of days. -/
theorem initCalendar_num {env : Env} {uc : UseCase} {args : InitArgs} {n : ℤ} (hd : uc.days = none)
    (hn : args.numDays = some n ∨ (args.numDays = none ∧ uc.numDays = some n)) :
    (1 ≤ n → ∀ uc1, initCalendar env uc args = (uc1, .ok ()) → uc1.days = some (daysFrom (firstDay env uc n) n.toNat) ∧
      uc1.numDays = some n) ∧
    (n = 0 → (initCalendar env uc args).2 = .error .indexError) ∧ (n < 0 → (initCalendar env uc args).2 = .error .valueError) := by
  obtain ⟨h1, h2, h3, h4⟩ := initDates_num (env := env) hd hn
  rw [initCalendar_eq]
  generalize initDates (initNumDays uc args.numDays) = v at h1 h2 h3 h4
  have hc := chooseDays_first env uc v n h2 h3
  obtain ⟨k1, k2, k3⟩ := calendarFrom_num h1 h4 hc
  refine ⟨fun h uc1 huc => ?_, k2, k3⟩
  rw [k1 h] at huc
  have := checkPowers_same n v.appliances { v with days := some (daysFrom (firstDay env uc n) n.toNat) }
  rw [huc] at this
  simp only at this
  rw [this]
  exact ⟨rfl, h1⟩

/-! ## Powers -/

theorem checkPowerValues_ok {app app' : Appliance} {n : ℤ} (h : checkPowerValues app n = .ok app') :
    n ≤ app'.power.length ∧ app'.oid = app.oid ∧ (app' = app ∨ (app.constantPower = true ∧ (app.power.length : ℤ) < n ∧
      ∃ p, app.power.head? = some p ∧ app' = { app with power := List.replicate (n + 1).toNat p })) := by
  unfold checkPowerValues at h
  split_ifs at h with h1 h2
  · cases hp : app.power.head? with
    | none => rw [hp] at h; simp at h
    | some p =>
      rw [hp] at h
      simp only [onesTimes] at h
      split_ifs at h with h3
      simp only at h
      cases h
      refine ⟨by simp only [List.length_replicate]; omega, rfl, .inr ⟨h2, h1, p, rfl, rfl⟩⟩
  · cases h
    exact ⟨by omega, rfl, .inl rfl⟩

theorem find_map_sync (apps : List Appliance) (app : Appliance) (o : ℕ) (hin : ∃ a ∈ apps, a.oid = app.oid) :
    (apps.map (fun a => if a.oid = app.oid then app else a)).find? (fun a => a.oid = o) =
      if o = app.oid then some app else apps.find? (fun a => a.oid = o) := by
  induction apps with
  | nil => simp at hin
  | cons b bs ih =>
    rw [List.map_cons, List.find?_cons, List.find?_cons]
    by_cases hb : b.oid = app.oid
    · rw [if_pos hb]
      by_cases ho : o = app.oid
      · simp [ho]
      · have h1 : ¬ app.oid = o := fun h => ho h.symm
        have h2 : ¬ b.oid = o := fun h => ho (h ▸ hb)
        simp only [h1, h2, decide_false, if_neg ho]
        by_cases hbs : ∃ a ∈ bs, a.oid = app.oid
        · rw [ih hbs, if_neg ho]
        · push Not at hbs
          congr 1
          conv_rhs => rw [← List.map_id bs]
          apply List.map_congr_left
          intro a ha
          rw [if_neg (hbs a ha)]
          rfl
    · rw [if_neg hb]
      obtain ⟨a, ha, hao⟩ := hin
      have : ∃ a ∈ bs, a.oid = app.oid := by
        rcases List.mem_cons.1 ha with rfl | ha
        · exact absurd hao hb
        · exact ⟨a, ha, hao⟩
      rw [ih this]
      by_cases ho : o = app.oid
      · have : ¬ b.oid = o := fun h => hb (h.trans ho)
        simp only [this, decide_false, if_pos ho]
      · simp only [if_neg ho]

theorem findApp_updateApp {uc : UseCase} {r : ℕ × ℕ} {a app : Appliance} (hf : uc.findApp r = some a) (ho : app.oid = a.oid) (r' : ℕ × ℕ) :
    (uc.updateApp r app).findApp r' = if r' = r then some app else uc.findApp r' := by
  unfold UseCase.findApp UseCase.updateApp at *
  cases hu : uc.users[r.1]? with
  | none => rw [hu] at hf; simp at hf
  | some u =>
    rw [hu] at hf
    simp only [Option.bind_some] at hf
    have hao : a.oid = r.2 := by simpa using List.find?_some hf
    have hmem : ∃ x ∈ u.appList, x.oid = app.oid := ⟨a, List.mem_of_find?_eq_some hf, ho.symm⟩
    simp only [List.getElem?_modify]
    by_cases h1 : r.1 = r'.1
    · rw [← h1, hu]
      simp only [if_true, Option.map_eq_map, Option.map_some, Option.bind_some, User.sync]
      rw [find_map_sync _ _ _ hmem]
      have : (r'.2 = app.oid) ↔ r' = r := by
        rw [ho, hao]
        exact ⟨fun h => Prod.ext h1.symm h, fun h => by rw [h]⟩
      simp only [this]
    · simp only [if_neg h1, Option.map_eq_map, Option.map_id', id_eq]
      rw [if_neg (fun h => h1 (by rw [h]))]

theorem checkPowers_ok (n : ℤ) : ∀ (rs : List (ℕ × ℕ)) (uc uc' : UseCase), checkPowers n rs uc = (uc', .ok ()) →
    (∀ r ∈ rs, ∃ a, uc'.findApp r = some a ∧ n ≤ a.power.length) ∧
    (∀ r a, uc.findApp r = some a → n ≤ a.power.length → ∃ b, uc'.findApp r = some b ∧ n ≤ b.power.length)
  | [], uc, uc', h => by
    unfold checkPowers at h
    cases h
    exact ⟨by simp, fun r a ha hn => ⟨a, ha, hn⟩⟩
  | r :: rs, uc, uc', h => by
    unfold checkPowers at h
    cases hf : uc.findApp r with
    | none => rw [hf] at h; simp at h
    | some a =>
      rw [hf] at h
      simp only at h
      cases hc : checkPowerValues a n with
      | error e => rw [hc] at h; simp at h
      | ok app =>
        rw [hc] at h
        simp only at h
        obtain ⟨h1, h2⟩ := checkPowers_ok n rs _ uc' h
        obtain ⟨hlen, hoid, _⟩ := checkPowerValues_ok hc
        have hup := fun r' => findApp_updateApp (app := app) hf hoid r'
        refine ⟨?_, ?_⟩
        · intro r' hr'
          rcases List.mem_cons.1 hr' with rfl | hr'
          · exact h2 r' app (by rw [hup, if_pos rfl]) hlen
          · exact h1 r' hr'
        · intro r' b hb hn
          by_cases hrr : r' = r
          · subst hrr
            exact h2 r' app (by rw [hup, if_pos rfl]) hlen
          · exact h2 r' b (by rw [hup, if_neg hrr]; exact hb) hn

/-- The appliances keep their identities. -/
theorem checkPowers_oids (n : ℤ) : ∀ (rs : List (ℕ × ℕ)) (uc : UseCase),
    (checkPowers n rs uc).1.users.map (fun u => u.appList.map Appliance.oid) = uc.users.map (fun u => u.appList.map Appliance.oid)
  | [], uc => rfl
  | r :: rs, uc => by
    unfold checkPowers
    split
    · rfl
    · split
      · rfl
      · rw [checkPowers_oids n rs]
        unfold UseCase.updateApp
        simp only
        apply List.ext_getElem?
        intro k
        simp only [List.getElem?_map, List.getElem?_modify]
        cases uc.users[k]? with
        | none => simp
        | some u =>
          simp only [Option.map_eq_map, Option.map_some]
          congr 1
          split_ifs
          · unfold User.sync
            simp only [List.map_map]
            apply List.map_congr_left
            intro b _
            simp only [Function.comp]
            split_ifs with hb
            · exact hb.symm
            · rfl
          · rfl

end Ramp
