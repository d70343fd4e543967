import Verif.Props.Parallel
import Verif.Props.Cycles

/-! # Property C82: a use case of sensible appliances is simulated without errors -/

set_option autoImplicit false

namespace Ramp

/-! ## No failure, exactly -/

theorem never_bind_intro {α β : Type} {m : Sim α} {f : α → Sim β} (hm : Finitary m) (h1 : NeverRaises m) (h2 : ∀ a, Returns m a → NeverRaises (f a)) :
    NeverRaises (m >>= f) := by
  intro e he
  rcases (raises_bind hm).1 he with h | ⟨a, ha, h⟩
  · exact h1 e h
  · exact h2 a ha e h

theorem never_pure {α : Type} (a : α) : NeverRaises (pure a : Sim α) := fun _ ⟨_, h⟩ => by cases h

theorem never_drawPreference {n : ℤ} : NeverRaises (drawPreference n) ↔ 0 ≤ n := by
  unfold drawPreference
  split_ifs with h
  · exact ⟨fun _ => by omega, fun _ => never_pure _⟩
  · constructor
    · intro hn
      by_contra hc
      refine hn .valueError ⟨fun _ => draw0, ?_⟩
      simp only [randint]
      rw [if_pos (by omega)]
      rfl
    · intro hn e ⟨r, hr⟩
      simp only [randint] at hr
      rw [if_neg (by omega)] at hr
      cases hr

theorem never_singleLoop {depth k : ℕ} {peak : List ℤ} {dt pref : ℤ} : ∀ {apps : List Appliance} {load : Profile},
    (∀ a ∈ apps, RunsSafely depth k peak dt pref a) → NeverRaises (singleLoop depth k peak dt pref apps load)
  | [], _, _ => by unfold singleLoop; exact never_pure _
  | a :: apps, load, h => by
    unfold singleLoop
    obtain ⟨p, hp, ha⟩ := h a (by simp)
    rw [hp]
    simp only
    refine never_bind_intro (fin_generate _ _ _ _ _ _ _) ha fun x _ => ?_
    refine never_bind_intro (fin_singleLoop _ _ _ _ _ _ _) (never_singleLoop fun b hb => h b (by simp [hb])) fun y _ => ?_
    exact never_pure _

/-- Whatever the preference of the day, every appliance of the user can be run on day `k`. -/
def UserSafe (depth k : ℕ) (peak : List ℤ) (dt : ℤ) (u : User) : Prop :=
  0 < u.numUsers → 0 ≤ u.userPreference ∧ ∀ pref, PreferenceOf u pref → ∀ a ∈ u.appList, RunsSafely depth k peak dt pref a

theorem never_single {depth k : ℕ} {peak : List ℤ} {dt : ℤ} {u : User} (h0 : 0 ≤ u.userPreference)
    (h : ∀ pref, PreferenceOf u pref → ∀ a ∈ u.appList, RunsSafely depth k peak dt pref a) :
    NeverRaises (generateSingleLoadProfile depth u k peak dt) := by
  unfold generateSingleLoadProfile
  refine never_bind_intro (fin_drawPreference _) (never_drawPreference.2 h0) fun pref hp => ?_
  refine never_bind_intro (fin_singleLoop _ _ _ _ _ _ _) (never_singleLoop (h pref (returns_drawPreference.1 hp))) fun y _ => ?_
  exact never_pure _

theorem userSafe_same {depth k : ℕ} {peak : List ℤ} {dt : ℤ} {u v : User} (h : SameUser u v) (hu : UserSafe depth k peak dt u) :
    UserSafe depth k peak dt v := by
  intro hn
  obtain ⟨h1, h2⟩ := hu (by rw [← h.number]; exact hn)
  refine ⟨by rw [h.preference]; exact h1, fun pref hp a ha => ?_⟩
  have hp' : PreferenceOf u pref := by
    unfold PreferenceOf at hp ⊢
    rw [← h.preference]
    exact hp
  obtain ⟨i, hi, rfl⟩ := List.mem_iff_getElem.1 ha
  have hf := h.appliances
  rw [List.forall₂_iff_get] at hf
  have hi' : i < u.appList.length := by omega
  have := hf.2 i hi' hi
  rw [List.get_eq_getElem, List.get_eq_getElem] at this
  exact runsSafely_same this.symm (h2 pref hp' _ (List.getElem_mem hi'))

theorem never_aggregatedLoop {depth k : ℕ} {peak : List ℤ} {dt : ℤ} : ∀ {n : ℕ} {u : User} {load : Profile}, 0 < u.numUsers →
    UserSafe depth k peak dt u → NeverRaises (aggregatedLoop depth k peak dt n u load)
  | 0, _, _, _, _ => by unfold aggregatedLoop; exact never_pure _
  | n + 1, u, load, hn, h => by
    unfold aggregatedLoop
    refine never_bind_intro (fin_single _ _ _ _ _) (never_single (h hn).1 (h hn).2) fun x hx => ?_
    obtain ⟨u', p⟩ := x
    have hs := (returns_single hx).1
    exact never_aggregatedLoop (by rw [hs.number]; exact hn) (userSafe_same hs h)

theorem never_aggregated {depth k : ℕ} {peak : List ℤ} {dt : ℤ} {u : User} (h : UserSafe depth k peak dt u) :
    NeverRaises (generateAggregatedLoadProfile depth u k peak dt) := by
  unfold generateAggregatedLoadProfile
  refine never_bind_intro (fin_aggregatedLoop _ _ _ _ _ _ _) ?_ fun _ _ => never_pure _
  by_cases hn : 0 < u.numUsers
  · exact never_aggregatedLoop hn h
  · rw [Int.toNat_of_nonpos (by omega)]
    unfold aggregatedLoop
    exact never_pure _

theorem never_usersOfDay {depth k : ℕ} {peak : List ℤ} {dt : ℤ} : ∀ {us : List User} {load : Profile},
    (∀ u ∈ us, UserSafe depth k peak dt u) → NeverRaises (usersOfDay depth k peak dt us load)
  | [], _, _ => by unfold usersOfDay; exact never_pure _
  | u :: us, load, h => by
    unfold usersOfDay
    refine never_bind_intro (fin_aggregated _ _ _ _ _) (never_aggregated (h u (by simp))) fun _ _ => ?_
    refine never_bind_intro (fin_usersOfDay _ _ _ _ _ _) (never_usersOfDay fun v hv => h v (by simp [hv])) fun _ _ => ?_
    exact never_pure _

theorem userSafe_sameUsers {depth k : ℕ} {peak : List ℤ} {dt : ℤ} {us vs : List User} (h : List.Forall₂ SameUser us vs)
    (hu : ∀ u ∈ us, UserSafe depth k peak dt u) : ∀ v ∈ vs, UserSafe depth k peak dt v := by
  induction h with
  | nil => simp
  | cons h1 _ ih =>
    intro w hw
    rcases List.mem_cons.1 hw with rfl | hw
    · exact userSafe_same h1 (hu _ (by simp))
    · exact ih (fun x hx => hu x (by simp [hx])) w hw

theorem never_daysLoop {depth : ℕ} {peak : List ℤ} : ∀ {k : ℕ} {ds : List ℤ} {us : List User} {rows : List Profile}, rows.length = k + ds.length →
    (∀ (j : ℕ) d, ds[j]? = some d → ∀ u ∈ us, UserSafe depth (k + j) peak (typeOfDay d) u) → NeverRaises (daysLoop depth peak k ds us rows)
  | _, [], _, _, _, _ => by unfold daysLoop; exact never_pure _
  | k, d :: ds, us, rows, hl, h => by
    unfold daysLoop
    rw [dayType_spec]
    refine never_bind_intro (fin_usersOfDay _ _ _ _ _ _) (never_usersOfDay (h 0 d rfl)) fun x hx => ?_
    obtain ⟨us', load⟩ := x
    have hs := (returns_usersOfDay hx).1
    simp only [List.length_cons] at hl
    simp only
    rw [if_pos (by omega)]
    refine never_daysLoop (by rw [List.length_set]; omega) fun j d' hd => userSafe_sameUsers hs ?_
    have := h (j + 1) d' (by simpa using hd)
    rwa [show k + (j + 1) = k + 1 + j by omega] at this

theorem raises_ready {env : Env} {depth : ℕ} {uc : UseCase} {ds peak : List ℤ} (days : Option (List ℤ)) (hr : Ready uc ds peak) (e : Err) :
    Raises (generateDaily env depth uc days) e ↔ Raises (daysLoop depth peak 0 ds uc.users (List.replicate ds.length zeros)) e := by
  have e0 : resolveDays uc days = (uc, .ok ()) := by unfold resolveDays; rw [hr.days]
  have e1 : numDaysProperty env uc = pure (uc, .ok (ds.length : ℤ)) := by unfold numDaysProperty; rw [hr.numDays]
  have e2 : emptyRows (ds.length : ℤ) = .ok (List.replicate ds.length zeros) := by
    unfold emptyRows; rw [if_neg (by omega)]; simp
  have key : ∀ r, generateDaily env depth uc days r =
      (daysLoop depth peak 0 ds uc.users (List.replicate ds.length zeros) >>= fun x => pure ({ uc with users := x.1 }, x.2)) r := by
    intro r
    unfold generateDaily
    rw [e0]
    simp only
    rw [e1, bind_ok (show (pure (uc, Except.ok (ds.length : ℤ)) : Sim (UseCase × Except Err ℤ)) r = .ok ((uc, .ok (ds.length : ℤ)), r) from rfl)]
    simp only
    rw [bind_ok (show liftE (emptyRows (ds.length : ℤ)) r = .ok (List.replicate ds.length zeros, r) by rw [e2]; rfl)]
    rw [hr.peak, hr.days]
    rfl
  constructor
  · rintro ⟨r, h⟩
    rw [key] at h
    cases hd : daysLoop depth peak 0 ds uc.users (List.replicate ds.length zeros) r with
    | error e' => rw [bind_error hd] at h; cases h; exact ⟨r, hd⟩
    | ok p =>
      obtain ⟨x, r'⟩ := p
      rw [bind_ok hd] at h
      cases h
  · rintro ⟨r, h⟩
    exact ⟨r, by rw [key, bind_error h]⟩

theorem safe_pref {depth k : ℕ} {peak : List ℤ} {dt : ℤ} : ∀ {us : List User} {load : Profile},
    NeverRaises (usersOfDay depth k peak dt us load) → ∀ u ∈ us, 0 < u.numUsers.toNat → 0 ≤ u.userPreference
  | [], _, _ => by simp
  | u :: us, load, h => by
    unfold usersOfDay at h
    obtain ⟨h1, ⟨x, hx⟩, h2⟩ := never_bind (fin_aggregated _ _ _ _ _) h
    obtain ⟨h3, _, _⟩ := never_bind (fin_usersOfDay _ _ _ _ _ _) (h2 x hx)
    intro v hv
    rcases List.mem_cons.1 hv with rfl | hv
    · intro hn
      unfold generateAggregatedLoadProfile at h1
      obtain ⟨h1, _, _⟩ := never_bind (fin_aggregatedLoop _ _ _ _ _ _ _) h1
      obtain ⟨n, hn⟩ : ∃ n, v.numUsers.toNat = n + 1 := ⟨v.numUsers.toNat - 1, by omega⟩
      rw [hn] at h1
      unfold aggregatedLoop at h1
      obtain ⟨h2, _, _⟩ := never_bind (fin_single _ _ _ _ _) h1
      unfold generateSingleLoadProfile at h2
      exact never_drawPreference.1 (never_bind (fin_drawPreference _) h2).1
    · exact safe_pref h3 v hv

/-- **C82.** Exactly when a simulation cannot fail: when every appliance of every user with members has a power value for every day and
cannot fail on its own, whatever the preference of the day, and no user with members has a negative preference. -/
theorem C82_cannot_fail_iff {env : Env} {depth : ℕ} {uc : UseCase} {ds peak : List ℤ} (days : Option (List ℤ)) (hr : Ready uc ds peak) :
    NeverRaises (generateDaily env depth uc days) ↔
      ∀ (k : ℕ) (d : ℤ), ds[k]? = some d → ∀ u ∈ uc.users, 0 < u.numUsers → 0 ≤ u.userPreference ∧
        ∀ pref, PreferenceOf u pref → ∀ a ∈ u.appList,
          ∃ p, a.power[k]? = some p ∧ NeverRaises (generateLoadProfile a depth pref k peak (typeOfDay d) p) := by
  have : NeverRaises (generateDaily env depth uc days) ↔ NeverRaises (daysLoop depth peak 0 ds uc.users (List.replicate ds.length zeros)) :=
    forall_congr' fun e => not_congr (raises_ready days hr e)
  rw [this]
  constructor
  · intro h k d hd u hu hn
    have h1 := safe_daysLoop h k d hd u hu (by omega)
    rw [Nat.zero_add] at h1
    refine ⟨?_, h1⟩
    -- on the first day already
    cases hds : ds with
    | nil => rw [hds] at hd; simp at hd
    | cons d0 ds' =>
      rw [hds] at h
      unfold daysLoop at h
      exact safe_pref (never_bind (fin_usersOfDay _ _ _ _ _ _) h).1 u hu (by omega)
  · intro h
    refine never_daysLoop (by simp) fun j d hd u hu => ?_
    rw [Nat.zero_add]
    exact h j d hd u hu

/-! ## Sensible use cases -/

/-- An appliance that gives the generation no reason to fail: a safe configuration (`SafeConfig`), and no duty cycles or duty cycle windows
that meet every possible event. -/
structure SensibleAppliance (a : Appliance) : Prop where
  config : SafeConfig a
  ordered : OrderedCycleWindows a
  cycles : a.fixedCycle ≤ 0 ∨ (a.continuousDutyCycle ≠ 0 ∧
      ∀ w s d, (MovedWindow a.window1 a.randomVar1 w ∨ MovedWindow a.window2 a.randomVar2 w ∨
        MovedWindow a.window3 a.randomVar3 w) → w.1 ≤ s → s + d ≤ w.2 → a.funcCycle ≤ d →
        Overlaps1 a s (s + d - 1) ∨ Overlaps2 a s (s + d - 1) ∨ Overlaps3 a s (s + d - 1))

/-- A user of sensible appliances. -/
structure SensibleUser (u : User) : Prop where
  preference : 0 ≤ u.userPreference
  appliances : ∀ a ∈ u.appList, SensibleAppliance a

/-- **C82.** A use case of sensible users, with days, a non-empty peak time range and a power value for every day, is simulated without error
whatever the random draws. -/
theorem C82_sensible_never_fails {env : Env} {depth : ℕ} {uc : UseCase} {ds peak : List ℤ} (days : Option (List ℤ)) (hr : Ready uc ds peak)
    (hp : peak ≠ []) (hs : ∀ u ∈ uc.users, SensibleUser u) (hl : ∀ u ∈ uc.users, ∀ a ∈ u.appList, ds.length ≤ a.power.length) :
    NeverRaises (generateDaily env (depth + 1) uc days) := by
  refine (C82_cannot_fail_iff days hr).2 fun k d hd u hu hn => ⟨(hs u hu).preference, fun pref _ a ha => ?_⟩
  have hk : k < a.power.length := lt_of_lt_of_le (List.getElem?_eq_some_iff.1 hd).1 (hl u hu a ha)
  obtain ⟨h1, h2, h3⟩ := (hs u hu).appliances a ha
  exact ⟨a.power[k], List.getElem?_eq_getElem hk, C72_never_raises h1 hp (fun _ => hk) h2 h3⟩

/-! ## After `initialize` -/

theorem sensible_power {a : Appliance} (l : List ℚ) (h : SensibleAppliance a) : SensibleAppliance { a with power := l } :=
  ⟨⟨⟨h.config.windows.w1, h.config.windows.w2, h.config.windows.w3, h.config.windows.r1, h.config.windows.r2, h.config.windows.r3⟩,
    h.config.fc, h.config.ft, h.config.var, h.config.half1, h.config.half2, h.config.half3, h.config.room, h.config.number,
    ⟨h.config.cycles.tv, h.config.cycles.t11, h.config.cycles.t12, h.config.cycles.t21, h.config.cycles.t22, h.config.cycles.t31,
      h.config.cycles.t32, h.config.cycles.rc1, h.config.cycles.rc2, h.config.cycles.rc3⟩⟩,
    ⟨h.ordered.c11, h.ordered.c12, h.ordered.c21, h.ordered.c22, h.ordered.c31, h.ordered.c32⟩, h.cycles⟩

theorem sensible_sync {u : User} {a : Appliance} (hu : SensibleUser u) (ha : SensibleAppliance a) : SensibleUser (u.sync a) := by
  refine ⟨hu.preference, fun b hb => ?_⟩
  obtain ⟨c, hc, rfl⟩ := List.mem_map.1 hb
  split_ifs
  · exact ha
  · exact hu.appliances c hc

/-- Properties of users that do not depend on the power values are kept by the check of the powers. -/
theorem users_checkPowers {Q : User → Prop} (hQ : ∀ u, Q u → ∀ a ∈ u.appList, ∀ l, Q (u.sync { a with power := l })) (n : ℤ) :
    ∀ (rs : List (ℕ × ℕ)) (uc : UseCase), (∀ u ∈ uc.users, Q u) → ∀ u ∈ (checkPowers n rs uc).1.users, Q u
  | [], uc, h => h
  | r :: rs, uc, h => by
    unfold checkPowers
    cases hf : uc.findApp r with
    | none => exact h
    | some a =>
      simp only
      cases hc : checkPowerValues a n with
      | error e => exact h
      | ok b =>
        simp only
        refine users_checkPowers hQ n rs _ fun u hu => ?_
        obtain ⟨l, rfl⟩ : ∃ l, b = { a with power := l } := by
          rcases (checkPowerValues_ok hc).2.2 with rfl | ⟨_, _, p, _, rfl⟩
          · exact ⟨_, rfl⟩
          · exact ⟨_, rfl⟩
        unfold UseCase.findApp at hf
        obtain ⟨v, hv, hf⟩ := Option.bind_eq_some_iff.1 hf
        unfold UseCase.updateApp at hu
        simp only at hu
        obtain ⟨i, hi, rfl⟩ := List.mem_iff_getElem.1 hu
        rw [List.getElem_modify]
        split_ifs with hri
        · have hlen : r.1 < uc.users.length := (List.getElem?_eq_some_iff.1 hv).1
          have hvi : uc.users[i]'(by rw [← hri]; exact hlen) = v := by
            have := (List.getElem?_eq_some_iff.1 hv).2
            simp only [← hri]
            exact this
          rw [hvi]
          exact hQ v (h v (List.mem_of_getElem? hv)) a (List.mem_of_find?_eq_some hf) l
        · exact h _ (List.getElem_mem _)

/-- The number of days `initialize` takes: the one given, else the one stored earlier, else the number of days from the start to the end date,
else what is typed at the prompt. -/
def AsksForDays (env : Env) (uc : UseCase) (args : InitArgs) (n : ℤ) : Prop :=
  args.numDays = some n ∨ (args.numDays = none ∧ (uc.numDays = some n ∨ (uc.numDays = none ∧
    ((∃ s e, uc.dateStart = some s ∧ uc.dateEnd = some e ∧ s ≤ e ∧ n = (e - s) / 1440 + 1) ∨
      ((uc.dateStart = none ∨ uc.dateEnd = none) ∧ env.input = some n)))))

theorem init_asked {env : Env} {uc : UseCase} {args : InitArgs} {n : ℤ} (hd : ChoosesDays uc args) (hn : AsksForDays env uc args n) :
    initUseCase env uc args = initUseCase env uc { args with numDays := some n } := by
  obtain ⟨e1, e2, e3, e4, e5⟩ := resetDays_numDays uc args
  have hr := hd.reset
  suffices h : initCalendar env (resetDays uc args) args = initCalendar env (resetDays uc args) { args with numDays := some n } by
    unfold initUseCase
    split_ifs <;> first | rfl | (unfold resetDays at h; simp_all)
  rcases hn with hn | ⟨hn, hn' | ⟨hn', ⟨s, e, hs, he, hse, rfl⟩ | ⟨hdt, hin⟩⟩⟩
  · rw [← hn]
  · have hnum : (resetDays uc args).numDays = some n := e1.trans hn'
    have : initNumDays (resetDays uc args) (some n) = resetDays uc args := by
      generalize resetDays uc args = w at hr hnum
      cases w
      simp only at hr hnum
      subst hr hnum
      rfl
    unfold initCalendar
    simp only [hn, this]
    rfl
  · have hlen : (((dateRange s e).length : ℕ) : ℤ) = (e - s) / 1440 + 1 := by
      unfold dateRange
      rw [if_neg (by omega), List.length_map, List.length_range]
      omega
    have hnum : (resetDays uc args).numDays = none := e1.trans hn'
    have : initDates (initNumDays (resetDays uc args) (some ((e - s) / 1440 + 1))) = initDates (initNumDays (resetDays uc args) none) := by
      unfold initNumDays initDates
      simp only [hr, e2, e3, hs, he, hnum, ← hlen]
      simp
    unfold initCalendar
    simp only [hn, this]
  · have hnum : (resetDays uc args).numDays = none := e1.trans hn'
    have hid : ∀ w : UseCase, (w.dateStart = none ∨ w.dateEnd = none) → initDates w = w := by
      intro w hw
      unfold initDates
      rcases hw with hw | hw
      · rw [hw]
      · rw [hw]; cases w.dateStart <;> rfl
    have h1 : initDates (initNumDays (resetDays uc args) none) = resetDays uc args := hid _ (by unfold initNumDays; rw [e2, e3]; exact hdt)
    have h2 : initDates (initNumDays (resetDays uc args) (some n)) = { resetDays uc args with numDays := some n } := by
      rw [hid _ (by unfold initNumDays; simp only [e2, e3]; exact hdt)]
      unfold initNumDays
      simp [hr]
    unfold initCalendar
    simp only [hn, h1, h2]
    unfold initInput
    simp only [hnum, hin]

/-- A successful `initialize` for `n` days leaves a use case with `n` days, a non-empty peak time range and a power value for every day, and keeps
the properties of users that do not depend on the power values. -/
theorem after_initialize {env : Env} {uc uc' : UseCase} {args : InitArgs} {n : ℤ} {Q : User → Prop}
    (hQ : ∀ u, Q u → ∀ a ∈ u.appList, ∀ l, Q (u.sync { a with power := l })) (hc : Collected uc)
    (hs : ∀ u ∈ uc.users, Q u) (hd : ChoosesDays uc args) (hn : AsksForDays env uc args n) (h : Returns (initUseCase env uc args) (uc', .ok ())) :
    1 ≤ n ∧ ∃ peak, Ready uc' (daysFrom (firstDay env uc n) n.toNat) peak ∧ peak ≠ [] ∧ (daysFrom (firstDay env uc n) n.toNat).length = n.toNat ∧
      (∀ u ∈ uc'.users, Q u) ∧ ∀ u ∈ uc'.users, ∀ a ∈ u.appList, n ≤ a.power.length := by
  rw [init_asked hd hn] at h
  suffices H : ∀ args' : InitArgs, args'.numDays = some n → ChoosesDays uc args' → Returns (initUseCase env uc args') (uc', .ok ()) →
      1 ≤ n ∧ ∃ peak, Ready uc' (daysFrom (firstDay env uc n) n.toNat) peak ∧ peak ≠ [] ∧ (daysFrom (firstDay env uc n) n.toNat).length = n.toNat ∧
      (∀ u ∈ uc'.users, Q u) ∧ ∀ u ∈ uc'.users, ∀ a ∈ u.appList, n ≤ a.power.length from H { args with numDays := some n } rfl hd h
  clear h hd hn args
  intro args hn hd h
  have hn1 : 1 ≤ n := by
    obtain ⟨_, h0, h1⟩ := C38_number_of_days hd (.inl hn) h
    by_contra hlt
    rcases lt_trichotomy n 0 with hh | hh | hh
    · cases h1 hh
    · cases h0 hh
    · omega
  obtain ⟨hdays, hnum⟩ := (C38_number_of_days hd (.inl hn) h).1 hn1 rfl
  obtain ⟨m, hm, hpow⟩ := C43_powers_cover_partial hc hd.runs h
  have hmn : m = n := by rw [hnum] at hm; cases hm; rfl
  subst hmn
  obtain ⟨uc1, pe, r, hcal, hpe, hpeak, rfl⟩ := returns_init_done hd.runs h
  have hlen : (daysFrom (firstDay env uc m) m.toNat).length = m.toNat := by
    generalize firstDay env uc m = d
    clear hdays
    generalize m.toNat = k
    induction k generalizing d with
    | zero => rfl
    | succ k ih => simp [daysFrom, ih]
  have husers : (initIndex { uc1 with peakEnlarge := pe, peakTimeRange := some r }).users = uc1.users := by
    unfold initIndex; split <;> rfl
  have hpk : (initIndex { uc1 with peakEnlarge := pe, peakTimeRange := some r }).peakTimeRange = some r := by
    unfold initIndex; split <;> rfl
  have hready : Ready (initIndex { uc1 with peakEnlarge := pe, peakTimeRange := some r }) (daysFrom (firstDay env uc m) m.toNat) r :=
    ⟨hdays, by rw [hnum, hlen]; congr 1; omega, hpk⟩
  refine ⟨hn1, r, hready, ?_, hlen, ?_, ?_⟩
  · obtain ⟨c, e, he, hr, hmem, _⟩ := C40_never_empty hpe
    intro h0
    rw [h0] at hmem
    simp at hmem
  · rw [husers]
    obtain ⟨_, hn'⟩ := initIndex_days { uc1 with peakEnlarge := pe, peakTimeRange := some r }
    obtain ⟨v, hv1, _, hv3⟩ := initCalendar_checked hcal (n := m) (by rw [← hnum]; exact hn'.symm)
    have := users_checkPowers hQ m v.appliances v (by rw [hv3]; exact hs)
    rw [hv1] at this
    exact this
  · intro u hu a ha
    have := hpow u hu a ha
    omega

/-- **C82.** A use case of sensible users that was given all its users on construction and whose `initialize` succeeded, is
simulated without error whatever the random draws. -/
theorem C82_after_initialize {env env' : Env} {depth : ℕ} {uc uc' : UseCase} {args : InitArgs} {n : ℤ} (hc : Collected uc)
    (hs : ∀ u ∈ uc.users, SensibleUser u) (hd : ChoosesDays uc args) (hn : AsksForDays env uc args n)
    (h : Returns (initUseCase env uc args) (uc', .ok ())) (days : Option (List ℤ)) :
    NeverRaises (generateDaily env' (depth + 1) uc' days) := by
  obtain ⟨h1, peak, hr, hp, hlen, hs', hpow⟩ := after_initialize (Q := SensibleUser) (fun u hu a ha l => sensible_sync hu (sensible_power l (hu.appliances a ha)))
    hc hs hd hn h
  refine C82_sensible_never_fails days hr hp hs' fun u hu a ha => ?_
  have := hpow u hu a ha
  rw [hlen]
  omega

/-! ## When `initialize(num_days=n)` succeeds -/

/-- Failures of `initialize` are results of the model of `initialize`. -/
theorem never_initUseCase {env : Env} {uc : UseCase} {args : InitArgs} : NeverRaises (initUseCase env uc args) := by
  have ha : ∀ {α : Type} (m : Sim α), NeverRaises (attempt m) := by
    rintro α m e ⟨r, hr⟩
    unfold attempt at hr
    cases hm : m r with
    | error e => rw [hm] at hr; cases hr
    | ok p => rw [hm] at hr; cases hr
  have hb : ∀ {α β : Type} {m : Sim α} {f : α → Sim β}, NeverRaises m → (∀ a, NeverRaises (f a)) → NeverRaises (m >>= f) := by
    rintro α β m f h1 h2 e ⟨r, hr⟩
    cases hm : m r with
    | error e' => exact h1 e' ⟨r, hm⟩
    | ok p => rw [bind_ok hm] at hr; exact h2 _ e ⟨_, hr⟩
  unfold initUseCase
  split_ifs
  · exact never_pure _
  all_goals
    simp only
    split
    · exact never_pure _
    · split
      · refine hb ?_ fun x => ?_
        · unfold setPeakEnlarge
          split
          · split_ifs
            · refine hb (ha _) fun x => ?_
              split <;> exact never_pure _
            · exact never_pure _
          · exact never_pure _
        · split <;> exact never_pure _
      · refine hb (ha _) fun x => ?_
        split <;> exact never_pure _

/-- The powers of an appliance as the constructor leaves them: a constant power is one number repeated. -/
def PowersAsBuilt (a : Appliance) : Prop := a.constantPower = true → ∃ (k : ℕ) (p : ℚ), a.power = List.replicate (k + 1) p

/-- The same appliance, except that a constant power may be repeated another number of times. -/
def SameMean (a b : Appliance) : Prop :=
  b = a ∨ ∃ (k m : ℕ) (p : ℚ), a.power = List.replicate (k + 1) p ∧ b = { a with power := List.replicate (m + 1) p }

theorem SameMean.trans {a b c : Appliance} (h : SameMean a b) (h' : SameMean b c) : SameMean a c := by
  rcases h with rfl | ⟨k, m, p, h1, rfl⟩
  · exact h'
  · rcases h' with rfl | ⟨k', m', q, h2, rfl⟩
    · exact .inr ⟨k, m, p, h1, rfl⟩
    · simp only at h2
      have : p = q := by
        have := congrArg List.head? h2
        simpa [List.replicate_succ] using this
      subst this
      exact .inr ⟨k, m', p, h1, rfl⟩

theorem SameMean.builtPowers {a b : Appliance} (h : SameMean a b) (ha : PowersAsBuilt a) : PowersAsBuilt b := by
  rcases h with rfl | ⟨k, m, p, h1, rfl⟩
  · exact ha
  · exact fun _ => ⟨m, p, rfl⟩

theorem SameMean.load {a b : Appliance} (h : SameMean a b) (i : Fin 1440) :
    b.dailyUse i * (b.power.sum / (b.power.length : ℚ)) * (b.number : ℚ) = a.dailyUse i * (a.power.sum / (a.power.length : ℚ)) * (a.number : ℚ) := by
  rcases h with rfl | ⟨k, m, p, h1, rfl⟩
  · rfl
  · have h2 : ∀ j : ℕ, (List.replicate (j + 1) p).sum / ((List.replicate (j + 1) p).length : ℚ) = p := by
      intro j
      simp only [List.sum_replicate, List.length_replicate, nsmul_eq_mul]
      field_simp
    simp only [h1, h2]

/-- User by user and appliance by appliance the same, up to the repetition of constant powers. -/
def SameMeans (us vs : List User) : Prop := List.Forall₂ (fun u v => (v.numUsers, v.userPreference) = (u.numUsers, u.userPreference) ∧
  List.Forall₂ SameMean u.appList v.appList) us vs

theorem SameMeans.load {us vs : List User} (h : SameMeans us vs) : maximumLoad vs = maximumLoad us := by
  funext i
  unfold maximumLoad
  induction h with
  | nil => rfl
  | @cons u v us vs h1 _ ih =>
    have hnum : v.numUsers = u.numUsers := (Prod.ext_iff.1 h1.1).1
    simp only [List.map_cons, List.sum_cons, ih, hnum]
    congr 3
    have := h1.2
    revert this
    generalize u.appList = l
    generalize v.appList = m
    intro h2
    induction h2 with
    | nil => rfl
    | cons h3 _ ih => rw [List.map_cons, List.map_cons, h3.load, ih]

theorem sameMeans_refl (us : List User) : SameMeans us us := List.forall₂_same.2 fun _ _ => ⟨rfl, List.forall₂_same.2 fun _ _ => .inl rfl⟩

theorem forall₂_trans' {α : Type} {R : α → α → Prop} (ht : ∀ a b c, R a b → R b c → R a c) : ∀ {l m n : List α}, List.Forall₂ R l m → List.Forall₂ R m n →
    List.Forall₂ R l n
  | [], _, _, .nil, .nil => .nil
  | _ :: _, _, _, .cons h1 h2, .cons h3 h4 => .cons (ht _ _ _ h1 h3) (forall₂_trans' ht h2 h4)

theorem SameMeans.trans {us vs ws : List User} (h : SameMeans us vs) (h' : SameMeans vs ws) : SameMeans us ws :=
  forall₂_trans' (fun _ _ _ h1 h2 => ⟨h2.1.trans h1.1, forall₂_trans' (R := SameMean) (fun _ _ _ => SameMean.trans) h1.2 h2.2⟩) h h'

theorem sameMeans_update {uc : UseCase} {r : ℕ × ℕ} {a b : Appliance} (hn : ∀ u ∈ uc.users, (u.appList.map Appliance.oid).Nodup)
    (hf : uc.findApp r = some a) (hab : SameMean a b) : SameMeans uc.users (uc.updateApp r b).users := by
  unfold UseCase.findApp at hf
  obtain ⟨v, hv, hf⟩ := Option.bind_eq_some_iff.1 hf
  have hoid : b.oid = a.oid := by rcases hab with rfl | ⟨_, _, _, _, rfl⟩ <;> rfl
  have har : a.oid = r.2 := by simpa using List.find?_some hf
  have ham := List.mem_of_find?_eq_some hf
  unfold UseCase.updateApp SameMeans
  rw [List.forall₂_iff_get]
  refine ⟨by simp, fun i hi hi' => ?_⟩
  simp only [List.get_eq_getElem, List.getElem_modify]
  split_ifs with hri
  · have hvi : uc.users[i] = v := by
      subst hri
      exact (List.getElem?_eq_some_iff.1 hv).2
    rw [hvi]
    refine ⟨rfl, ?_⟩
    unfold User.sync
    simp only
    rw [List.forall₂_map_right_iff, List.forall₂_same]
    intro c hc
    split_ifs with hco
    · have hca : c = a := by
        have h1 := find_oid (hn v (List.mem_of_getElem? hv)) hc
        have h2 := find_oid (hn v (List.mem_of_getElem? hv)) ham
        rw [hco, hoid] at h1
        rw [h1] at h2
        simpa using h2
      rw [hca]; exact hab
    · exact .inl rfl
  · exact ⟨rfl, List.forall₂_same.2 fun _ _ => .inl rfl⟩

theorem SameMeans.builtPowers {us vs : List User} (h : SameMeans us vs) (hu : ∀ u ∈ us, ∀ a ∈ u.appList, PowersAsBuilt a) :
    ∀ v ∈ vs, ∀ a ∈ v.appList, PowersAsBuilt a := by
  induction h with
  | nil => simp
  | @cons u v us vs h1 _ ih =>
    intro w hw
    rcases List.mem_cons.1 hw with rfl | hw
    · have := hu u (by simp)
      have h2 := h1.2
      revert this h2
      generalize u.appList = l
      generalize w.appList = m
      intro hl h2
      induction h2 with
      | nil => simp
      | cons h3 _ ih =>
        intro c hc
        rcases List.mem_cons.1 hc with rfl | hc
        · exact h3.builtPowers (hl _ (by simp))
        · exact ih (fun a ha => hl a (by simp [ha])) c hc
    · exact ih (fun x hx => hu x (by simp [hx])) w hw

theorem sameMeans_checkPowers {n : ℤ} (hn : 0 ≤ n) : ∀ (rs : List (ℕ × ℕ)) (uc : UseCase), (∀ u ∈ uc.users, (u.appList.map Appliance.oid).Nodup) →
    (∀ u ∈ uc.users, ∀ a ∈ u.appList, PowersAsBuilt a) → SameMeans uc.users (checkPowers n rs uc).1.users
  | [], uc, _, _ => sameMeans_refl _
  | r :: rs, uc, hd, hp => by
    unfold checkPowers
    cases hf : uc.findApp r with
    | none => exact sameMeans_refl _
    | some a =>
      simp only
      cases hc : checkPowerValues a n with
      | error e => exact sameMeans_refl _
      | ok b =>
        simp only
        have hpa : PowersAsBuilt a := by
          unfold UseCase.findApp at hf
          obtain ⟨v, hv, hf⟩ := Option.bind_eq_some_iff.1 hf
          exact hp v (List.mem_of_getElem? hv) a (List.mem_of_find?_eq_some hf)
        have hab : SameMean a b := by
          rcases (checkPowerValues_ok hc).2.2 with rfl | ⟨h1, _, p, h2, rfl⟩
          · exact .inl rfl
          · obtain ⟨k, q, hq⟩ := hpa h1
            rw [hq] at h2
            have : q = p := by simpa [List.replicate_succ] using h2
            subst this
            exact .inr ⟨k, n.toNat, q, hq, by rw [show (n + 1).toNat = n.toNat + 1 by omega]⟩
        have h1 := sameMeans_update hd hf hab
        refine h1.trans (sameMeans_checkPowers hn rs _ ?_ (h1.builtPowers hp))
        intro u hu
        obtain ⟨k, hk⟩ := List.mem_iff_getElem?.1 hu
        have hoids : (uc.updateApp r b).users.map (fun u => u.appList.map Appliance.oid) = uc.users.map (fun u => u.appList.map Appliance.oid) := by
          have := checkPowers_oids n [r] uc
          unfold checkPowers at this
          rw [hf] at this
          simp only [hc, checkPowers] at this
          exact this
        obtain ⟨u0, hu0, ho⟩ := oids_of_users hoids hk
        rw [← ho]
        exact hd u0 (List.mem_of_getElem? hu0)

open Classical in
/-- **C82.** The outcome of `initialize` for `n ≥ 1` days (given, stored, typed or from the dates) of a use case that was given all its users on construction: `ValueError` when an
appliance has a time-varying power of less than `n` values, else `TypeError` or `ValueError` for a `peak_enlarge` argument that is not a
float or negative, else `IndexError` when the theoretical maximum load has a single peak minute, else success. -/
theorem C82_initialize_outcome {env : Env} {uc uc' : UseCase} {args : InitArgs} {n : ℤ} {res : Except Err Unit} (hc : Collected uc)
    (hpow : ∀ u ∈ uc.users, ∀ a ∈ u.appList, PowersAsBuilt a) (hd : ChoosesDays uc args) (hn : AsksForDays env uc args n) (h1 : 1 ≤ n)
    (h : Returns (initUseCase env uc args) (uc', res)) :
    res = if ∃ u ∈ uc.users, ∃ a ∈ u.appList, a.constantPower = false ∧ (a.power.length : ℤ) < n then .error .valueError
      else if args.peakEnlarge = some .other then .error .typeError
      else if ∃ q, args.peakEnlarge = some (.float q) ∧ q < 0 then .error .valueError
      else if ∃! i, IsPeak (maximumLoad uc.users) i then .error .indexError else .ok () := by
  rw [init_asked hd hn] at h
  suffices H : ∀ args' : InitArgs, args'.numDays = some n → ChoosesDays uc args' → Returns (initUseCase env uc args') (uc', res) →
      res = if ∃ u ∈ uc.users, ∃ a ∈ u.appList, a.constantPower = false ∧ (a.power.length : ℤ) < n then .error .valueError
      else if args'.peakEnlarge = some .other then .error .typeError
      else if ∃ q, args'.peakEnlarge = some (.float q) ∧ q < 0 then .error .valueError
      else if ∃! i, IsPeak (maximumLoad uc.users) i then .error .indexError else .ok () from H { args with numDays := some n } rfl hd h
  clear h hd hn args
  intro args hn hd h
  obtain ⟨e1, e2, e3, e4, e5⟩ := resetDays_numDays uc args
  obtain ⟨k1, k2, k3, k4⟩ := initDates_num (env := env) (args := args) hd.reset (.inl hn)
  have hcal := (calendarFrom_num (env := env) k1 k4 (chooseDays_first env (resetDays uc args) _ n k2 k3)).1 h1
  rw [← initCalendar_eq] at hcal
  have happs' : ∀ w : UseCase, (initDates w).appliances = w.appliances ∧ (initDates w).users = w.users := by
    intro w; unfold initDates; split
    · simp only; split
      · split_ifs <;> exact ⟨rfl, rfl⟩
      · exact ⟨rfl, rfl⟩
    · exact ⟨rfl, rfl⟩
  have ha2 : (initNumDays (resetDays uc args) args.numDays).appliances = uc.appliances ∧
      (initNumDays (resetDays uc args) args.numDays).users = uc.users := by
    rw [← e4, ← e5]
    cases args.numDays <;> exact ⟨rfl, rfl⟩
  rw [(happs' _).1, ha2.1] at hcal
  have hus : (initDates (initNumDays (resetDays uc args) args.numDays)).users = uc.users := ((happs' _).2).trans ha2.2
  obtain ⟨w, hw, hwu⟩ : ∃ w : UseCase, initCalendar env (resetDays uc args) args = checkPowers n uc.appliances w ∧ w.users = uc.users := ⟨_, hcal, hus⟩
  have hfind : ∀ r, w.findApp r = uc.findApp r := by
    intro r
    unfold UseCase.findApp
    rw [hwu]
  -- references and appliances
  have href : ∀ r ∈ uc.appliances, ∃ u ∈ uc.users, ∃ a ∈ u.appList, uc.findApp r = some a := by
    intro r hr
    rw [hc.all, mem_collected] at hr
    obtain ⟨u, hu, ho⟩ := hr
    obtain ⟨a, ha, hao⟩ := List.mem_map.1 ho
    have hu' := List.mem_of_getElem? hu
    refine ⟨u, hu', a, ha, ?_⟩
    unfold UseCase.findApp
    rw [hu, ← hao]
    exact find_oid (hc.distinct u hu') ha
  have hrefs : ∀ u ∈ uc.users, ∀ a ∈ u.appList, ∃ r ∈ uc.appliances, uc.findApp r = some a := by
    intro u hu a ha
    obtain ⟨k, hk⟩ := List.mem_iff_getElem?.1 hu
    refine ⟨(k, a.oid), ?_, ?_⟩
    · rw [hc.all, mem_collected]
      exact ⟨u, hk, List.mem_map_of_mem ha⟩
    · unfold UseCase.findApp
      simp only [hk, Option.bind_some]
      exact find_oid (hc.distinct u hu) ha
  have hout := checkPowers_outcome n uc.appliances w (by omega) (by
    intro r hr
    obtain ⟨u, hu, a, ha, hf⟩ := href r hr
    refine ⟨a, (hfind r).trans hf, fun hcp => ?_⟩
    obtain ⟨k, p, hp⟩ := hpow u hu a ha hcp
    rw [hp]
    simp)
  have hiff : (∃ r ∈ uc.appliances, ∃ a, w.findApp r = some a ∧ a.constantPower = false ∧ (a.power.length : ℤ) < n) ↔
      ∃ u ∈ uc.users, ∃ a ∈ u.appList, a.constantPower = false ∧ (a.power.length : ℤ) < n := by
    constructor
    · rintro ⟨r, hr, a, ha, hh⟩
      obtain ⟨u, hu, b, hb, hf⟩ := href r hr
      rw [hfind, hf] at ha
      cases ha
      exact ⟨u, hu, _, hb, hh⟩
    · rintro ⟨u, hu, a, ha, hh⟩
      obtain ⟨r, hr, hf⟩ := hrefs u hu a ha
      exact ⟨r, hr, a, (hfind r).trans hf, hh⟩
  simp only [hiff] at hout
  by_cases hshort : ∃ u ∈ uc.users, ∃ a ∈ u.appList, a.constantPower = false ∧ (a.power.length : ℤ) < n
  · rw [if_pos hshort] at hout ⊢
    exact returns_init_error hd.runs (by rw [hw]; exact hout) h
  · rw [if_neg hshort] at hout ⊢
    have hmeans := sameMeans_checkPowers (n := n) (by omega) uc.appliances w (by rw [hwu]; exact hc.distinct) (by rw [hwu]; exact hpow)
    rw [hwu] at hmeans
    unfold initUseCase at h
    rw [if_neg hd.runs] at h
    have hr' : (if uc.isInitialized = true ∧ args.force = true then { uc with days := none } else uc) = resetDays uc args := rfl
    simp only [hr'] at h
    rw [hw] at h
    cases hck : checkPowers n uc.appliances w with
    | mk uc1 r1 =>
      rw [hck] at h hout hmeans
      simp only at hout hmeans
      subst hout
      have hpeakErr : ∀ {pe : ℚ} {e : Err}, Returns (attempt (peakTimeRangeOf uc1.users pe)) (.error e) →
          e = .indexError ∧ ∃! i, IsPeak (maximumLoad uc.users) i := by
        intro pe e hx
        rw [← hmeans.load]
        exact (raises_peak e).1 (returns_attempt_error.1 hx)
      have hpeakOk : ∀ {pe : ℚ} {r : List ℤ}, Returns (attempt (peakTimeRangeOf uc1.users pe)) (.ok r) →
          ¬ ∃! i, IsPeak (maximumLoad uc.users) i := by
        intro pe r hx hu
        rw [← hmeans.load] at hu
        have hr1 := returns_attempt_ok.1 hx
        rw [peak_one (by rw [maximumLoad_eq]; exact hu)] at hr1
        exact returns_raise hr1
      cases hpe : args.peakEnlarge with
      | none =>
        rw [if_neg (by simp), if_neg (by simp)]
        simp only [hpe] at h
        obtain ⟨x, hx, h⟩ := returns_of_bind h
        cases x with
        | error e =>
          have := returns_pure.1 h
          obtain ⟨he, hu⟩ := hpeakErr hx
          rw [if_pos hu, (Prod.mk.inj this).2, he]
        | ok r =>
          have := returns_pure.1 h
          cases this
          rw [if_neg (hpeakOk hx)]
      | some x =>
        simp only [hpe] at h
        cases x with
        | other =>
          rw [if_pos rfl]
          unfold setPeakEnlarge at h
          obtain ⟨y, hy, h⟩ := returns_of_bind h
          have hy := returns_pure.1 hy
          subst hy
          exact (Prod.mk.inj (returns_pure.1 h)).2
        | float q =>
          rw [if_neg (by simp)]
          unfold setPeakEnlarge at h
          obtain ⟨y, hy, h⟩ := returns_of_bind h
          simp only at hy
          by_cases hq : 0 ≤ q
          · rw [if_pos hq] at hy
            rw [if_neg (by rintro ⟨q', h1, h2⟩; cases h1; linarith)]
            obtain ⟨z, hz, hy⟩ := returns_of_bind hy
            cases z with
            | error e =>
              have hy := returns_pure.1 hy
              subst hy
              obtain ⟨he, hu⟩ := hpeakErr hz
              rw [if_pos hu, ← he]
              exact (Prod.mk.inj (returns_pure.1 h)).2
            | ok r =>
              have hy := returns_pure.1 hy
              subst hy
              rw [if_neg (hpeakOk hz)]
              exact (Prod.mk.inj (returns_pure.1 h)).2
          · rw [if_neg hq] at hy
            rw [if_pos ⟨q, rfl, not_le.1 hq⟩]
            have hy := returns_pure.1 hy
            subst hy
            exact (Prod.mk.inj (returns_pure.1 h)).2

/-- **C82.** The usual program: a use case of sensible users given on construction, whose appliances have power values for the `n` days asked
for, and whose maximum load does not peak in a single minute: `initialize`, with or without a non-negative `peak_enlarge`,
succeeds and the simulation cannot fail. -/
theorem C82_usual_program {env env' : Env} {depth : ℕ} {uc : UseCase} {args : InitArgs} {n : ℤ} (hc : Collected uc)
    (hs : ∀ u ∈ uc.users, SensibleUser u) (hpow : ∀ u ∈ uc.users, ∀ a ∈ u.appList, PowersAsBuilt a)
    (hlong : ∀ u ∈ uc.users, ∀ a ∈ u.appList, a.constantPower = false → n ≤ a.power.length) (hpeak : ¬ ∃! i, IsPeak (maximumLoad uc.users) i)
    (hd : ChoosesDays uc args) (hn : AsksForDays env uc args n) (h1 : 1 ≤ n)
    (hpe : args.peakEnlarge = none ∨ ∃ q, args.peakEnlarge = some (.float q) ∧ 0 ≤ q) :
    NeverRaises (initUseCase env uc args) ∧ ∀ uc' res, Returns (initUseCase env uc args) (uc', res) →
      res = .ok () ∧ ∀ days, NeverRaises (generateDaily env' (depth + 1) uc' days) := by
  refine ⟨never_initUseCase, fun uc' res h => ?_⟩
  have := C82_initialize_outcome hc hpow hd hn h1 h
  rw [if_neg (by
    rintro ⟨u, hu, a, ha, h2, h3⟩
    have := hlong u hu a ha h2
    omega), if_neg (by rcases hpe with e | ⟨q, e, _⟩ <;> rw [e] <;> simp),
    if_neg (by
    rintro ⟨q', h1, h2⟩
    rcases hpe with e | ⟨q, e, hq⟩ <;> rw [e] at h1 <;> cases h1
    linarith), if_neg hpeak] at this
  subst this
  exact ⟨rfl, fun days => C82_after_initialize hc hs hd hn h days⟩

/-- The appliance of `safeArgs` is sensible, its power is a constant and it may be used in the first two minutes of the day. -/
theorem safeArgs_sensible : ∃ app, BuiltAs safeArgs app ∧ SensibleAppliance app ∧ PowersAsBuilt app ∧ app.constantPower = true ∧ app.number = 3 ∧
    app.power.sum / (app.power.length : ℚ) = 7 ∧ ∀ i, app.dailyUse i ≤ 1 / 1000 ∧ ((i : ℕ) < 2 → app.dailyUse i = 1 / 1000) := by
  have hb : ∃ app, builtBy safeArgs = some app := ⟨_, rfl⟩
  obtain ⟨app, hb⟩ := hb
  have h1 : ((builtBy safeArgs).map fun a => [a.window1, a.window2, a.window3, a.cw11, a.cw12, a.cw21, a.cw22, a.cw31, a.cw32]) =
      some [(1170, 1440), (0, 30), (0, 0), (0, 0), (0, 0), (0, 0), (0, 0), (0, 0), (0, 0)] := by decide +kernel
  have h2 : ((builtBy safeArgs).map fun a => [a.randomVar1, a.randomVar2, a.randomVar3, a.funcCycle, a.funcTime, a.number, a.t11,
      a.t12, a.t21, a.t22, a.t31, a.t32, a.fixedCycle]) = some [94, 10, 0, 10, 120, 3, 0, 0, 0, 0, 0, 0, 0] := by decide +kernel
  have h3 : ((builtBy safeArgs).map fun a => [a.timeFractionRandomVariability, a.thermalPVar, a.rc1, a.rc2, a.rc3]) =
      some [1 / 5, 0, 0, 0, 0] := by decide +kernel
  have h4 : ((builtBy safeArgs).map fun a => (decide (a.power = List.replicate 367 7), a.constantPower)) = some (true, true) := by decide +kernel
  have h5 : ∀ i : Fin 1440, ((builtBy safeArgs).map fun a => decide (a.dailyUse i ≤ 1 / 1000 ∧ ((i : ℕ) < 2 → a.dailyUse i = 1 / 1000))) = some true := by
    decide +kernel
  rw [hb] at h1 h2 h3 h4
  simp only [Option.map_some, Option.some.injEq, List.cons.injEq, and_true, Prod.mk.injEq, decide_eq_true_eq] at h1 h2 h3 h4
  obtain ⟨e1, e2, e3, c1, c2, c3, c4, c5, c6⟩ := h1
  obtain ⟨r1, r2, r3, hfc, hft, hn, h11, h12, h21, h22, h31, h32, hfix⟩ := h2
  obtain ⟨hv, htv, hrc1, hrc2, hrc3⟩ := h3
  obtain ⟨hpw, hcp⟩ := h4
  refine ⟨app, builtBy_some hb, ⟨⟨⟨?_, ?_, ?_, ?_, ?_, ?_⟩, ?_, ?_, ?_, ?_, ?_, ?_, ?_, ?_, ⟨?_, ?_, ?_, ?_, ?_, ?_, ?_, ?_, ?_, ?_⟩⟩,
    ⟨?_, ?_, ?_, ?_, ?_, ?_⟩, .inl (by omega)⟩, fun _ => ⟨366, 7, hpw⟩, hcp, hn, ?_, fun i => ?_⟩
  rotate_right 2
  · rw [hpw, List.sum_replicate, List.length_replicate, nsmul_eq_mul]
    norm_num
  · have := h5 i
    rw [hb] at this
    simpa only [Option.map_some, Option.some.injEq, decide_eq_true_eq] using this
  all_goals simp only [DayWindow, e1, e2, e3, r1, r2, r3, hfc, hft, hv, hn, htv, hrc1, hrc2, hrc3, h11, h12, h21, h22, h31, h32, c1, c2,
    c3, c4, c5, c6, totalTime]
  all_goals norm_num

/-- A case for C82: three of these appliances, four households, `initialize(num_days=365)`. -/
theorem usual_program_example : ∃ app, BuiltAs safeArgs app ∧ ∀ uc' res,
    Returns (initUseCase ⟨0, none⟩ (collectAppliances { users := [{ numUsers := 4, appList := [app] }] }) { numDays := some 365 }) (uc', res) →
      res = .ok () ∧ ∀ days, NeverRaises (generateDaily ⟨0, none⟩ 1000 uc' days) := by
  obtain ⟨app, hb, hs, hp, hcp, hnum, hpw, hday⟩ := safeArgs_sensible
  refine ⟨app, hb, (C82_usual_program (depth := 999) (n := 365) ⟨rfl, ?_⟩ ?_ ?_ ?_ ?_ (.inl ⟨rfl, rfl⟩) (.inl rfl) (by norm_num) (.inl rfl)).2⟩
  · simp [collectAppliances]
  · simp only [collectAppliances, List.mem_singleton, forall_eq]
    exact ⟨le_refl _, by simpa using hs⟩
  · simpa [collectAppliances] using hp
  · simp [collectAppliances, hcp]
  · have hload : ∀ i, maximumLoad (collectAppliances { users := [{ numUsers := 4, appList := [app] }] }).users i = app.dailyUse i * 84 := by
      intro i
      simp [maximumLoad, collectAppliances, hpw, hnum]
      ring
    refine peak_of_two 0 1 (by decide) ?_ ?_
    all_goals
      intro j
      rw [hload, hload]
      have h0 := (hday 0).2 (by simp)
      have h1 := (hday 1).2 (by simp)
      have := (hday j).1
      first
        | rw [h0]; linarith
        | rw [h1]; linarith

end Ramp
