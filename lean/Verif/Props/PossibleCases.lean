import Verif.Props.PossibleDays
import Verif.Props.NeverFails

/-! # C84: the possible load profiles of a use case, exactly -/

set_option autoImplicit false

namespace Ramp

theorem uniform01_iff {x : ℚ} : Returns (uniform 0 1) x ↔ 0 ≤ x ∧ x ≤ 1 := by
  constructor
  · intro h
    exact (sat_uniform (a := 0) (b := 1) (Q := fun x => 0 ≤ x ∧ x ≤ 1) (E := fun _ => True)
      (fun u h0 h1 => ⟨by linarith, by linarith⟩)).ret h
  · rintro ⟨h0, h1⟩
    exact (reach_uniform_of_mem h0 h1).returns

theorem timeOfUse_exists {app : Appliance} {w1 w2 w3 : ℤ × ℤ} (ht : 0 ≤ app.funcTime)
    (hv : 0 ≤ app.timeFractionRandomVariability) :
    (∃ t, TimeOfUse app w1 w2 w3 t) ↔ app.funcCycle ≤ ⌊(99 / 100 : ℚ) * totalTime w1 w2 w3⌋ := by
  constructor
  · rintro ⟨t, h, _⟩; exact h
  · intro h
    refine ⟨_, h, ⌊(app.funcTime : ℚ) * (1 - app.timeFractionRandomVariability)⌋, le_rfl, Int.floor_le_floor ?_, rfl⟩
    have : (0 : ℚ) ≤ app.funcTime := by exact_mod_cast ht
    nlinarith

/-- **C84, flat appliances.** The daily profiles that a flat appliance can produce are exactly: nothing, on a day on which it may stay
off; and otherwise its power of the day times the number of units during the whole of its windows, moved within their variability. -/
theorem C84_flat_days {app : Appliance} (hw : ValidWindows app) (ht : 0 ≤ app.funcTime)
    (hv : 0 ≤ app.timeFractionRandomVariability ∧ app.timeFractionRandomVariability ≤ 1) (hfl : app.flat = "yes") {depth : ℕ} {pref : ℤ}
    {profI : ℕ} {peak : List ℤ} {dayType : ℤ} {power : ℚ} (hpw : app.power[profI]? = some power) (p : Profile) :
    (∃ app', Returns (generateLoadProfile app depth pref profI peak dayType power) app' ∧ app'.dailyUse = p) ↔
      (p = zeros ∧ (SkippedForSure app pref dayType ∨ app.occasionalUse < 1)) ∨
      (¬ SkippedForSure app pref dayType ∧ 0 ≤ app.occasionalUse ∧ FlatDay app power p) := by
  have hskip : ∀ x : ℚ, ((x > app.occasionalUse ∨ (app.prefIndex ≠ 0 ∧ pref ≠ app.prefIndex) ∨
      ¬ (app.wdWeType = dayType ∨ app.wdWeType = 2) ∨ app.funcTime = 0) ↔ x > app.occasionalUse ∨ SkippedForSure app pref dayType) := by
    intro x
    unfold SkippedForSure
    push Not
    tauto
  have htime : ∀ w1 w2 w3 rt, DayWindow w1 → DayWindow w2 → DayWindow w3 →
      (Returns (randTotalTimeOfUse { app with dailyUse := zeros } w1 w2 w3) rt ↔ TimeOfUse app w1 w2 w3 rt) := by
    intro w1 w2 w3 rt d1 d2 d3
    refine C07_time_of_use_exact { app with dailyUse := zeros } w1 w2 w3 rt ht hv.1 hv.2 ?_
    unfold DayWindow at d1 d2 d3
    unfold totalTime
    omega
  have hbody : ∀ app', (∃ o, Returns (do
      let w1 ← calcRandWindow app.window1 app.randomVar1
      let w2 ← calcRandWindow app.window2 app.randomVar2
      let w3 ← calcRandWindow app.window3 app.randomVar3
      let randTime ← randTotalTimeOfUse { app with dailyUse := zeros } w1 w2 w3
      let d ← liftE (fillWindows w1 w2 w3 (power * app.number))
      pure ({ app with dailyUse := d }, some ⟨w1, w2, w3, randTime, []⟩) : Sim (Appliance × Option RunInfo)) (app', o)) ↔
      ∃ q, FlatDay app power q ∧ app' = { app with dailyUse := q } := by
    intro app'
    simp only [returns_bind (fin_calcRandWindow _ _), returns_bind (fin_randTotalTimeOfUse _ _ _ _), returns_bind (fin_liftE _),
      returns_liftE, returns_pure, movedWindow_iff hw.r1.1, movedWindow_iff hw.r2.1, movedWindow_iff hw.r3.1]
    constructor
    · rintro ⟨o, w1, m1, w2, m2, w3, m3, rt, hrt, d, hd, h4⟩
      cases h4
      have b1 := m1.bounds hw.w1 hw.r1
      have b2 := m2.bounds hw.w2 hw.r2
      have b3 := m3.bounds hw.w3 hw.r3
      rcases fillWindows_cases (w1 := w1) (w2 := w2) (w3 := w3) (power * app.number) ⟨b1.1, b1.2.2.2.1⟩ ⟨b2.1, b2.2.2.2.1⟩
        ⟨b3.1, b3.2.2.2.1⟩ with ⟨d1, d2, d3, hf⟩ | ⟨_, hf⟩
      · rw [hf] at hd
        cases hd
        exact ⟨_, ⟨w1, w2, w3, m1, m2, m3, d1, d2, d3, (timeOfUse_exists ht hv.1).1 ⟨rt, (htime _ _ _ _ d1 d2 d3).1 hrt⟩, rfl⟩, rfl⟩
      · rw [hf] at hd; cases hd
    · rintro ⟨q, ⟨w1, w2, w3, m1, m2, m3, d1, d2, d3, h, rfl⟩, rfl⟩
      obtain ⟨t, ht'⟩ := (timeOfUse_exists ht hv.1).2 h
      exact ⟨_, w1, m1, w2, m2, w3, m3, t, (htime _ _ _ _ d1 d2 d3).2 ht', _, fillWindows_ok _ d1 d2 d3, rfl⟩
  have hinfo : ∀ app', Returns (generateLoadProfile app depth pref profI peak dayType power) app' ↔
      ∃ x : ℚ, 0 ≤ x ∧ x ≤ 1 ∧ (((x > app.occasionalUse ∨ SkippedForSure app pref dayType) ∧ app' = { app with dailyUse := zeros }) ∨
        (¬ (x > app.occasionalUse ∨ SkippedForSure app pref dayType) ∧ ∃ q, FlatDay app power q ∧ app' = { app with dailyUse := q })) := by
    intro app'
    rw [returns_generate_iff]
    constructor
    · rintro ⟨o, h⟩
      unfold generateLoadProfileInfo at h
      rw [returns_bind (fin_uniform _ _)] at h
      obtain ⟨x, hx, h⟩ := h
      obtain ⟨h0, h1⟩ := uniform01_iff.1 hx
      refine ⟨x, h0, h1, ?_⟩
      by_cases hc : x > app.occasionalUse ∨ SkippedForSure app pref dayType
      · rw [if_pos ((hskip x).2 hc), returns_pure] at h
        cases h
        exact .inl ⟨hc, rfl⟩
      · rw [if_neg (fun h => hc ((hskip x).1 h))] at h
        simp only [if_pos hfl, hpw] at h
        exact .inr ⟨hc, (hbody app').1 ⟨o, h⟩⟩
    · rintro ⟨x, h0, h1, h⟩
      unfold generateLoadProfileInfo
      simp only [returns_bind (fin_uniform _ _), if_pos hfl, hpw]
      rcases h with ⟨hc, rfl⟩ | ⟨hc, h⟩
      · exact ⟨none, x, uniform01_iff.2 ⟨h0, h1⟩, by rw [if_pos ((hskip x).2 hc), returns_pure]⟩
      · obtain ⟨o, h⟩ := (hbody app').2 h
        exact ⟨o, x, uniform01_iff.2 ⟨h0, h1⟩, by rw [if_neg (fun h => hc ((hskip x).1 h))]; exact h⟩
  constructor
  · rintro ⟨app', h, rfl⟩
    obtain ⟨x, h0, h1, ⟨hc, rfl⟩ | ⟨hc, q, hq, rfl⟩⟩ := (hinfo app').1 h
    · left
      refine ⟨rfl, ?_⟩
      rcases hc with hc | hc
      · right; linarith
      · exact .inl hc
    · right
      push Not at hc
      exact ⟨hc.2, by linarith, hq⟩
  · rintro (⟨rfl, hc⟩ | ⟨hns, hocc, h⟩)
    · refine ⟨_, (hinfo { app with dailyUse := zeros }).2 ⟨1, by norm_num, le_rfl, .inl ⟨?_, rfl⟩⟩, rfl⟩
      rcases hc with hc | hc
      · exact .inr hc
      · exact .inl hc
    · refine ⟨_, (hinfo { app with dailyUse := p }).2 ⟨0, le_rfl, by norm_num, .inr ⟨?_, p, h, rfl⟩⟩, rfl⟩
      push Not
      exact ⟨hocc, hns⟩

/-! ## A whole use case -/

theorem forall₂_congr_left {α β : Type} {P Q : α → β → Prop} : ∀ {l : List α} {m : List β}, (∀ a ∈ l, ∀ b, P a b ↔ Q a b) →
    (List.Forall₂ P l m ↔ List.Forall₂ Q l m)
  | [], m, _ => by cases m <;> simp
  | a :: l, [], _ => by simp
  | a :: l, b :: m, h => by
    rw [List.forall₂_cons, List.forall₂_cons, h a (by simp) b, forall₂_congr_left (l := l) fun a' h' => h a' (by simp [h'])]

theorem applianceDay_iff {depth k : ℕ} {peak : List ℤ} (hpk : peak ≠ []) {dt pref : ℤ} {a : Appliance} (hs : WellSeparated a)
    (p : Profile) : ApplianceDay (depth + 1) k peak dt pref a p ↔ PossibleApplianceDay k dt pref a p := by
  unfold ApplianceDay PossibleApplianceDay
  constructor
  · rintro ⟨power, a', h1, h2, rfl⟩
    refine ⟨power, h1, ?_⟩
    by_cases hfl : a.flat = "yes"
    · rw [if_pos hfl]; exact (C84_flat_days hs.windows hs.time hs.variability hfl h1 _).1 ⟨a', h2, rfl⟩
    · rw [if_neg hfl]; exact (C83_possible_days hs hfl hpk _).1 ⟨a', h2, rfl⟩
  · rintro ⟨power, h1, h2⟩
    by_cases hfl : a.flat = "yes"
    · rw [if_pos hfl] at h2
      obtain ⟨a', h3, h4⟩ := (C84_flat_days hs.windows hs.time hs.variability hfl h1 _).2 h2
      exact ⟨power, a', h1, h3, h4.symm⟩
    · rw [if_neg hfl] at h2
      obtain ⟨a', h3, h4⟩ := (C83_possible_days hs hfl hpk _).2 h2
      exact ⟨power, a', h1, h3, h4.symm⟩

/-- **C84.** The load profiles that a use case with separated windows can produce are exactly the ones described by its definition:
one profile per day, the sum over the users, over the `num_users` members of each and over their appliances, where every member has a
preference of its own and every appliance a day of its own as in C83 (or a flat day).  Every such combination is produced by some
random draws, and no other profile is. -/
theorem C84_possible_profiles {env : Env} {depth : ℕ} {uc : UseCase} {ds peak : List ℤ} (days : Option (List ℤ)) (hr : Ready uc ds peak)
    (hpk : peak ≠ []) (hs : ∀ u ∈ uc.users, ∀ a ∈ u.appList, WellSeparated a) (rows : List Profile) :
    (∃ uc', Returns (generateDaily env (depth + 1) uc days) (uc', rows)) ↔
      rows.length = ds.length ∧ ∀ k d p, ds[k]? = some d → rows[k]? = some p → PossibleDay k (typeOfDay d) uc.users p := by
  rw [C45_superposition days hr]
  refine and_congr Iff.rfl (forall_congr' fun k => forall_congr' fun d => forall_congr' fun p => imp_congr Iff.rfl (imp_congr Iff.rfl ?_))
  have hm : ∀ u ∈ uc.users, ∀ q, MemberDay (depth + 1) k peak (typeOfDay d) u q ↔ PossibleMemberDay k (typeOfDay d) u q := by
    intro u hu q
    unfold MemberDay PossibleMemberDay
    refine exists_congr fun pref => exists_congr fun ps => and_congr Iff.rfl (and_congr ?_ Iff.rfl)
    exact forall₂_congr_left fun a ha q => applianceDay_iff hpk (hs u hu a ha) q
  unfold CaseDay PossibleDay
  refine exists_congr fun ps => and_congr (forall₂_congr_left fun u hu q => ?_) Iff.rfl
  unfold UserDay PossibleUserDay
  exact exists_congr fun qs => and_congr Iff.rfl (and_congr (forall_congr' fun r => imp_congr Iff.rfl (hm u hu r)) Iff.rfl)

/-! ## From the construction to the result -/

theorem separated_power {a : Appliance} (l : List ℚ) (h : WellSeparated a) : WellSeparated { a with power := l } :=
  ⟨⟨h.windows.w1, h.windows.w2, h.windows.w3, h.windows.r1, h.windows.r2, h.windows.r3⟩, h.apart,
    ⟨h.cycles.tv, h.cycles.t11, h.cycles.t12, h.cycles.t21, h.cycles.t22, h.cycles.t31, h.cycles.t32, h.cycles.rc1, h.cycles.rc2,
      h.cycles.rc3⟩, fun h' => ⟨(h.cycleWindows h').c11, (h.cycleWindows h').c12, (h.cycleWindows h').c21, (h.cycleWindows h').c22,
      (h.cycleWindows h').c31, (h.cycleWindows h').c32⟩, h.shortest, h.time, h.variability, h.number⟩

theorem SameMean.separated {a b : Appliance} (h : SameMean a b) (ha : WellSeparated a) : WellSeparated b := by
  rcases h with rfl | ⟨_, _, _, _, rfl⟩
  · exact ha
  · exact separated_power _ ha

theorem forall₂_mem_right {α β : Type} {R : α → β → Prop} : ∀ {l : List α} {m : List β}, List.Forall₂ R l m → ∀ b ∈ m, ∃ a ∈ l, R a b
  | [], _, .nil, _, hb => by simp at hb
  | a :: l, b :: m, .cons h1 h2, c, hc => by
    rcases List.mem_cons.1 hc with rfl | hc
    · exact ⟨a, by simp, h1⟩
    · obtain ⟨x, hx, h⟩ := forall₂_mem_right h2 c hc
      exact ⟨x, by simp [hx], h⟩

theorem daySchedule_power {a : Appliance} (l : List ℚ) {w : ℚ} {ws : List (ℤ × ℤ)} {t : ℤ} {es : List SwitchEvent}
    (h : DaySchedule a w ws t es) : DaySchedule { a with power := l } w ws t es := by
  refine ⟨fun x e y hx => ?_, h.length, h.total, ?_⟩
  · obtain ⟨h1, h2, h3, h4⟩ := h.allowed x e y hx
    exact ⟨h1, h2, h3, h4⟩
  · rcases h.stop with h1 | h1 | ⟨h1, e, n, ⟨g1, g2, g3, g4⟩, h3, h4⟩
    · exact .inl h1
    · exact .inr (.inl h1)
    · exact .inr (.inr ⟨h1, e, n, ⟨g1, g2, g3, g4⟩, h3, h4⟩)

theorem usedDay_power {a : Appliance} (l : List ℚ) {w : ℚ} {p : Profile} (h : UsedDay a w p) : UsedDay { a with power := l } w p := by
  obtain ⟨w1, w2, w3, time, c1, c2, c3, es, m1, m2, m3, d1, d2, d3, ht, hc, hs, hp⟩ := h
  exact ⟨w1, w2, w3, time, c1, c2, c3, es, m1, m2, m3, d1, d2, d3, ht, hc, daySchedule_power l hs, hp⟩

theorem SameMean.day {a b : Appliance} (h : SameMean a b) {k : ℕ} (ha : k < a.power.length) (hb : k < b.power.length) {dt pref : ℤ}
    {p : Profile} : PossibleApplianceDay k dt pref b p ↔ PossibleApplianceDay k dt pref a p := by
  rcases h with rfl | ⟨i, j, q, h1, rfl⟩
  · rfl
  · have e : (List.replicate (j + 1) q)[k]? = a.power[k]? := by
      rw [h1, List.getElem?_replicate, List.getElem?_replicate]
      rw [h1, List.length_replicate] at ha
      simp only [List.length_replicate] at hb
      rw [if_pos hb, if_pos ha]
    have hday : ∀ w, UsedDay { a with power := List.replicate (j + 1) q } w p ↔ UsedDay a w p := fun w =>
      ⟨usedDay_power (a := { a with power := List.replicate (j + 1) q }) a.power, usedDay_power _⟩
    unfold PossibleApplianceDay
    simp only [e, hday]
    exact Iff.rfl

theorem SameMeans.day {us vs : List User} (h : SameMeans us vs) {k : ℕ} (hu : ∀ u ∈ us, ∀ a ∈ u.appList, k < a.power.length)
    (hv : ∀ v ∈ vs, ∀ a ∈ v.appList, k < a.power.length) {dt : ℤ} {p : Profile} : PossibleDay k dt vs p ↔ PossibleDay k dt us p := by
  unfold PossibleDay
  refine exists_congr fun ps => and_congr ?_ Iff.rfl
  induction h generalizing ps with
  | nil => rfl
  | @cons u v us vs h1 h2 ih =>
    cases ps with
    | nil => simp
    | cons q ps =>
      rw [List.forall₂_cons, List.forall₂_cons, ih (fun x hx => hu x (by simp [hx])) (fun x hx => hv x (by simp [hx]))]
      refine and_congr ?_ Iff.rfl
      obtain ⟨e1, e2⟩ := Prod.ext_iff.1 h1.1
      simp only at e1 e2
      have hm : ∀ r, PossibleMemberDay k dt v r ↔ PossibleMemberDay k dt u r := by
        intro r
        unfold PossibleMemberDay PreferenceOf
        rw [e2]
        refine exists_congr fun pref => exists_congr fun rs => and_congr Iff.rfl (and_congr ?_ Iff.rfl)
        have ha := hu u (by simp)
        have hb := hv v (by simp)
        have h3 := h1.2
        revert ha hb h3
        generalize u.appList = l
        generalize v.appList = m
        intro ha hb h3
        induction h3 generalizing rs with
        | nil => rfl
        | @cons a b l m h4 _ ih =>
          cases rs with
          | nil => simp
          | cons r rs =>
            rw [List.forall₂_cons, List.forall₂_cons, h4.day (ha a (by simp)) (hb b (by simp))]
            exact and_congr Iff.rfl (ih rs (fun x hx => ha x (by simp [hx])) (fun x hx => hb x (by simp [hx])))
      unfold PossibleUserDay
      rw [e1]
      exact exists_congr fun qs => and_congr Iff.rfl (and_congr (forall_congr' fun r => imp_congr Iff.rfl (hm r)) Iff.rfl)

/-- **C84, from the construction to the result.** A use case is given its users, `initialize(num_days=n)` succeeds, and
`generate_daily_load_profiles()` is called: the possible results are exactly the lists of `n` profiles in which the profile number `k`
is a possible load (as above) of the users as they were given, on the `k`-th day after the first. -/
theorem C84_program {env env' : Env} {depth : ℕ} {uc uc' : UseCase} {args : InitArgs} {n : ℕ} (hc : Collected uc)
    (hpow : ∀ u ∈ uc.users, ∀ a ∈ u.appList, PowersAsBuilt a) (hlong : ∀ u ∈ uc.users, ∀ a ∈ u.appList, n ≤ a.power.length)
    (hs : ∀ u ∈ uc.users, ∀ a ∈ u.appList, WellSeparated a) (hd : ChoosesDays uc args) (hn : args.numDays = some (n : ℤ))
    (h : Returns (initUseCase env uc args) (uc', .ok ())) (days : Option (List ℤ)) (rows : List Profile) :
    (∃ uc'', Returns (generateDaily env' (depth + 1) uc' days) (uc'', rows)) ↔
      rows.length = n ∧ ∀ k p, rows[k]? = some p → PossibleDay k (typeOfDay (firstDay env uc n + 1440 * k)) uc.users p := by
  have hn1 : 1 ≤ n := by
    obtain ⟨_, h0, _⟩ := C38_number_of_days hd (.inl hn) h
    by_contra hlt
    cases h0 (by omega)
  obtain ⟨hdays, hnum⟩ := (C38_number_of_days hd (.inl hn) h).1 (by omega) rfl
  obtain ⟨m, hm, hcov⟩ := C43_powers_cover_partial hc hd.runs h
  have hmn : m = n := by rw [hnum] at hm; cases hm; rfl
  subst hmn
  obtain ⟨uc1, pe, r, hcal, hpe, hpeak, rfl⟩ := returns_init_done hd.runs h
  have hlen : (daysFrom (firstDay env uc n) (n : ℤ).toNat).length = n := by simp [daysFrom_length]
  have husers : (initIndex { uc1 with peakEnlarge := pe, peakTimeRange := some r }).users = uc1.users := by
    unfold initIndex; split <;> rfl
  have hpk : (initIndex { uc1 with peakEnlarge := pe, peakTimeRange := some r }).peakTimeRange = some r := by
    unfold initIndex; split <;> rfl
  have hready : Ready (initIndex { uc1 with peakEnlarge := pe, peakTimeRange := some r }) (daysFrom (firstDay env uc n) (n : ℤ).toNat) r :=
    ⟨hdays, by rw [hnum, hlen], hpk⟩
  have hr : r ≠ [] := by
    obtain ⟨c, e, he, hr, hmem, _⟩ := C40_never_empty hpe
    intro h0
    rw [h0] at hmem
    simp at hmem
  have hsame : SameMeans uc.users uc1.users := by
    obtain ⟨_, hn'⟩ := initIndex_days { uc1 with peakEnlarge := pe, peakTimeRange := some r }
    obtain ⟨v, hv1, _, hv3⟩ := initCalendar_checked hcal (n := (n : ℤ)) (by rw [← hnum]; exact hn'.symm)
    have := sameMeans_checkPowers (n := (n : ℤ)) (by omega) v.appliances v (by rw [hv3]; exact hc.distinct) (by rw [hv3]; exact hpow)
    rw [hv1, hv3] at this
    exact this
  have hsep : ∀ v ∈ uc1.users, ∀ b ∈ v.appList, WellSeparated b := by
    intro v hv b hb
    obtain ⟨u, hu, huv⟩ := forall₂_mem_right hsame v hv
    obtain ⟨a, ha, hab⟩ := forall₂_mem_right huv.2 b hb
    exact hab.separated (hs u hu a ha)
  rw [C84_possible_profiles days hready hr (by rw [husers]; exact hsep), hlen, husers]
  rw [husers] at hcov
  refine and_congr_right fun hrow => ?_
  constructor
  · intro h3 k p hp
    have hk : k < n := by rw [← hrow]; exact (List.getElem?_eq_some_iff.1 hp).1
    have := h3 k _ p (daysFrom_get _ _ k (by simpa using hk)) hp
    exact (hsame.day (fun u hu a ha => lt_of_lt_of_le hk (hlong u hu a ha))
      (fun v hv b hb => by have := hcov v hv b hb; omega)).1 this
  · intro h3 k d p hkd hp
    have hk : k < n := by rw [← hrow]; exact (List.getElem?_eq_some_iff.1 hp).1
    rw [daysFrom_get _ _ k (by simpa using hk)] at hkd
    cases hkd
    exact (hsame.day (fun u hu a ha => lt_of_lt_of_le hk (hlong u hu a ha))
      (fun v hv b hb => by have := hcov v hv b hb; omega)).2 (h3 k p hp)

/-! ### A case for C84 -/

/-- A lamp that is on from 18:00 to 24:00. -/
def lamp : Appliance := { flat := "yes", funcTime := 360, power := [40], window1 := (1080, 1440) }

theorem lamp_separated : WellSeparated lamp := by
  refine ⟨⟨?_, ?_, ?_, ?_, ?_, ?_⟩, ?_, ?_, ?_, ?_, ?_, ?_, ?_⟩
  · unfold DayWindow lamp; norm_num
  · unfold DayWindow lamp; norm_num
  · unfold DayWindow lamp; norm_num
  · unfold lamp; norm_num
  · unfold lamp; norm_num
  · unfold lamp; norm_num
  · intro w1 w2 w3 m1 m2 m3
    unfold MovedWindow lamp at m2 m3
    simp only at m2 m3
    obtain ⟨a', b', ⟨h1', h2'⟩, ⟨h3', h4'⟩, rfl⟩ := m2
    obtain ⟨a'', b'', ⟨h1'', h2''⟩, ⟨h3'', h4''⟩, rfl⟩ := m3
    have : a' = 0 := by omega
    have : b' = 0 := by omega
    have : a'' = 0 := by omega
    have : b'' = 0 := by omega
    subst a' b' a'' b''
    unfold WindowsApart
    simp
  · constructor <;> norm_num [lamp]
  · intro h; simp [lamp] at h
  · norm_num [lamp]
  · norm_num [lamp]
  · norm_num [lamp]
  · norm_num [lamp]

/-- Three households, each with a lamp and two radios. -/
def homes : UseCase := { users := [{ numUsers := 3, appList := [lamp, { radios with power := [10], oid := 1 }] }], days := some [0],
                         numDays := some 1, peakTimeRange := some [600] }

theorem homes_separated : ∀ u ∈ homes.users, ∀ a ∈ u.appList, WellSeparated a := by
  simp only [homes, forall_eq, List.mem_cons, List.not_mem_nil, or_false, forall_eq_or_imp]
  refine ⟨lamp_separated, ?_⟩
  have h := radios_separated
  exact ⟨⟨h.windows.w1, h.windows.w2, h.windows.w3, h.windows.r1, h.windows.r2, h.windows.r3⟩, h.apart,
    ⟨h.cycles.tv, h.cycles.t11, h.cycles.t12, h.cycles.t21, h.cycles.t22, h.cycles.t31, h.cycles.t32, h.cycles.rc1, h.cycles.rc2,
      h.cycles.rc3⟩, fun h' => by simp [radios] at h', h.shortest, h.time, h.variability, h.number⟩

/-- No event of a day leaves the windows. -/
theorem DaySchedule.inside {app : Appliance} {power : ℚ} {ws : List (ℤ × ℤ)} {time : ℤ} {es : List SwitchEvent}
    (h : DaySchedule app power ws time es) {e : SwitchEvent} (he : e ∈ es) {m : ℤ} (hm : e.On m) : ∃ w ∈ ws, InWindow w m := by
  obtain ⟨l, r, rfl⟩ := List.append_of_mem he
  obtain ⟨⟨w, hw, h1, h2⟩, _⟩ := (h.allowed l e r rfl).free
  obtain ⟨n, hk, _, h3⟩ := h.length l e r rfl
  have hn : n ≤ e.reserved := by
    rcases hk with ⟨_, h4, _⟩ | ⟨_, i, _, _, h4⟩
    · omega
    · split_ifs at h4 <;> omega
  unfold SwitchEvent.On at hm
  exact ⟨w, hw, by unfold InWindow; omega⟩

/-- C84 applies to this use case; and for instance every profile it can produce has exactly the power of the three lamps at 18:00. -/
example : Ready homes [0] [600] ∧ ∀ env uc' rows, Returns (generateDaily env 1 homes none) (uc', rows) →
    ∃ p, rows = [p] ∧ p ⟨1080, by omega⟩ = 120 := by
  have hr : Ready homes [0] [600] := ⟨rfl, rfl, rfl⟩
  refine ⟨hr, fun env uc' rows h => ?_⟩
  obtain ⟨h1, h2⟩ := (C84_possible_profiles (depth := 0) none hr (by simp) homes_separated rows).1 ⟨uc', h⟩
  obtain ⟨p, rfl⟩ := List.length_eq_one_iff.1 h1
  refine ⟨p, rfl, ?_⟩
  obtain ⟨ps, h3, rfl⟩ := h2 0 0 p rfl rfl
  have hmem : ∀ pref a q, PossibleApplianceDay 0 (typeOfDay 0) pref a q → (a = lamp → q ⟨1080, by omega⟩ = 40) ∧
      (a = { radios with power := [10], oid := 1 } → q ⟨1080, by omega⟩ = 0) := by
    intro pref a q hq
    constructor
    · rintro rfl
      obtain ⟨power, hp, ⟨_, h | h⟩ | ⟨_, _, h⟩⟩ := hq
      · simp [SkippedForSure, lamp, typeOfDay] at h
      · simp [lamp] at h
      · rw [if_pos (by simp [lamp])] at h
        obtain ⟨w1, w2, w3, ⟨a, b, ha, hb, rfl⟩, _, _, _, _, _, _, rfl⟩ := h
        simp only [lamp, List.getElem?_cons_zero, Option.some.injEq] at ha hb hp ⊢
        subst hp
        unfold windowProfile
        rw [if_pos]
        · norm_num
        · left; unfold InWindow; simp only [Nat.cast_ofNat]; omega
    · rintro rfl
      obtain ⟨power, hp, ⟨rfl, _⟩ | ⟨_, _, h⟩⟩ := hq
      · rfl
      · rw [if_neg (by simp [radios])] at h
        obtain ⟨w1, w2, w3, time, c1, c2, c3, es, m1, m2, m3, _, _, _, _, _, hs, hd⟩ := h
        obtain ⟨rfl, rfl, rfl⟩ := radios_moved m1 m2 m3
        have hout : ¬ ∃ w ∈ [((480, 600) : ℤ × ℤ), (0, 0), (0, 0)], InWindow w (1080 : ℤ) := by
          simp [InWindow]
        exact (hd ⟨1080, by omega⟩).2.2 (fun e he ho => absurd (hs.inside he ho) (by simpa using hout)) (by simpa using hout)
  simp only [homes] at h3
  cases h3 with
  | cons hu hn =>
    cases hn
    obtain ⟨qs, hl, hq, rfl⟩ := hu
    have hq' : ∀ q ∈ qs, q ⟨1080, by omega⟩ = 40 := by
      intro q hq1
      obtain ⟨pref, rs, _, hrs, rfl⟩ := hq q hq1
      cases hrs with
      | cons ha hrs =>
        cases hrs with
        | cons hb hrs =>
          cases hrs
          have e1 := (hmem _ _ _ ha).1 rfl
          have e2 := (hmem _ _ _ hb).2 rfl
          simp only [total, List.map_cons, List.map_nil, List.sum_cons, List.sum_nil]
          rw [e1, e2]
          norm_num
    match qs, hl, hq' with
    | [a, b, c], _, hq' =>
      simp only [total, List.map_cons, List.map_nil, List.sum_cons, List.sum_nil]
      rw [hq' a (List.mem_cons_self ..), hq' b (List.mem_cons_of_mem _ (List.mem_cons_self ..)),
        hq' c (List.mem_cons_of_mem _ (List.mem_cons_of_mem _ (List.mem_cons_self ..)))]
      norm_num

/-- The same users in a fresh use case. -/
def freshHomes : UseCase := collectAppliances { users := homes.users }

/-- The hypotheses of `C84_program` are met: the fresh use case can be initialised for one day. -/
example : Collected freshHomes ∧ (∀ u ∈ freshHomes.users, ∀ a ∈ u.appList, PowersAsBuilt a) ∧
    (∀ u ∈ freshHomes.users, ∀ a ∈ u.appList, 1 ≤ a.power.length) ∧ (∀ u ∈ freshHomes.users, ∀ a ∈ u.appList, WellSeparated a) ∧
    ChoosesDays freshHomes { numDays := some 1 } ∧
    ∃ uc', Returns (initUseCase ⟨0, none⟩ freshHomes { numDays := some 1 }) (uc', .ok ()) := by
  have hu : freshHomes.users = homes.users := rfl
  have hc : Collected freshHomes := ⟨rfl, by rw [hu]; simp [homes, lamp]⟩
  have hp : ∀ u ∈ freshHomes.users, ∀ a ∈ u.appList, PowersAsBuilt a := by
    rw [hu]
    simp only [homes, List.mem_singleton, forall_eq, List.mem_cons, List.not_mem_nil, or_false, forall_eq_or_imp]
    exact ⟨fun _ => ⟨0, 40, rfl⟩, fun _ => ⟨0, 10, rfl⟩⟩
  have hl : ∀ u ∈ freshHomes.users, ∀ a ∈ u.appList, 1 ≤ a.power.length := by rw [hu]; simp [homes, lamp]
  have hd : ChoosesDays freshHomes { numDays := some 1 } := .inl ⟨rfl, rfl⟩
  refine ⟨hc, hp, hl, by rw [hu]; exact homes_separated, hd, ?_⟩
  cases hi : initUseCase ⟨0, none⟩ freshHomes { numDays := some 1 } (constantDraws 0) with
  | error e => exact absurd ⟨_, hi⟩ (never_initUseCase e)
  | ok x =>
    obtain ⟨⟨uc', res⟩, r⟩ := x
    have h := C82_initialize_outcome (n := 1) hc hp hd (.inl rfl) le_rfl ⟨_, _, hi⟩
    rw [if_neg, if_neg (by simp), if_neg (by simp), if_neg] at h
    · exact ⟨uc', by rw [← h]; exact ⟨_, _, hi⟩⟩
    · have hz : ∀ i, maximumLoad freshHomes.users i = 0 := by
        intro i
        rw [hu]
        simp [maximumLoad, homes, lamp, radios, zeros]
      exact peak_of_two 0 1 (by decide) (fun j => by rw [hz, hz]) (fun j => by rw [hz, hz])
    · rintro ⟨u, hu', a, ha, _, h3⟩
      have := hl u hu' a ha
      omega

end Ramp
