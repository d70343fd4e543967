import Verif.Props.Events
import Mathlib.Data.List.GetD
import Mathlib.Data.Fintype.Card

/-! # Properties C18-C24: the daily profile of an appliance -/

set_option autoImplicit false

namespace Ramp

/-! ## Where the values of a profile come from -/

/-- The value at a minute of a run that is not flat. -/
theorem run_value {app : Appliance} {peak : List ℤ} {power : ℚ} {app' : Appliance} {info : RunInfo}
    (hs : SwitchRun app peak power app' info) (i : Fin 1440) :
    (∃ b ∈ info.bookings, (i : ℤ) ∈ b.indexes ∧
      ((0 < app.fixedCycle ∧ ∃ s ∈ dutyCycleOf app' b.cycleId, app'.dailyUse i = s * b.coincidence) ∨
       (app.fixedCycle ≤ 0 ∧ InBand app.thermalPVar (b.coincidence * power) (app'.dailyUse i)))) ∨
    (app'.dailyUse i = windowProfile info.w1 info.w2 info.w3 (1 / 1000) i ∧
      (app.fixedCycle ≤ 0 → ∀ b ∈ info.bookings, (i : ℤ) ∉ b.indexes)) := by
  obtain ⟨d, f, j, c1, c2, c3, hcfg⟩ := hs.cfg
  have e1 : app'.fixedCycle = app.fixedCycle := by rw [hcfg]
  have e2 : app'.thermalPVar = app.thermalPVar := by rw [hcfg]
  rcases painted_value hs.paint
      (fun b hb => (hs.ok b (List.mem_reverse.1 hb)).runOfDay (filter_day hs.d1 hs.d2 hs.d3)) i with
    ⟨b, hb, v, hv, hne, k, hk, e⟩ | ⟨e, hno⟩
  · left
    refine ⟨b, List.mem_reverse.1 hb, List.mem_of_getElem? hk, ?_⟩
    have hlt : k % v.length < v.length := Nat.mod_lt _ (List.length_pos_iff.2 hne)
    rcases hv with ⟨hfix, rfl⟩ | ⟨hfix, x, rfl, hx⟩
    · left
      rw [e1] at hfix
      refine ⟨hfix, ?_⟩
      rw [List.getD_eq_getElem _ _ hlt, List.getElem_map] at e
      exact ⟨_, List.getElem_mem _, e⟩
    · right
      rw [e1] at hfix
      refine ⟨hfix, ?_⟩
      have : app'.dailyUse i = x := by rw [e]; simp [Nat.mod_one]
      rw [this, ← e2]
      exact (sat_randomVariation app'.thermalPVar _ (E := fun _ => True)).ret hx
  · right
    refine ⟨e, fun hfix b hb hi => ?_⟩
    rcases hno b (List.mem_reverse.2 hb) hi with ⟨h, _⟩ | ⟨_, x, h, _⟩
    · rw [e1] at h; omega
    · simp at h

theorem run_coincidence {app : Appliance} {peak : List ℤ} {power : ℚ} {app' : Appliance} {info : RunInfo}
    (hs : SwitchRun app peak power app' info) (hn : 1 ≤ app.number) {b : Booking} (hb : b ∈ info.bookings) :
    1 ≤ b.coincidence ∧ b.coincidence ≤ app.number ∧ (app.fixed ≠ "no" → b.coincidence = app.number) := by
  obtain ⟨d, f, j, c1, c2, c3, hcfg⟩ := hs.cfg
  obtain ⟨i0, i1, q0, q1, _, _, _, _, h⟩ := (hs.ok b hb).coin
  rw [calcCoincident_congr (app := app) _ (by rw [hcfg]) (by rw [hcfg])] at h
  rcases (sat_calcCoincident app _ hn).ret h with ⟨h1, h2⟩ | ⟨h1, h2⟩
  · exact ⟨by omega, by omega, fun _ => h2⟩
  · exact ⟨h2.1, h2.2, fun hh => absurd h1 hh⟩

theorem mem_runWindows {info : RunInfo} {m : ℤ} :
    (∃ w ∈ runWindows info, InWindow w m) ↔ InWindow info.w1 m ∨ InWindow info.w2 m ∨ InWindow info.w3 m := mem_windows

/-! ## C18 -/

/-- **C18.** The profile is zero at every minute outside the randomised windows of the day. -/
theorem C18_zero_outside_randomised {app : Appliance} {depth : ℕ} {pref : ℤ} {profI : ℕ} {peak : List ℤ} {dayType : ℤ} {power : ℚ}
    {app' : Appliance} {info : RunInfo} (hw : ValidWindows app) (hfc : 1 ≤ app.funcCycle)
    (h : Returns (generateLoadProfileInfo app depth pref profI peak dayType power) (app', some info)) (i : Fin 1440)
    (hi : ¬ InWindow info.w1 i ∧ ¬ InWindow info.w2 i ∧ ¬ InWindow info.w3 i) : app'.dailyUse i = 0 := by
  have hr := runOK_of_returns hw hfc h
  have hz : ∀ v, windowProfile info.w1 info.w2 info.w3 v i = 0 := by
    intro v
    rw [windowProfile_def, if_neg (by tauto)]
  by_cases hfl : app.flat = "yes"
  · rcases hr.run with ⟨_, _, pw, _, rfl⟩ | ⟨hn, _⟩
    · exact hz _
    · exact absurd hfl hn
  · have hs := switchRun_of_returns hw hfc hfl h
    rcases run_value hs i with ⟨b, hb, hib, _⟩ | ⟨e, _⟩
    · have := mem_runWindows.1 ((hs.ok b hb).mem_window hib)
      tauto
    · rw [e]; exact hz _

/-- **C18.** For every random outcome the profile is zero at every minute that is further than the variability from every declared
window; with `random_var_w = 0`, outside the declared windows. -/
theorem C18_zero_outside_windows {app : Appliance} {depth : ℕ} {pref : ℤ} {profI : ℕ} {peak : List ℤ} {dayType : ℤ} {power : ℚ}
    {app' : Appliance} (hw : ValidWindows app) (hfc : 1 ≤ app.funcCycle)
    (h : Returns (generateLoadProfile app depth pref profI peak dayType power) app') (i : Fin 1440)
    (h1 : ¬ InWindow (app.window1.1 - app.randomVar1, app.window1.2 + app.randomVar1) i)
    (h2 : ¬ InWindow (app.window2.1 - app.randomVar2, app.window2.2 + app.randomVar2) i)
    (h3 : ¬ InWindow (app.window3.1 - app.randomVar3, app.window3.2 + app.randomVar3) i) : app'.dailyUse i = 0 := by
  obtain ⟨o, h⟩ := returns_generate_iff.1 h
  cases o with
  | none =>
    rcases (sat_generateInfo app depth pref profI peak dayType power hw hfc).ret h with ⟨_, h, _⟩ | ⟨info, h, _⟩
    · simp only at h; rw [h]; rfl
    · simp at h
  | some info =>
    have hr := runOK_of_returns hw hfc h
    have b1 := MovedWindow.bounds (w := app.window1) hr.m1 hw.w1 hw.r1
    have b2 := MovedWindow.bounds (w := app.window2) hr.m2 hw.w2 hw.r2
    have b3 := MovedWindow.bounds (w := app.window3) hr.m3 hw.w3 hw.r3
    refine C18_zero_outside_randomised hw hfc h i ⟨?_, ?_, ?_⟩ <;> unfold InWindow at * <;> simp only at * <;> omega

/-- A case for C18: minute 300 is outside the windows of `separatedArgs`. -/
example : ∃ app app', BuiltAs separatedArgs app ∧ Returns (generateLoadProfile app 1000 0 0 (minutesFrom 0 60) 0 100) app' := by
  obtain ⟨app, app', info, h1, h2, _⟩ := separated_run
  exact ⟨app, app', h1, returns_generate_iff.2 ⟨_, h2⟩⟩

/-! ## C19 -/

/-- **C19.** Without duty cycles: at a booked minute the load is `c * power * f` for the coincidence `c` of a booking of that minute,
`1 ≤ c ≤ number`, and a factor `f` with `|f - 1| ≤ thermal_p_var`; at every other minute it is the marker 0.001 inside the
windows and 0 outside. -/
theorem C19_minute_values {app : Appliance} {depth : ℕ} {pref : ℤ} {profI : ℕ} {peak : List ℤ} {dayType : ℤ} {power : ℚ}
    {app' : Appliance} {info : RunInfo} (hw : ValidWindows app) (hfc : 1 ≤ app.funcCycle) (hfl : app.flat ≠ "yes")
    (hfix : app.fixedCycle ≤ 0) (hn : 1 ≤ app.number) (htv : 0 ≤ app.thermalPVar)
    (h : Returns (generateLoadProfileInfo app depth pref profI peak dayType power) (app', some info)) (i : Fin 1440) :
    (∃ b ∈ info.bookings, (i : ℤ) ∈ b.indexes ∧ 1 ≤ b.coincidence ∧ b.coincidence ≤ app.number ∧
      ∃ f : ℚ, |f - 1| ≤ app.thermalPVar ∧ app'.dailyUse i = b.coincidence * power * f) ∨
    ((∀ b ∈ info.bookings, (i : ℤ) ∉ b.indexes) ∧
      app'.dailyUse i = if InWindow info.w1 i ∨ InWindow info.w2 i ∨ InWindow info.w3 i then 1 / 1000 else 0) := by
  have hs := switchRun_of_returns hw hfc hfl h
  rcases run_value hs i with ⟨b, hb, hib, ⟨hf, _⟩ | ⟨_, f, hf, e⟩⟩ | ⟨e, hno⟩
  · omega
  · obtain ⟨c1, c2, _⟩ := run_coincidence hs hn hb
    rw [abs_of_nonneg htv] at hf
    exact .inl ⟨b, hb, hib, c1, c2, f, hf, e⟩
  · exact .inr ⟨hno hfix, by rw [e, windowProfile_def]⟩

/-- **C19, exact multiples.** With `thermal_p_var = 0` every booked minute carries an integer multiple `c * power`, `1 ≤ c ≤ number`. -/
theorem C19_exact_multiples {app : Appliance} {depth : ℕ} {pref : ℤ} {profI : ℕ} {peak : List ℤ} {dayType : ℤ} {power : ℚ}
    {app' : Appliance} {info : RunInfo} (hw : ValidWindows app) (hfc : 1 ≤ app.funcCycle) (hfl : app.flat ≠ "yes")
    (hfix : app.fixedCycle ≤ 0) (hn : 1 ≤ app.number) (htv : app.thermalPVar = 0)
    (h : Returns (generateLoadProfileInfo app depth pref profI peak dayType power) (app', some info)) (i : Fin 1440)
    (hi : ∃ b ∈ info.bookings, (i : ℤ) ∈ b.indexes) :
    ∃ c : ℤ, 1 ≤ c ∧ c ≤ app.number ∧ app'.dailyUse i = c * power := by
  rcases C19_minute_values hw hfc hfl hfix hn htv.ge h i with ⟨b, _, _, h1, h2, f, hf, e⟩ | ⟨hno, _⟩
  · rw [htv] at hf
    have : f = 1 := by
      have := abs_nonpos_iff.1 hf; linarith
    exact ⟨b.coincidence, h1, h2, by rw [e, this, mul_one]⟩
  · obtain ⟨b, hb, hib⟩ := hi
    exact absurd hib (hno b hb)

/-- **C19, one value per event.** When the windows do not touch, all minutes of one event carry the same value. -/
theorem C19_constant_during_event {app : Appliance} {depth : ℕ} {pref : ℤ} {profI : ℕ} {peak : List ℤ} {dayType : ℤ} {power : ℚ}
    {app' : Appliance} {info : RunInfo} (hw : ValidWindows app) (hfc : 1 ≤ app.funcCycle) (hfl : app.flat ≠ "yes")
    (hfix : app.fixedCycle ≤ 0) (h : Returns (generateLoadProfileInfo app depth pref profI peak dayType power) (app', some info))
    (hap : WindowsApart info.w1 info.w2 info.w3) (b : Booking) (hb : b ∈ info.bookings) :
    ∃ f : ℚ, |f - 1| ≤ |app.thermalPVar| ∧ ∀ i : Fin 1440, (i : ℤ) ∈ b.indexes → app'.dailyUse i = b.coincidence * power * f := by
  have hs := switchRun_of_returns hw hfc hfl h
  obtain ⟨d, f, j, c1, c2, c3, hcfg⟩ := hs.cfg
  obtain ⟨v, hv, hval⟩ := painted_disjoint hs.paint
    (fun b hb => (hs.ok b (List.mem_reverse.1 hb)).runOfDay (filter_day hs.d1 hs.d2 hs.d3))
    (by rw [List.pairwise_reverse]; exact (hs.sep hap).2.2.imp (fun hh m hm hm' => hh m hm' hm)) b (List.mem_reverse.2 hb)
  rcases hv with ⟨hf, _⟩ | ⟨_, x, rfl, hx⟩
  · rw [hcfg] at hf; simp only at hf; omega
  · obtain ⟨f, hf, e⟩ := (sat_randomVariation app'.thermalPVar _ (E := fun _ => True)).ret hx
    refine ⟨f, by rw [hcfg] at hf; exact hf, fun i hi => ?_⟩
    obtain ⟨k, hk⟩ := List.mem_iff_getElem?.1 hi
    rw [hval (by simp) k i hk]
    simp [e, Nat.mod_one]

/-- A case for C19. -/
example : ∃ app app' info, BuiltAs separatedArgs app ∧
    Returns (generateLoadProfileInfo app 1000 0 0 (minutesFrom 0 60) 0 100) (app', some info) ∧
    ∃ b ∈ info.bookings, (7 : ℤ) ∈ b.indexes := by
  obtain ⟨app, app', info, h1, h2, h3⟩ := separated_run
  exact ⟨app, app', info, h1, h2, ⟨minutesFrom 5 10, minutesFrom 5 10, 1, 0⟩, by rw [h3]; simp, by decide⟩

/-! ## C20 -/

theorem inBand_bounds {tv p x P : ℚ} (h : InBand tv p x) (h0 : 0 ≤ tv) (h1 : tv ≤ 1) (hp : 0 ≤ p) (hP : p ≤ P) :
    0 ≤ x ∧ x ≤ P * (1 + tv) := by
  obtain ⟨f, hf, rfl⟩ := h
  rw [abs_of_nonneg h0, abs_le] at hf
  have hf0 : 0 ≤ f := by linarith [hf.1]
  refine ⟨mul_nonneg hp hf0, ?_⟩
  have : f ≤ 1 + tv := by linarith [hf.2]
  nlinarith

theorem run_samples {app : Appliance} {peak : List ℤ} {power : ℚ} {app' : Appliance} {info : RunInfo}
    (hs : SwitchRun app peak power app' info) (hfix : 0 < app.fixedCycle) (i : ℤ) :
    ∀ s ∈ dutyCycleOf app' i, SampleOK app s := by
  obtain ⟨d, hc⟩ := hs.cycles
  obtain ⟨h1, h2, h3⟩ := (sat_assign_samples { app with dailyUse := d } hfix).ret hc
  unfold dutyCycleOf
  split_ifs
  · exact h1
  · exact h2
  · exact h3

/-- **C20.** With non-negative powers and `0 ≤ thermal_p_var ≤ 1`, every value of the profile lies between 0 and the larger of
0.001 and `number * P * (1 + thermal_p_var)`, `P` being any bound on the rated power of the day and the duty-cycle powers. -/
theorem C20_profile_bounds {app : Appliance} {depth : ℕ} {pref : ℤ} {profI : ℕ} {peak : List ℤ} {dayType : ℤ} {power P : ℚ}
    {app' : Appliance} (hw : ValidWindows app) (hfc : 1 ≤ app.funcCycle) (hn : 1 ≤ app.number)
    (htv0 : 0 ≤ app.thermalPVar) (htv1 : app.thermalPVar ≤ 1) (hday : app.power[profI]? = some power)
    (hpow : ∀ p ∈ [power, app.p11, app.p12, app.p21, app.p22, app.p31, app.p32], 0 ≤ p ∧ p ≤ P)
    (h : Returns (generateLoadProfile app depth pref profI peak dayType power) app') (i : Fin 1440) :
    0 ≤ app'.dailyUse i ∧ app'.dailyUse i ≤ max (1 / 1000) (app.number * P * (1 + app.thermalPVar)) := by
  have hP : 0 ≤ P := (hpow power (by simp)).1.trans (hpow power (by simp)).2
  have hnq : (1 : ℚ) ≤ app.number := by exact_mod_cast hn
  obtain ⟨o, h⟩ := returns_generate_iff.1 h
  cases o with
  | none =>
    rcases (sat_generateInfo app depth pref profI peak dayType power hw hfc).ret h with ⟨_, h, _⟩ | ⟨info, h, _⟩
    · simp only at h; rw [h]
      exact ⟨le_rfl, le_max_of_le_left (by norm_num [zeros])⟩
    · simp at h
  | some info =>
    by_cases hfl : app.flat = "yes"
    · rcases (runOK_of_returns hw hfc h).run with ⟨_, _, pw, hpw, rfl⟩ | ⟨hn, _⟩
      · have hpw' : app.power[profI]? = some pw := hpw
        rw [hday] at hpw'
        cases hpw'
        have hb := hpow power (by simp)
        show 0 ≤ windowProfile _ _ _ (power * (app.number : ℚ)) i ∧ windowProfile _ _ _ (power * (app.number : ℚ)) i ≤ _
        rw [windowProfile_def]
        split_ifs
        · refine ⟨mul_nonneg hb.1 (by linarith), le_max_of_le_right ?_⟩
          have : power * (app.number : ℚ) ≤ app.number * P := by nlinarith
          nlinarith [mul_nonneg (by linarith : (0:ℚ) ≤ app.number) hP]
        · exact ⟨le_rfl, le_max_of_le_left (by norm_num)⟩
      · exact absurd hfl hn
    · have hs := switchRun_of_returns hw hfc hfl h
      rcases run_value hs i with ⟨b, hb, hib, ⟨hf, s, hs', e⟩ | ⟨_, hband⟩⟩ | ⟨e, _⟩
      · obtain ⟨c1, c2, _⟩ := run_coincidence hs hn hb
        have c1q : (1 : ℚ) ≤ b.coincidence := by exact_mod_cast c1
        have c2q : (b.coincidence : ℚ) ≤ app.number := by exact_mod_cast c2
        obtain ⟨p, hp, hband⟩ := run_samples hs hf _ s hs'
        have hpp := hpow p (by simp only [List.mem_cons] at hp ⊢; tauto)
        obtain ⟨s0, s1⟩ := inBand_bounds hband htv0 htv1 hpp.1 hpp.2
        rw [e]
        refine ⟨mul_nonneg s0 (by linarith), le_max_of_le_right ?_⟩
        calc s * (b.coincidence : ℚ) ≤ (P * (1 + app.thermalPVar)) * app.number :=
              mul_le_mul s1 c2q (by linarith) (mul_nonneg hP (by linarith))
          _ = _ := by ring
      · obtain ⟨c1, c2, _⟩ := run_coincidence hs hn hb
        have c1q : (1 : ℚ) ≤ b.coincidence := by exact_mod_cast c1
        have c2q : (b.coincidence : ℚ) ≤ app.number := by exact_mod_cast c2
        have hpp := hpow power (by simp)
        obtain ⟨s0, s1⟩ := inBand_bounds (P := app.number * P) hband htv0 htv1 (mul_nonneg (by linarith) hpp.1)
          (mul_le_mul c2q hpp.2 hpp.1 (by linarith))
        exact ⟨s0, le_max_of_le_right s1⟩
      · rw [e, windowProfile_def]
        split_ifs
        · exact ⟨by norm_num, le_max_left _ _⟩
        · exact ⟨le_rfl, le_max_of_le_left (by norm_num)⟩

/-! ## C21 -/

theorem card_covered (bs : List Booking) :
    ((Finset.univ : Finset (Fin 1440)).filter (fun i : Fin 1440 => ∃ b ∈ bs, (i : ℤ) ∈ b.indexes)).card ≤
      (bs.map (fun b => b.indexes.length)).sum := by
  induction bs with
  | nil => simp
  | cons b bs ih =>
    have hsub : ((Finset.univ : Finset (Fin 1440)).filter (fun i : Fin 1440 => ∃ c ∈ b :: bs, (i : ℤ) ∈ c.indexes)) ⊆
        ((Finset.univ : Finset (Fin 1440)).filter (fun i : Fin 1440 => (i : ℤ) ∈ b.indexes)) ∪
        ((Finset.univ : Finset (Fin 1440)).filter (fun i : Fin 1440 => ∃ c ∈ bs, (i : ℤ) ∈ c.indexes)) := by
      intro i hi
      simp only [Finset.mem_filter, Finset.mem_univ, true_and, List.mem_cons, exists_eq_or_imp, Finset.mem_union] at hi ⊢
      exact hi
    have hb : ((Finset.univ : Finset (Fin 1440)).filter (fun i : Fin 1440 => (i : ℤ) ∈ b.indexes)).card ≤ b.indexes.length := by
      have : ((Finset.univ : Finset (Fin 1440)).filter (fun i : Fin 1440 => (i : ℤ) ∈ b.indexes)).image (fun i : Fin 1440 => (i : ℤ)) ⊆
          b.indexes.toFinset := by
        intro m hm
        simp only [Finset.mem_image, Finset.mem_filter, Finset.mem_univ, true_and] at hm
        obtain ⟨i, hi, rfl⟩ := hm
        exact List.mem_toFinset.2 hi
      have h1 := Finset.card_le_card this
      rw [Finset.card_image_of_injective] at h1
      · exact h1.trans (List.toFinset_card_le _)
      · intro x y hxy
        simp only at hxy
        exact Fin.ext (by exact_mod_cast hxy)
    calc _ ≤ _ := Finset.card_le_card hsub
      _ ≤ _ := Finset.card_union_le _ _
      _ ≤ _ := by simp only [List.map_cons, List.sum_cons]; omega

/-- **C21, partial.** The number of minutes of the day at which the profile is neither 0 nor the marker 0.001 is at most
`max(func_cycle, func_time*(1+variability))` and at most 99 % of the window time.  Missing: flat appliances, which are on
during their whole windows (`C21_flat_exceeds`). -/
theorem C21_minutes_in_use_partial {app : Appliance} {depth : ℕ} {pref : ℤ} {profI : ℕ} {peak : List ℤ} {dayType : ℤ} {power : ℚ}
    {app' : Appliance} {info : RunInfo} (hw : ValidWindows app) (hfc : 1 ≤ app.funcCycle) (hfl : app.flat ≠ "yes")
    (hft : 0 ≤ app.funcTime) (hv0 : 0 ≤ app.timeFractionRandomVariability) (hv1 : app.timeFractionRandomVariability ≤ 1)
    (h : Returns (generateLoadProfileInfo app depth pref profI peak dayType power) (app', some info)) :
    let used : ℚ := (((Finset.univ : Finset (Fin 1440)).filter
      (fun i => app'.dailyUse i ≠ 0 ∧ app'.dailyUse i ≠ 1 / 1000)).card : ℚ)
    used ≤ max (app.funcCycle : ℚ) (app.funcTime * (1 + app.timeFractionRandomVariability)) ∧
    used ≤ 99 / 100 * totalTime info.w1 info.w2 info.w3 := by
  have hs := switchRun_of_returns hw hfc hfl h
  have hsum : bookedTime info.bookings ≤ info.randTime := by rcases hs.time with h | h <;> omega
  have hbt : bookedTime info.bookings = ((info.bookings.map (fun b => b.indexes.length)).sum : ℕ) := by
    unfold bookedTime
    generalize info.bookings = bs
    induction bs with
    | nil => simp
    | cons b bs ih => simp [ih]
  have hsub : (Finset.univ : Finset (Fin 1440)).filter (fun i => app'.dailyUse i ≠ 0 ∧ app'.dailyUse i ≠ 1 / 1000) ⊆
      (Finset.univ : Finset (Fin 1440)).filter (fun i : Fin 1440 => ∃ b ∈ info.bookings, (i : ℤ) ∈ b.indexes) := by
    intro i hi
    simp only [Finset.mem_filter, Finset.mem_univ, true_and] at hi ⊢
    rcases run_value hs i with ⟨b, hb, hib, _⟩ | ⟨e, _⟩
    · exact ⟨b, hb, hib⟩
    · rw [windowProfile_def] at e
      split_ifs at e
      · exact absurd e hi.2
      · exact absurd e hi.1
  have hcard : (((Finset.univ : Finset (Fin 1440)).filter
      (fun i => app'.dailyUse i ≠ 0 ∧ app'.dailyUse i ≠ 1 / 1000)).card : ℚ) ≤ info.randTime := by
    have := (Finset.card_le_card hsub).trans (card_covered info.bookings)
    exact_mod_cast (by omega : (((Finset.univ : Finset (Fin 1440)).filter
      (fun i => app'.dailyUse i ≠ 0 ∧ app'.dailyUse i ≠ 1 / 1000)).card : ℤ) ≤ info.randTime)
  have d1 := hs.d1.2.1
  have d2 := hs.d2.2.1
  have d3 := hs.d3.2.1
  have ht : 0 ≤ totalTime info.w1 info.w2 info.w3 := by unfold totalTime; omega
  obtain ⟨_, h2, h3, _⟩ := C07_time_of_use_bounds app info.w1 info.w2 info.w3 info.randTime hft hv0 hv1 ht hs.randTime
  exact ⟨hcard.trans h3, hcard.trans h2⟩

/-! ## C22 -/

/-- **C22.** If the preference or the type of day does not match, or there is no time of use, the result is the zero profile for
every random outcome, no error is raised and nothing else of the appliance changes.  No hypothesis on the appliance. -/
theorem C22_skipped {app : Appliance} {depth : ℕ} {pref : ℤ} {profI : ℕ} {peak : List ℤ} {dayType : ℤ} {power : ℚ}
    (hskip : SkippedForSure app pref dayType) (rng : Rng) :
    ∃ rng', generateLoadProfile app depth pref profI peak dayType power rng = .ok ({ app with dailyUse := zeros }, rng') := by
  have hsat : Sat (generateLoadProfile app depth pref profI peak dayType power) (fun r => r = { app with dailyUse := zeros })
      (fun _ => False) := by
    unfold generateLoadProfile generateLoadProfileInfo
    refine sat_bind (sat_bind (sat_uniform fun u _ _ => ?_))
    refine sat_ite (fun _ => sat_pure (sat_pure rfl)) (fun hno => absurd ?_ hno)
    rcases hskip with h | h | h
    · exact .inr (.inl h)
    · right; right; left; push Not; exact h
    · exact .inr (.inr (.inr h))
  have := hsat rng
  cases h : generateLoadProfile app depth pref profI peak dayType power rng with
  | error e => rw [h] at this; exact this.elim
  | ok p => obtain ⟨a, r⟩ := p; rw [h] at this; simp only at this; subst this; exact ⟨r, rfl⟩

/-- **C22.** An appliance can be skipped exactly if it does not match the day or `occasional_use < 1`; in particular with
`occasional_use ≥ 1` and a matching day it is never skipped. -/
theorem C22_skip_possible_iff {app : Appliance} {depth : ℕ} {pref : ℤ} {profI : ℕ} {peak : List ℤ} {dayType : ℤ} {power : ℚ} :
    (∃ app', Returns (generateLoadProfileInfo app depth pref profI peak dayType power) (app', none)) ↔
      SkippedForSure app pref dayType ∨ app.occasionalUse < 1 := by
  constructor
  · rintro ⟨app', h⟩
    have hsat : Sat (generateLoadProfileInfo app depth pref profI peak dayType power)
        (fun r => r.2 = none → SkippedForSure app pref dayType ∨ app.occasionalUse < 1) (fun _ => True) := by
      unfold generateLoadProfileInfo
      refine sat_bind (sat_uniform fun u hu0 hu1 => ?_)
      refine sat_ite (fun hskip => sat_pure fun _ => ?_) (fun hno => ?_)
      · simp only at hskip
        unfold SkippedForSure
        rcases hskip with h | h | h | h
        · right
          have : (0:ℚ) + (1 - 0) * u ≤ 1 := by linarith
          linarith
        · exact .inl (.inl h)
        · left; right; left
          push Not at h; exact h
        · left; right; right; exact h
      · refine sat_bind' sat_true fun w1 _ => sat_bind' sat_true fun w2 _ => sat_bind' sat_true fun w3 _ =>
          sat_bind' sat_true fun rt _ => ?_
        refine sat_ite (fun _ => ?_) (fun _ => ?_)
        · split
          · exact sat_raise trivial
          · exact sat_bind' sat_true fun _ _ => sat_pure (by simp)
        · refine sat_bind' sat_true fun _ _ => sat_bind' sat_true fun _ _ => ?_
          refine sat_bind' sat_true fun r _ => ?_
          exact sat_pure (by simp)
    exact hsat.ret h rfl
  · intro h
    refine ⟨{ app with dailyUse := zeros }, ?_⟩
    refine Reach.returns ?_
    unfold generateLoadProfileInfo
    refine reach_bind (a := (1 : ℚ)) (reach_uniform_of_mem (by norm_num) le_rfl) ?_
    rw [if_pos]
    · exact reach_pure _
    · rcases h with (h | h | h) | h
      · exact .inr (.inl h)
      · right; right; left; push Not; exact h
      · exact .inr (.inr (.inr h))
      · exact .inl h

/-- Cases for C22: a weekend appliance on a weekday; an appliance with another preference. -/
example : SkippedForSure ({ wdWeType := 1, funcTime := 60 } : Appliance) 0 0 ∧
    SkippedForSure ({ prefIndex := 2, funcTime := 60 } : Appliance) 1 0 ∧ ¬ SkippedForSure ({ funcTime := 60 } : Appliance) 1 0 := by
  refine ⟨.inr (.inl (by decide)), .inl (by decide), ?_⟩
  rintro (h | h | h) <;> revert h <;> decide

/-! ## C23 -/

theorem moved_zero {w v : ℤ × ℤ} (hw : DayWindow w) (h : MovedWindow w 0 v) : v = w := by
  obtain ⟨a, b, ha, hb, rfl⟩ := h
  unfold DayWindow at hw
  ext <;> simp <;> omega

/-- **C23.** A flat appliance without window variability that is used on the day has exactly `power[day] * number` at each minute of
its windows and 0 elsewhere, for every random outcome; it fails only if `func_cycle` exceeds 99 % of the window time. -/
theorem C23_flat_deterministic {app : Appliance} {depth : ℕ} {pref : ℤ} {profI : ℕ} {peak : List ℤ} {dayType : ℤ} {power pw : ℚ}
    (hw : ValidWindows app) (hfc : 1 ≤ app.funcCycle) (hfl : app.flat = "yes")
    (hr : app.randomVar1 = 0 ∧ app.randomVar2 = 0 ∧ app.randomVar3 = 0) (hocc : 1 ≤ app.occasionalUse)
    (hday : ¬ SkippedForSure app pref dayType) (hpw : app.power[profI]? = some pw) (hft : 0 ≤ app.funcTime)
    (hv0 : 0 ≤ app.timeFractionRandomVariability) (hv1 : app.timeFractionRandomVariability ≤ 1)
    (hfit : (app.funcCycle : ℚ) ≤ 99 / 100 * totalTime app.window1 app.window2 app.window3) (rng : Rng) :
    ∃ app' rng', generateLoadProfile app depth pref profI peak dayType power rng = .ok (app', rng') ∧
      ∀ i : Fin 1440, app'.dailyUse i =
        if InWindow app.window1 i ∨ InWindow app.window2 i ∨ InWindow app.window3 i then pw * app.number else 0 := by
  have hs := sat_generateInfo app depth pref profI peak dayType power hw hfc
  have mz : ∀ {w v : ℤ × ℤ} {r : ℤ}, DayWindow w → r = 0 → MovedWindow w r v → v = w := by
    intro w v r hw hr h; subst hr; exact moved_zero hw h
  have hne : NeverRaises (generateLoadProfile app depth pref profI peak dayType power) := by
    intro e he
    obtain ⟨_, hg⟩ := hs.err (raises_generate_iff.1 he)
    cases hg with
    | reversed m1 m2 m3 hrev =>
      rw [mz hw.w1 hr.1 m1, mz hw.w2 hr.2.1 m2, mz hw.w3 hr.2.2 m3] at hrev
      have := hw.w1.2.1; have := hw.w2.2.1; have := hw.w3.2.1
      omega
    | time m1 m2 m3 hrt =>
      rw [mz hw.w1 hr.1 m1, mz hw.w2 hr.2.1 m2, mz hw.w3 hr.2.2 m3] at hrt
      have ht : 0 ≤ totalTime app.window1 app.window2 app.window3 := by
        have := hw.w1.2.1; have := hw.w2.2.1; have := hw.w3.2.1
        unfold totalTime; omega
      have h2 := ((sat_randTime { app with dailyUse := zeros } app.window1 app.window2 app.window3 hft hv0 hv1 ht).err hrt).2
      have h3 : app.funcCycle ≤ maxUse app.window1 app.window2 app.window3 := Int.le_floor.2 hfit
      simp only at h2
      omega
    | power _ h => simp only at h; rw [hpw] at h; cases h
    | cycles h => exact absurd hfl h
    | loop h => exact absurd hfl h
  obtain ⟨app', rng', h⟩ := hne.total rng
  refine ⟨app', rng', h, fun i => ?_⟩
  obtain ⟨o, ho⟩ := returns_generate_iff.1 ⟨rng, rng', h⟩
  rcases hs.ret ho with ⟨_, _, h | h⟩ | ⟨info, rfl, _, _, hrun⟩
  · exact absurd h hday
  · linarith
  · rcases hrun.run with ⟨_, _, pw', hp', happ⟩ | ⟨h, _⟩
    · have hp'' : app.power[profI]? = some pw' := hp'
      rw [hpw] at hp''
      cases hp''
      have happ' : app'.dailyUse = windowProfile info.w1 info.w2 info.w3 (pw * app.number) := by
        rw [show app' = _ from happ]
      rw [happ', windowProfile_def, mz hw.w1 hr.1 hrun.m1, mz hw.w2 hr.2.1 hrun.m2, mz hw.w3 hr.2.2 hrun.m3]
    · exact absurd hfl h

/-- **C21, flat appliances.** They are on exactly during the windows of the day, whatever the time of use. -/
theorem C21_flat_minutes {app : Appliance} {depth : ℕ} {pref : ℤ} {profI : ℕ} {peak : List ℤ} {dayType : ℤ} {power pw : ℚ}
    {app' : Appliance} {info : RunInfo} (hw : ValidWindows app) (hfc : 1 ≤ app.funcCycle) (hfl : app.flat = "yes")
    (hpw : app.power[profI]? = some pw) (h0 : pw * app.number ≠ 0) (h1 : pw * app.number ≠ 1 / 1000)
    (h : Returns (generateLoadProfileInfo app depth pref profI peak dayType power) (app', some info)) (i : Fin 1440) :
    (app'.dailyUse i ≠ 0 ∧ app'.dailyUse i ≠ 1 / 1000) ↔ InWindow info.w1 i ∨ InWindow info.w2 i ∨ InWindow info.w3 i := by
  have hr := runOK_of_returns hw hfc h
  rcases hr.run with ⟨_, _, pw', hp', happ⟩ | ⟨h, _⟩
  · have hp'' : app.power[profI]? = some pw' := hp'
    rw [hpw] at hp''
    cases hp''
    have happ' : app'.dailyUse = windowProfile info.w1 info.w2 info.w3 (pw * app.number) := by
      rw [show app' = _ from happ]
    rw [happ', windowProfile_def]
    constructor
    · rintro ⟨n0, _⟩
      by_contra hn
      rw [if_neg hn] at n0
      exact n0 rfl
    · intro hi
      rw [if_pos hi]
      exact ⟨h0, h1⟩
  · exact absurd hfl h

/-- A case for C23: street lights from 18:00 to 24:00. -/
example : ∃ app : Appliance, ValidWindows app ∧ app.flat = "yes" ∧ ¬ SkippedForSure app 0 0 ∧
    (app.funcCycle : ℚ) ≤ 99 / 100 * totalTime app.window1 app.window2 app.window3 ∧ app.power[0]? = some 40 := by
  refine ⟨{ flat := "yes", funcTime := 360, power := [40], window1 := (1080, 1440) }, ?_, rfl, ?_, ?_, rfl⟩
  · constructor <;> (try unfold DayWindow) <;> simp
  · rintro (h | h | h) <;> revert h <;> decide
  · norm_num [totalTime]

/-- **C21 is false for flat appliances.** With `func_time = 10` a flat appliance is on during its whole window of 100 minutes. -/
theorem C21_flat_exceeds : ∃ app app' : Appliance, ValidWindows app ∧ app.funcTime = 10 ∧ app.timeFractionRandomVariability = 0 ∧
    Returns (generateLoadProfile app 1000 0 0 [] 0 40) app' ∧
    ∀ i : Fin 1440, 100 ≤ (i : ℤ) ∧ (i : ℤ) < 200 → app'.dailyUse i = 40 := by
  have hv : ValidWindows ({ flat := "yes", funcTime := 10, power := [40], window1 := (100, 200) } : Appliance) := by
    constructor <;> (try unfold DayWindow) <;> simp
  obtain ⟨app', rng', h, hi⟩ := C23_flat_deterministic (app := { flat := "yes", funcTime := 10, power := [40], window1 := (100, 200) })
    (depth := 1000) (pref := 0) (profI := 0) (peak := []) (dayType := 0) (power := 40) (pw := 40) hv (by decide) rfl
    ⟨rfl, rfl, rfl⟩ le_rfl (by rintro (h | h | h) <;> revert h <;> decide) rfl (by decide) le_rfl (by norm_num)
    (by norm_num [totalTime]) (fun _ => draw0)
  refine ⟨_, app', hv, rfl, rfl, ⟨_, rng', h⟩, fun i hi' => ?_⟩
  rw [hi i, if_pos (.inl hi')]; norm_num

end Ramp
