import Verif.Lemmas.Together

/-! # C113: how many appliances are on together, on average -/

set_option autoImplicit false

open MeasureTheory ENNReal

namespace Ramp

variable {μ : Measure Draw}

/-! ## Use cases with changed appliances -/

/-- All appliances of all users, changed by `F`. -/
def mapAppliances (F : Appliance → Appliance) (us : List User) : List User := us.map (fun u => { u with appList := u.appList.map F })

theorem mapAppliances_id (us : List User) : mapAppliances id us = us := by
  unfold mapAppliances
  simp only [List.map_id]
  exact List.map_id us

/-- The changed appliances are sensible. -/
structure GoodChange (F : Appliance → Appliance) (days : ℕ) (us : List User) : Prop where
  preference : ∀ u ∈ us, 0 ≤ u.userPreference
  sensible : ∀ u ∈ us, ∀ a ∈ u.appList, SensibleAppliance (F a)
  days : ∀ u ∈ us, ∀ a ∈ u.appList, days ≤ (F a).power.length
  powers : ∀ u ∈ us, ∀ a ∈ u.appList, ∃ P, PowersUpTo P (F a)

variable {F F' : Appliance → Appliance} {us : List User}

theorem GoodChange.users {n : ℕ} (h : GoodChange F n us) : (∀ u ∈ mapAppliances F us, SensibleUser u) ∧ (∀ u ∈ mapAppliances F us, ∀ a ∈ u.appList, n ≤ a.power.length) ∧
    ∀ u ∈ mapAppliances F us, ∀ a ∈ u.appList, ∃ P, PowersUpTo P a := by
  refine ⟨fun u hu => ?_, fun u hu a ha => ?_, fun u hu a ha => ?_⟩
  · obtain ⟨v, hv, rfl⟩ := List.mem_map.1 hu
    refine ⟨h.preference v hv, fun a ha => ?_⟩
    obtain ⟨b, hb, rfl⟩ := List.mem_map.1 ha
    exact h.sensible v hv b hb
  · obtain ⟨v, hv, rfl⟩ := List.mem_map.1 hu
    obtain ⟨b, hb, rfl⟩ := List.mem_map.1 ha
    exact h.days v hv b hb
  · obtain ⟨v, hv, rfl⟩ := List.mem_map.1 hu
    obtain ⟨b, hb, rfl⟩ := List.mem_map.1 ha
    exact h.powers v hv b hb

theorem mapped_load [IsProbabilityMeasure μ] {env : Env} {depth : ℕ} {uc : UseCase} {ds peak : List ℤ} {days : Option (List ℤ)} (hr : Ready uc ds peak) (hp : peak ≠ [])
    (h : GoodChange F ds.length us) {k : ℕ} (hk : k < ds.length) (i : Fin 1440) :
    expectedLoad μ (dailyRows env (depth + 1) { uc with users := mapAppliances F us } days) k i =
      (us.map (fun u => (u.numUsers.toNat : ℝ≥0∞) * (u.appList.map (fun a =>
        MeanOf μ (drawPreference u.userPreference) (fun pref => MeanOf μ (applianceRun (depth + 1) k peak (typeOfDay ds[k]) pref (F a)) (loadAt i)))).sum)).sum := by
  obtain ⟨h1, h2, h3⟩ := h.users
  refine (mean_rows_sensible (μ := μ) (env := env) (depth := depth) (days := days) (ready_users hr (mapAppliances F us)) hp h1 h2 h3 hk (C104_load_adds_up i)).trans ?_
  congr 1
  show (mapAppliances F us).map _ = _
  unfold mapAppliances
  rw [List.map_map]
  refine List.map_congr_left fun u _ => ?_
  simp only [Function.comp_apply, List.map_map]
  rfl

theorem scaled_sums {α : Type} {c : ℝ≥0∞} {f g : α → ℝ≥0∞} : ∀ {l : List α}, (∀ x ∈ l, c * f x ≤ g x) → c * (l.map f).sum ≤ (l.map g).sum := by
  intro l
  induction l with
  | nil => exact fun _ => by simp
  | cons a l ih =>
    intro h
    simp only [List.map_cons, List.sum_cons, mul_add]
    exact add_le_add (h a (by simp)) (ih fun x hx => h x (by simp [hx]))

/-- Comparing two use cases appliance by appliance. -/
theorem compare_cases [IsProbabilityMeasure μ] {env env' : Env} {depth : ℕ} {uc uc' : UseCase} {ds peak peak' : List ℤ} {days days' : Option (List ℤ)} (hr : Ready uc ds peak)
    (hr' : Ready uc' ds peak') (hp : peak ≠ []) (hp' : peak' ≠ []) (h : GoodChange F ds.length us) (h' : GoodChange F' ds.length us) {k : ℕ} (hk : k < ds.length) {c : ℝ≥0∞}
    (hc : ∀ u ∈ us, ∀ a ∈ u.appList, ∀ dt pref i, c * MeanOf μ (applianceRun (depth + 1) k peak dt pref (F a)) (loadAt i) ≤ MeanOf μ (applianceRun (depth + 1) k peak' dt pref (F' a)) (loadAt i)) :
    (∀ i, c * expectedLoad μ (dailyRows env (depth + 1) { uc with users := mapAppliances F us } days) k i ≤
      expectedLoad μ (dailyRows env' (depth + 1) { uc' with users := mapAppliances F' us } days') k i) ∧
    c * expectedEnergy μ (dailyRows env (depth + 1) { uc with users := mapAppliances F us } days) k ≤
      expectedEnergy μ (dailyRows env' (depth + 1) { uc' with users := mapAppliances F' us } days') k := by
  have hload : ∀ i, c * expectedLoad μ (dailyRows env (depth + 1) { uc with users := mapAppliances F us } days) k i ≤
      expectedLoad μ (dailyRows env' (depth + 1) { uc' with users := mapAppliances F' us } days') k i := by
    intro i
    rw [mapped_load hr hp h hk, mapped_load hr' hp' h' hk]
    refine scaled_sums fun u hu => ?_
    rw [mul_left_comm]
    refine mul_le_mul_right (scaled_sums fun a ha => ?_) _
    rw [← meanOf_mul_left (fin_drawPreference _)]
    exact meanOf_le fun pref => hc u hu a ha _ pref i
  refine ⟨hload, ?_⟩
  obtain ⟨h1, h2, h3⟩ := h.users
  obtain ⟨h1', h2', h3'⟩ := h'.users
  have hn : NeverRaises (generateDaily env (depth + 1) { uc with users := mapAppliances F us } days) := C82_sensible_never_fails days (ready_users hr _) hp h1 h2
  have hn' : NeverRaises (generateDaily env' (depth + 1) { uc' with users := mapAppliances F' us } days') := C82_sensible_never_fails days' (ready_users hr' _) hp' h1' h2'
  rw [energy_by_minutes (ready_users hr (mapAppliances F us)) (never_dailyRows hn) h3 hk, energy_by_minutes (ready_users hr' (mapAppliances F' us)) (never_dailyRows hn') h3' hk, Finset.mul_sum]
  exact Finset.sum_le_sum fun i _ => hload i

/-! ## The appliances that replace several -/

theorem asOne_eq (κ : Appliance → ℚ) (a : Appliance) : asOneAppliance κ a = oneOf (κ a) a := rfl

theorem sensible_asOne (κ : Appliance → ℚ) {a : Appliance} (h : SensibleAppliance a) : SensibleAppliance (asOneAppliance κ a) :=
  ⟨⟨⟨h.config.windows.w1, h.config.windows.w2, h.config.windows.w3, h.config.windows.r1, h.config.windows.r2, h.config.windows.r3⟩,
    h.config.fc, h.config.ft, h.config.var, h.config.half1, h.config.half2, h.config.half3, h.config.room, le_refl _,
    ⟨h.config.cycles.tv, h.config.cycles.t11, h.config.cycles.t12, h.config.cycles.t21, h.config.cycles.t22, h.config.cycles.t31,
      h.config.cycles.t32, h.config.cycles.rc1, h.config.cycles.rc2, h.config.cycles.rc3⟩⟩,
    ⟨h.ordered.c11, h.ordered.c12, h.ordered.c21, h.ordered.c22, h.ordered.c31, h.ordered.c32⟩, h.cycles⟩

theorem powersUpTo_asOne {κ : Appliance → ℚ} {P : ℚ} {a : Appliance} (h : PowersUpTo P a) (hκ : 0 ≤ κ a) : PowersUpTo (κ a * P) (asOneAppliance κ a) := by
  have key : ∀ p, 0 ≤ p ∧ p ≤ P → 0 ≤ κ a * p ∧ κ a * p ≤ κ a * P := fun p hp => ⟨mul_nonneg hκ hp.1, mul_le_mul_of_nonneg_left hp.2 hκ⟩
  refine ⟨⟨h.windows.w1, h.windows.w2, h.windows.w3, h.windows.r1, h.windows.r2, h.windows.r3⟩, h.cycle, le_refl _, h.thermal, ?_, ?_⟩
  · intro p hp
    obtain ⟨q, hq, rfl⟩ := List.mem_map.1 hp
    exact key q (h.powers q hq)
  · intro p hp
    have hp' : p ∈ [a.p11, a.p12, a.p21, a.p22, a.p31, a.p32].map (κ a * ·) := hp
    obtain ⟨q, hq, rfl⟩ := List.mem_map.1 hp'
    exact key q (h.cyclePowers q hq)

theorem good_id {uc : UseCase} {n : ℕ} (hs : ∀ u ∈ uc.users, SensibleUser u) (hl : ∀ u ∈ uc.users, ∀ a ∈ u.appList, n ≤ a.power.length)
    (hP : ∀ u ∈ uc.users, ∀ a ∈ u.appList, ∃ P, PowersUpTo P a) : GoodChange id n uc.users :=
  ⟨fun u hu => (hs u hu).preference, fun u hu a ha => (hs u hu).appliances a ha, hl, hP⟩

theorem good_asOne {κ : Appliance → ℚ} {uc : UseCase} {n : ℕ} (hs : ∀ u ∈ uc.users, SensibleUser u) (hl : ∀ u ∈ uc.users, ∀ a ∈ u.appList, n ≤ a.power.length)
    (hP : ∀ u ∈ uc.users, ∀ a ∈ u.appList, ∃ P, PowersUpTo P a) (hκ : ∀ u ∈ uc.users, ∀ a ∈ u.appList, 0 ≤ κ a) : GoodChange (asOneAppliance κ) n uc.users :=
  ⟨fun u hu => (hs u hu).preference, fun u hu a ha => sensible_asOne κ ((hs u hu).appliances a ha), fun u hu a ha => by
    show n ≤ (a.power.map (κ a * ·)).length
    rw [List.length_map]
    exact hl u hu a ha, fun u hu a ha => by
    obtain ⟨P, h⟩ := hP u hu a ha
    exact ⟨_, powersUpTo_asOne h (hκ u hu a ha)⟩⟩

theorem users_id (uc : UseCase) : { uc with users := mapAppliances id uc.users } = uc := by rw [mapAppliances_id]

/-! ## One appliance -/

theorem fewest_flat {a : Appliance} (h : a.flat = "yes") : fewestTogether a = a.number := if_neg fun h' => h'.2 h
theorem most_flat {a : Appliance} (h : a.flat = "yes") : mostTogether a = a.number := if_neg fun h' => h'.2 h

theorem within_off {i0 i1 q0 q1 : ℤ} (h01 : i0 ≤ i1) (key : ∀ m, i0 ≤ m → m ≤ i1 → ¬ (q0 ≤ m ∧ m ≤ q1)) (hq : q0 ≤ q1) : withinPeakTimeWindow i0 i1 q0 q1 = false := by
  have k1 := key i0 (le_refl _) h01
  have k2 := key i1 h01 (le_refl _)
  by_cases hlt : i1 < q0
  · unfold withinPeakTimeWindow
    simp only [show i0 < q0 ∧ i1 < q0 from ⟨by omega, hlt⟩, and_self, if_true]
    split_ifs <;> rfl
  · have hgt : q1 < i0 := by
      by_contra hc
      by_cases hc2 : q0 ≤ i0
      · omega
      · exact key q0 (by omega) (by omega) ⟨le_refl _, hq⟩
    unfold withinPeakTimeWindow
    simp only [show i0 > q1 ∧ i1 > q1 from ⟨hgt, by omega⟩, and_self, if_true]

theorem within_on {i0 i1 q0 q1 : ℤ} (h01 : i0 ≤ i1) (key : ∀ m, i0 ≤ m → m ≤ i1 → q0 ≤ m ∧ m ≤ q1) : withinPeakTimeWindow i0 i1 q0 q1 = true := by
  have k1 := key i0 (le_refl _) h01
  unfold withinPeakTimeWindow
  simp only
  rw [if_neg (by omega), if_neg (by omega)]

theorem outside_in {q0 q1 : ℤ} {a : Appliance} (h : OutsidePeak q0 q1 a) : WindowsIn (fun m => ¬ (q0 ≤ m ∧ m ≤ q1)) a := by
  intro w hw m h1 h2
  have := h w hw
  omega

theorem within_in {q0 q1 : ℤ} {a : Appliance} (h : WithinPeak q0 q1 a) : WindowsIn (fun m => q0 ≤ m ∧ m ≤ q1) a := by
  intro w hw m h1 h2
  have := h w hw
  omega

section Appliance

variable {N : ℕ} {a : Appliance} {P : ℚ} {peak : List ℤ} {depth k : ℕ} {dt pref : ℤ} {i : Fin 1440}

theorem at_most (h : PythonRandom N μ) (hz : SymmetricNormal μ) (hP : PowersUpTo P a) (hs : SensibleAppliance a) :
    MeanOf μ (applianceRun depth k peak dt pref a) (loadAt i) ≤ MeanOf μ (applianceRun depth k peak dt pref (asOneAppliance mostTogether a)) (loadAt i) := by
  have := h.probability
  exact one_appliance (μ := μ) (R := (· ≤ ·)) order_le hP hs.config (windowsIn_any a) (most_nonneg hP.number) most_flat
    (fun hfl _ _ _ _ _ _ _ _ => averages_le hP.number (most_nonneg hP.number) (mean_le_most h hz hfl hP.number _)) depth k dt pref i

theorem at_least' [IsProbabilityMeasure μ] (hP : PowersUpTo P a) (hs : SensibleAppliance a) {S : ℤ → Prop} (hS : WindowsIn S a)
    (hm : a.flat ≠ "yes" → ∀ i0 i1 q0 q1, i0 ≤ i1 → (∀ m, i0 ≤ m → m ≤ i1 → S m) → peak.head? = some q0 → peak.getLast? = some q1 →
      ENNReal.ofReal ((leftOver * fewestTogether a : ℚ) : ℝ) ≤ MeanOf μ (calcCoincidentSwitchOn a (withinPeakTimeWindow i0 i1 q0 q1)) (fun j => ENNReal.ofReal ((j : ℚ) : ℝ))) :
    ENNReal.ofReal (leftOver : ℝ) * MeanOf μ (applianceRun depth k peak dt pref (asOneAppliance fewestTogether a)) (loadAt i) ≤ MeanOf μ (applianceRun depth k peak dt pref a) (loadAt i) := by
  have hl := leftOver_bounds
  have hf := fewest_nonneg hP.number
  by_cases hfl : a.flat = "yes"
  · have h1 := one_appliance (μ := μ) (R := (· ≥ ·)) (peak := peak) order_ge hP hs.config (windowsIn_any a) hf.le fewest_flat (fun hfl' => absurd hfl hfl') depth k dt pref i
    exact (ofReal_factor_le hl.2 _).trans h1
  · refine (scaled_down hl.1 hl.2 a depth k peak dt pref i).trans ?_
    exact one_appliance (R := (· ≥ ·)) order_ge hP hs.config hS (mul_nonneg hl.1 hf.le) (fun h => absurd h hfl)
      (fun _ i0 i1 q0 q1 e1 e2 e3 e4 => averages_ge hP.number (mul_nonneg hl.1 hf.le) (hm hfl i0 i1 q0 q1 e1 e2 e3 e4)) depth k dt pref i

theorem at_least (h : PythonRandom N μ) (hz : SymmetricNormal μ) (hP : PowersUpTo P a) (hs : SensibleAppliance a) (ht : chanceOfInteger μ a.number ≤ 1 / 3) :
    ENNReal.ofReal (leftOver : ℝ) * MeanOf μ (applianceRun depth k peak dt pref (asOneAppliance fewestTogether a)) (loadAt i) ≤ MeanOf μ (applianceRun depth k peak dt pref a) (loadAt i) := by
  have := h.probability
  have hf := fewest_nonneg hP.number
  refine at_least' hP hs (windowsIn_any a) fun hfl i0 i1 q0 q1 _ _ _ _ => ?_
  cases withinPeakTimeWindow i0 i1 q0 q1 with
  | false => exact mean_off_ge h hfl hP.number
  | true =>
    refine le_trans (ENNReal.ofReal_le_ofReal ((Rat.cast_le (K := ℝ)).2 ?_)) (mean_on_ge hz hfl hP.number ht)
    nlinarith [leftOver_bounds.2]

variable {q0 q1 : ℤ}

theorem outside_least (h : PythonRandom N μ) (hP : PowersUpTo P a) (hs : SensibleAppliance a) (h0 : peak.head? = some q0) (h1 : peak.getLast? = some q1) (hq : q0 ≤ q1)
    (ho : OutsidePeak q0 q1 a) :
    ENNReal.ofReal (leftOver : ℝ) * MeanOf μ (applianceRun depth k peak dt pref (asOneAppliance fewestTogether a)) (loadAt i) ≤ MeanOf μ (applianceRun depth k peak dt pref a) (loadAt i) := by
  have := h.probability
  refine at_least' hP hs (outside_in ho) fun hfl i0 i1 p0 p1 e1 e2 e3 e4 => ?_
  rw [h0] at e3
  rw [h1] at e4
  cases e3
  cases e4
  rw [within_off e1 e2 hq]
  exact mean_off_ge h hfl hP.number

theorem outside_most (h : PythonRandom N μ) (hP : PowersUpTo P a) (hs : SensibleAppliance a) (h0 : peak.head? = some q0) (h1 : peak.getLast? = some q1) (hq : q0 ≤ q1)
    (ho : OutsidePeak q0 q1 a) :
    MeanOf μ (applianceRun depth k peak dt pref a) (loadAt i) ≤ MeanOf μ (applianceRun depth k peak dt pref (asOneAppliance fewestTogether a)) (loadAt i) := by
  have := h.probability
  have hf := fewest_nonneg hP.number
  refine one_appliance (R := (· ≤ ·)) order_le hP hs.config (outside_in ho) hf.le fewest_flat (fun hfl i0 i1 p0 p1 e1 e2 e3 e4 => averages_le hP.number hf.le ?_) depth k dt pref i
  rw [h0] at e3
  rw [h1] at e4
  cases e3
  cases e4
  rw [within_off e1 e2 hq]
  exact mean_off_le h hfl hP.number

theorem within_least [IsProbabilityMeasure μ] (hz : SymmetricNormal μ) (ht : chanceOfInteger μ a.number = 0) (hP : PowersUpTo P a) (hs : SensibleAppliance a) (h0 : peak.head? = some q0)
    (h1 : peak.getLast? = some q1) (ho : WithinPeak q0 q1 a) :
    MeanOf μ (applianceRun depth k peak dt pref (asOneAppliance mostTogether a)) (loadAt i) ≤ MeanOf μ (applianceRun depth k peak dt pref a) (loadAt i) := by
  refine one_appliance (R := (· ≥ ·)) order_ge hP hs.config (within_in ho) (most_nonneg hP.number) most_flat
    (fun hfl i0 i1 p0 p1 e1 e2 e3 e4 => averages_ge hP.number (most_nonneg hP.number) ?_) depth k dt pref i
  rw [h0] at e3
  rw [h1] at e4
  cases e3
  cases e4
  rw [within_on e1 e2]
  exact (mean_on_eq hz hfl hP.number ht).ge

theorem within_most [IsProbabilityMeasure μ] (hz : SymmetricNormal μ) (ht : chanceOfInteger μ a.number = 0) (hP : PowersUpTo P a) (hs : SensibleAppliance a) (h0 : peak.head? = some q0)
    (h1 : peak.getLast? = some q1) (ho : WithinPeak q0 q1 a) :
    MeanOf μ (applianceRun depth k peak dt pref a) (loadAt i) ≤ MeanOf μ (applianceRun depth k peak dt pref (asOneAppliance mostTogether a)) (loadAt i) := by
  refine one_appliance (R := (· ≤ ·)) order_le hP hs.config (within_in ho) (most_nonneg hP.number) most_flat
    (fun hfl i0 i1 p0 p1 e1 e2 e3 e4 => averages_le hP.number (most_nonneg hP.number) ?_) depth k dt pref i
  rw [h0] at e3
  rw [h1] at e4
  cases e3
  cases e4
  rw [within_on e1 e2]
  exact (mean_on_eq hz hfl hP.number ht).le

theorem most_by_fewest (hn : 1 ≤ a.number) : ∃ κ : ℚ, 1 ≤ κ ∧ κ ≤ 9 / 8 ∧ mostTogether a = κ * fewestTogether a := by
  have hf := fewest_nonneg hn
  have hn' : (1 : ℚ) ≤ (a.number : ℚ) := by exact_mod_cast hn
  refine ⟨mostTogether a / fewestTogether a, ?_, ?_, (div_mul_cancel₀ _ hf.ne').symm⟩
  · rw [one_le_div hf]
    unfold mostTogether fewestTogether
    split_ifs
    · exact fewest_le_most hn'
    · exact le_refl _
  · rw [div_le_iff₀ hf]
    unfold mostTogether fewestTogether
    split_ifs
    · rw [div_mul_div_comm, div_le_div_iff₀ (by norm_num) (by linarith)]
      nlinarith [sq_nonneg ((a.number : ℚ) - 2)]
    · linarith

/-- Changing the peak range. -/
theorem peak_ratio (h : PythonRandom N μ) (hz : SymmetricNormal μ) (hP : PowersUpTo P a) (hs : SensibleAppliance a) (ht : chanceOfInteger μ a.number ≤ 1 / 3) {peak' : List ℤ}
    (hp : peak ≠ []) (hp' : peak' ≠ []) :
    ENNReal.ofReal ((8 / 9 * leftOver : ℚ) : ℝ) * MeanOf μ (applianceRun depth k peak dt pref a) (loadAt i) ≤ MeanOf μ (applianceRun depth k peak' dt pref a) (loadAt i) := by
  have := h.probability
  obtain ⟨κ, h1, h2, h3⟩ := most_by_fewest (a := a) hP.number
  have hl := leftOver_bounds
  have e1 : MeanOf μ (applianceRun depth k peak dt pref a) (loadAt i) ≤ ENNReal.ofReal (κ : ℝ) * MeanOf μ (applianceRun depth k peak' dt pref (asOneAppliance fewestTogether a)) (loadAt i) := by
    refine (at_most h hz hP hs).trans ?_
    rw [peak_free hp hp' (a := asOneAppliance mostTogether a) (.inl rfl), asOne_eq, asOne_eq, h3]
    exact scaled_up h1 a depth k peak' dt pref i
  refine le_trans ?_ (at_least (peak := peak') (depth := depth) (k := k) (dt := dt) (pref := pref) (i := i) h hz hP hs ht)
  refine (mul_le_mul_right e1 _).trans ?_
  rw [← mul_assoc, ← ENNReal.ofReal_mul (by exact_mod_cast mul_nonneg (by norm_num) hl.1)]
  refine mul_le_mul_left (ENNReal.ofReal_le_ofReal ?_) _
  rw [← Rat.cast_mul]
  refine (Rat.cast_le (K := ℝ)).2 ?_
  nlinarith [hl.1]

end Appliance

/-! ## The theorems -/

theorem leftOver_real : ENNReal.ofReal (leftOver : ℝ) = 1 - (2 ^ 52)⁻¹ := by
  unfold leftOver
  rw [Rat.cast_sub, Rat.cast_one, ENNReal.ofReal_sub _ (by positivity), ENNReal.ofReal_one]
  congr 1
  rw [Rat.cast_div, Rat.cast_one, Rat.cast_pow, Rat.cast_ofNat, one_div, ENNReal.ofReal_inv_of_pos (by positivity), ENNReal.ofReal_pow (by norm_num), ENNReal.ofReal_ofNat]

/-- **C113.** Of `n` appliances that are not always switched on together, `(n + 1) / 2` are switched on together on average by an event within the peak, and
`n² / (2 n - 1)` by an event outside of it, less at most one part in `2^52`. -/
theorem C113_average_number {N : ℕ} (h : PythonRandom N μ) (hz : SymmetricNormal μ) {a : Appliance} (hfix : a.fixed = "no") (hfl : a.flat ≠ "yes") (hn : 1 ≤ a.number)
    (ht : chanceOfInteger μ a.number = 0) :
    MeanOf μ (calcCoincidentSwitchOn a true) (fun j => ENNReal.ofReal (j : ℝ)) = ENNReal.ofReal (((a.number : ℝ) + 1) / 2) ∧
    (1 - (2 ^ 52)⁻¹) * ENNReal.ofReal ((a.number : ℝ) ^ 2 / (2 * a.number - 1)) ≤ MeanOf μ (calcCoincidentSwitchOn a false) (fun j => ENNReal.ofReal (j : ℝ)) ∧
    MeanOf μ (calcCoincidentSwitchOn a false) (fun j => ENNReal.ofReal (j : ℝ)) ≤ ENNReal.ofReal ((a.number : ℝ) ^ 2 / (2 * a.number - 1)) := by
  have := h.probability
  have e : (fun j : ℤ => ENNReal.ofReal (j : ℝ)) = fun j : ℤ => ENNReal.ofReal ((j : ℚ) : ℝ) := by
    funext j
    rw [Rat.cast_intCast]
  have em : ((mostTogether a : ℚ) : ℝ) = ((a.number : ℝ) + 1) / 2 := by
    unfold mostTogether
    rw [if_pos ⟨hfix, hfl⟩]
    push_cast
    rfl
  have ef : ((fewestTogether a : ℚ) : ℝ) = (a.number : ℝ) ^ 2 / (2 * a.number - 1) := by
    unfold fewestTogether
    rw [if_pos ⟨hfix, hfl⟩]
    push_cast
    rfl
  rw [e, ← em, ← ef, ← leftOver_real, ← ofReal_scaled leftOver_bounds.1]
  exact ⟨mean_on_eq hz hfl hn ht, mean_off_ge h hfl hn, mean_off_le h hfl hn⟩

/-- **C113.** However the peak range lies, the expected load of every minute and the expected energy of every day are at most those of the use case with one
appliance of `(n + 1) / 2` times the power instead of every `n` appliances, and at least those with one of `n² / (2 n - 1)` times the power, less at most one part in `2^52`. -/
theorem C113_between {N : ℕ} (h : PythonRandom N μ) (hz : SymmetricNormal μ) {env : Env} {depth : ℕ} {uc : UseCase} {ds peak : List ℤ} {days : Option (List ℤ)}
    (hr : Ready uc ds peak) (hp : peak ≠ []) (hs : ∀ u ∈ uc.users, SensibleUser u) (hl : ∀ u ∈ uc.users, ∀ a ∈ u.appList, ds.length ≤ a.power.length)
    (hP : ∀ u ∈ uc.users, ∀ a ∈ u.appList, ∃ P, PowersUpTo P a) (ht : ∀ u ∈ uc.users, ∀ a ∈ u.appList, chanceOfInteger μ a.number ≤ 1 / 3) {k : ℕ} (hk : k < ds.length) :
    (∀ i, (1 - (2 ^ 52)⁻¹) * expectedLoad μ (dailyRows env (depth + 1) { uc with users := asOnes fewestTogether uc.users } days) k i ≤ expectedLoad μ (dailyRows env (depth + 1) uc days) k i ∧
      expectedLoad μ (dailyRows env (depth + 1) uc days) k i ≤ expectedLoad μ (dailyRows env (depth + 1) { uc with users := asOnes mostTogether uc.users } days) k i) ∧
    (1 - (2 ^ 52)⁻¹) * expectedEnergy μ (dailyRows env (depth + 1) { uc with users := asOnes fewestTogether uc.users } days) k ≤ expectedEnergy μ (dailyRows env (depth + 1) uc days) k ∧
      expectedEnergy μ (dailyRows env (depth + 1) uc days) k ≤ expectedEnergy μ (dailyRows env (depth + 1) { uc with users := asOnes mostTogether uc.users } days) k := by
  have := h.probability
  have g0 := good_id hs hl hP
  have hn : ∀ u ∈ uc.users, ∀ a ∈ u.appList, 1 ≤ a.number := fun u hu a ha => by
    obtain ⟨P, h⟩ := hP u hu a ha
    exact h.number
  have g1 := good_asOne (κ := fewestTogether) hs hl hP fun u hu a ha => (fewest_nonneg (hn u hu a ha)).le
  have g2 := good_asOne (κ := mostTogether) hs hl hP fun u hu a ha => most_nonneg (hn u hu a ha)
  have c1 := compare_cases (μ := μ) (env := env) (env' := env) (depth := depth) (days := days) (days' := days) (c := 1 - (2 ^ 52)⁻¹) hr hr hp hp g1 g0 hk fun u hu a ha dt pref i => by
    obtain ⟨P, hPa⟩ := hP u hu a ha
    rw [← leftOver_real]
    exact at_least h hz hPa ((hs u hu).appliances a ha) (ht u hu a ha)
  have c2 := compare_cases (μ := μ) (env := env) (env' := env) (depth := depth) (days := days) (days' := days) (c := 1) hr hr hp hp g0 g2 hk fun u hu a ha dt pref i => by
    obtain ⟨P, hPa⟩ := hP u hu a ha
    rw [one_mul]
    exact at_most h hz hPa ((hs u hu).appliances a ha)
  rw [users_id] at c1 c2
  simp only [one_mul] at c2
  exact ⟨fun i => ⟨c1.1 i, c2.1 i⟩, c1.2, c2.2⟩

/-- **C113.** If the windows have no minute of the peak range, `n` appliances are in expectation one of `n² / (2 n - 1)` times the power, up to one part in `2^52`. -/
theorem C113_outside_peak {N : ℕ} (h : PythonRandom N μ) {env : Env} {depth : ℕ} {uc : UseCase} {ds peak : List ℤ} {days : Option (List ℤ)} (hr : Ready uc ds peak) {q0 q1 : ℤ}
    (h0 : peak.head? = some q0) (h1 : peak.getLast? = some q1) (hq : q0 ≤ q1) (hs : ∀ u ∈ uc.users, SensibleUser u) (hl : ∀ u ∈ uc.users, ∀ a ∈ u.appList, ds.length ≤ a.power.length)
    (hP : ∀ u ∈ uc.users, ∀ a ∈ u.appList, ∃ P, PowersUpTo P a) (ho : ∀ u ∈ uc.users, ∀ a ∈ u.appList, OutsidePeak q0 q1 a) {k : ℕ} (hk : k < ds.length) :
    (∀ i, (1 - (2 ^ 52)⁻¹) * expectedLoad μ (dailyRows env (depth + 1) { uc with users := asOnes fewestTogether uc.users } days) k i ≤ expectedLoad μ (dailyRows env (depth + 1) uc days) k i ∧
      expectedLoad μ (dailyRows env (depth + 1) uc days) k i ≤ expectedLoad μ (dailyRows env (depth + 1) { uc with users := asOnes fewestTogether uc.users } days) k i) ∧
    (1 - (2 ^ 52)⁻¹) * expectedEnergy μ (dailyRows env (depth + 1) { uc with users := asOnes fewestTogether uc.users } days) k ≤ expectedEnergy μ (dailyRows env (depth + 1) uc days) k ∧
      expectedEnergy μ (dailyRows env (depth + 1) uc days) k ≤ expectedEnergy μ (dailyRows env (depth + 1) { uc with users := asOnes fewestTogether uc.users } days) k := by
  have := h.probability
  have hp : peak ≠ [] := by
    rintro rfl
    cases h0
  have g0 := good_id hs hl hP
  have g1 := good_asOne (κ := fewestTogether) hs hl hP fun u hu a ha => by
    obtain ⟨P, h⟩ := hP u hu a ha
    exact (fewest_nonneg h.number).le
  have c1 := compare_cases (μ := μ) (env := env) (env' := env) (depth := depth) (days := days) (days' := days) (c := 1 - (2 ^ 52)⁻¹) hr hr hp hp g1 g0 hk fun u hu a ha dt pref i => by
    obtain ⟨P, hPa⟩ := hP u hu a ha
    rw [← leftOver_real]
    exact outside_least h hPa ((hs u hu).appliances a ha) h0 h1 hq (ho u hu a ha)
  have c2 := compare_cases (μ := μ) (env := env) (env' := env) (depth := depth) (days := days) (days' := days) (c := 1) hr hr hp hp g0 g1 hk fun u hu a ha dt pref i => by
    obtain ⟨P, hPa⟩ := hP u hu a ha
    rw [one_mul]
    exact outside_most h hPa ((hs u hu).appliances a ha) h0 h1 hq (ho u hu a ha)
  rw [users_id] at c1 c2
  simp only [one_mul] at c2
  exact ⟨fun i => ⟨c1.1 i, c2.1 i⟩, c1.2, c2.2⟩

/-- **C113.** If the windows have only minutes of the peak range, `n` appliances are in expectation one of `(n + 1) / 2` times the power. -/
theorem C113_within_peak [IsProbabilityMeasure μ] (hz : SymmetricNormal μ) {env : Env} {depth : ℕ} {uc : UseCase} {ds peak : List ℤ} {days : Option (List ℤ)} (hr : Ready uc ds peak) {q0 q1 : ℤ}
    (h0 : peak.head? = some q0) (h1 : peak.getLast? = some q1) (hs : ∀ u ∈ uc.users, SensibleUser u) (hl : ∀ u ∈ uc.users, ∀ a ∈ u.appList, ds.length ≤ a.power.length)
    (hP : ∀ u ∈ uc.users, ∀ a ∈ u.appList, ∃ P, PowersUpTo P a) (ht : ∀ u ∈ uc.users, ∀ a ∈ u.appList, chanceOfInteger μ a.number = 0)
    (ho : ∀ u ∈ uc.users, ∀ a ∈ u.appList, WithinPeak q0 q1 a) {k : ℕ} (hk : k < ds.length) :
    (∀ i, expectedLoad μ (dailyRows env (depth + 1) uc days) k i = expectedLoad μ (dailyRows env (depth + 1) { uc with users := asOnes mostTogether uc.users } days) k i) ∧
      expectedEnergy μ (dailyRows env (depth + 1) uc days) k = expectedEnergy μ (dailyRows env (depth + 1) { uc with users := asOnes mostTogether uc.users } days) k := by
  have hp : peak ≠ [] := by
    rintro rfl
    cases h0
  have g0 := good_id hs hl hP
  have g1 := good_asOne (κ := mostTogether) hs hl hP fun u hu a ha => by
    obtain ⟨P, h⟩ := hP u hu a ha
    exact most_nonneg h.number
  have c1 := compare_cases (μ := μ) (env := env) (env' := env) (depth := depth) (days := days) (days' := days) (c := 1) hr hr hp hp g1 g0 hk fun u hu a ha dt pref i => by
    obtain ⟨P, hPa⟩ := hP u hu a ha
    rw [one_mul]
    exact within_least hz (ht u hu a ha) hPa ((hs u hu).appliances a ha) h0 h1 (ho u hu a ha)
  have c2 := compare_cases (μ := μ) (env := env) (env' := env) (depth := depth) (days := days) (days' := days) (c := 1) hr hr hp hp g0 g1 hk fun u hu a ha dt pref i => by
    obtain ⟨P, hPa⟩ := hP u hu a ha
    rw [one_mul]
    exact within_most hz (ht u hu a ha) hPa ((hs u hu).appliances a ha) h0 h1 (ho u hu a ha)
  rw [users_id] at c1 c2
  simp only [one_mul] at c1 c2
  exact ⟨fun i => le_antisymm (c2.1 i) (c1.1 i), le_antisymm c2.2 c1.2⟩

/-- **C113.** The peak range has little effect on the averages: two use cases with the same users and different peak ranges have expected loads that differ by at
most an eighth (and one part in `2^52`), in every minute of every day, and so do the expected energies. -/
theorem C113_peak_range {N : ℕ} (h : PythonRandom N μ) (hz : SymmetricNormal μ) {env env' : Env} {depth : ℕ} {uc uc' : UseCase} {ds peak peak' : List ℤ} {days days' : Option (List ℤ)}
    (hr : Ready uc ds peak) (hr' : Ready uc' ds peak') (hu : uc'.users = uc.users) (hp : peak ≠ []) (hp' : peak' ≠ []) (hs : ∀ u ∈ uc.users, SensibleUser u)
    (hl : ∀ u ∈ uc.users, ∀ a ∈ u.appList, ds.length ≤ a.power.length) (hP : ∀ u ∈ uc.users, ∀ a ∈ u.appList, ∃ P, PowersUpTo P a)
    (ht : ∀ u ∈ uc.users, ∀ a ∈ u.appList, chanceOfInteger μ a.number ≤ 1 / 3) {k : ℕ} (hk : k < ds.length) :
    (∀ i, 8 * (1 - (2 ^ 52)⁻¹) * expectedLoad μ (dailyRows env (depth + 1) uc days) k i ≤ 9 * expectedLoad μ (dailyRows env' (depth + 1) uc' days') k i) ∧
      8 * (1 - (2 ^ 52)⁻¹) * expectedEnergy μ (dailyRows env (depth + 1) uc days) k ≤ 9 * expectedEnergy μ (dailyRows env' (depth + 1) uc' days') k := by
  have := h.probability
  have g0 := good_id hs hl hP
  have c := compare_cases (μ := μ) (env := env) (env' := env') (depth := depth) (days := days) (days' := days') (c := ENNReal.ofReal ((8 / 9 * leftOver : ℚ) : ℝ)) hr hr' hp hp' g0 g0 hk
    fun u hu a ha dt pref i => by
      obtain ⟨P, hPa⟩ := hP u hu a ha
      exact peak_ratio h hz hPa ((hs u hu).appliances a ha) (ht u hu a ha) hp hp'
  have e' : { uc' with users := mapAppliances id uc.users } = uc' := by rw [mapAppliances_id, ← hu]
  rw [users_id, e'] at c
  have e9 : 8 * (1 - (2 ^ 52)⁻¹) = 9 * ENNReal.ofReal ((8 / 9 * leftOver : ℚ) : ℝ) := by
    rw [← leftOver_real, ← ENNReal.ofReal_ofNat 8, ← ENNReal.ofReal_ofNat 9, ← ENNReal.ofReal_mul (by norm_num), ← ENNReal.ofReal_mul (by norm_num)]
    congr 1
    push_cast
    ring
  rw [e9]
  exact ⟨fun i => by rw [mul_assoc]; exact mul_le_mul_right (c.1 i) _, by rw [mul_assoc]; exact mul_le_mul_right c.2 _⟩

/-- **C113.** The peak range has no effect at all on the averages if all appliances are single ones or always switched on together. -/
theorem C113_no_effect [IsProbabilityMeasure μ] {env env' : Env} {depth : ℕ} {uc uc' : UseCase} {ds peak peak' : List ℤ} {days days' : Option (List ℤ)}
    (hr : Ready uc ds peak) (hr' : Ready uc' ds peak') (hu : uc'.users = uc.users) (hp : peak ≠ []) (hp' : peak' ≠ []) (hs : ∀ u ∈ uc.users, SensibleUser u)
    (hl : ∀ u ∈ uc.users, ∀ a ∈ u.appList, ds.length ≤ a.power.length) (hP : ∀ u ∈ uc.users, ∀ a ∈ u.appList, ∃ P, PowersUpTo P a)
    (ht : ∀ u ∈ uc.users, ∀ a ∈ u.appList, AlwaysTogether a) {k : ℕ} (hk : k < ds.length) :
    (∀ i, expectedLoad μ (dailyRows env (depth + 1) uc days) k i = expectedLoad μ (dailyRows env' (depth + 1) uc' days') k i) ∧
      expectedEnergy μ (dailyRows env (depth + 1) uc days) k = expectedEnergy μ (dailyRows env' (depth + 1) uc' days') k := by
  have g0 := good_id hs hl hP
  have c1 := compare_cases (μ := μ) (env := env) (env' := env') (depth := depth) (days := days) (days' := days') (c := 1) hr hr' hp hp' g0 g0 hk
    fun u hu a ha dt pref i => by rw [one_mul]; exact (peak_free hp hp' (ht u hu a ha) _ _ _ _ _).le
  have c2 := compare_cases (μ := μ) (env := env') (env' := env) (depth := depth) (days := days') (days' := days) (c := 1) hr' hr hp' hp g0 g0 hk
    fun u hu a ha dt pref i => by rw [one_mul]; exact (peak_free hp' hp (ht u hu a ha) _ _ _ _ _).le
  have e' : { uc' with users := mapAppliances id uc.users } = uc' := by rw [mapAppliances_id, ← hu]
  rw [users_id, e'] at c1 c2
  simp only [one_mul] at c1 c2
  exact ⟨fun i => le_antisymm (c1.1 i) (c2.1 i), le_antisymm c1.2 c2.2⟩

/-! ## Cases -/

/-- The draw with the normal number `q`. -/
def withNormal (q : ℚ) (d : Draw) : Draw := { d with z := q }

/-- Half of the draws with the normal number `q`, half with `-q`. -/
noncomputable def twoNormals (q : ℚ) (μ : Measure Draw) : Measure Draw := (2 : ℝ≥0∞)⁻¹ • μ.map (withNormal q) + (2 : ℝ≥0∞)⁻¹ • μ.map (withNormal (-q))

theorem twoNormals_apply (q : ℚ) (s : Set Draw) : twoNormals q μ s = (2 : ℝ≥0∞)⁻¹ * μ {d | withNormal q d ∈ s} + (2 : ℝ≥0∞)⁻¹ * μ {d | withNormal (-q) d ∈ s} := by
  unfold twoNormals
  rw [Measure.add_apply, Measure.smul_apply, Measure.smul_apply, Measure.map_apply Measurable.of_discrete MeasurableSet.of_discrete,
    Measure.map_apply Measurable.of_discrete MeasurableSet.of_discrete]
  rfl

theorem twoNormals_same (q : ℚ) {s : Set Draw} (h : ∀ d r, withNormal r d ∈ s ↔ d ∈ s) : twoNormals q μ s = μ s := by
  rw [twoNormals_apply]
  have e : ∀ r, {d | withNormal r d ∈ s} = s := fun r => Set.ext fun d => h d r
  rw [e, e, ← add_mul, ENNReal.inv_two_add_inv_two, one_mul]

theorem half_not_integer {n p j : ℤ} (hn : 1 ≤ n) (hp : n < p) (s : ℤ) (hs : s = 1 ∨ s = -1) (h : (n : ℚ) / 2 + (s : ℚ) * (1 / p) * ((n : ℚ) / 4) = j) : False := by
  have hp0 : (p : ℚ) ≠ 0 := by exact_mod_cast (by omega : p ≠ 0)
  have h1 : n * (2 * p + s) = 4 * p * j := by
    field_simp at h
    have h2 : (n : ℚ) * (2 * p + s) = 4 * p * j := by linarith
    exact_mod_cast h2
  have h2 : n * s = p * (4 * j - 2 * n) := by linarith
  have h3 : p ∣ n := by
    rcases hs with rfl | rfl
    · exact ⟨4 * j - 2 * n, by linarith⟩
    · exact ⟨-(4 * j - 2 * n), by linarith⟩
  have := Int.le_of_dvd (by omega) h3
  omega

/-- **C113.** There is a distribution of draws as these theorems assume, for appliances of up to any number. -/
theorem C113_fair_exists (N : ℕ) : ∃ μ, PythonRandom N μ ∧ SymmetricNormal μ ∧ ∀ n : ℤ, 1 ≤ n → n ≤ N → chanceOfInteger μ n = 0 := by
  obtain ⟨μ, h⟩ := C102_python_exists N
  have := h.probability
  refine ⟨twoNormals (1 / ((N : ℤ) + 1 : ℤ)) μ, ⟨⟨?_⟩, ?_, ?_⟩, ?_, ?_⟩
  · rw [twoNormals_same _ fun _ _ => Iff.rfl]
    exact measure_univ
  · intro k hk
    rw [twoNormals_same _ fun _ _ => Iff.rfl]
    exact h.uniform k hk
  · intro n h1 h2 j hj
    rw [twoNormals_same _ fun _ _ => Iff.rfl]
    exact h.integers n h1 h2 j hj
  · intro q
    rw [twoNormals_apply, twoNormals_apply, add_comm]
    congr 2
    · congr 1
      ext d
      show -(1 / (((N : ℤ) + 1 : ℤ) : ℚ)) = q ↔ 1 / (((N : ℤ) + 1 : ℤ) : ℚ) = -q
      exact neg_eq_iff_eq_neg
    · congr 1
      ext d
      show 1 / (((N : ℤ) + 1 : ℤ) : ℚ) = q ↔ -(1 / (((N : ℤ) + 1 : ℤ) : ℚ)) = -q
      exact neg_inj.symm
  · intro n h1 h2
    unfold chanceOfInteger
    rw [twoNormals_apply]
    have e1 : {d : Draw | withNormal (1 / ((N : ℤ) + 1 : ℤ)) d ∈ {d : Draw | ∃ j : ℤ, (n : ℚ) / 2 + d.z * ((n : ℚ) / 4) = j}} = ∅ := by
      refine Set.eq_empty_of_forall_notMem fun d hd => ?_
      obtain ⟨j, hj⟩ := hd
      refine half_not_integer (p := (N : ℤ) + 1) (j := j) h1 (by omega) 1 (.inl rfl) (Eq.trans ?_ hj)
      rw [Int.cast_one, one_mul]
      rfl
    have e2 : {d : Draw | withNormal (-(1 / ((N : ℤ) + 1 : ℤ))) d ∈ {d : Draw | ∃ j : ℤ, (n : ℚ) / 2 + d.z * ((n : ℚ) / 4) = j}} = ∅ := by
      refine Set.eq_empty_of_forall_notMem fun d hd => ?_
      obtain ⟨j, hj⟩ := hd
      refine half_not_integer (p := (N : ℤ) + 1) (j := j) h1 (by omega) (-1) (.inr rfl) (Eq.trans ?_ hj)
      rw [Int.cast_neg, Int.cast_one, neg_mul, one_mul]
      rfl
    rw [e1, e2, measure_empty, mul_zero, add_zero]

/-- Five radios of C104, not always switched on together, with a power that varies. -/
def fiveRadios : Appliance := { variableRadio with number := 5, fixed := "no" }

theorem fiveRadios_sensible : SensibleAppliance fiveRadios :=
  have h := variableRadio_sensible
  ⟨⟨⟨h.config.windows.w1, h.config.windows.w2, h.config.windows.w3, h.config.windows.r1, h.config.windows.r2, h.config.windows.r3⟩,
    h.config.fc, h.config.ft, h.config.var, h.config.half1, h.config.half2, h.config.half3, h.config.room, by decide,
    ⟨h.config.cycles.tv, h.config.cycles.t11, h.config.cycles.t12, h.config.cycles.t21, h.config.cycles.t22, h.config.cycles.t31,
      h.config.cycles.t32, h.config.cycles.rc1, h.config.cycles.rc2, h.config.cycles.rc3⟩⟩,
    ⟨h.ordered.c11, h.ordered.c12, h.ordered.c21, h.ordered.c22, h.ordered.c31, h.ordered.c32⟩, h.cycles⟩

theorem fiveRadios_powers : ∃ P, PowersUpTo P fiveRadios := by
  obtain ⟨P, h⟩ := variableRadio_powers
  exact ⟨P, ⟨h.windows.w1, h.windows.w2, h.windows.w3, h.windows.r1, h.windows.r2, h.windows.r3⟩, h.cycle, by decide, h.thermal, h.powers, h.cyclePowers⟩

theorem fiveRadios_users : (∀ u ∈ [({ numUsers := 4, userPreference := 3, appList := [fiveRadios] } : User)], SensibleUser u) ∧
    (∀ u ∈ [({ numUsers := 4, userPreference := 3, appList := [fiveRadios] } : User)], ∀ a ∈ u.appList, a = fiveRadios) := by
  refine ⟨fun u hu => ?_, fun u hu a ha => ?_⟩
  · rw [List.mem_singleton.1 hu]
    exact ⟨by norm_num, fun a ha => by rw [List.mem_singleton.1 ha]; exact fiveRadios_sensible⟩
  · rw [List.mem_singleton.1 hu] at ha
    exact List.mem_singleton.1 ha

theorem fiveRadios_days : 3 ≤ fiveRadios.power.length := by
  show 3 ≤ (List.replicate 367 (60 : ℚ)).length
  rw [List.length_replicate]
  norm_num

/-- A case for C113: the four households with five radios each use on the second day, whatever the peak range, an energy that is in expectation at most that of single
radios with three times the power. -/
example : ∃ μ, PythonRandom 5 μ ∧ SymmetricNormal μ ∧
    expectedEnergy μ (dailyRows ⟨0, none⟩ 1000 (lampDays [{ numUsers := 4, userPreference := 3, appList := [fiveRadios] }]) none) 1 ≤
      expectedEnergy μ (dailyRows ⟨0, none⟩ 1000 { lampDays [{ numUsers := 4, userPreference := 3, appList := [fiveRadios] }] with
        users := asOnes mostTogether [{ numUsers := 4, userPreference := 3, appList := [fiveRadios] }] } none) 1 := by
  obtain ⟨μ, h, hz, ht⟩ := C113_fair_exists 5
  refine ⟨μ, h, hz, ?_⟩
  obtain ⟨h1, h2⟩ := fiveRadios_users
  exact (C113_between (env := ⟨0, none⟩) (depth := 999) (uc := lampDays [{ numUsers := 4, userPreference := 3, appList := [fiveRadios] }]) (ds := [0, 1, 2]) (peak := [700]) (days := none) h hz
    ⟨rfl, rfl, rfl⟩ (by simp) h1 (fun u hu a ha => by rw [h2 u hu a ha]; exact fiveRadios_days) (fun u hu a ha => by rw [h2 u hu a ha]; exact fiveRadios_powers)
    (fun u hu a ha => by rw [h2 u hu a ha, ht fiveRadios.number (by decide) (by decide)]; exact zero_le) (k := 1) (by simp)).2.2

/-- The factors of the case. -/
example : mostTogether fiveRadios = 3 ∧ fewestTogether fiveRadios = 25 / 9 := by
  have h1 : fiveRadios.fixed = "no" ∧ fiveRadios.flat ≠ "yes" := by decide +kernel
  unfold mostTogether fewestTogether
  rw [if_pos h1, if_pos h1]
  norm_num [fiveRadios]

/-- A case for C113: moving the peak from minute 700 to the minutes 300 and 301 takes away at most a ninth of the expected energy of the second day. -/
example : ∃ μ, PythonRandom 5 μ ∧
    8 * (1 - (2 ^ 52)⁻¹) * expectedEnergy μ (dailyRows ⟨0, none⟩ 1000 (lampDays [{ numUsers := 4, userPreference := 3, appList := [fiveRadios] }]) none) 1 ≤
      9 * expectedEnergy μ (dailyRows ⟨0, none⟩ 1000 { lampDays [{ numUsers := 4, userPreference := 3, appList := [fiveRadios] }] with peakTimeRange := some [300, 301] } none) 1 := by
  obtain ⟨μ, h, hz, ht⟩ := C113_fair_exists 5
  refine ⟨μ, h, ?_⟩
  obtain ⟨h1, h2⟩ := fiveRadios_users
  exact (C113_peak_range (env := ⟨0, none⟩) (env' := ⟨0, none⟩) (depth := 999) (uc := lampDays [{ numUsers := 4, userPreference := 3, appList := [fiveRadios] }])
    (uc' := { lampDays [{ numUsers := 4, userPreference := 3, appList := [fiveRadios] }] with peakTimeRange := some [300, 301] })
    (ds := [0, 1, 2]) (peak := [700]) (peak' := [300, 301]) (days := none) (days' := none) h hz
    ⟨rfl, rfl, rfl⟩ ⟨rfl, rfl, rfl⟩ rfl (by simp) (by simp) h1 (fun u hu a ha => by rw [h2 u hu a ha]; exact fiveRadios_days)
    (fun u hu a ha => by rw [h2 u hu a ha]; exact fiveRadios_powers)
    (fun u hu a ha => by rw [h2 u hu a ha, ht fiveRadios.number (by decide) (by decide)]; exact zero_le) (k := 1) (by simp)).2

end Ramp
