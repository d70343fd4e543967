import Verif.Spec9
import Verif.Lemmas.UnbiasedDay
import Verif.Props.Expected

/-! # C108: the variability of power does not change the expected load -/

set_option autoImplicit false

open MeasureTheory ENNReal

namespace Ramp

variable {μ : Measure Draw}

/-! ## One appliance -/

/-- Without variability of power. -/
def constantPower (a : Appliance) : Appliance := { a with thermalPVar := 0 }

theorem powersUpTo_powers {P : ℚ} {a : Appliance} (h : PowersUpTo P a) : Powers a :=
  ⟨h.thermal.1, h.thermal.2, (h.cyclePowers _ (by simp)).1, (h.cyclePowers _ (by simp)).1, (h.cyclePowers _ (by simp)).1, (h.cyclePowers _ (by simp)).1,
    (h.cyclePowers _ (by simp)).1, (h.cyclePowers _ (by simp)).1⟩

theorem powersUpTo_constant {P : ℚ} {a : Appliance} (h : PowersUpTo P a) : PowersUpTo P (constantPower a) :=
  ⟨⟨h.windows.w1, h.windows.w2, h.windows.w3, h.windows.r1, h.windows.r2, h.windows.r3⟩, h.cycle, h.number, ⟨le_refl _, zero_le_one⟩, h.powers, h.cyclePowers⟩

theorem sensible_constant {a : Appliance} (h : SensibleAppliance a) : SensibleAppliance (constantPower a) :=
  ⟨⟨⟨h.config.windows.w1, h.config.windows.w2, h.config.windows.w3, h.config.windows.r1, h.config.windows.r2, h.config.windows.r3⟩,
    h.config.fc, h.config.ft, h.config.var, h.config.half1, h.config.half2, h.config.half3, h.config.room, h.config.number,
    ⟨le_refl _, h.config.cycles.t11, h.config.cycles.t12, h.config.cycles.t21, h.config.cycles.t22, h.config.cycles.t31,
      h.config.cycles.t32, h.config.cycles.rc1, h.config.cycles.rc2, h.config.cycles.rc3⟩⟩,
    ⟨h.ordered.c11, h.ordered.c12, h.ordered.c21, h.ordered.c22, h.ordered.c31, h.ordered.c32⟩, h.cycles⟩

theorem mean_run [IsProbabilityMeasure μ] {depth k : ℕ} {peak : List ℤ} {dt pref : ℤ} {a : Appliance} {p : ℚ} (hp : a.power[k]? = some p) (g : Profile → ℝ≥0∞) :
    MeanOf μ (applianceRun depth k peak dt pref a) g = MeanOf μ (generateLoadProfile a depth pref k peak dt p) (fun b => g b.dailyUse) := by
  unfold applianceRun
  rw [hp]
  simp only
  rw [meanOf_bind (fin_generate _ _ _ _ _ _ _) fun _ => fin_pure _]
  simp only [meanOf_pure]

/-- A flat load knows no variability of power. -/
theorem rel_flat {a : Appliance} (hfl : a.flat = "yes") (depth : ℕ) (pref : ℤ) (k : ℕ) (peak : List ℤ) (dt : ℤ) (p : ℚ) :
    Rel (generateLoadProfile a depth pref k peak dt p) (generateLoadProfile (constantPower a) depth pref k peak dt p) (fun x y => y.dailyUse = x.dailyUse) := by
  unfold generateLoadProfile
  refine rel_bind (P := fun x y => y.1.dailyUse = x.1.dailyUse) ?_ (fun x y hxy => rel_pure hxy)
  unfold generateLoadProfileInfo constantPower
  simp only
  refine rel_bind_same fun x => rel_ite (fun _ => rel_pure rfl) fun _ => rel_bind_same fun w1 => rel_bind_same fun w2 => rel_bind_same fun w3 => ?_
  refine rel_bind (P := fun x y => y = x) ?_ ?_
  · exact fun r => (rel_refl (m := randTotalTimeOfUse { a with dailyUse := zeros } w1 w2 w3) r).imp id (fun ⟨x, y, r', h1, h2, h3⟩ => ⟨x, y, r', h1, h2, h3.symm⟩)
  intro rt0 rt _
  rw [if_pos hfl, if_pos hfl]
  cases a.power[k]? with
  | none => exact rel_raise
  | some pw => exact rel_bind_same fun d => rel_pure rfl

theorem ofReal_scaled {κ : ℚ} (h0 : 0 ≤ κ) (x : ℚ) : ENNReal.ofReal ((κ * x : ℚ) : ℝ) = ENNReal.ofReal (κ : ℝ) * ENNReal.ofReal (x : ℝ) := by
  rw [Rat.cast_mul, ENNReal.ofReal_mul (by exact_mod_cast h0)]

theorem ofReal_factor_le {κ : ℚ} (h1 : κ ≤ 1) (x : ℝ≥0∞) : ENNReal.ofReal (κ : ℝ) * x ≤ x := by
  have : ENNReal.ofReal (κ : ℝ) ≤ 1 := ENNReal.ofReal_le_one.2 (by exact_mod_cast h1)
  exact (mul_le_mul_left this x).trans (one_mul x).le

theorem between_appliance [IsProbabilityMeasure μ] {m : ℚ} (hμ : MeanIs μ m) (hm : m ≤ 1 / 2) {a : Appliance} {P : ℚ} (ha : PowersUpTo P a) {depth k : ℕ} {peak : List ℤ} {dt pref : ℤ}
    (i : Fin 1440) :
    ENNReal.ofReal ((2 * m : ℚ) : ℝ) * MeanOf μ (applianceRun depth k peak dt pref (constantPower a)) (loadAt i) ≤ MeanOf μ (applianceRun depth k peak dt pref a) (loadAt i) ∧
      MeanOf μ (applianceRun depth k peak dt pref a) (loadAt i) ≤ MeanOf μ (applianceRun depth k peak dt pref (constantPower a)) (loadAt i) := by
  have hm0 := hμ.1
  have h2m : 2 * m ≤ 1 := by linarith
  cases hp : a.power[k]? with
  | none =>
    have e1 : applianceRun depth k peak dt pref a = raise .indexError := by unfold applianceRun; rw [hp]
    have e2 : applianceRun depth k peak dt pref (constantPower a) = raise .indexError := by
      unfold applianceRun
      rw [show (constantPower a).power[k]? = none from hp]
    rw [e1, e2, meanOf_raise, mul_zero]
    exact ⟨le_refl _, le_refl _⟩
  | some p =>
    have hp0 := (ha.powers p (List.mem_of_getElem? hp)).1
    rw [mean_run hp, mean_run (a := constantPower a) hp]
    by_cases hfl : a.flat = "yes"
    · rw [mean_of_rel (rel_flat hfl depth pref k peak dt p) (g' := fun b => loadAt i b.dailyUse) fun x y h => by rw [h]]
      exact ⟨ofReal_factor_le h2m _, le_refl _⟩
    · have hpw := powersUpTo_powers ha
      have hk0 := factorMean_nonneg hm0 hpw.v0 hpw.v1
      have hk1 : factorMean m a.thermalPVar ≤ 1 := by
        unfold factorMean
        nlinarith [hpw.v0]
      have hk2 : 2 * m ≤ factorMean m a.thermalPVar := by
        unfold factorMean
        nlinarith [hpw.v1]
      have hrel : Rel (generateLoadProfile (constantPower a) depth pref k peak dt p)
          (generateLoadProfile (calm (factorMean m a.thermalPVar) a) depth pref k peak dt (factorMean m a.thermalPVar * p))
          (fun x y => Multiplied (factorMean m a.thermalPVar) x.dailyUse y.dailyUse) := by
        unfold generateLoadProfile
        refine rel_bind (rel_scaled_info (c := factorMean m a.thermalPVar) (a := constantPower a) (b := calm (factorMean m a.thermalPVar) a) ⟨_, _, _, _, _, _, rfl⟩ depth pref k peak dt p)
          (fun x y hxy => rel_pure hxy.2.1)
      have hrel' : Rel (generateLoadProfile (calm (factorMean m a.thermalPVar) a) depth pref k peak dt (factorMean m a.thermalPVar * p))
          (generateLoadProfile (constantPower a) depth pref k peak dt p) (fun y x => Multiplied (factorMean m a.thermalPVar) x.dailyUse y.dailyUse) := by
        intro r
        rcases hrel r with ⟨e, h1, h2⟩ | ⟨x, y, r', h1, h2, h3⟩
        · exact .inl ⟨e, h2, h1⟩
        · exact .inr ⟨y, x, r', h2, h1, h3⟩
      have hrep := replace_generate hμ hpw ha.number hfl hp0 depth pref k peak dt i
      show ENNReal.ofReal ((2 * m : ℚ) : ℝ) * MeanOf μ (generateLoadProfile (constantPower a) depth pref k peak dt p) (fun b => ENNReal.ofReal ((b.dailyUse i : ℚ) : ℝ)) ≤
          MeanOf μ (generateLoadProfile a depth pref k peak dt p) (fun b => ENNReal.ofReal ((b.dailyUse i : ℚ) : ℝ)) ∧
        MeanOf μ (generateLoadProfile a depth pref k peak dt p) (fun b => ENNReal.ofReal ((b.dailyUse i : ℚ) : ℝ)) ≤
          MeanOf μ (generateLoadProfile (constantPower a) depth pref k peak dt p) (fun b => ENNReal.ofReal ((b.dailyUse i : ℚ) : ℝ))
      rw [hrep]
      constructor
      · rw [← meanOf_mul_left (fin_generate _ _ _ _ _ _ _)]
        refine mean_le_of_rel hrel fun x y h => ?_
        rcases h i with h | ⟨h, _⟩
        · rw [h, ofReal_scaled hk0]
          exact mul_le_mul_left (ENNReal.ofReal_le_ofReal (by exact_mod_cast hk2)) _
        · rw [h]
          exact ofReal_factor_le h2m _
      · refine mean_le_of_rel hrel' fun y x h => ?_
        rcases h i with h | ⟨h, _⟩
        · rw [h, ofReal_scaled hk0]
          exact ofReal_factor_le hk1 _
        · rw [h]

/-! ## A use case -/

theorem mean_one_sensible [IsProbabilityMeasure μ] {depth : ℕ} {peak : List ℤ} (hp : peak ≠ []) {dt : ℤ} {k : ℕ} {u : User} (hu : 0 ≤ u.userPreference) {a : Appliance}
    (hs : SensibleAppliance a) (hk : k < a.power.length) {P : ℚ} (hP : PowersUpTo P a) {g : Profile → ℝ≥0∞} (hg : AddsUp g) :
    MeanOf μ (caseRun (depth + 1) k peak dt [onlyOne u a]) g =
      MeanOf μ (drawPreference u.userPreference) (fun pref => MeanOf μ (applianceRun (depth + 1) k peak dt pref a) g) := by
  obtain ⟨h1, h2, h3⟩ := hs
  have hna : ∀ pref, NeverRaises (applianceRun (depth + 1) k peak dt pref a) := by
    intro pref
    unfold applianceRun
    rw [List.getElem?_eq_getElem hk]
    exact never_bind_intro (fin_generate _ _ _ _ _ _ _) (C72_never_raises h1 hp (fun _ => hk) h2 h3) fun _ _ => never_pure _
  have hmem : NeverRaises (memberRun (depth + 1) k peak dt (onlyOne u a)) := by
    refine never_bind_intro (fin_drawPreference _) (never_drawPreference.2 hu) fun pref _ => ?_
    refine (never_sumRuns fun m hm => ?_).2 fun m hm => ?_
    · rw [List.mem_singleton.1 hm]
      exact fin_applianceRun _ _ _ _ _ _
    · rw [List.mem_singleton.1 hm]
      exact hna pref
  have hPa : ∀ b ∈ (onlyOne u a).appList, ∃ P, PowersUpTo P b := fun b hb => by
    rw [List.mem_singleton.1 hb]
    exact ⟨P, hP⟩
  exact mean_one hg hmem hPa

theorem between_sums {α : Type} {c : ℝ≥0∞} {f g : α → ℝ≥0∞} : ∀ {l : List α}, (∀ x ∈ l, c * g x ≤ f x ∧ f x ≤ g x) →
    c * (l.map g).sum ≤ (l.map f).sum ∧ (l.map f).sum ≤ (l.map g).sum := by
  intro l
  induction l with
  | nil => exact fun _ => ⟨by simp, by simp⟩
  | cons a l ih =>
    intro h
    obtain ⟨i1, i2⟩ := ih fun x hx => h x (by simp [hx])
    obtain ⟨h1, h2⟩ := h a (by simp)
    simp only [List.map_cons, List.sum_cons, mul_add]
    exact ⟨add_le_add h1 i1, add_le_add h2 i2⟩

theorem mean_rows_sensible [IsProbabilityMeasure μ] {env : Env} {depth : ℕ} {uc : UseCase} {ds peak : List ℤ} {days : Option (List ℤ)} (hr : Ready uc ds peak)
    (hp : peak ≠ []) (hs : ∀ u ∈ uc.users, SensibleUser u) (hl : ∀ u ∈ uc.users, ∀ a ∈ u.appList, ds.length ≤ a.power.length)
    (hP : ∀ u ∈ uc.users, ∀ a ∈ u.appList, ∃ P, PowersUpTo P a) {k : ℕ} (hk : k < ds.length) {g : Profile → ℝ≥0∞} (hg : AddsUp g) :
    MeanOf μ (dailyRows env (depth + 1) uc days) (fun rows => g (rows.getD k zeros)) =
      (uc.users.map (fun u => (u.numUsers.toNat : ℝ≥0∞) * (u.appList.map (fun a =>
        MeanOf μ (drawPreference u.userPreference) (fun pref => MeanOf μ (applianceRun (depth + 1) k peak (typeOfDay ds[k]) pref a) g))).sum)).sum := by
  have hn : NeverRaises (generateDaily env (depth + 1) uc days) := C82_sensible_never_fails days hr hp hs hl
  have hn' := never_dailyRows hn
  rw [mean_row hr hn' g ⟨k, hk⟩]
  rw [dailyRows_eq days hr] at hn'
  have hcase := never_rowsRun.1 hn' ⟨k, hk⟩
  rw [zero_add] at hcase
  rw [mean_case hg hcase hP]
  congr 1
  refine List.map_congr_left fun u hu => ?_
  congr 2
  refine List.map_congr_left fun a ha => ?_
  obtain ⟨P, hPa⟩ := hP u hu a ha
  have hka : k < a.power.length := by have := hl u hu a ha; omega
  exact mean_one_sensible hp (hs u hu).preference ((hs u hu).appliances a ha) hka hPa hg

theorem between_load [IsProbabilityMeasure μ] {m : ℚ} (hμ : MeanIs μ m) (hm : m ≤ 1 / 2) {env : Env} {depth : ℕ} {uc : UseCase} {ds peak : List ℤ} {days : Option (List ℤ)}
    (hr : Ready uc ds peak) (hp : peak ≠ []) (hs : ∀ u ∈ uc.users, SensibleUser u) (hl : ∀ u ∈ uc.users, ∀ a ∈ u.appList, ds.length ≤ a.power.length)
    (hP : ∀ u ∈ uc.users, ∀ a ∈ u.appList, ∃ P, PowersUpTo P a) {k : ℕ} (hk : k < ds.length) (i : Fin 1440) :
    ENNReal.ofReal ((2 * m : ℚ) : ℝ) * expectedLoad μ (dailyRows env (depth + 1) { uc with users := constantPowers uc.users } days) k i ≤
        expectedLoad μ (dailyRows env (depth + 1) uc days) k i ∧
      expectedLoad μ (dailyRows env (depth + 1) uc days) k i ≤ expectedLoad μ (dailyRows env (depth + 1) { uc with users := constantPowers uc.users } days) k i := by
  have hmem : ∀ u ∈ constantPowers uc.users, ∃ v ∈ uc.users, u = { v with appList := v.appList.map constantPower } := by
    intro u hu
    obtain ⟨v, hv, rfl⟩ := List.mem_map.1 hu
    exact ⟨v, hv, rfl⟩
  have e1 := mean_rows_sensible (μ := μ) (env := env) (depth := depth) (days := days) hr hp hs hl hP hk (C104_load_adds_up i)
  have e2 := mean_rows_sensible (μ := μ) (env := env) (depth := depth) (days := days) (ready_users hr (constantPowers uc.users)) hp
    (fun u hu => by
      obtain ⟨v, hv, rfl⟩ := hmem u hu
      refine ⟨(hs v hv).preference, fun a ha => ?_⟩
      obtain ⟨b, hb, rfl⟩ := List.mem_map.1 ha
      exact sensible_constant ((hs v hv).appliances b hb))
    (fun u hu a ha => by
      obtain ⟨v, hv, rfl⟩ := hmem u hu
      obtain ⟨b, hb, rfl⟩ := List.mem_map.1 ha
      exact hl v hv b hb)
    (fun u hu a ha => by
      obtain ⟨v, hv, rfl⟩ := hmem u hu
      obtain ⟨b, hb, rfl⟩ := List.mem_map.1 ha
      obtain ⟨P, hb⟩ := hP v hv b hb
      exact ⟨P, powersUpTo_constant hb⟩) hk (C104_load_adds_up i)
  have e3 : (constantPowers uc.users).map (fun u => (u.numUsers.toNat : ℝ≥0∞) * (u.appList.map (fun a =>
        MeanOf μ (drawPreference u.userPreference) (fun pref => MeanOf μ (applianceRun (depth + 1) k peak (typeOfDay ds[k]) pref a) (loadAt i)))).sum) =
      uc.users.map (fun u => (u.numUsers.toNat : ℝ≥0∞) * (u.appList.map (fun a =>
        MeanOf μ (drawPreference u.userPreference) (fun pref => MeanOf μ (applianceRun (depth + 1) k peak (typeOfDay ds[k]) pref (constantPower a)) (loadAt i)))).sum) := by
    unfold constantPowers
    rw [List.map_map]
    refine List.map_congr_left fun u _ => ?_
    simp only [Function.comp_apply, List.map_map]
    rfl
  rw [e3] at e2
  show ENNReal.ofReal ((2 * m : ℚ) : ℝ) * MeanOf μ (dailyRows env (depth + 1) { uc with users := constantPowers uc.users } days) (fun rows => loadAt i (rows.getD k zeros)) ≤
      MeanOf μ (dailyRows env (depth + 1) uc days) (fun rows => loadAt i (rows.getD k zeros)) ∧
    MeanOf μ (dailyRows env (depth + 1) uc days) (fun rows => loadAt i (rows.getD k zeros)) ≤
      MeanOf μ (dailyRows env (depth + 1) { uc with users := constantPowers uc.users } days) (fun rows => loadAt i (rows.getD k zeros))
  rw [e1, e2]
  refine between_sums fun u hu => ?_
  have hin : ENNReal.ofReal ((2 * m : ℚ) : ℝ) * (u.appList.map (fun a =>
        MeanOf μ (drawPreference u.userPreference) (fun pref => MeanOf μ (applianceRun (depth + 1) k peak (typeOfDay ds[k]) pref (constantPower a)) (loadAt i)))).sum ≤
      (u.appList.map (fun a => MeanOf μ (drawPreference u.userPreference) (fun pref => MeanOf μ (applianceRun (depth + 1) k peak (typeOfDay ds[k]) pref a) (loadAt i)))).sum ∧
    (u.appList.map (fun a => MeanOf μ (drawPreference u.userPreference) (fun pref => MeanOf μ (applianceRun (depth + 1) k peak (typeOfDay ds[k]) pref a) (loadAt i)))).sum ≤
      (u.appList.map (fun a =>
        MeanOf μ (drawPreference u.userPreference) (fun pref => MeanOf μ (applianceRun (depth + 1) k peak (typeOfDay ds[k]) pref (constantPower a)) (loadAt i)))).sum := by
    refine between_sums fun a ha => ?_
    obtain ⟨P, hPa⟩ := hP u hu a ha
    rw [← meanOf_mul_left (fin_drawPreference _)]
    exact ⟨meanOf_le fun pref => (between_appliance hμ hm hPa i).1, meanOf_le fun pref => (between_appliance hμ hm hPa i).2⟩
  constructor
  · rw [mul_left_comm]
    exact mul_le_mul_right hin.1 _
  · exact mul_le_mul_right hin.2 _

/-! ## The energy of the day -/

theorem good_case {depth k : ℕ} {peak : List ℤ} {dt : ℤ} {us : List User} (hn : NeverRaises (caseRun depth k peak dt us))
    (hP : ∀ u ∈ us, ∀ a ∈ u.appList, ∃ P, PowersUpTo P a) : GoodRun (caseRun depth k peak dt us) := by
  have hfu : ∀ m ∈ us.map (userRun depth k peak dt), Finitary m := by
    intro m hm
    obtain ⟨b, _, rfl⟩ := List.mem_map.1 hm
    exact fin_userRun _ _ _ _ _
  refine goodRun_sum fun m hm => ?_
  obtain ⟨u, hu, rfl⟩ := List.mem_map.1 hm
  have hnu := (never_sumRuns hfu).1 hn _ (List.mem_map.2 ⟨u, hu, rfl⟩)
  refine goodRun_sum fun m hm => ?_
  have h1 := (never_sumRuns fun m hm => by
    rw [List.eq_of_mem_replicate hm]
    exact fin_memberRun _ _ _ _ _).1 hnu m hm
  rw [List.eq_of_mem_replicate hm] at h1 ⊢
  exact good_member h1 (hP u hu)

theorem meanOf_finset_sum {α ι : Type} [DecidableEq ι] [IsProbabilityMeasure μ] {m : Sim α} (hm : Finitary m) (f : ι → α → ℝ≥0∞) (s : Finset ι) :
    MeanOf μ m (fun x => ∑ i ∈ s, f i x) = ∑ i ∈ s, MeanOf μ m (f i) := by
  induction s using Finset.induction_on with
  | empty =>
    simp only [Finset.sum_empty]
    exact meanOf_zero _
  | insert i s hi ih =>
    rw [Finset.sum_insert hi, ← ih, ← meanOf_add hm]
    congr 1
    funext x
    rw [Finset.sum_insert hi]

theorem energyOf_sum {p : Profile} (h : ∀ i, 0 ≤ p i) : energyOf p = ∑ i : Fin 1440, loadAt i p := by
  unfold energyOf loadAt
  rw [Rat.cast_sum, ENNReal.ofReal_sum_of_nonneg fun i _ => by exact_mod_cast h i]

theorem energy_by_minutes [IsProbabilityMeasure μ] {env : Env} {depth : ℕ} {uc : UseCase} {ds peak : List ℤ} {days : Option (List ℤ)} (hr : Ready uc ds peak)
    (hn : NeverRaises (dailyRows env depth uc days)) (hP : ∀ u ∈ uc.users, ∀ a ∈ u.appList, ∃ P, PowersUpTo P a) {k : ℕ} (hk : k < ds.length) :
    expectedEnergy μ (dailyRows env depth uc days) k = ∑ i : Fin 1440, expectedLoad μ (dailyRows env depth uc days) k i := by
  have hcase : NeverRaises (caseRun depth k peak (typeOfDay ds[k]) uc.users) := by
    have hn' := hn
    rw [dailyRows_eq days hr] at hn'
    have := never_rowsRun.1 hn' ⟨k, hk⟩
    rw [zero_add] at this
    exact this
  have hg := good_case hcase hP
  have e1 : expectedEnergy μ (dailyRows env depth uc days) k = MeanOf μ (caseRun depth k peak (typeOfDay ds[k]) uc.users) energyOf := mean_row hr hn energyOf ⟨k, hk⟩
  have e2 : ∀ i, expectedLoad μ (dailyRows env depth uc days) k i = MeanOf μ (caseRun depth k peak (typeOfDay ds[k]) uc.users) (loadAt i) := fun i => mean_row hr hn (loadAt i) ⟨k, hk⟩
  rw [e1, Finset.sum_congr rfl fun i _ => e2 i, ← meanOf_finset_sum hg.fin]
  exact meanOf_congr fun p hp => energyOf_sum (hg.nonneg p hp)

theorem between_energy [IsProbabilityMeasure μ] {m : ℚ} (hμ : MeanIs μ m) (hm : m ≤ 1 / 2) {env : Env} {depth : ℕ} {uc : UseCase} {ds peak : List ℤ} {days : Option (List ℤ)}
    (hr : Ready uc ds peak) (hp : peak ≠ []) (hs : ∀ u ∈ uc.users, SensibleUser u) (hl : ∀ u ∈ uc.users, ∀ a ∈ u.appList, ds.length ≤ a.power.length)
    (hP : ∀ u ∈ uc.users, ∀ a ∈ u.appList, ∃ P, PowersUpTo P a) {k : ℕ} (hk : k < ds.length) :
    ENNReal.ofReal ((2 * m : ℚ) : ℝ) * expectedEnergy μ (dailyRows env (depth + 1) { uc with users := constantPowers uc.users } days) k ≤
        expectedEnergy μ (dailyRows env (depth + 1) uc days) k ∧
      expectedEnergy μ (dailyRows env (depth + 1) uc days) k ≤ expectedEnergy μ (dailyRows env (depth + 1) { uc with users := constantPowers uc.users } days) k := by
  have hmem : ∀ u ∈ constantPowers uc.users, ∃ v ∈ uc.users, u = { v with appList := v.appList.map constantPower } := by
    intro u hu
    obtain ⟨v, hv, rfl⟩ := List.mem_map.1 hu
    exact ⟨v, hv, rfl⟩
  have hn : NeverRaises (generateDaily env (depth + 1) uc days) := C82_sensible_never_fails days hr hp hs hl
  have hn2 : NeverRaises (generateDaily env (depth + 1) { uc with users := constantPowers uc.users } days) :=
    C82_sensible_never_fails days (ready_users hr _) hp
      (fun u hu => by
        obtain ⟨v, hv, rfl⟩ := hmem u hu
        refine ⟨(hs v hv).preference, fun a ha => ?_⟩
        obtain ⟨b, hb, rfl⟩ := List.mem_map.1 ha
        exact sensible_constant ((hs v hv).appliances b hb))
      (fun u hu a ha => by
        obtain ⟨v, hv, rfl⟩ := hmem u hu
        obtain ⟨b, hb, rfl⟩ := List.mem_map.1 ha
        exact hl v hv b hb)
  rw [energy_by_minutes hr (never_dailyRows hn) hP hk, energy_by_minutes (ready_users hr (constantPowers uc.users)) (never_dailyRows hn2) (fun u hu a ha => by
      obtain ⟨v, hv, rfl⟩ := hmem u hu
      obtain ⟨b, hb, rfl⟩ := List.mem_map.1 ha
      obtain ⟨P, hb⟩ := hP v hv b hb
      exact ⟨P, powersUpTo_constant hb⟩) hk, Finset.mul_sum]
  have hb := fun i => between_load (env := env) (depth := depth) (days := days) hμ hm hr hp hs hl hP hk i
  exact ⟨Finset.sum_le_sum fun i _ => (hb i).1, Finset.sum_le_sum fun i _ => (hb i).2⟩

/-! ## The mean of the numbers drawn -/

theorem meanIs_half (h : ∫⁻ d, ENNReal.ofReal ((d.u : ℚ) : ℝ) ∂μ = 1 / 2) : MeanIs μ (1 / 2) := by
  refine ⟨by norm_num, h.trans ?_⟩
  rw [show (((1 / 2 : ℚ)) : ℝ) = 1 / 2 by norm_num, ENNReal.ofReal_div_of_pos (by norm_num), ENNReal.ofReal_one, ENNReal.ofReal_ofNat]

theorem grid_integral [IsProbabilityMeasure μ] {M : ℕ} (hM : 0 < M) (h : OnGrid M μ) (f : ℚ → ℝ≥0∞) :
    ∫⁻ d, f d.u ∂μ = ∑ k ∈ Finset.range M, f ((k : ℚ) / M) * (M : ℝ≥0∞)⁻¹ := by
  have hM' : (M : ℚ) ≠ 0 := by exact_mod_cast hM.ne'
  have e1 : ∫⁻ d, f d.u ∂μ = ∫⁻ d, ∑ k ∈ Finset.range M, ({d : Draw | d.u = (k : ℚ) / M}).indicator (fun _ => f ((k : ℚ) / M)) d ∂μ := by
    refine lintegral_congr_ae ?_
    refine ae_iff.2 (le_antisymm (le_trans (measure_mono ?_) (grid_sure hM h).le) zero_le)
    intro d hd hk
    refine hd ?_
    obtain ⟨k, hk, hu⟩ := hk
    beta_reduce
    rw [Finset.sum_eq_single k]
    · rw [Set.indicator_of_mem (show d ∈ {d : Draw | d.u = (k : ℚ) / M} from hu), ← hu]
    · intro j _ hj
      refine Set.indicator_of_notMem (fun hd => hj ?_) _
      have hd' : d.u = (j : ℚ) / M := hd
      rw [hu, div_left_inj' hM'] at hd'
      exact_mod_cast hd'.symm
    · exact fun hn => absurd hk hn
  rw [e1, lintegral_finsetSum _ fun _ _ => Measurable.of_discrete]
  refine Finset.sum_congr rfl fun k hk => ?_
  rw [lintegral_indicator MeasurableSet.of_discrete, setLIntegral_const, h k (Finset.mem_range.1 hk)]

theorem grid_mean [IsProbabilityMeasure μ] {M : ℕ} (hM : 0 < M) (h : OnGrid M μ) : MeanIs μ (((M : ℚ) - 1) / (2 * M)) := by
  have hM1 : (1 : ℚ) ≤ M := by exact_mod_cast hM
  refine ⟨div_nonneg (by linarith) (by linarith), ?_⟩
  rw [grid_integral hM h fun u => ENNReal.ofReal (u : ℝ), ← Finset.sum_mul, ← ENNReal.ofReal_sum_of_nonneg fun k _ => by positivity]
  have hMr : (0 : ℝ) < M := by exact_mod_cast hM
  have e1 : (∑ k ∈ Finset.range M, (((k : ℚ) / M : ℚ) : ℝ)) = ((M : ℝ) - 1) / 2 := by
    have e2 : ∀ n : ℕ, (∑ k ∈ Finset.range n, (((k : ℚ) / M : ℚ) : ℝ)) = n * ((n : ℝ) - 1) / 2 / M := by
      intro n
      induction n with
      | zero => simp
      | succ n ih =>
        rw [Finset.sum_range_succ, ih]
        push_cast
        field_simp
        ring
    rw [e2]
    field_simp
  rw [e1, ← ENNReal.ofReal_natCast M, ← ENNReal.ofReal_inv_of_pos hMr, ← ENNReal.ofReal_mul (by
    have : (1 : ℝ) ≤ M := by exact_mod_cast hM
    linarith)]
  congr 1
  push_cast
  field_simp

theorem python_mean {N : ℕ} (h : PythonRandom N μ) : ∃ m : ℚ, MeanIs μ m ∧ 2 * m = 1 - 1 / 2 ^ 53 := by
  have := h.probability
  refine ⟨_, grid_mean (by positivity) h.grid, ?_⟩
  rw [Nat.cast_pow, Nat.cast_ofNat]
  field_simp

/-! ## The theorems -/

/-- **C108.** If the numbers drawn between 0 and 1 are 1/2 on average, the variability of power changes no expected value: on every day, the expected load of
every minute is that of the same use case with `thermal_p_var = 0` for all appliances. -/
theorem C108_unbiased [IsProbabilityMeasure μ] (hμ : ∫⁻ d, ENNReal.ofReal ((d.u : ℚ) : ℝ) ∂μ = 1 / 2) {env : Env} {depth : ℕ} {uc : UseCase} {ds peak : List ℤ}
    {days : Option (List ℤ)} (hr : Ready uc ds peak) (hp : peak ≠ []) (hs : ∀ u ∈ uc.users, SensibleUser u)
    (hl : ∀ u ∈ uc.users, ∀ a ∈ u.appList, ds.length ≤ a.power.length) (hP : ∀ u ∈ uc.users, ∀ a ∈ u.appList, ∃ P, PowersUpTo P a) {k : ℕ} (hk : k < ds.length) :
    (∀ i, expectedLoad μ (dailyRows env (depth + 1) uc days) k i = expectedLoad μ (dailyRows env (depth + 1) { uc with users := constantPowers uc.users } days) k i) ∧
      expectedEnergy μ (dailyRows env (depth + 1) uc days) k = expectedEnergy μ (dailyRows env (depth + 1) { uc with users := constantPowers uc.users } days) k := by
  have e1 : ENNReal.ofReal ((2 * (1 / 2) : ℚ) : ℝ) = 1 := by norm_num
  constructor
  · intro i
    obtain ⟨h1, h2⟩ := between_load (env := env) (depth := depth) (days := days) (meanIs_half hμ) (le_refl _) hr hp hs hl hP hk i
    rw [e1, one_mul] at h1
    exact le_antisymm h2 h1
  · obtain ⟨h1, h2⟩ := between_energy (env := env) (depth := depth) (days := days) (meanIs_half hμ) (le_refl _) hr hp hs hl hP hk
    rw [e1, one_mul] at h1
    exact le_antisymm h2 h1

/-- **C108.** Python's random numbers are a little less than 1/2 on average, so that the variability of power takes a little away: at most one part in
`2^53` of the expected load of a minute and of the expected energy of a day. -/
theorem C108_python {N : ℕ} (h : PythonRandom N μ) {env : Env} {depth : ℕ} {uc : UseCase} {ds peak : List ℤ}
    {days : Option (List ℤ)} (hr : Ready uc ds peak) (hp : peak ≠ []) (hs : ∀ u ∈ uc.users, SensibleUser u)
    (hl : ∀ u ∈ uc.users, ∀ a ∈ u.appList, ds.length ≤ a.power.length) (hP : ∀ u ∈ uc.users, ∀ a ∈ u.appList, ∃ P, PowersUpTo P a) {k : ℕ} (hk : k < ds.length) :
    (∀ i, (1 - (2 ^ 53)⁻¹) * expectedLoad μ (dailyRows env (depth + 1) { uc with users := constantPowers uc.users } days) k i ≤
        expectedLoad μ (dailyRows env (depth + 1) uc days) k i ∧
      expectedLoad μ (dailyRows env (depth + 1) uc days) k i ≤ expectedLoad μ (dailyRows env (depth + 1) { uc with users := constantPowers uc.users } days) k i) ∧
    (1 - (2 ^ 53)⁻¹) * expectedEnergy μ (dailyRows env (depth + 1) { uc with users := constantPowers uc.users } days) k ≤
        expectedEnergy μ (dailyRows env (depth + 1) uc days) k ∧
      expectedEnergy μ (dailyRows env (depth + 1) uc days) k ≤ expectedEnergy μ (dailyRows env (depth + 1) { uc with users := constantPowers uc.users } days) k := by
  have := h.probability
  obtain ⟨m, hm, h2⟩ := python_mean h
  have hm2 : m ≤ 1 / 2 := by
    have : (0 : ℚ) ≤ 1 / 2 ^ 53 := by positivity
    linarith
  have e : ENNReal.ofReal ((2 * m : ℚ) : ℝ) = 1 - (2 ^ 53)⁻¹ := by
    rw [h2, Rat.cast_sub, Rat.cast_one, ENNReal.ofReal_sub _ (by positivity), ENNReal.ofReal_one]
    congr 1
    rw [Rat.cast_div, Rat.cast_one, Rat.cast_pow, Rat.cast_ofNat, one_div, ENNReal.ofReal_inv_of_pos (by positivity), ENNReal.ofReal_pow (by norm_num), ENNReal.ofReal_ofNat]
  rw [← e]
  exact ⟨fun i => between_load (env := env) (depth := depth) (days := days) hm hm2 hr hp hs hl hP hk i,
    between_energy (env := env) (depth := depth) (days := days) hm hm2 hr hp hs hl hP hk⟩

/-! ## A case -/

/-- The radio of C104, but with a power that varies by up to a half. -/
def variableRadio : Appliance := { steadyRadio with thermalPVar := 1 / 2 }

theorem variableRadio_sensible : SensibleAppliance variableRadio :=
  have h := radio_sensible
  ⟨⟨⟨h.config.windows.w1, h.config.windows.w2, h.config.windows.w3, h.config.windows.r1, h.config.windows.r2, h.config.windows.r3⟩,
    h.config.fc, h.config.ft, h.config.var, h.config.half1, h.config.half2, h.config.half3, h.config.room, h.config.number,
    ⟨by norm_num [variableRadio], h.config.cycles.t11, h.config.cycles.t12, h.config.cycles.t21, h.config.cycles.t22, h.config.cycles.t31,
      h.config.cycles.t32, h.config.cycles.rc1, h.config.cycles.rc2, h.config.cycles.rc3⟩⟩,
    ⟨h.ordered.c11, h.ordered.c12, h.ordered.c21, h.ordered.c22, h.ordered.c31, h.ordered.c32⟩, h.cycles⟩

theorem variableRadio_powers : ∃ P, PowersUpTo P variableRadio := by
  obtain ⟨P, h⟩ := radio_visible.powers
  exact ⟨P, ⟨h.windows.w1, h.windows.w2, h.windows.w3, h.windows.r1, h.windows.r2, h.windows.r3⟩, h.cycle, h.number, by norm_num [variableRadio], h.powers, h.cyclePowers⟩

/-- A case for C108: the four households of C104, with radios whose power varies by up to a half, take in expectation the energy computed there, less at most one
part in `2^53`. -/
example {N : ℕ} (h : PythonRandom N μ) :
    (1 - (2 ^ 53)⁻¹) * expectedEnergy μ (dailyRows ⟨0, none⟩ 1000 (lampDays [{ numUsers := 4, userPreference := 3, appList := [steadyRadio] }]) none) 1 ≤
      expectedEnergy μ (dailyRows ⟨0, none⟩ 1000 (lampDays [{ numUsers := 4, userPreference := 3, appList := [variableRadio] }]) none) 1 := by
  have hmem : ∀ u ∈ (lampDays [{ numUsers := 4, userPreference := 3, appList := [variableRadio] }]).users, u.userPreference = 3 ∧ ∀ a ∈ u.appList, a = variableRadio := by
    intro u hu
    rw [List.mem_singleton.1 hu]
    exact ⟨rfl, fun a ha => List.mem_singleton.1 ha⟩
  exact (C108_python (env := ⟨0, none⟩) (depth := 999) (uc := lampDays [{ numUsers := 4, userPreference := 3, appList := [variableRadio] }])
    (ds := [0, 1, 2]) (peak := [700]) (days := none) h ⟨rfl, rfl, rfl⟩ (by simp)
    (fun u hu => ⟨by rw [(hmem u hu).1]; norm_num, fun a ha => by rw [(hmem u hu).2 a ha]; exact variableRadio_sensible⟩)
    (fun u hu a ha => by
      rw [(hmem u hu).2 a ha]
      show 3 ≤ (List.replicate 367 (60 : ℚ)).length
      rw [List.length_replicate]
      norm_num)
    (fun u hu a ha => by rw [(hmem u hu).2 a ha]; exact variableRadio_powers) (k := 1) (by simp)).2.1

/-- Numbers that are 1/4 or 3/4 with the same probability are 1/2 on average. -/
theorem C108_fair_exists : ∃ μ : Measure Draw, IsProbabilityMeasure μ ∧ ∫⁻ d, ENNReal.ofReal ((d.u : ℚ) : ℝ) ∂μ = 1 / 2 := by
  refine ⟨(2 : ℝ≥0∞)⁻¹ • Measure.dirac ⟨1 / 4, by norm_num, by norm_num, 0, 0⟩ + (2 : ℝ≥0∞)⁻¹ • Measure.dirac ⟨3 / 4, by norm_num, by norm_num, 0, 0⟩, ⟨?_⟩, ?_⟩
  · simp [ENNReal.inv_two_add_inv_two]
  · rw [lintegral_add_measure, lintegral_smul_measure, lintegral_smul_measure, lintegral_dirac' _ Measurable.of_discrete, lintegral_dirac' _ Measurable.of_discrete, smul_eq_mul,
      smul_eq_mul, ← mul_add, ← ENNReal.ofReal_add (by norm_num) (by norm_num)]
    norm_num

end Ramp
