import Verif.Props.Frequency

/-! # C104: the expected load and the expected energy -/

set_option autoImplicit false

open MeasureTheory ENNReal

namespace Ramp

variable {μ : Measure Draw}

/-! ## Runs that never raise -/

theorem never_sumRuns : ∀ {ms : List (Sim Profile)}, (∀ m ∈ ms, Finitary m) → (NeverRaises (sumRuns ms) ↔ ∀ m ∈ ms, NeverRaises m)
  | [], _ => ⟨fun _ m hm => by simp at hm, fun _ => never_pure _⟩
  | m :: ms, hf => by
    have hfs : ∀ n ∈ ms, Finitary n := fun n hn => hf n (by simp [hn])
    constructor
    · intro h
      obtain ⟨h1, ⟨a, ha⟩, h2⟩ := never_bind (hf m (by simp)) h
      obtain ⟨h3, _, _⟩ := never_bind (fin_sumRuns hfs) (h2 a ha)
      intro n hn
      rcases List.mem_cons.1 hn with rfl | hn
      · exact h1
      · exact (never_sumRuns hfs).1 h3 n hn
    · intro h
      exact never_bind_intro (hf m (by simp)) (h m (by simp)) fun _ _ =>
        never_bind_intro (fin_sumRuns hfs) ((never_sumRuns hfs).2 fun n hn => h n (by simp [hn])) fun _ _ => never_pure _

theorem never_rowsRun {depth : ℕ} {peak : List ℤ} {us : List User} : ∀ {ds : List ℤ} {k : ℕ},
    (NeverRaises (rowsRun depth peak us k ds) ↔ ∀ j : Fin ds.length, NeverRaises (caseRun depth (k + j) peak (typeOfDay ds[j]) us))
  | [], _ => ⟨fun _ j => j.elim0, fun _ => never_pure _⟩
  | d :: ds, k => by
    constructor
    · intro h
      obtain ⟨h1, ⟨a, ha⟩, h2⟩ := never_bind (fin_caseRun _ _ _ _ _) h
      obtain ⟨h3, _, _⟩ := never_bind (fin_rowsRun _ _ _ _ _) (h2 a ha)
      have h4 := never_rowsRun.1 h3
      intro j
      refine Fin.cases ?_ (fun i => ?_) j
      · exact h1
      · have := h4 i
        rw [show k + 1 + (i : ℕ) = k + (i + 1) by omega] at this
        exact this
    · intro h
      refine never_bind_intro (fin_caseRun _ _ _ _ _) (h 0) fun _ _ => never_bind_intro (fin_rowsRun _ _ _ _ _) (never_rowsRun.2 fun i => ?_) fun _ _ => never_pure _
      have := h i.succ
      rw [show k + 1 + (i : ℕ) = k + (i + 1) by omega]
      exact this

/-! ## Expected values of sums -/

/-- A run that never raises and whose loads are not negative. -/
structure GoodRun (m : Sim Profile) : Prop where
  fin : Finitary m
  never : NeverRaises m
  nonneg : ∀ p, Returns m p → ∀ i, 0 ≤ p i

theorem goodRun_sum {ms : List (Sim Profile)} (h : ∀ m ∈ ms, GoodRun m) : GoodRun (sumRuns ms) :=
  ⟨fin_sumRuns fun m hm => (h m hm).fin, (never_sumRuns fun m hm => (h m hm).fin).2 fun m hm => (h m hm).never,
    returns_sumRuns_nonneg fun m hm => ⟨(h m hm).fin, (h m hm).nonneg⟩⟩

theorem mean_sum [IsProbabilityMeasure μ] {g : Profile → ℝ≥0∞} (hg : AddsUp g) : ∀ {ms : List (Sim Profile)}, (∀ m ∈ ms, GoodRun m) →
    MeanOf μ (sumRuns ms) g = (ms.map (fun m => MeanOf μ m g)).sum
  | [], _ => by
    rw [meanOf_sumRuns_nil]
    exact hg.nothing
  | m :: ms, h => by
    have hm := h m (by simp)
    have hms : ∀ n ∈ ms, GoodRun n := fun n hn => h n (by simp [hn])
    have hs := goodRun_sum hms
    rw [meanOf_sumRuns_cons hm.fin fun n hn => (hms n hn).fin, List.map_cons, List.sum_cons, ← mean_sum hg hms]
    have e1 : ∀ p, Returns m p → MeanOf μ (sumRuns ms) (fun q => g (fun i => p i + q i)) = g p + MeanOf μ (sumRuns ms) g := by
      intro p hp
      have e2 : MeanOf μ (sumRuns ms) (fun q => g (fun i => p i + q i)) = MeanOf μ (sumRuns ms) (fun q => g p + g q) :=
        meanOf_congr fun q hq => hg.sum p q (hm.nonneg p hp) (hs.nonneg q hq)
      rw [e2, meanOf_add hs.fin (fun _ => g p) g, meanOf_const hs.never]
    rw [meanOf_congr e1, meanOf_add hm.fin g (fun _ => MeanOf μ (sumRuns ms) g), meanOf_const hm.never]

/-! ## A day of a use case -/

theorem mean_row [IsProbabilityMeasure μ] {env : Env} {depth : ℕ} {uc : UseCase} {ds peak : List ℤ} {days : Option (List ℤ)} (hr : Ready uc ds peak)
    (hn : NeverRaises (dailyRows env depth uc days)) (g : Profile → ℝ≥0∞) (k : Fin ds.length) :
    MeanOf μ (dailyRows env depth uc days) (fun rows => g (rows.getD k zeros)) = MeanOf μ (caseRun depth k peak (typeOfDay ds[k]) uc.users) g := by
  have h := C101_expected_products (μ := μ) (env := env) (depth := depth) days hr (fun j p => if j = k then g p else 1)
  have e1 : ∀ rows : List Profile, (∏ j : Fin ds.length, if (j : ℕ) = k then g (rows.getD j zeros) else 1) = g (rows.getD k zeros) := by
    intro rows
    rw [Finset.prod_eq_single k]
    · rw [if_pos rfl]
    · intro j _ hj
      exact if_neg fun e => hj (Fin.ext e)
    · exact fun h => absurd (Finset.mem_univ _) h
  simp only [e1] at h
  rw [h, Finset.prod_eq_single k]
  · simp only [if_true]
  · intro j _ hj
    have hj' : (j : ℕ) ≠ k := fun e => hj (Fin.ext e)
    simp only [if_neg hj']
    rw [dailyRows_eq days hr] at hn
    have := never_rowsRun.1 hn j
    rw [zero_add] at this
    exact meanOf_const this 1
  · exact fun h => absurd (Finset.mem_univ _) h

theorem caseRun_onlyOne (depth k : ℕ) (peak : List ℤ) (dt : ℤ) (u : User) (a : Appliance) :
    caseRun depth k peak dt [onlyOne u a] = sumRuns [sumRuns [drawPreference u.userPreference >>= fun pref => sumRuns [applianceRun depth k peak dt pref a]]] := rfl

theorem good_appliance {depth k : ℕ} {peak : List ℤ} {dt : ℤ} {u : User} (hn : NeverRaises (memberRun depth k peak dt u)) (hP : ∀ a ∈ u.appList, ∃ P, PowersUpTo P a)
    {pref : ℤ} (hp : Returns (drawPreference u.userPreference) pref) {a : Appliance} (ha : a ∈ u.appList) : GoodRun (applianceRun depth k peak dt pref a) := by
  obtain ⟨_, _, h⟩ := never_bind (fin_drawPreference _) hn
  have h1 := (never_sumRuns (fun m hm => by
    obtain ⟨b, _, rfl⟩ := List.mem_map.1 hm
    exact fin_applianceRun _ _ _ _ _ _)).1 (h pref hp) _ (List.mem_map.2 ⟨a, ha, rfl⟩)
  obtain ⟨P, hP⟩ := hP a ha
  exact ⟨fin_applianceRun _ _ _ _ _ _, h1, fun p hr i => (applianceDay_bounds (P := fun _ => P) hP (returns_applianceRun.1 hr) i).1⟩

theorem good_member {depth k : ℕ} {peak : List ℤ} {dt : ℤ} {u : User} (hn : NeverRaises (memberRun depth k peak dt u)) (hP : ∀ a ∈ u.appList, ∃ P, PowersUpTo P a) :
    GoodRun (memberRun depth k peak dt u) := by
  refine ⟨fin_memberRun _ _ _ _ _, hn, fun p hp => ?_⟩
  unfold memberRun at hp
  obtain ⟨pref, h1, h2⟩ := (returns_bind (fin_drawPreference _)).1 hp
  refine (goodRun_sum fun m hm => ?_).nonneg p h2
  obtain ⟨a, ha, rfl⟩ := List.mem_map.1 hm
  exact good_appliance hn hP h1 ha

theorem mean_one' [IsProbabilityMeasure μ] {g : Profile → ℝ≥0∞} (hg : AddsUp g) {depth k : ℕ} {peak : List ℤ} {dt : ℤ} {u : User}
    (hn : NeverRaises (memberRun depth k peak dt u)) (hP : ∀ a ∈ u.appList, ∃ P, PowersUpTo P a) {a : Appliance} (ha : a ∈ u.appList) :
    MeanOf μ (caseRun depth k peak dt [onlyOne u a]) g = MeanOf μ (drawPreference u.userPreference) (fun pref => MeanOf μ (applianceRun depth k peak dt pref a) g) := by
  have hf : ∀ (apps : List Appliance) pref, ∀ m ∈ apps.map (applianceRun depth k peak dt pref), Finitary m := by
    intro apps pref m hm
    obtain ⟨b, _, rfl⟩ := List.mem_map.1 hm
    exact fin_applianceRun _ _ _ _ _ _
  have h1 : ∀ pref, Returns (drawPreference u.userPreference) pref → GoodRun (sumRuns [applianceRun depth k peak dt pref a]) := fun pref hp =>
    goodRun_sum fun m hm => by rw [List.mem_singleton.1 hm]; exact good_appliance hn hP hp ha
  have h2 : GoodRun (drawPreference u.userPreference >>= fun pref => sumRuns [applianceRun depth k peak dt pref a]) := by
    refine ⟨fin_bind (fin_drawPreference _) fun pref => fin_sumRuns (hf [a] pref), never_bind_intro (fin_drawPreference _) (never_bind (fin_drawPreference _) hn).1 fun pref hp =>
      (h1 pref hp).never, fun p hp => ?_⟩
    obtain ⟨pref, hp1, hp2⟩ := (returns_bind (fin_drawPreference _)).1 hp
    exact (h1 pref hp1).nonneg p hp2
  have h3 : GoodRun (sumRuns [drawPreference u.userPreference >>= fun pref => sumRuns [applianceRun depth k peak dt pref a]]) :=
    goodRun_sum fun m hm => by rw [List.mem_singleton.1 hm]; exact h2
  rw [caseRun_onlyOne, mean_sum hg (fun m hm => by rw [List.mem_singleton.1 hm]; exact h3), List.map_singleton, List.sum_singleton,
    mean_sum hg (fun m hm => by rw [List.mem_singleton.1 hm]; exact h2), List.map_singleton, List.sum_singleton,
    meanOf_bind (f := fun pref => sumRuns [applianceRun depth k peak dt pref a]) (fin_drawPreference _) fun pref => fin_sumRuns (hf [a] pref)]
  refine meanOf_congr fun pref hp => ?_
  rw [mean_sum hg (fun m hm => by rw [List.mem_singleton.1 hm]; exact good_appliance hn hP hp ha), List.map_singleton, List.sum_singleton]

theorem mean_one [IsProbabilityMeasure μ] {g : Profile → ℝ≥0∞} (hg : AddsUp g) {depth k : ℕ} {peak : List ℤ} {dt : ℤ} {u : User} {a : Appliance}
    (hn : NeverRaises (memberRun depth k peak dt (onlyOne u a))) (hP : ∀ b ∈ (onlyOne u a).appList, ∃ P, PowersUpTo P b) :
    MeanOf μ (caseRun depth k peak dt [onlyOne u a]) g = MeanOf μ (drawPreference u.userPreference) (fun pref => MeanOf μ (applianceRun depth k peak dt pref a) g) :=
  mean_one' hg hn hP (List.mem_singleton_self a)

theorem mean_member [IsProbabilityMeasure μ] {g : Profile → ℝ≥0∞} (hg : AddsUp g) {depth k : ℕ} {peak : List ℤ} {dt : ℤ} {u : User}
    (hn : NeverRaises (memberRun depth k peak dt u)) (hP : ∀ a ∈ u.appList, ∃ P, PowersUpTo P a) :
    MeanOf μ (memberRun depth k peak dt u) g = (u.appList.map (fun a => MeanOf μ (caseRun depth k peak dt [onlyOne u a]) g)).sum := by
  have hf : ∀ (apps : List Appliance) pref, ∀ m ∈ apps.map (applianceRun depth k peak dt pref), Finitary m := by
    intro apps pref m hm
    obtain ⟨b, _, rfl⟩ := List.mem_map.1 hm
    exact fin_applianceRun _ _ _ _ _ _
  have hgood : ∀ pref, Returns (drawPreference u.userPreference) pref → ∀ m ∈ u.appList.map (applianceRun depth k peak dt pref), GoodRun m := by
    intro pref hp m hm
    obtain ⟨a, ha, rfl⟩ := List.mem_map.1 hm
    exact good_appliance hn hP hp ha
  unfold memberRun
  rw [meanOf_bind (fin_drawPreference _) fun pref => fin_sumRuns (hf _ pref), meanOf_congr fun pref hp => mean_sum (μ := μ) hg (hgood pref hp)]
  have e1 : ∀ a ∈ u.appList, MeanOf μ (caseRun depth k peak dt [onlyOne u a]) g = MeanOf μ (drawPreference u.userPreference) (fun pref => MeanOf μ (applianceRun depth k peak dt pref a) g) :=
    fun a ha => mean_one' hg hn hP ha
  rw [List.map_congr_left e1]
  simp only [List.map_map, Function.comp_def]
  generalize u.appList = apps
  induction apps with
  | nil => exact meanOf_zero _
  | cons a apps ih =>
    simp only [List.map_cons, List.sum_cons]
    rw [meanOf_add (fin_drawPreference _), ih]

theorem mean_case [IsProbabilityMeasure μ] {g : Profile → ℝ≥0∞} (hg : AddsUp g) {depth k : ℕ} {peak : List ℤ} {dt : ℤ} {us : List User}
    (hn : NeverRaises (caseRun depth k peak dt us)) (hP : ∀ u ∈ us, ∀ a ∈ u.appList, ∃ P, PowersUpTo P a) :
    MeanOf μ (caseRun depth k peak dt us) g =
      (us.map (fun u => (u.numUsers.toNat : ℝ≥0∞) * (u.appList.map (fun a => MeanOf μ (caseRun depth k peak dt [onlyOne u a]) g)).sum)).sum := by
  have hfu : ∀ m ∈ us.map (userRun depth k peak dt), Finitary m := by
    intro m hm
    obtain ⟨b, _, rfl⟩ := List.mem_map.1 hm
    exact fin_userRun _ _ _ _ _
  have hnu : ∀ u ∈ us, NeverRaises (userRun depth k peak dt u) := fun u hu => (never_sumRuns hfu).1 hn _ (List.mem_map.2 ⟨u, hu, rfl⟩)
  have hfm : ∀ u : User, ∀ m ∈ List.replicate u.numUsers.toNat (memberRun depth k peak dt u), Finitary m := by
    intro u m hm
    rw [List.eq_of_mem_replicate hm]
    exact fin_memberRun _ _ _ _ _
  have hgm : ∀ u ∈ us, ∀ m ∈ List.replicate u.numUsers.toNat (memberRun depth k peak dt u), GoodRun m := by
    intro u hu m hm
    have h1 := (never_sumRuns (hfm u)).1 (hnu u hu) m hm
    rw [List.eq_of_mem_replicate hm] at h1 ⊢
    exact good_member h1 (hP u hu)
  have hgu : ∀ m ∈ us.map (userRun depth k peak dt), GoodRun m := by
    intro m hm
    obtain ⟨u, hu, rfl⟩ := List.mem_map.1 hm
    exact goodRun_sum (hgm u hu)
  unfold caseRun
  rw [mean_sum hg hgu, List.map_map]
  congr 1
  refine List.map_congr_left fun u hu => ?_
  show MeanOf μ (userRun depth k peak dt u) g = _
  unfold userRun
  rw [mean_sum hg (hgm u hu), List.map_replicate, List.sum_replicate, nsmul_eq_mul]
  rcases Nat.eq_zero_or_pos u.numUsers.toNat with h0 | h0
  · rw [h0, Nat.cast_zero, zero_mul, zero_mul]
  · have h1 : memberRun depth k peak dt u ∈ List.replicate u.numUsers.toNat (memberRun depth k peak dt u) := List.mem_replicate.2 ⟨by omega, rfl⟩
    rw [mean_member hg (hgm u hu _ h1).never (hP u hu)]
    rfl

/-! ## The expected load -/

/-- **C104.** In a simulation that cannot fail, of appliances without negative powers, the expected load adds up: for any quantity that adds up (the load of
a minute, the energy of the day), its expected value on day `k` is the sum over the users and their appliances of `num_users` times its expected value
in the simulation of one member with this appliance alone. -/
theorem C104_expected_load [IsProbabilityMeasure μ] {env : Env} {depth : ℕ} {uc : UseCase} {ds peak : List ℤ} {days : Option (List ℤ)} (hr : Ready uc ds peak)
    (hn : NeverRaises (generateDaily env depth uc days)) (hP : ∀ u ∈ uc.users, ∀ a ∈ u.appList, ∃ P, PowersUpTo P a) {k : ℕ} (hk : k < ds.length)
    {g : Profile → ℝ≥0∞} (hg : AddsUp g) :
    MeanOf μ (dailyRows env depth uc days) (fun rows => g (rows.getD k zeros)) =
      (uc.users.map (fun u => (u.numUsers.toNat : ℝ≥0∞) *
        (u.appList.map (fun a => MeanOf μ (dailyRows env depth { uc with users := [onlyOne u a] } days) (fun rows => g (rows.getD k zeros)))).sum)).sum := by
  have hn' := never_dailyRows hn
  rw [mean_row hr hn' g ⟨k, hk⟩]
  rw [dailyRows_eq days hr] at hn'
  have hcase : ∀ j : Fin ds.length, NeverRaises (caseRun depth j peak (typeOfDay ds[j]) uc.users) := by
    intro j
    have := never_rowsRun.1 hn' j
    rwa [zero_add] at this
  rw [mean_case hg (hcase ⟨k, hk⟩) hP]
  congr 1
  refine List.map_congr_left fun u hu => ?_
  rcases Nat.eq_zero_or_pos u.numUsers.toNat with h0 | h0
  · rw [h0, Nat.cast_zero, zero_mul, zero_mul]
  congr 2
  refine List.map_congr_left fun a ha => ?_
  have hr' : Ready { uc with users := [onlyOne u a] } ds peak := ready_users hr _
  have hone : NeverRaises (dailyRows env depth { uc with users := [onlyOne u a] } days) := by
    rw [dailyRows_eq days hr', never_rowsRun]
    intro j
    rw [zero_add]
    have h1 := (never_sumRuns fun m hm => by
      obtain ⟨b, _, rfl⟩ := List.mem_map.1 hm
      exact fin_userRun _ _ _ _ _).1 (hcase j) _ (List.mem_map.2 ⟨u, hu, rfl⟩)
    have h2 := (never_sumRuns fun m hm => by
      rw [List.eq_of_mem_replicate hm]
      exact fin_memberRun _ _ _ _ _).1 h1 _ (List.mem_replicate.2 ⟨by omega, rfl⟩)
    have hfa : ∀ pref, Finitary (sumRuns [applianceRun depth j peak (typeOfDay ds[j]) pref a]) := fun pref => fin_sumRuns fun m hm => by
      rw [List.mem_singleton.1 hm]
      exact fin_applianceRun _ _ _ _ _ _
    have hfm := fin_bind (f := fun pref => sumRuns [applianceRun depth j peak (typeOfDay ds[j]) pref a]) (fin_drawPreference u.userPreference) hfa
    rw [caseRun_onlyOne]
    refine (never_sumRuns fun m hm => ?_).2 fun m hm => ?_
    · rw [List.mem_singleton.1 hm]
      refine fin_sumRuns fun m hm => ?_
      rw [List.mem_singleton.1 hm]
      exact hfm
    · rw [List.mem_singleton.1 hm]
      refine (never_sumRuns fun m hm => ?_).2 fun m hm => ?_
      · rw [List.mem_singleton.1 hm]
        exact hfm
      · rw [List.mem_singleton.1 hm]
        refine never_bind_intro (fin_drawPreference _) (never_bind (fin_drawPreference _) h2).1 fun pref hp => ?_
        refine (never_sumRuns fun m hm => ?_).2 fun m hm => ?_
        · rw [List.mem_singleton.1 hm]
          exact fin_applianceRun _ _ _ _ _ _
        · rw [List.mem_singleton.1 hm]
          exact (good_appliance h2 (hP u hu) hp ha).never
  exact (mean_row hr' hone g ⟨k, hk⟩).symm

/-- The load of a minute adds up. -/
theorem C104_load_adds_up (i : Fin 1440) : AddsUp (loadAt i) where
  nothing := by simp [loadAt, zeros]
  sum p q hp hq := by
    unfold loadAt
    rw [Rat.cast_add, ENNReal.ofReal_add (by exact_mod_cast hp i) (by exact_mod_cast hq i)]

/-- The energy of a day adds up. -/
theorem C104_energy_adds_up : AddsUp energyOf where
  nothing := by
    unfold energyOf zeros
    rw [Finset.sum_const_zero, Rat.cast_zero, ENNReal.ofReal_zero]
  sum p q hp hq := by
    unfold energyOf
    rw [Finset.sum_add_distrib, Rat.cast_add, ENNReal.ofReal_add (by exact_mod_cast Finset.sum_nonneg fun i _ => hp i) (by exact_mod_cast Finset.sum_nonneg fun i _ => hq i)]

/-! ## The expected energy -/

theorem off_or_steady {a : Appliance} (hs : WellSeparated a) (hst : SteadyUse a) {depth : ℕ} {pref : ℤ} {k : ℕ} {peak : List ℤ} (hpk : peak ≠ []) {dt : ℤ}
    (huse : ¬ SkippedForSure a pref dt) {p : Profile} (h : ApplianceDay (depth + 1) k peak dt pref a p) : p = zeros ∨ energy p = energyOfUse k a := by
  obtain ⟨w, a', hw, h, rfl⟩ := h
  have hwk : a.power.getD k 0 = w := by rw [List.getD_eq_getElem?_getD, hw]; rfl
  rcases C88_energy_of_a_fixed_day hs hst.noCycles hst.notFlat hpk hst.power hst.together h with ⟨h, _⟩ | ⟨w1, w2, w3, time, m, hd, he⟩
  · exact .inl h
  · refine .inr ?_
    obtain ⟨v1, v2, v3⟩ := hst.windows
    have e1 := hd.m1
    have e2 := hd.m2
    have e3 := hd.m3
    rw [v1] at e1
    rw [v2] at e2
    rw [v3] at e3
    rw [moved_zero hs.windows.w1 e1, moved_zero hs.windows.w2 e2, moved_zero hs.windows.w3 e3] at he hd
    have hm : m = minutesOfUse a := by
      rw [hd.all hst.minutes]
      obtain ⟨_, n, h1, h2, h3⟩ := hd.limit
      rw [hst.time] at h1 h2
      simp only [sub_zero, add_zero, mul_one, Int.floor_intCast] at h1 h2
      have hft : 1 ≤ a.funcTime := by
        have := hs.time
        rcases lt_or_eq_of_le this with h | h
        · omega
        · exact absurd (.inr (.inr h.symm)) huse
      have := hst.minutes
      rw [h3]
      unfold minutesOfUse
      show _ = min a.funcTime ⌊(99 / 100 : ℚ) * totalTime a.window1 a.window2 a.window3⌋
      omega
    unfold energyOfUse
    rw [he, hwk, hm]
    rfl

theorem energyOf_eq (p : Profile) : energyOf p = ENNReal.ofReal ((energy p : ℚ) : ℝ) := rfl

theorem mean_energy_of [IsProbabilityMeasure μ] {a : Appliance} (hc : SafeConfig a) (hv : VisibleUse a) {depth k : ℕ} {E : ℚ}
    {peak : List ℤ} {dt pref : ℤ} (hE : ¬ SkippedForSure a pref dt → ∀ p, ApplianceDay (depth + 1) k peak dt pref a p → p = zeros ∨ energy p = E)
    (hk : k < a.power.length) (hn : ∀ w, NeverRaises (generateLoadProfile a (depth + 1) pref k peak dt w)) :
    MeanOf μ (applianceRun (depth + 1) k peak dt pref a) energyOf =
      ind (¬ SkippedForSure a pref dt) * (μ {d | d.u ≤ a.occasionalUse} * ENNReal.ofReal ((E : ℚ) : ℝ)) := by
  have hz : energyOf zeros = 0 := C104_energy_adds_up.nothing
  by_cases hskip : SkippedForSure a pref dt
  · rw [ind_false (not_not.2 hskip), zero_mul]
    refine (meanOf_congr fun p hp => ?_).trans (meanOf_zero _)
    rw [applianceDay_skipped hskip (returns_applianceRun.1 hp)]
    exact hz
  · rw [ind_true hskip, one_mul]
    have hrun := fin_applianceRun (depth + 1) k peak dt pref a
    have e1 : MeanOf μ (applianceRun (depth + 1) k peak dt pref a) energyOf =
        MeanOf μ (applianceRun (depth + 1) k peak dt pref a) (fun p => ind (¬ p = zeros) * ENNReal.ofReal ((E : ℚ) : ℝ)) := by
      refine meanOf_congr fun p hp => ?_
      by_cases hp0 : p = zeros
      · rw [ind_false (not_not.2 hp0), hp0, hz, zero_mul]
      · rw [ind_true hp0, one_mul, energyOf_eq, (hE hskip p (returns_applianceRun.1 hp)).resolve_left hp0]
    rw [e1, meanOf_mul_right hrun, ← chanceOf_ind hrun]
    congr 1
    have hw := List.getElem?_eq_getElem hk
    have h0 := chance_appliance (μ := μ) hc hv hskip hw (hn _)
    have h1 := chanceOf_compl (μ := μ) hrun (fun p => p = zeros)
    have hnr : NeverRaises (applianceRun (depth + 1) k peak dt pref a) := by
      unfold applianceRun
      rw [hw]
      exact never_bind_intro (fin_generate _ _ _ _ _ _ _) (hn _) fun _ _ => never_pure _
    rw [chanceOf_sure hrun hnr, h0] at h1
    rw [← one_sub_above]
    refine ENNReal.eq_sub_of_add_eq' one_ne_top ?_
    rw [add_comm]
    exact h1

theorem mean_energy [IsProbabilityMeasure μ] {a : Appliance} (hs : WellSeparated a) (hst : SteadyUse a) (hc : SafeConfig a) (hv : VisibleUse a) {depth k : ℕ}
    {peak : List ℤ} (hpk : peak ≠ []) {dt pref : ℤ} (hk : k < a.power.length) (hn : ∀ w, NeverRaises (generateLoadProfile a (depth + 1) pref k peak dt w)) :
    MeanOf μ (applianceRun (depth + 1) k peak dt pref a) energyOf =
      ind (¬ SkippedForSure a pref dt) * (μ {d | d.u ≤ a.occasionalUse} * ENNReal.ofReal ((energyOfUse k a : ℚ) : ℝ)) :=
  mean_energy_of hc hv (fun hskip _ hp => off_or_steady hs hst hpk hskip hp) hk hn

theorem mean_ind_pref [IsProbabilityMeasure μ] (dt : ℤ) (u : User) (a : Appliance) :
    MeanOf μ (drawPreference u.userPreference) (fun pref => ind (¬ SkippedForSure a pref dt)) * μ {d | d.u ≤ a.occasionalUse} = chanceOfUse μ dt u a := by
  unfold chanceOfUse
  split_ifs with h
  · have e1 : ∀ pref, ind (¬ SkippedForSure a pref dt) = 0 := fun pref => ind_false (not_not.2 (.inr h))
    simp only [e1]
    rw [meanOf_zero, zero_mul]
  · rw [chanceOf_ind (fin_drawPreference _)]
    congr 1
    refine meanOf_congr fun pref _ => ind_congr ?_
    unfold SkippedForSure
    constructor
    · intro hn
      by_contra hc
      rw [not_or] at hc
      exact hn (.inl hc)
    · rintro h1 (h2 | h2)
      · rcases h1 with h1 | h1
        · exact h2.1 h1
        · exact h2.2 h1
      · exact h h2

/-- **C104.** The expected energy of day `k` of a use case whose appliances are steady (only whether and when they are used is left to chance) is the sum over
the users and their appliances of `num_users` times the probability of use times the energy of a day of use: the minutes of use times `number` times the
power, plus the marker of 0.001 for the other minutes of the windows. -/
theorem C104_expected_energy [IsProbabilityMeasure μ] {env : Env} {depth : ℕ} {uc : UseCase} {ds peak : List ℤ} {days : Option (List ℤ)} (hr : Ready uc ds peak)
    (hp : peak ≠ []) (hs : ∀ u ∈ uc.users, SensibleUser u) (hl : ∀ u ∈ uc.users, ∀ a ∈ u.appList, ds.length ≤ a.power.length)
    (hv : ∀ u ∈ uc.users, ∀ a ∈ u.appList, VisibleUse a) (hst : ∀ u ∈ uc.users, ∀ a ∈ u.appList, SteadyUse a) {k : ℕ} (hk : k < ds.length) :
    MeanOf μ (dailyRows env (depth + 1) uc days) (fun rows => energyOf (rows.getD k zeros)) =
      (uc.users.map (fun u => (u.numUsers.toNat : ℝ≥0∞) * (u.appList.map (fun a =>
        chanceOfUse μ (typeOfDay ds[k]) u a * ENNReal.ofReal ((energyOfUse k a : ℚ) : ℝ))).sum)).sum := by
  have hn : NeverRaises (generateDaily env (depth + 1) uc days) := C82_sensible_never_fails days hr hp hs hl
  have hn' := never_dailyRows hn
  rw [mean_row hr hn' energyOf ⟨k, hk⟩]
  rw [dailyRows_eq days hr] at hn'
  have hcase := never_rowsRun.1 hn' ⟨k, hk⟩
  rw [zero_add] at hcase
  rw [mean_case C104_energy_adds_up hcase fun u hu a ha => (hv u hu a ha).powers]
  congr 1
  refine List.map_congr_left fun u hu => ?_
  congr 2
  refine List.map_congr_left fun a ha => ?_
  obtain ⟨h1, h2, h3⟩ := (hs u hu).appliances a ha
  have hka : k < a.power.length := by have := hl u hu a ha; omega
  have hsep : WellSeparated a := ⟨h1.windows, (hv u hu a ha).apart, h1.cycles, fun h => absurd (hst u hu a ha).noCycles (by omega), h1.fc, h1.ft, h1.var, h1.number⟩
  have hgen : ∀ pref w, NeverRaises (generateLoadProfile a (depth + 1) pref k peak (typeOfDay ds[k]) w) := fun pref w => C72_never_raises h1 hp (fun _ => hka) h2 h3
  have hna : ∀ pref, NeverRaises (applianceRun (depth + 1) k peak (typeOfDay ds[k]) pref a) := by
    intro pref
    unfold applianceRun
    rw [List.getElem?_eq_getElem hka]
    exact never_bind_intro (fin_generate _ _ _ _ _ _ _) (hgen pref _) fun _ _ => never_pure _
  have hmem : NeverRaises (memberRun (depth + 1) k peak (typeOfDay ds[k]) (onlyOne u a)) := by
    refine never_bind_intro (fin_drawPreference _) (never_drawPreference.2 (hs u hu).preference) fun pref _ => ?_
    refine (never_sumRuns fun m hm => ?_).2 fun m hm => ?_
    · rw [List.mem_singleton.1 hm]
      exact fin_applianceRun _ _ _ _ _ _
    · rw [List.mem_singleton.1 hm]
      exact hna pref
  have hPa : ∀ b ∈ (onlyOne u a).appList, ∃ P, PowersUpTo P b := fun b hb => by
    rw [List.mem_singleton.1 hb]
    exact (hv u hu a ha).powers
  have e1 : MeanOf μ (caseRun (depth + 1) k peak (typeOfDay ds[k]) [onlyOne u a]) energyOf =
      MeanOf μ (drawPreference u.userPreference) (fun pref => MeanOf μ (applianceRun (depth + 1) k peak (typeOfDay ds[k]) pref a) energyOf) :=
    mean_one C104_energy_adds_up hmem hPa
  show MeanOf μ (caseRun (depth + 1) k peak (typeOfDay ds[k]) [onlyOne u a]) energyOf = _
  rw [e1, meanOf_congr fun pref _ => mean_energy (μ := μ) hsep (hst u hu a ha) h1 (hv u hu a ha) hp hka (hgen pref), meanOf_mul_right (fin_drawPreference _),
    ← mul_assoc, mean_ind_pref]

/-! ## The preferences -/

theorem chanceOf_const_sure [IsProbabilityMeasure μ] {α : Type} {m : Sim α} (hm : Finitary m) (h : NeverRaises m) {φ : α → Prop} (hφ : ∀ a, φ a) : ChanceOf μ m φ = 1 := by
  rw [← chanceOf_sure (μ := μ) hm h]
  exact chanceOf_congr fun a _ => ⟨fun _ => trivial, fun _ => hφ a⟩

/-- **C104.** With the random numbers of Python, each of the `user_preference` preferences is that of a member on a day with the same probability; appliances
without preference do not depend on it, and an appliance whose preference nobody can have is never used. -/
theorem C104_python_preference {N : ℕ} (h : PythonRandom N μ) {n : ℤ} (h0 : 0 ≤ n) (hN : n ≤ N) (j : ℤ) :
    ChanceOf μ (drawPreference n) (fun pref => j = 0 ∨ pref = j) = if j = 0 then 1 else if 1 ≤ j ∧ j ≤ n then (n.toNat : ℝ≥0∞)⁻¹ else 0 := by
  have := h.probability
  split_ifs with hj hjn
  · exact chanceOf_const_sure (fin_drawPreference _) (never_drawPreference.2 h0) fun _ => .inl hj
  · obtain ⟨m, rfl⟩ := Int.eq_ofNat_of_zero_le h0
    have hm : 1 ≤ m := by omega
    have hrun : drawPreference (m : ℤ) = nextDraw >>= fun d => pure (1 + ((d.k % m : ℕ) : ℤ)) := by
      unfold drawPreference
      rw [if_neg (by omega)]
      unfold randint
      rw [if_neg (by omega)]
      congr 1
      funext d
      rw [show (m : ℤ) - 1 + 1 = m by ring]
      push_cast
      rfl
    rw [hrun, chanceOf_ind (fin_bind fin_nextDraw fun _ => fin_pure _), meanOf_bind fin_nextDraw fun _ => fin_pure _]
    simp only [meanOf_pure]
    rw [← chanceOf_ind fin_nextDraw, chanceOf_nextDraw, Int.toNat_natCast, ← h.integers m hm (by exact_mod_cast hN) (j - 1).toNat (by omega)]
    congr 1
    ext d
    simp only [Set.mem_setOf_eq]
    omega
  · rw [chanceOf_ind (fin_drawPreference _)]
    refine (meanOf_congr fun pref hp => ind_false fun hc => ?_).trans (meanOf_zero _)
    have hp' := returns_drawPreference.1 hp
    split_ifs at hp' with hn0
    all_goals omega

/-! ## A case -/

/-- A radio of 60 W for an hour between 10:00 and 13:20, three days out of ten, by the members with the second of the preferences. -/
def steadyRadio : Appliance where
  number := 1
  power := List.replicate 367 60
  window1 := (600, 800)
  funcTime := 60
  funcCycle := 1
  fixed := "yes"
  occasionalUse := 3 / 10
  prefIndex := 2

theorem radio_sensible : SensibleAppliance steadyRadio := by
  refine ⟨⟨⟨?_, ?_, ?_, ?_, ?_, ?_⟩, ?_, ?_, ?_, ?_, ?_, ?_, ?_, ?_, ⟨?_, ?_, ?_, ?_, ?_, ?_, ?_, ?_, ?_, ?_⟩⟩, ⟨?_, ?_, ?_, ?_, ?_, ?_⟩, .inl ?_⟩
  all_goals simp only [DayWindow, steadyRadio, totalTime]
  all_goals norm_num

theorem radio_visible : VisibleUse steadyRadio := by
  refine ⟨fun w1 w2 w3 h1 h2 h3 => ?_, ⟨60, radio_sensible.config.windows, ?_, ?_, ?_, ?_, ?_⟩, fun h => absurd h (by decide)⟩
  · have empty : ∀ w, MovedWindow (0, 0) 0 w → w.1 = w.2 := by
      rintro w ⟨a, b, h1, h2, rfl⟩
      simp only at h1 h2 ⊢
      omega
    have e2 := empty w2 h2
    have e3 := empty w3 h3
    exact ⟨.inr (.inl e2), .inr (.inl e3), .inl e2⟩
  · norm_num [steadyRadio]
  · norm_num [steadyRadio]
  · norm_num [steadyRadio]
  · intro p hp
    rw [List.eq_of_mem_replicate hp]
    norm_num
  · intro p hp
    have hp' : p ∈ [(0 : ℚ), 0, 0, 0, 0, 0] := hp
    have h0 : p = 0 := by simpa using hp'
    rw [h0]
    norm_num

theorem radio_steady : SteadyUse steadyRadio := ⟨le_refl _, by decide, by decide, rfl, rfl, ⟨rfl, rfl, rfl⟩, rfl⟩

theorem radio_energy : energyOfUse 1 steadyRadio = 60 * 60 + 1 / 1000 * 140 := by
  have hw : windowMinutes steadyRadio = 200 := rfl
  have hm : minutesOfUse steadyRadio = 60 := by
    unfold minutesOfUse
    rw [hw, show ⌊(99 / 100 : ℚ) * ((200 : ℤ) : ℚ)⌋ = 198 by norm_num]
    rfl
  have hp : steadyRadio.power.getD 1 0 = 60 := by
    show (List.replicate 367 (60 : ℚ)).getD 1 0 = 60
    rw [List.getD_eq_getElem?_getD, List.getElem?_replicate, if_pos (by norm_num)]
    rfl
  unfold energyOfUse
  rw [hw, hm, hp]
  norm_num [steadyRadio]

/-- A case for C104: four households with three possible preferences each.  On the second day their radios take, in expectation, 4 times a third of the
probability of use times an hour of 60 W and the markers: with the random numbers of Python, `4 · 1/3 · 3600.14 · P(u ≤ 0.3)` watt minutes. -/
example {N : ℕ} (h : PythonRandom N μ) (hN : 3 ≤ N) :
    MeanOf μ (dailyRows ⟨0, none⟩ 1000 (lampDays [{ numUsers := 4, userPreference := 3, appList := [steadyRadio] }]) none) (fun rows => energyOf (rows.getD 1 zeros)) =
      4 * ((3 : ℝ≥0∞)⁻¹ * μ {d | d.u ≤ 3 / 10} * ENNReal.ofReal ((60 * 60 + 1 / 1000 * 140 : ℚ) : ℝ)) := by
  have := h.probability
  have hmem : ∀ u ∈ (lampDays [{ numUsers := 4, userPreference := 3, appList := [steadyRadio] }]).users, u.userPreference = 3 ∧ u.appList = [steadyRadio] := by
    intro u hu
    rw [List.mem_singleton.1 hu]
    exact ⟨rfl, rfl⟩
  have hpow : ∀ u ∈ (lampDays [{ numUsers := 4, userPreference := 3, appList := [steadyRadio] }]).users, ∀ a ∈ u.appList, a = steadyRadio := by
    intro u hu a ha
    rw [(hmem u hu).2] at ha
    exact List.mem_singleton.1 ha
  have e := C104_expected_energy (μ := μ) (env := ⟨0, none⟩) (depth := 999) (uc := lampDays [{ numUsers := 4, userPreference := 3, appList := [steadyRadio] }])
    (ds := [0, 1, 2]) (peak := [700]) (days := none) ⟨rfl, rfl, rfl⟩ (by simp)
    (fun u hu => ⟨by rw [(hmem u hu).1]; norm_num, fun a ha => by rw [hpow u hu a ha]; exact radio_sensible⟩)
    (fun u hu a ha => by
      rw [hpow u hu a ha]
      show 3 ≤ (List.replicate 367 (60 : ℚ)).length
      rw [List.length_replicate]
      norm_num)
    (fun u hu a ha => by rw [hpow u hu a ha]; exact radio_visible)
    (fun u hu a ha => by rw [hpow u hu a ha]; exact radio_steady) (k := 1) (by simp)
  rw [e]
  have hpr := C104_python_preference (n := 3) h (by norm_num) (by exact_mod_cast hN) 2
  rw [if_neg (by norm_num), if_pos (by norm_num)] at hpr
  have hch : ∀ dt, chanceOfUse μ dt { numUsers := 4, userPreference := 3, appList := [steadyRadio] } steadyRadio = (3 : ℝ≥0∞)⁻¹ * μ {d | d.u ≤ 3 / 10} := by
    intro dt
    unfold chanceOfUse
    rw [if_neg (by
      rintro (h | h)
      · exact h.2 rfl
      · exact absurd h (by norm_num [steadyRadio]))]
    exact congrArg (· * _) hpr
  simp only [lampDays, List.map_cons, List.map_nil, List.sum_cons, List.sum_nil, add_zero, radio_energy, hch]
  have h4 : (((4 : ℤ).toNat : ℕ) : ℝ≥0∞) = 4 := by
    rw [show (4 : ℤ).toNat = 4 from rfl]
    rfl
  rw [h4]

end Ramp
