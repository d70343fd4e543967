import Verif.Props.ParallelLaw
import Verif.Props.Hoeffding
import Verif.Props.Entries
import Verif.Props.Expected

/-! # Expected loads and fluctuations in parallel mode -/

set_option autoImplicit false

open MeasureTheory ENNReal

namespace Ramp

variable {μ : Measure Draw}

/-- **C104, parallel mode.** With worker processes whose random numbers are independent, and in whatever order the results arrive, the expected load of users without preferences
adds up in the same way. -/
theorem C104_parallel [IsProbabilityMeasure μ] {env : Env} {depth : ℕ} {uc : UseCase} {ds peak : List ℤ} {days : Option (List ℤ)} (hr : Ready uc ds peak)
    (hd : DistinctAppliances uc.users) (ht : 0 < runsPerDay uc.users) (hpref : ∀ u ∈ uc.users, u.userPreference = 0 ∧ u.randDailyPref = 0) {order : List ℕ}
    (ho : ArrivalOrder uc.users ds order) (hn : NeverRaises (generateDaily env depth uc days)) (hP : ∀ u ∈ uc.users, ∀ a ∈ u.appList, ∃ P, PowersUpTo P a) {k : ℕ}
    (hk : k < ds.length) {g : Profile → ℝ≥0∞} (hg : AddsUp g) :
    ParallelMean μ depth uc order (fun rows => g (rows.getD k zeros)) =
      (uc.users.map (fun u => (u.numUsers.toNat : ℝ≥0∞) *
        (u.appList.map (fun a => MeanOf μ (dailyRows env depth { uc with users := [onlyOne u a] } days) (fun rows => g (rows.getD k zeros)))).sum)).sum := by
  rw [(C105_same_distribution (env := env) days hr hd ht hpref ho).2, C104_expected_load hr hn hP hk hg]

/-- **C110, parallel mode.** The load of a minute concentrates around its expected value as in sequential mode. -/
theorem C110_parallel [IsProbabilityMeasure μ] {env : Env} {depth : ℕ} {uc : UseCase} {ds peak : List ℤ} {days : Option (List ℤ)} (hr : Ready uc ds peak)
    (hd : DistinctAppliances uc.users) (ht : 0 < runsPerDay uc.users) (hpref : ∀ u ∈ uc.users, u.userPreference = 0 ∧ u.randDailyPref = 0) {order : List ℕ}
    (ho : ArrivalOrder uc.users ds order) (hn : NeverRaises (generateDaily env depth uc days)) {P : Appliance → ℚ} (hP : ∀ u ∈ uc.users, ∀ a ∈ u.appList, PowersUpTo (P a) a) {c : ℚ}
    (hc : c = (uc.users.map (fun u => (u.numUsers.toNat : ℚ) * (u.appList.map (applianceBound P)).sum ^ 2)).sum) {k : ℕ} (hk : k < ds.length) (i : Fin 1440) {ε : ℝ}
    (hε : 0 < ε) :
    ParallelChance μ depth uc order
        (fun rows => ε ≤ |((rows.getD k zeros i : ℚ) : ℝ) - (ParallelMean μ depth uc order (fun l => ENNReal.ofReal (l.getD k zeros i : ℝ))).toReal|) ≤
      ENNReal.ofReal (2 * Real.exp (-(2 * ε ^ 2 / c))) := by
  obtain ⟨h1, h2⟩ := C105_same_distribution (env := env) (μ := μ) (depth := depth) days hr hd ht hpref ho
  rw [h1, h2]
  exact C110_concentration hr hn hP hc hk i hε

/-- **C116, parallel mode.** The expected energy of the days and the expected load of each minute (of appliances used once a day) of entries of several appliances are between the
same bounds. -/
theorem C116_parallel {N : ℕ} (h : PythonRandom N μ) (hz : SymmetricNormal μ) {depth : ℕ} {uc : UseCase} {ds peak : List ℤ} (hr : Ready uc ds peak) (hp : peak ≠ [])
    (hd : DistinctAppliances uc.users) (hpos : 0 < runsPerDay uc.users) (hpref : ∀ u ∈ uc.users, u.userPreference = 0 ∧ u.randDailyPref = 0) {order : List ℕ}
    (hor : ArrivalOrder uc.users ds order) (hs : ∀ u ∈ uc.users, SensibleUser u) (hl : ∀ u ∈ uc.users, ∀ a ∈ u.appList, ds.length ≤ a.power.length)
    (ht : ∀ u ∈ uc.users, ∀ a ∈ u.appList, chanceOfInteger μ a.number ≤ 1 / 3) :
    ((∀ u ∈ uc.users, ∀ a ∈ u.appList, VisibleUse a ∧ PlainUse a ∧ RoomToVary a ∧ windowDraws a ≤ N) →
      ∃ T : Appliance → ℚ, (∀ u ∈ uc.users, ∀ a ∈ u.appList, AboutFuncTime a (T a)) ∧ ∀ (k : ℕ) (hk : k < ds.length),
        (1 - (2 ^ 51)⁻¹) * sumOfUses μ (typeOfDay ds[k]) uc.users (fun a => energyTogether a (fewestTogether a) (a.power.getD k 0) (T a)) ≤
            ParallelMean μ (depth + 1) uc order (fun l => energyOf (l.getD k zeros)) ∧
          ParallelMean μ (depth + 1) uc order (fun l => energyOf (l.getD k zeros)) ≤
            sumOfUses μ (typeOfDay ds[k]) uc.users (fun a => energyTogether a (mostTogether a) (a.power.getD k 0) (T a))) ∧
    ((∀ u ∈ uc.users, ∀ a ∈ u.appList, (∃ P, PowersUpTo P a) ∧ OnceADay a ∧ (startsOfUse a).ncard ≤ N) → ∀ (k : ℕ) (hk : k < ds.length) (i : Fin 1440),
        (1 - (2 ^ 51)⁻¹) * sumOfUses μ (typeOfDay ds[k]) uc.users (fun a => curveTogether (fewestTogether a) k a i) ≤
            ParallelMean μ (depth + 1) uc order (fun l => ENNReal.ofReal (l.getD k zeros i : ℝ)) ∧
          ParallelMean μ (depth + 1) uc order (fun l => ENNReal.ofReal (l.getD k zeros i : ℝ)) ≤
            sumOfUses μ (typeOfDay ds[k]) uc.users (fun a => curveTogether (mostTogether a) k a i)) := by
  have := h.probability
  have h2 := (C105_same_distribution (env := ⟨0, none⟩) (μ := μ) (depth := depth + 1) none hr hd hpos hpref hor).2
  refine ⟨fun hv => ?_, fun hv k hk i => ?_⟩
  · obtain ⟨T, k1, k2⟩ := C116_expected_energy (env := ⟨0, none⟩) (depth := depth) (days := none) h hz hr hp hs hl (fun u hu a ha => (hv u hu a ha).1)
      (fun u hu a ha => (hv u hu a ha).2.1) (fun u hu a ha => (hv u hu a ha).2.2.1) (fun u hu a ha => (hv u hu a ha).2.2.2) ht
    refine ⟨T, k1, fun k hk => ?_⟩
    rw [h2]
    exact k2 k hk
  · rw [h2]
    exact C116_load_curve (env := ⟨0, none⟩) (depth := depth) (days := none) h hz hr hp hs hl (fun u hu a ha => (hv u hu a ha).1) (fun u hu a ha => (hv u hu a ha).2.1)
      (fun u hu a ha => (hv u hu a ha).2.2) ht hk i

/-- A case for C104 and C110 in parallel mode: the kettles of five households, whatever the order of the four chunks. -/
example [IsProbabilityMeasure μ] {order : List ℕ} (ho : order.Perm [0, 1, 2, 3]) {ε : ℝ} (hε : 0 < ε) (i : Fin 1440) :
    ParallelMean μ 1000 (lampDays [{ numUsers := (5 : ℕ), appList := [kettle] }]) order (fun rows => loadAt i (rows.getD 1 zeros)) =
      5 * MeanOf μ (dailyRows ⟨0, none⟩ 1000 (lampDays [onlyOne { numUsers := (5 : ℕ), appList := [kettle] } kettle]) none) (fun rows => loadAt i (rows.getD 1 zeros)) ∧
    ParallelChance μ 1000 (lampDays [{ numUsers := (5 : ℕ), appList := [kettle] }]) order (fun rows => ε ≤ |((rows.getD 1 zeros i : ℚ) : ℝ) -
        (ParallelMean μ 1000 (lampDays [{ numUsers := (5 : ℕ), appList := [kettle] }]) order (fun l => ENNReal.ofReal (l.getD 1 zeros i : ℝ))).toReal|) ≤
      ENNReal.ofReal (2 * Real.exp (-(2 * ε ^ 2 / ((5000000 : ℚ) : ℝ)))) := by
  have hd : DistinctAppliances (lampDays [{ numUsers := (5 : ℕ), appList := [kettle] }]).users := by simp [lampDays, DistinctAppliances]
  have ht : 0 < runsPerDay (lampDays [{ numUsers := (5 : ℕ), appList := [kettle] }]).users := by simp [lampDays, runsPerDay]
  have hpref : ∀ u ∈ (lampDays [{ numUsers := (5 : ℕ), appList := [kettle] }]).users, u.userPreference = 0 ∧ u.randDailyPref = 0 := by simp [lampDays]
  have hor : ArrivalOrder (lampDays [{ numUsers := (5 : ℕ), appList := [kettle] }]).users [0, 1, 2] order := by
    simpa [lampDays, ArrivalOrder, runsPerDay, List.range_succ] using ho
  have hmem : ∀ u ∈ (lampDays [{ numUsers := (5 : ℕ), appList := [kettle] }]).users, ∀ a ∈ u.appList, a = kettle := by
    intro u hu a ha
    rw [List.mem_singleton.1 hu] at ha
    exact List.mem_singleton.1 ha
  constructor
  · refine (C104_parallel (μ := μ) (env := ⟨0, none⟩) (days := none) (kettles_ready 5) hd ht hpref hor (kettles_never 5)
      (fun u hu a ha => by rw [hmem u hu a ha]; exact ⟨_, kettle_powers⟩) (k := 1) (by simp) (C104_load_adds_up i)).trans ?_
    show ([({ numUsers := (5 : ℕ), appList := [kettle] } : User)].map _).sum = _
    rw [List.map_singleton, List.sum_singleton]
    show ((5 : ℤ).toNat : ℝ≥0∞) * ([kettle].map _).sum = _
    rw [List.map_singleton, List.sum_singleton, show (5 : ℤ).toNat = 5 from rfl]
    rfl
  · refine C110_parallel (env := ⟨0, none⟩) (days := none) (kettles_ready 5) hd ht hpref hor (kettles_never 5) (P := fun _ => 1000)
      (fun u hu a ha => by rw [hmem u hu a ha]; exact kettle_powers) (c := 5000000) ?_ (k := 1) (by simp) i hε
    show _ = ([({ numUsers := (5 : ℕ), appList := [kettle] } : User)].map (fun u => (u.numUsers.toNat : ℚ) * (u.appList.map (applianceBound (fun _ => 1000))).sum ^ 2)).sum
    rw [List.map_singleton, List.sum_singleton]
    show _ = ((5 : ℤ).toNat : ℚ) * ([kettle].map (applianceBound (fun _ => 1000))).sum ^ 2
    rw [List.map_singleton, List.sum_singleton]
    unfold applianceBound
    rw [show kettle.number = 1 from rfl, show kettle.thermalPVar = 0 from rfl, show (5 : ℤ).toNat = 5 from rfl]
    norm_num

/-- A case for C116 in parallel mode: 20 members with three fans, with a time of use of about 120 minutes. -/
example {N : ℕ} (h : PythonRandom N μ) (hz : SymmetricNormal μ) (ht : chanceOfInteger μ 3 = 0) (hN : 61 ≤ N) {order : List ℕ} (ho : order.Perm (List.range 15)) :
    ∃ t : ℚ, AboutFuncTime threeFans t ∧
      ParallelMean μ (999 + 1) (lampDays [{ numUsers := 20, appList := [threeFans] }]) order (fun l => energyOf (l.getD 1 zeros)) ≤
        sumOfUses μ (typeOfDay ([0, 1, 2] : List ℤ)[1]) [{ numUsers := 20, appList := [threeFans] }] (fun a => energyTogether a (mostTogether a) (a.power.getD 1 0) t) := by
  have hmem : ∀ u ∈ (lampDays [{ numUsers := 20, appList := [threeFans] }]).users, u.userPreference = 0 ∧ ∀ a ∈ u.appList, a = threeFans := by
    intro u hu
    rw [List.mem_singleton.1 hu]
    exact ⟨rfl, fun a ha => List.mem_singleton.1 ha⟩
  have key := (C116_parallel h hz (depth := 999) (uc := lampDays [{ numUsers := 20, appList := [threeFans] }]) (ds := [0, 1, 2]) (peak := [700]) ⟨rfl, rfl, rfl⟩ (by simp)
    (by simp [lampDays, DistinctAppliances]) (by simp [lampDays, runsPerDay]) (by simp [lampDays]) (order := order) (by simpa [lampDays, ArrivalOrder, runsPerDay] using ho)
    (fun u hu => ⟨by rw [(hmem u hu).1], fun a ha => by rw [(hmem u hu).2 a ha]; exact threeFans_sensible⟩)
    (fun u hu a ha => by
      rw [(hmem u hu).2 a ha]
      show 3 ≤ (List.replicate 367 (60 : ℚ)).length
      rw [List.length_replicate]
      norm_num)
    (fun u hu a ha => by
      rw [(hmem u hu).2 a ha, show threeFans.number = 3 from rfl, ht]
      exact zero_le)).1
    (fun u hu a ha => by
      rw [(hmem u hu).2 a ha]
      refine ⟨threeFans_visible, ⟨le_refl _, by decide⟩, threeFans_room, ?_⟩
      have : windowDraws threeFans = 61 := by decide
      omega)
  obtain ⟨T, hT, hE⟩ := key
  refine ⟨T threeFans, hT { numUsers := 20, appList := [threeFans] } (List.mem_singleton.2 rfl) threeFans (List.mem_singleton.2 rfl), (hE 1 (by simp)).2.trans (le_of_eq ?_)⟩
  show sumOfUses μ _ [({ numUsers := 20, appList := [threeFans] } : User)] _ = _
  unfold sumOfUses
  rfl

end Ramp
