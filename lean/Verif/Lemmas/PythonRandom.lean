import Verif.Spec8
import Mathlib.Probability.Distributions.Uniform

/-! # The distribution of Python's random numbers -/

set_option autoImplicit false

open MeasureTheory ENNReal

namespace Ramp

variable {μ : Measure Draw}

/-- The numbers drawn are `k / M` with `k < M`, all equally likely. -/
def OnGrid (M : ℕ) (μ : Measure Draw) : Prop := ∀ k : ℕ, k < M → μ {d | d.u = (k : ℚ) / M} = (M : ℝ≥0∞)⁻¹

theorem grid_count {M : ℕ} (hM : 0 < M) (h : OnGrid M μ) (s : Finset ℕ) (hs : ∀ k ∈ s, k < M) :
    μ {d | ∃ k ∈ s, d.u = (k : ℚ) / M} = (s.card : ℝ≥0∞) / M := by
  have h1 : {d : Draw | ∃ k ∈ s, d.u = (k : ℚ) / M} = ⋃ k ∈ s, {d : Draw | d.u = (k : ℚ) / M} := by
    ext d
    simp
  have hM' : (M : ℚ) ≠ 0 := by exact_mod_cast hM.ne'
  rw [h1, measure_biUnion_finset, Finset.sum_congr rfl fun k hk => h k (hs k hk), Finset.sum_const, nsmul_eq_mul, ENNReal.div_eq_inv_mul, mul_comm]
  · intro j _ k _ hjk
    refine Set.disjoint_left.2 fun d hj hk => hjk ?_
    have hj' : d.u = (j : ℚ) / M := hj
    have hk' : d.u = (k : ℚ) / M := hk
    rw [hj', div_left_inj' hM'] at hk'
    exact_mod_cast hk'
  · exact fun _ _ => MeasurableSet.of_discrete

theorem grid_sure [IsProbabilityMeasure μ] {M : ℕ} (hM : 0 < M) (h : OnGrid M μ) : μ {d | ¬ ∃ k ∈ Finset.range M, d.u = (k : ℚ) / M} = 0 := by
  have h1 := grid_count hM h (Finset.range M) fun k hk => Finset.mem_range.1 hk
  rw [Finset.card_range, ENNReal.div_self (by exact_mod_cast hM.ne') (ENNReal.natCast_ne_top M)] at h1
  have := prob_compl_eq_one_sub (μ := μ) (s := {d : Draw | ∃ k ∈ Finset.range M, d.u = (k : ℚ) / M}) MeasurableSet.of_discrete
  rw [h1, tsub_self] at this
  exact this

theorem grid_event [IsProbabilityMeasure μ] {M : ℕ} (hM : 0 < M) (h : OnGrid M μ) (φ : ℚ → Prop) [DecidablePred fun k : ℕ => φ ((k : ℚ) / M)] :
    μ {d | φ d.u} = (((Finset.range M).filter (fun k : ℕ => φ ((k : ℚ) / M))).card : ℝ≥0∞) / M := by
  rw [← grid_count hM h _ fun k hk => Finset.mem_range.1 (Finset.mem_filter.1 hk).1]
  refine measure_congr ?_
  have := grid_sure hM h
  refine (ae_iff.2 (le_antisymm ?_ zero_le))
  refine le_trans (measure_mono ?_) this.le
  intro d hd hk
  refine hd ?_
  obtain ⟨k, hk, hu⟩ := hk
  refine propext ⟨fun h => ?_, ?_⟩
  · have h' : φ d.u := h
    rw [hu] at h'
    exact ⟨k, Finset.mem_filter.2 ⟨hk, h'⟩, hu⟩
  · rintro ⟨j, hj, hju⟩
    show φ d.u
    rw [hju]
    exact (Finset.mem_filter.1 hj).2

theorem grid_atMost [IsProbabilityMeasure μ] {M : ℕ} (hM : 0 < M) (h : OnGrid M μ) {q : ℚ} (h0 : 0 ≤ q) (h1 : q < 1) :
    μ {d | d.u ≤ q} = ((⌊q * M⌋₊ + 1 : ℕ) : ℝ≥0∞) / M := by
  have hM' : (0 : ℚ) < M := by exact_mod_cast hM
  rw [grid_event hM h (fun u => u ≤ q)]
  congr 2
  have : (Finset.range M).filter (fun k : ℕ => (k : ℚ) / M ≤ q) = Finset.range (⌊q * M⌋₊ + 1) := by
    ext k
    rw [Finset.mem_filter, Finset.mem_range, Finset.mem_range, div_le_iff₀ hM', ← Nat.le_floor_iff (by positivity), Nat.lt_succ_iff]
    refine ⟨fun h => h.2, fun h => ⟨?_, h⟩⟩
    have h2 : ⌊q * M⌋₊ < M := (Nat.floor_lt (by positivity)).2 (by nlinarith)
    omega
  rw [this, Finset.card_range]

/-! ## There is such a distribution -/

/-- The draw with the grid point `i / M` and the integer `l`. -/
def gridDraw {M L : ℕ} (x : Fin M × Fin L) : Draw where
  u := (x.1 : ℚ) / M
  u_nonneg := by positivity
  u_le_one := by
    have h : (x.1 : ℕ) < M := x.1.2
    have hM : (0 : ℚ) < M := by exact_mod_cast (by omega : 0 < M)
    rw [div_le_one hM]
    exact_mod_cast h.le
  k := x.2
  z := 0

theorem card_mod {c n : ℕ} {j : ℕ} (hj : j < n) : Fintype.card {l : Fin (c * n) // (l : ℕ) % n = j} = c := by
  have e : {l : Fin (c * n) // (l : ℕ) % n = j} ≃ Fin c :=
    { toFun := fun l => ⟨(l.1 : ℕ) / n, Nat.div_lt_of_lt_mul (lt_of_lt_of_eq l.1.2 (mul_comm c n))⟩
      invFun := fun i => ⟨⟨j + n * i, by
        have h1 : (i : ℕ) + 1 ≤ c := i.2
        have h2 : n * ((i : ℕ) + 1) ≤ n * c := Nat.mul_le_mul_left n h1
        rw [mul_comm c n]
        have h3 : n * ((i : ℕ) + 1) = n * i + n := by ring
        omega⟩, by simp [Nat.add_mul_mod_self_left, Nat.mod_eq_of_lt hj]⟩
      left_inv := fun l => by
        refine Subtype.ext (Fin.ext ?_)
        show j + n * ((l.1 : ℕ) / n) = l.1
        have := Nat.mod_add_div (l.1 : ℕ) n
        rw [l.2] at this
        exact this
      right_inv := fun i => by
        refine Fin.ext ?_
        show (j + n * (i : ℕ)) / n = i
        rw [Nat.add_mul_div_left _ _ (by omega), Nat.div_eq_of_lt hj, zero_add] }
  rw [Fintype.card_congr e, Fintype.card_fin]

/-- A distribution of draws with a grid of `M` numbers and integers from up to `N` values. -/
noncomputable def gridLaw (M N : ℕ) [NeZero M] : Measure Draw :=
  haveI : Nonempty (Fin M × Fin N.factorial) := ⟨⟨0, NeZero.pos M⟩, ⟨0, N.factorial_pos⟩⟩
  ((PMF.uniformOfFintype (Fin M × Fin N.factorial)).map gridDraw).toMeasure

theorem gridLaw_apply (M N : ℕ) [NeZero M] (s : Set Draw) [Fintype {x : Fin M × Fin N.factorial // gridDraw x ∈ s}] :
    gridLaw M N s = (Fintype.card {x : Fin M × Fin N.factorial // gridDraw x ∈ s} : ℝ≥0∞) / ((M * N.factorial : ℕ) : ℝ≥0∞) := by
  haveI : Nonempty (Fin M × Fin N.factorial) := ⟨⟨0, NeZero.pos M⟩, ⟨0, N.factorial_pos⟩⟩
  letI : MeasurableSpace (Fin M × Fin N.factorial) := ⊤
  unfold gridLaw
  letI : Fintype ((gridDraw (M := M) (L := N.factorial)) ⁻¹' s) := inferInstanceAs (Fintype {x : Fin M × Fin N.factorial // gridDraw x ∈ s})
  rw [PMF.toMeasure_map_apply _ _ _ (Measurable.of_discrete) MeasurableSet.of_discrete, PMF.toMeasure_uniformOfFintype_apply _ MeasurableSet.of_discrete,
    Fintype.card_prod, Fintype.card_fin, Fintype.card_fin]
  rfl

theorem gridLaw_probability (M N : ℕ) [NeZero M] : IsProbabilityMeasure (gridLaw M N) := by
  unfold gridLaw
  infer_instance

theorem gridLaw_grid (M N : ℕ) [NeZero M] : OnGrid M (gridLaw M N) := by
  intro k hk
  classical
  have hM : (M : ℚ) ≠ 0 := by exact_mod_cast NeZero.ne M
  have e : {x : Fin M × Fin N.factorial // gridDraw x ∈ {d : Draw | d.u = (k : ℚ) / M}} ≃ Fin N.factorial :=
    { toFun := fun x => x.1.2
      invFun := fun l => ⟨(⟨k, hk⟩, l), rfl⟩
      left_inv := fun x => by
        refine Subtype.ext (Prod.ext (Fin.ext ?_) rfl)
        have h : ((x.1.1 : ℕ) : ℚ) / M = (k : ℚ) / M := x.2
        rw [div_left_inj' hM] at h
        exact_mod_cast h.symm
      right_inv := fun l => rfl }
  rw [gridLaw_apply, Fintype.card_congr e, Fintype.card_fin]
  push_cast
  rw [ENNReal.div_eq_inv_mul, ENNReal.mul_inv (.inr (ENNReal.natCast_ne_top _)) (.inl (ENNReal.natCast_ne_top _)), mul_assoc,
    ENNReal.inv_mul_cancel (by exact_mod_cast N.factorial_pos.ne') (ENNReal.natCast_ne_top _), mul_one]

theorem gridLaw_integers (M N : ℕ) [NeZero M] {n : ℕ} (h1 : 1 ≤ n) (h2 : n ≤ N) {j : ℕ} (hj : j < n) : gridLaw M N {d | d.k % n = j} = (n : ℝ≥0∞)⁻¹ := by
  classical
  obtain ⟨c, hc⟩ := Nat.dvd_factorial h1 h2
  have hcn : N.factorial = c * n := by rw [hc, mul_comm]
  have hc0 : c ≠ 0 := by
    rintro rfl
    have := N.factorial_pos
    omega
  have e : {x : Fin M × Fin N.factorial // gridDraw x ∈ {d : Draw | d.k % n = j}} ≃ Fin M × {l : Fin (c * n) // (l : ℕ) % n = j} :=
    { toFun := fun x => (x.1.1, ⟨Fin.cast hcn x.1.2, x.2⟩)
      invFun := fun y => ⟨(y.1, Fin.cast hcn.symm y.2.1), y.2.2⟩
      left_inv := fun x => rfl
      right_inv := fun y => rfl }
  rw [gridLaw_apply, Fintype.card_congr e, Fintype.card_prod, card_mod hj, Fintype.card_fin, hcn, ← mul_assoc]
  have hMc : ((M * c : ℕ) : ℝ≥0∞) ≠ 0 := by exact_mod_cast Nat.mul_ne_zero (NeZero.ne M) hc0
  rw [Nat.cast_mul (M * c) n, ENNReal.div_eq_inv_mul, ENNReal.mul_inv (.inr (ENNReal.natCast_ne_top _)) (.inl (ENNReal.natCast_ne_top _)), mul_comm, ← mul_assoc,
    ENNReal.mul_inv_cancel hMc (ENNReal.natCast_ne_top _), one_mul]

/-- There is a distribution like that of Python's random numbers. -/
theorem pythonRandom_exists (N : ℕ) : ∃ μ, PythonRandom N μ := by
  have : NeZero (2 ^ 53 : ℕ) := ⟨by positivity⟩
  refine ⟨gridLaw (2 ^ 53) N, gridLaw_probability _ _, fun k hk => ?_, fun n h1 h2 j hj => gridLaw_integers _ _ h1 h2 hj⟩
  have := gridLaw_grid (2 ^ 53) N k hk
  rw [Nat.cast_pow, Nat.cast_pow, Nat.cast_ofNat, Nat.cast_ofNat] at this
  exact this

theorem PythonRandom.grid {N : ℕ} (h : PythonRandom N μ) : OnGrid (2 ^ 53) μ := by
  intro k hk
  rw [Nat.cast_pow, Nat.cast_pow, Nat.cast_ofNat, Nat.cast_ofNat]
  exact h.uniform k hk

end Ramp
