import Verif.Spec13
import Verif.Lemmas.AsOne
import Verif.Props.Chances
import Verif.Props.Unbiased
import Verif.Props.HowLong

/-! # How many appliances are on together, on average -/

set_option autoImplicit false

open MeasureTheory ENNReal

namespace Ramp

variable {μ : Measure Draw}

/-! ## Outside of the peak -/

theorem grid_atLeast [IsProbabilityMeasure μ] {M : ℕ} (hM : 0 < M) (h : OnGrid M μ) {q : ℚ} (h1 : q ≤ 1) :
    μ {d | q ≤ d.u} = ENNReal.ofReal ((1 - (⌈q * M⌉₊ : ℚ) / M : ℚ) : ℝ) := by
  have hM' : (0 : ℚ) < M := by exact_mod_cast hM
  have hc : ⌈q * M⌉₊ ≤ M := Nat.ceil_le.2 (by nlinarith)
  rw [grid_event hM h (fun u => q ≤ u)]
  have e : (Finset.range M).filter (fun k : ℕ => q ≤ (k : ℚ) / M) = Finset.Ico ⌈q * M⌉₊ M := by
    ext k
    rw [Finset.mem_filter, Finset.mem_range, Finset.mem_Ico, le_div_iff₀ hM', Nat.ceil_le, and_comm]
  rw [e, Nat.card_Ico]
  have e2 : (1 - (⌈q * M⌉₊ : ℚ) / M : ℚ) = ((M - ⌈q * M⌉₊ : ℕ) : ℚ) / M := by
    rw [Nat.cast_sub hc]
    field_simp
  rw [e2, Rat.cast_div, Rat.cast_natCast, Rat.cast_natCast, ENNReal.ofReal_div_of_pos (by exact_mod_cast hM), ENNReal.ofReal_natCast, ENNReal.ofReal_natCast]

theorem run_off {a : Appliance} (hfix : a.fixed = "no") (hn : 1 ≤ a.number) :
    calcCoincidentSwitchOn a false = nextDraw >>= fun d => pure (⌊((a.number : ℚ) - 1 / 2) * d.u⌋ + 1) := by
  have hn' : (1 : ℚ) ≤ (a.number : ℚ) := by exact_mod_cast hn
  have hD : (0 : ℚ) < (a.number : ℚ) - 1 / 2 := by linarith
  unfold calcCoincidentSwitchOn
  rw [if_neg (by simp), if_pos ⟨rfl, hfix⟩, if_neg (by omega)]
  unfold uniform
  rw [sim_bind_assoc]
  congr 1
  funext d
  rw [sim_pure_bind]
  have e1 : (0 : ℚ) + (((a.number : ℚ) - switchOnParameters.2.2) / a.number - 0) * d.u = (((a.number : ℚ) - 1 / 2) * d.u) / a.number := by
    show (0 : ℚ) + (((a.number : ℚ) - 1 / 2) / a.number - 0) * d.u = _
    ring
  rw [e1, onNumber_floor hn (mul_nonneg hD.le d.u_nonneg)]
  have := mul_le_of_le_one_right hD.le d.u_le_one
  linarith

theorem run_on {a : Appliance} (hfix : a.fixed = "no") :
    calcCoincidentSwitchOn a true = nextDraw >>= fun d => pure (min a.number (max 1 ⌈(a.number : ℚ) / 2 + d.z * ((a.number : ℚ) / 4)⌉)) := by
  unfold calcCoincidentSwitchOn
  rw [if_pos ⟨rfl, hfix⟩]
  unfold gauss
  rw [sim_bind_assoc]
  congr 1
  funext d
  rw [sim_pure_bind]
  have e1 : (a.number : ℚ) * switchOnParameters.2.1 + d.z * (switchOnParameters.1 * a.number * switchOnParameters.2.1) = (a.number : ℚ) / 2 + d.z * ((a.number : ℚ) / 4) := by
    show (a.number : ℚ) * (1 / 2) + d.z * (1 / 2 * a.number * (1 / 2)) = _
    ring
  rw [← e1]

/-- The number drawn, as a sum of ones. -/
theorem floor_as_sum {n : ℕ} {x : ℚ} (h0 : 0 ≤ x) (h1 : x < n) : ENNReal.ofReal (((⌊x⌋ + 1 : ℤ) : ℚ) : ℝ) = ∑ i ∈ Finset.range n, ind ((i : ℚ) ≤ x) := by
  have hf : 0 ≤ ⌊x⌋ := Int.floor_nonneg.2 h0
  have hfn : ⌊x⌋ < n := Int.floor_lt.2 (by exact_mod_cast h1)
  have e : ∀ i : ℕ, ind ((i : ℚ) ≤ x) = if i ∈ Finset.range (⌊x⌋.toNat + 1) then 1 else 0 := by
    intro i
    unfold ind
    congr 1
    rw [Finset.mem_range, Nat.lt_succ_iff]
    have : ((i : ℕ) : ℚ) ≤ x ↔ (i : ℤ) ≤ ⌊x⌋ := by rw [Int.le_floor, Int.cast_natCast]
    rw [eq_iff_iff, this]
    omega
  simp only [e]
  rw [Finset.sum_ite_mem, Finset.sum_const, Finset.inter_eq_right.2 (Finset.range_subset_range.2 (by omega)), Finset.card_range]
  rw [show ((⌊x⌋ + 1 : ℤ) : ℚ) = ((⌊x⌋.toNat + 1 : ℕ) : ℚ) by
    have : (⌊x⌋ : ℤ) = ((⌊x⌋.toNat : ℕ) : ℤ) := by omega
    rw [this]
    push_cast
    rfl]
  rw [Rat.cast_natCast, ENNReal.ofReal_natCast]
  simp

/-- The average number outside of the peak. -/
noncomputable def offMean (M : ℕ) (n : ℕ) : ℚ := ∑ i ∈ Finset.range n, (1 - (⌈(i : ℚ) / (n - 1 / 2) * M⌉₊ : ℚ) / M)

theorem mean_off [IsProbabilityMeasure μ] {M : ℕ} (hM : 0 < M) (h : OnGrid M μ) {a : Appliance} (hfix : a.fixed = "no") {n : ℕ} (hn : 1 ≤ n) (ha : a.number = n) :
    MeanOf μ (calcCoincidentSwitchOn a false) (fun j => ENNReal.ofReal ((j : ℚ) : ℝ)) = ENNReal.ofReal ((offMean M n : ℚ) : ℝ) := by
  have hM' : (0 : ℚ) < M := by exact_mod_cast hM
  have hn' : (1 : ℚ) ≤ (n : ℚ) := by exact_mod_cast hn
  have hD : (0 : ℚ) < (n : ℚ) - 1 / 2 := by linarith
  rw [run_off hfix (by omega), meanOf_bind fin_nextDraw fun _ => fin_pure _, meanOf_nextDraw]
  simp only [meanOf_pure]
  have e0 : (a.number : ℚ) = (n : ℚ) := by rw [ha]; rfl
  rw [e0]
  have e1 : ∀ d : Draw, ENNReal.ofReal (((⌊((n : ℚ) - 1 / 2) * d.u⌋ + 1 : ℤ) : ℚ) : ℝ) = ∑ i ∈ Finset.range n, ind ((i : ℚ) / (n - 1 / 2) ≤ d.u) := by
    intro d
    have := mul_le_of_le_one_right hD.le d.u_le_one
    rw [floor_as_sum (n := n) (mul_nonneg hD.le d.u_nonneg) (by linarith)]
    refine Finset.sum_congr rfl fun i _ => ?_
    rw [ind_congr]
    rw [div_le_iff₀ hD, mul_comm]
  simp only [e1]
  rw [lintegral_finsetSum _ fun _ _ => Measurable.of_discrete]
  have e2 : ∀ i ∈ Finset.range n, ∫⁻ d, ind ((i : ℚ) / (n - 1 / 2) ≤ d.u) ∂μ = ENNReal.ofReal ((1 - (⌈(i : ℚ) / (n - 1 / 2) * M⌉₊ : ℚ) / M : ℚ) : ℝ) := by
    intro i hi
    have hi' : (i : ℚ) + 1 ≤ n := by exact_mod_cast Finset.mem_range.1 hi
    rw [← grid_atLeast hM h (q := (i : ℚ) / (n - 1 / 2)) (by rw [div_le_one hD]; linarith)]
    have : (fun d : Draw => ind ((i : ℚ) / (n - 1 / 2) ≤ d.u)) = ({d : Draw | (i : ℚ) / (n - 1 / 2) ≤ d.u}).indicator 1 := by
      funext d
      unfold ind Set.indicator
      rfl
    rw [this, lintegral_indicator_one MeasurableSet.of_discrete]
  rw [Finset.sum_congr rfl e2]
  unfold offMean
  rw [Rat.cast_sum, ENNReal.ofReal_sum_of_nonneg]
  intro i hi
  have hi' : (i : ℚ) + 1 ≤ n := by exact_mod_cast Finset.mem_range.1 hi
  have hc : ⌈(i : ℚ) / (n - 1 / 2) * M⌉₊ ≤ M := Nat.ceil_le.2 (by
    have : (i : ℚ) / (n - 1 / 2) ≤ 1 := by rw [div_le_one hD]; linarith
    nlinarith)
  have : (⌈(i : ℚ) / (n - 1 / 2) * M⌉₊ : ℚ) / M ≤ 1 := by
    rw [div_le_one hM']
    exact_mod_cast hc
  exact_mod_cast sub_nonneg.2 this

theorem sum_exact {D : ℚ} (hD : D ≠ 0) : ∀ n : ℕ, ∑ i ∈ Finset.range n, (1 - (i : ℚ) / D) = n - n * ((n : ℚ) - 1) / (2 * D) := by
  intro n
  induction n with
  | zero => simp
  | succ n ih =>
    rw [Finset.sum_range_succ, ih]
    push_cast
    field_simp
    ring

theorem offMean_bounds {M n : ℕ} (hM : 0 < M) (hn : 1 ≤ n) : (1 - 2 / M) * ((n : ℚ) ^ 2 / (2 * n - 1)) ≤ offMean M n ∧ offMean M n ≤ (n : ℚ) ^ 2 / (2 * n - 1) := by
  have hM' : (0 : ℚ) < M := by exact_mod_cast hM
  have hn' : (1 : ℚ) ≤ (n : ℚ) := by exact_mod_cast hn
  have hD : (0 : ℚ) < (n : ℚ) - 1 / 2 := by linarith
  have hex : ∑ i ∈ Finset.range n, (1 - (i : ℚ) / ((n : ℚ) - 1 / 2)) = (n : ℚ) ^ 2 / (2 * n - 1) := by
    rw [sum_exact hD.ne', show 2 * ((n : ℚ) - 1 / 2) = 2 * n - 1 by ring]
    have : (2 * (n : ℚ) - 1) ≠ 0 := by linarith
    rw [eq_div_iff this, sub_mul, div_mul_cancel₀ _ this]
    ring
  constructor
  · have h1 : ∑ i ∈ Finset.range n, (1 - (i : ℚ) / ((n : ℚ) - 1 / 2)) - (n - 1) / M ≤ offMean M n := by
      obtain ⟨k, rfl⟩ : ∃ k, n = k + 1 := ⟨n - 1, by omega⟩
      unfold offMean
      rw [Finset.sum_range_succ', Finset.sum_range_succ']
      have h2 : ∀ i ∈ Finset.range k, 1 - ((i + 1 : ℕ) : ℚ) / (((k + 1 : ℕ) : ℚ) - 1 / 2) - 1 / M ≤
          1 - (⌈((i + 1 : ℕ) : ℚ) / (((k + 1 : ℕ) : ℚ) - 1 / 2) * M⌉₊ : ℚ) / M := by
        intro i _
        have h3 := Nat.ceil_lt_add_one (show 0 ≤ ((i + 1 : ℕ) : ℚ) / (((k + 1 : ℕ) : ℚ) - 1 / 2) * M by positivity)
        have h4 : (⌈((i + 1 : ℕ) : ℚ) / (((k + 1 : ℕ) : ℚ) - 1 / 2) * M⌉₊ : ℚ) / M ≤ ((i + 1 : ℕ) : ℚ) / (((k + 1 : ℕ) : ℚ) - 1 / 2) + 1 / M := by
          rw [div_le_iff₀ hM', add_mul, one_div_mul_cancel hM'.ne']
          exact h3.le
        linarith
      have h5 := Finset.sum_le_sum h2
      rw [Finset.sum_sub_distrib, Finset.sum_const, Finset.card_range, nsmul_eq_mul] at h5
      have h6 : (1 : ℚ) - ((0 : ℕ) : ℚ) / (((k + 1 : ℕ) : ℚ) - 1 / 2) = 1 := by simp
      have h7 : (1 : ℚ) - (⌈((0 : ℕ) : ℚ) / (((k + 1 : ℕ) : ℚ) - 1 / 2) * M⌉₊ : ℚ) / M = 1 := by simp
      rw [h6, h7]
      have h8 : (((k + 1 : ℕ) : ℚ) - 1) / M = (k : ℚ) * (1 / M) := by
        push_cast
        ring
      rw [h8]
      linarith
    rw [hex] at h1
    refine le_trans ?_ h1
    have h9 : ((n : ℚ) - 1) / M ≤ 2 / M * ((n : ℚ) ^ 2 / (2 * n - 1)) := by
      rw [div_mul_div_comm, div_le_div_iff₀ hM' (by nlinarith)]
      have : ((n : ℚ) - 1) * (2 * n - 1) ≤ 2 * n ^ 2 := by nlinarith
      nlinarith
    linarith
  · rw [← hex]
    unfold offMean
    refine Finset.sum_le_sum fun i _ => ?_
    have : (i : ℚ) / ((n : ℚ) - 1 / 2) ≤ (⌈(i : ℚ) / ((n : ℚ) - 1 / 2) * M⌉₊ : ℚ) / M := by
      rw [le_div_iff₀ hM']
      exact Nat.le_ceil _
    linarith

/-! ## Within the peak -/

theorem symmetric_integral (h : SymmetricNormal μ) (F : ℚ → ℝ≥0∞) : ∫⁻ d, F d.z ∂μ = ∫⁻ d, F (-d.z) ∂μ := by
  have e : μ.map (fun d : Draw => d.z) = μ.map (fun d : Draw => -d.z) := by
    refine Measure.ext_of_singleton fun q => ?_
    rw [Measure.map_apply Measurable.of_discrete (measurableSet_singleton _), Measure.map_apply Measurable.of_discrete (measurableSet_singleton _)]
    have h1 : (fun d : Draw => d.z) ⁻¹' {q} = {d | d.z = q} := rfl
    have h2 : (fun d : Draw => -d.z) ⁻¹' {q} = {d | d.z = -q} := by
      ext d
      show -d.z = q ↔ d.z = -q
      exact neg_eq_iff_eq_neg
    rw [h1, h2, h q]
  have hF : Measurable F := measurable_from_top
  calc ∫⁻ d, F d.z ∂μ = ∫⁻ q, F q ∂(μ.map (fun d : Draw => d.z)) := (lintegral_map hF Measurable.of_discrete).symm
    _ = ∫⁻ q, F q ∂(μ.map (fun d : Draw => -d.z)) := by rw [e]
    _ = ∫⁻ d, F (-d.z) ∂μ := lintegral_map hF Measurable.of_discrete

/-- The number drawn within the peak for `n` appliances from `x`. -/
def clampUp (n : ℤ) (x : ℚ) : ℤ := min n (max 1 ⌈x⌉)

theorem clampUp_pos {n : ℤ} (hn : 1 ≤ n) (x : ℚ) : 1 ≤ clampUp n x := le_min hn (le_max_left _ _)

theorem clamp_sum {n : ℤ} (hn : 1 ≤ n) (x : ℚ) : clampUp n x + clampUp n (n - x) ≤ n + 1 ∧ ((∀ j : ℤ, x ≠ j) → clampUp n x + clampUp n (n - x) = n + 1) ∧ n ≤ clampUp n x + clampUp n (n - x) := by
  have h1 : ⌈(n : ℚ) - x⌉ = n - ⌊x⌋ := by
    rw [show (n : ℚ) - x = -x + n by ring, Int.ceil_add_intCast, Int.ceil_neg]
    ring
  have h2 : ⌊x⌋ ≤ ⌈x⌉ := Int.floor_le_ceil x
  have h3 : ⌈x⌉ ≤ ⌊x⌋ + 1 := Int.ceil_le_floor_add_one x
  have h4 : (∀ j : ℤ, x ≠ j) → ⌈x⌉ = ⌊x⌋ + 1 := by
    intro h
    by_contra hne
    have he : ⌈x⌉ = ⌊x⌋ := by omega
    have h5 := Int.le_ceil x
    have h6 := Int.floor_le x
    rw [he] at h5
    exact h ⌊x⌋ (le_antisymm h5 h6)
  unfold clampUp
  rw [h1]
  generalize ⌈x⌉ = c at *
  generalize ⌊x⌋ = f at *
  refine ⟨?_, fun h => ?_, ?_⟩
  · omega
  · have := h4 h
    omega
  · omega

/-- The average number within the peak. -/
noncomputable def onMean (μ : Measure Draw) (n : ℤ) : ℝ≥0∞ := ∫⁻ d, ENNReal.ofReal ((clampUp n ((n : ℚ) / 2 + d.z * ((n : ℚ) / 4)) : ℚ) : ℝ) ∂μ

theorem onMean_bounds [IsProbabilityMeasure μ] (h : SymmetricNormal μ) {n : ℤ} (hn : 1 ≤ n) :
    2 * onMean μ n ≤ ENNReal.ofReal (((n : ℚ) + 1 : ℚ) : ℝ) ∧ ENNReal.ofReal (((n : ℚ) + 1 : ℚ) : ℝ) ≤ 2 * onMean μ n + chanceOfInteger μ n := by
  have hpt : ∀ z : ℚ, ENNReal.ofReal ((clampUp n ((n : ℚ) / 2 + z * ((n : ℚ) / 4)) : ℚ) : ℝ) + ENNReal.ofReal ((clampUp n ((n : ℚ) / 2 + (-z) * ((n : ℚ) / 4)) : ℚ) : ℝ) =
      ENNReal.ofReal (((clampUp n ((n : ℚ) / 2 + z * ((n : ℚ) / 4)) + clampUp n ((n : ℚ) - ((n : ℚ) / 2 + z * ((n : ℚ) / 4))) : ℤ) : ℚ) : ℝ) := by
    intro z
    have hpos : ∀ x, (0 : ℝ) ≤ ((clampUp n x : ℚ) : ℝ) := fun x => by
      have := clampUp_pos hn x
      exact_mod_cast (by omega : 0 ≤ clampUp n x)
    rw [← ENNReal.ofReal_add (hpos _) (hpos _), show (n : ℚ) / 2 + (-z) * ((n : ℚ) / 4) = (n : ℚ) - ((n : ℚ) / 2 + z * ((n : ℚ) / 4)) by ring]
    push_cast
    rfl
  have h2 : 2 * onMean μ n = ∫⁻ d, ENNReal.ofReal (((clampUp n ((n : ℚ) / 2 + d.z * ((n : ℚ) / 4)) + clampUp n ((n : ℚ) - ((n : ℚ) / 2 + d.z * ((n : ℚ) / 4))) : ℤ) : ℚ) : ℝ) ∂μ := by
    rw [two_mul]
    conv_lhs =>
      arg 2
      unfold onMean
      rw [symmetric_integral h fun z => ENNReal.ofReal ((clampUp n ((n : ℚ) / 2 + z * ((n : ℚ) / 4)) : ℚ) : ℝ)]
    unfold onMean
    rw [← lintegral_add_left Measurable.of_discrete]
    refine lintegral_congr fun d => hpt d.z
  constructor
  · rw [h2]
    calc _ ≤ ∫⁻ _ : Draw, ENNReal.ofReal (((n : ℚ) + 1 : ℚ) : ℝ) ∂μ := lintegral_mono fun d => ENNReal.ofReal_le_ofReal (by exact_mod_cast (clamp_sum hn _).1)
      _ = _ := by rw [lintegral_const, measure_univ, mul_one]
  · have h3 : chanceOfInteger μ n = ∫⁻ d, ind (∃ j : ℤ, (n : ℚ) / 2 + d.z * ((n : ℚ) / 4) = j) ∂μ := by
      unfold chanceOfInteger
      rw [← lintegral_indicator_one MeasurableSet.of_discrete]
      rfl
    rw [h2, h3, ← lintegral_add_left Measurable.of_discrete]
    calc ENNReal.ofReal (((n : ℚ) + 1 : ℚ) : ℝ) = ∫⁻ _ : Draw, ENNReal.ofReal (((n : ℚ) + 1 : ℚ) : ℝ) ∂μ := by rw [lintegral_const, measure_univ, mul_one]
      _ ≤ _ := by
        refine lintegral_mono fun d => ?_
        obtain ⟨_, c2, c3⟩ := clamp_sum hn ((n : ℚ) / 2 + d.z * ((n : ℚ) / 4))
        by_cases ht : ∃ j : ℤ, (n : ℚ) / 2 + d.z * ((n : ℚ) / 4) = j
        · beta_reduce
          rw [ind_true ht, ← ENNReal.ofReal_one, ← ENNReal.ofReal_add (by
            have : (0 : ℤ) ≤ n := by omega
            exact_mod_cast this.trans c3) zero_le_one]
          refine ENNReal.ofReal_le_ofReal ?_
          have : n + 1 ≤ clampUp n ((n : ℚ) / 2 + d.z * ((n : ℚ) / 4)) + clampUp n ((n : ℚ) - ((n : ℚ) / 2 + d.z * ((n : ℚ) / 4))) + 1 := by omega
          exact_mod_cast this
        · beta_reduce
          rw [c2 fun j hj => ht ⟨j, hj⟩]
          push_cast
          exact le_self_add

theorem mean_on [IsProbabilityMeasure μ] {a : Appliance} (hfix : a.fixed = "no") :
    MeanOf μ (calcCoincidentSwitchOn a true) (fun j => ENNReal.ofReal ((j : ℚ) : ℝ)) = onMean μ a.number := by
  rw [run_on hfix, meanOf_bind fin_nextDraw fun _ => fin_pure _, meanOf_nextDraw]
  simp only [meanOf_pure]
  rfl

/-! ## Comparing with an average -/

theorem mean_aff_number [IsProbabilityMeasure μ] {a : Appliance} (hn : 1 ≤ a.number) (inside : Bool) {K : ℚ → ℝ≥0∞} {A B : ℝ≥0∞} (hK : ∀ t : ℚ, 0 ≤ t → K t = A + B * ENNReal.ofReal (t : ℝ)) :
    MeanOf μ (calcCoincidentSwitchOn a inside) (fun j => K (j : ℚ)) = A + B * MeanOf μ (calcCoincidentSwitchOn a inside) (fun j => ENNReal.ofReal ((j : ℚ) : ℝ)) := by
  have hnr : NeverRaises (calcCoincidentSwitchOn a inside) := fun e he => (sat_calcCoincident a inside hn).err he
  rw [meanOf_congr (g' := fun j : ℤ => A + B * ENNReal.ofReal ((j : ℚ) : ℝ)) fun j hj => hK _ (by exact_mod_cast coincidence_nonneg hn hj),
    meanOf_add (fin_calcCoincident _ _), meanOf_const hnr, meanOf_mul_left (fin_calcCoincident _ _)]

theorem averages_le [IsProbabilityMeasure μ] {a : Appliance} (hn : 1 ≤ a.number) {inside : Bool} {c : ℚ} (hc : 0 ≤ c)
    (h : MeanOf μ (calcCoincidentSwitchOn a inside) (fun j => ENNReal.ofReal ((j : ℚ) : ℝ)) ≤ ENNReal.ofReal (c : ℝ)) : Averages μ (· ≤ ·) a inside c := by
  rintro K ⟨A, B, hK⟩
  rw [mean_aff_number hn inside hK, hK c hc]
  gcongr

theorem averages_ge [IsProbabilityMeasure μ] {a : Appliance} (hn : 1 ≤ a.number) {inside : Bool} {c : ℚ} (hc : 0 ≤ c)
    (h : ENNReal.ofReal (c : ℝ) ≤ MeanOf μ (calcCoincidentSwitchOn a inside) (fun j => ENNReal.ofReal ((j : ℚ) : ℝ))) : Averages μ (· ≥ ·) a inside c := by
  rintro K ⟨A, B, hK⟩
  rw [mean_aff_number hn inside hK, hK c hc]
  show A + B * _ ≤ A + B * _
  gcongr

theorem mean_all [IsProbabilityMeasure μ] {a : Appliance} (hfix : a.fixed ≠ "no") (inside : Bool) :
    MeanOf μ (calcCoincidentSwitchOn a inside) (fun j => ENNReal.ofReal ((j : ℚ) : ℝ)) = ENNReal.ofReal ((a.number : ℚ) : ℝ) := by
  unfold calcCoincidentSwitchOn
  simp only
  rw [if_neg fun h => hfix h.2, if_neg fun h => hfix h.2, meanOf_pure]

theorem fewest_le_most {n : ℚ} (hn : 1 ≤ n) : n ^ 2 / (2 * n - 1) ≤ (n + 1) / 2 := by
  rw [div_le_div_iff₀ (by linarith) (by norm_num)]
  nlinarith

theorem half_of_twice {x : ℝ≥0∞} {q : ℚ} (h : 2 * x ≤ ENNReal.ofReal (q : ℝ)) : x ≤ ENNReal.ofReal ((q / 2 : ℚ) : ℝ) := by
  rw [Rat.cast_div, Rat.cast_ofNat, ENNReal.ofReal_div_of_pos (by norm_num), ENNReal.ofReal_ofNat, ENNReal.le_div_iff_mul_le (.inl (by norm_num)) (.inl (by norm_num)), mul_comm]
  exact h

/-- On average, at most `mostTogether` appliances are switched on together. -/
theorem mean_le_most {N : ℕ} (h : PythonRandom N μ) (hz : SymmetricNormal μ) {a : Appliance} (hfl : a.flat ≠ "yes") (hn : 1 ≤ a.number) (inside : Bool) :
    MeanOf μ (calcCoincidentSwitchOn a inside) (fun j => ENNReal.ofReal ((j : ℚ) : ℝ)) ≤ ENNReal.ofReal ((mostTogether a : ℚ) : ℝ) := by
  have := h.probability
  have hn' : (1 : ℚ) ≤ (a.number : ℚ) := by exact_mod_cast hn
  unfold mostTogether
  by_cases hfix : a.fixed = "no"
  · rw [if_pos ⟨hfix, hfl⟩]
    cases inside with
    | true =>
      rw [mean_on hfix]
      exact half_of_twice (onMean_bounds hz hn).1
    | false =>
      obtain ⟨n, hna⟩ : ∃ n : ℕ, a.number = n := ⟨a.number.toNat, by omega⟩
      rw [mean_off (by positivity) h.grid hfix (by omega : 1 ≤ n) hna]
      refine ENNReal.ofReal_le_ofReal ?_
      have e0 : (a.number : ℚ) = (n : ℚ) := by rw [hna]; rfl
      rw [e0] at hn' ⊢
      exact (Rat.cast_le (K := ℝ)).2 ((offMean_bounds (by positivity) (by omega)).2.trans (fewest_le_most hn'))
  · rw [if_neg fun h => hfix h.1, mean_all hfix]

/-- Outside of the peak, `fewestTogether` appliances are switched on together on average, at most. -/
theorem mean_off_le {N : ℕ} (h : PythonRandom N μ) {a : Appliance} (hfl : a.flat ≠ "yes") (hn : 1 ≤ a.number) :
    MeanOf μ (calcCoincidentSwitchOn a false) (fun j => ENNReal.ofReal ((j : ℚ) : ℝ)) ≤ ENNReal.ofReal ((fewestTogether a : ℚ) : ℝ) := by
  have := h.probability
  unfold fewestTogether
  by_cases hfix : a.fixed = "no"
  · rw [if_pos ⟨hfix, hfl⟩]
    obtain ⟨n, hna⟩ : ∃ n : ℕ, a.number = n := ⟨a.number.toNat, by omega⟩
    rw [mean_off (by positivity) h.grid hfix (by omega : 1 ≤ n) hna]
    refine ENNReal.ofReal_le_ofReal ?_
    have e0 : (a.number : ℚ) = (n : ℚ) := by rw [hna]; rfl
    rw [e0]
    exact (Rat.cast_le (K := ℝ)).2 (offMean_bounds (by positivity) (by omega)).2
  · rw [if_neg fun h => hfix h.1, mean_all hfix]

/-- What the resolution of the generator leaves. -/
def leftOver : ℚ := 1 - 1 / 2 ^ 52

theorem leftOver_bounds : 0 ≤ leftOver ∧ leftOver ≤ 1 := by
  unfold leftOver
  norm_num

theorem fewest_nonneg {a : Appliance} (hn : 1 ≤ a.number) : 0 < fewestTogether a := by
  have hn' : (1 : ℚ) ≤ (a.number : ℚ) := by exact_mod_cast hn
  unfold fewestTogether
  split_ifs
  · exact div_pos (by nlinarith) (by linarith)
  · linarith

theorem mean_off_ge {N : ℕ} (h : PythonRandom N μ) {a : Appliance} (hfl : a.flat ≠ "yes") (hn : 1 ≤ a.number) :
    ENNReal.ofReal ((leftOver * fewestTogether a : ℚ) : ℝ) ≤ MeanOf μ (calcCoincidentSwitchOn a false) (fun j => ENNReal.ofReal ((j : ℚ) : ℝ)) := by
  have := h.probability
  have hn' : (1 : ℚ) ≤ (a.number : ℚ) := by exact_mod_cast hn
  unfold fewestTogether
  by_cases hfix : a.fixed = "no"
  · rw [if_pos ⟨hfix, hfl⟩]
    obtain ⟨n, hna⟩ : ∃ n : ℕ, a.number = n := ⟨a.number.toNat, by omega⟩
    rw [mean_off (by positivity) h.grid hfix (by omega : 1 ≤ n) hna]
    refine ENNReal.ofReal_le_ofReal ?_
    have e0 : (a.number : ℚ) = (n : ℚ) := by rw [hna]; rfl
    rw [e0]
    have e1 : leftOver = 1 - 2 / ((2 ^ 53 : ℕ) : ℚ) := by
      unfold leftOver
      norm_num
    rw [e1]
    exact (Rat.cast_le (K := ℝ)).2 (offMean_bounds (by positivity) (by omega)).1
  · rw [if_neg fun h => hfix h.1, mean_all hfix]
    refine ENNReal.ofReal_le_ofReal ((Rat.cast_le (K := ℝ)).2 ?_)
    nlinarith [leftOver_bounds.2]

theorem one_le_half_plus {x : ℝ≥0∞} {q t : ℚ} (hq : 0 ≤ q) (ht : 0 ≤ t) {y : ℝ≥0∞} (hy : y ≤ ENNReal.ofReal (t : ℝ)) (h : ENNReal.ofReal (q : ℝ) ≤ 2 * x + y) : ENNReal.ofReal (((q - t) / 2 : ℚ) : ℝ) ≤ x := by
  rw [Rat.cast_div, Rat.cast_ofNat, ENNReal.ofReal_div_of_pos (by norm_num), ENNReal.ofReal_ofNat, ENNReal.div_le_iff_le_mul (.inl (by norm_num)) (.inl (by norm_num)), mul_comm, Rat.cast_sub,
    ENNReal.ofReal_sub _ (by exact_mod_cast ht)]
  exact tsub_le_iff_right.2 (h.trans (by gcongr))

theorem mean_on_ge [IsProbabilityMeasure μ] (hz : SymmetricNormal μ) {a : Appliance} (hfl : a.flat ≠ "yes") (hn : 1 ≤ a.number) (ht : chanceOfInteger μ a.number ≤ 1 / 3) :
    ENNReal.ofReal ((fewestTogether a : ℚ) : ℝ) ≤ MeanOf μ (calcCoincidentSwitchOn a true) (fun j => ENNReal.ofReal ((j : ℚ) : ℝ)) := by
  have hn' : (1 : ℚ) ≤ (a.number : ℚ) := by exact_mod_cast hn
  unfold fewestTogether
  by_cases hfix : a.fixed = "no"
  · rw [if_pos ⟨hfix, hfl⟩]
    by_cases h1 : a.number = 1
    · rw [mean_one_number h1, h1]
      norm_num
    · have h2 : (2 : ℚ) ≤ (a.number : ℚ) := by exact_mod_cast (by omega : 2 ≤ a.number)
      rw [mean_on hfix]
      have h3 := one_le_half_plus (q := (a.number : ℚ) + 1) (t := 1 / 3) (by linarith) (by norm_num) (y := chanceOfInteger μ a.number) (ht.trans (by
        rw [Rat.cast_div, Rat.cast_one, Rat.cast_ofNat, ENNReal.ofReal_div_of_pos (by norm_num), ENNReal.ofReal_one, ENNReal.ofReal_ofNat])) (onMean_bounds hz hn).2
      refine le_trans (ENNReal.ofReal_le_ofReal ((Rat.cast_le (K := ℝ)).2 ?_)) h3
      rw [div_le_div_iff₀ (by linarith) (by norm_num)]
      nlinarith
  · rw [if_neg fun h => hfix h.1, mean_all hfix]

theorem mean_on_eq [IsProbabilityMeasure μ] (hz : SymmetricNormal μ) {a : Appliance} (hfl : a.flat ≠ "yes") (hn : 1 ≤ a.number) (ht : chanceOfInteger μ a.number = 0) :
    MeanOf μ (calcCoincidentSwitchOn a true) (fun j => ENNReal.ofReal ((j : ℚ) : ℝ)) = ENNReal.ofReal ((mostTogether a : ℚ) : ℝ) := by
  have hn' : (1 : ℚ) ≤ (a.number : ℚ) := by exact_mod_cast hn
  unfold mostTogether
  by_cases hfix : a.fixed = "no"
  · rw [if_pos ⟨hfix, hfl⟩, mean_on hfix]
    refine le_antisymm (half_of_twice (onMean_bounds hz hn).1) ?_
    have h3 := one_le_half_plus (q := (a.number : ℚ) + 1) (t := 0) (by linarith) le_rfl (y := chanceOfInteger μ a.number) (by rw [ht]; exact zero_le) (onMean_bounds hz hn).2
    rwa [_root_.sub_zero] at h3
  · rw [if_neg fun h => hfix h.1, mean_all hfix]

theorem most_nonneg {a : Appliance} (hn : 1 ≤ a.number) : 0 ≤ mostTogether a := by
  have hn' : (1 : ℚ) ≤ (a.number : ℚ) := by exact_mod_cast hn
  unfold mostTogether
  split_ifs <;> linarith

/-! ## The windows of a day -/

/-- All minutes of all windows, wherever their variability moves them, are in `S`. -/
def WindowsIn (S : ℤ → Prop) (a : Appliance) : Prop :=
  ∀ w, MovedWindow a.window1 a.randomVar1 w ∨ MovedWindow a.window2 a.randomVar2 w ∨ MovedWindow a.window3 a.randomVar3 w → ∀ m, w.1 ≤ m → m < w.2 → S m

theorem begin_tracked {a : Appliance} (hc : SafeConfig a) {S : ℤ → Prop} (hS : WindowsIn S a) {pref dt : ℤ} : ∀ w1 w2 w3 rt, Returns (beginRun a pref dt) (some (w1, w2, w3, rt)) →
    Tracked S (initialSpots [w1, w2, w3]) ∧ a.funcCycle ≤ rt := by
  have hw := hc.windows
  intro w1 w2 w3 rt hoR
  have hsat : Sat (beginRun a pref dt) (fun o => ∀ w1 w2 w3 rt, o = some (w1, w2, w3, rt) → MovedWindow a.window1 a.randomVar1 w1 ∧ MovedWindow a.window2 a.randomVar2 w2 ∧
      MovedWindow a.window3 a.randomVar3 w3 ∧ Returns (randTotalTimeOfUse { a with dailyUse := zeros } w1 w2 w3) rt) (fun _ => True) := by
    unfold beginRun
    refine sat_bind' sat_true fun x _ => sat_ite (fun _ => sat_pure (fun _ _ _ _ h => by cases h)) fun _ => ?_
    refine sat_bind' (sat_calcRandWindow hw.r1.1) fun w1 m1 => sat_bind' (sat_calcRandWindow hw.r2.1) fun w2 m2 => sat_bind' (sat_calcRandWindow hw.r3.1) fun w3 m3 => ?_
    refine sat_bind' (P := fun t => Returns (randTotalTimeOfUse { a with dailyUse := zeros } w1 w2 w3) t) ?_ fun t ht => sat_pure ?_
    · rw [sat_iff]
      exact ⟨fun t ht => ht, fun _ _ => trivial⟩
    · rintro _ _ _ _ h
      cases h
      exact ⟨m1, m2, m3, ht⟩
  obtain ⟨m1, m2, m3, hrt⟩ := hsat.ret hoR w1 w2 w3 rt rfl
  have d1 := moved_day m1 hw.w1 hw.r1 hc.half1
  have d2 := moved_day m2 hw.w2 hw.r2 hc.half2
  have d3 := moved_day m3 hw.w3 hw.r3 hc.half3
  unfold DayWindow at d1 d2 d3
  refine ⟨?_, (C07_time_of_use_bounds { a with dailyUse := zeros } w1 w2 w3 rt hc.ft hc.var.1 hc.var.2 (by unfold totalTime; omega) hrt).1⟩
  intro s hs
  unfold initialSpots at hs
  obtain ⟨w, hw', rfl⟩ := List.mem_map.1 hs
  have hw'' := (List.mem_filter.1 hw').1
  simp only [List.mem_cons, List.not_mem_nil, or_false] at hw''
  rcases hw'' with rfl | rfl | rfl
  · exact ⟨by show w.1 ≤ w.2; omega, hS w (.inl m1)⟩
  · exact ⟨by show w.1 ≤ w.2; omega, hS w (.inr (.inl m2))⟩
  · exact ⟨by show w.1 ≤ w.2; omega, hS w (.inr (.inr m3))⟩

theorem windowsIn_any (a : Appliance) : WindowsIn (fun _ => True) a := fun _ _ _ _ _ => trivial

/-! ## One appliance -/

theorem rel_flat_one {a : Appliance} (hfl : a.flat = "yes") (depth : ℕ) (pref : ℤ) (k : ℕ) (peak : List ℤ) (dt : ℤ) (p p' : ℚ) :
    Rel (generateLoadProfile a depth pref k peak dt p) (generateLoadProfile (oneOf a.number a) depth pref k peak dt p') (fun x y => y.dailyUse = x.dailyUse) := by
  unfold generateLoadProfile
  refine rel_bind (P := fun x y => y.1.dailyUse = x.1.dailyUse) ?_ (fun x y hxy => rel_pure hxy)
  unfold generateLoadProfileInfo oneOf withPowers
  simp only
  refine rel_bind_same fun x => rel_ite (fun _ => rel_pure rfl) fun _ => rel_bind_same fun w1 => rel_bind_same fun w2 => rel_bind_same fun w3 => ?_
  refine rel_bind (P := fun x y => y = x) ?_ ?_
  · exact fun r => (rel_refl (m := randTotalTimeOfUse { a with dailyUse := zeros } w1 w2 w3) r).imp id (fun ⟨x, y, r', h1, h2, h3⟩ => ⟨x, y, r', h1, h2, h3.symm⟩)
  intro rt0 rt _
  rw [if_pos hfl, if_pos hfl, List.getElem?_map]
  cases a.power[k]? with
  | none => exact rel_raise
  | some pw =>
    simp only [Option.map_some]
    rw [show (a.number : ℚ) * pw * ((1 : ℤ) : ℚ) = pw * a.number by push_cast; ring]
    exact rel_bind_same fun d => rel_pure rfl

/-- One appliance of the use case, compared with the one that replaces it. -/
theorem one_appliance [IsProbabilityMeasure μ] {R : ℝ≥0∞ → ℝ≥0∞ → Prop} {a : Appliance} {S : ℤ → Prop} {peak : List ℤ} {c : ℚ} (hR : MeanOrder μ R) {P : ℚ} (hP : PowersUpTo P a) (hc : SafeConfig a)
    (hS : WindowsIn S a) (h0 : 0 ≤ c) (hflat : a.flat = "yes" → c = a.number)
    (havg : a.flat ≠ "yes" → ∀ i0 i1 q0 q1, i0 ≤ i1 → (∀ m, i0 ≤ m → m ≤ i1 → S m) → peak.head? = some q0 → peak.getLast? = some q1 → Averages μ R a (withinPeakTimeWindow i0 i1 q0 q1) c)
    (depth k : ℕ) (dt pref : ℤ) (i : Fin 1440) :
    R (MeanOf μ (applianceRun depth k peak dt pref a) (loadAt i)) (MeanOf μ (applianceRun depth k peak dt pref (oneOf c a)) (loadAt i)) := by
  cases hp : a.power[k]? with
  | none =>
    have e1 : applianceRun depth k peak dt pref a = raise .indexError := by unfold applianceRun; rw [hp]
    have e2 : applianceRun depth k peak dt pref (oneOf c a) = raise .indexError := by
      unfold applianceRun
      rw [show (oneOf c a).power[k]? = none by
        show (a.power.map (c * ·))[k]? = none
        rw [List.getElem?_map, hp]
        rfl]
    rw [e1, e2]
    exact hR.refl _
  | some p =>
    have hp' : (oneOf c a).power[k]? = some (c * p) := by
      show (a.power.map (c * ·))[k]? = some (c * p)
      rw [List.getElem?_map, hp]
      rfl
    rw [mean_run hp, mean_run hp']
    by_cases hfl : a.flat = "yes"
    · rw [hflat hfl, mean_of_rel (rel_flat_one hfl depth pref k peak dt p (a.number * p)) (g' := fun b => loadAt i b.dailyUse) fun x y h => by rw [h]]
      exact hR.refl _
    · exact one_generate ⟨hR, hP.number, hP.thermal.1, hP.thermal.2, hP.cycle, h0, havg hfl⟩ (powersUpTo_powers hP) hfl (hP.powers p (List.mem_of_getElem? hp)).1 depth pref k dt
        (begin_tracked hc hS) i

theorem oneOf_scaled (κ c : ℚ) (a : Appliance) : ScaledDef κ (oneOf c a) (oneOf (κ * c) a) := by
  refine ⟨a.dailyUse, a.freeSpots, a.randomCycle1, a.randomCycle2, a.randomCycle3, a.currentDutyCycleId, ?_⟩
  unfold oneOf withPowers leftovers
  simp only [List.map_map, Function.comp_def, mul_assoc]

theorem rel_scaled_one (κ c : ℚ) (a : Appliance) (depth : ℕ) (pref : ℤ) (k : ℕ) (peak : List ℤ) (dt : ℤ) (p : ℚ) :
    Rel (generateLoadProfile (oneOf c a) depth pref k peak dt p) (generateLoadProfile (oneOf (κ * c) a) depth pref k peak dt (κ * p)) (fun x y => Multiplied κ x.dailyUse y.dailyUse) := by
  unfold generateLoadProfile
  exact rel_bind (rel_scaled_info (oneOf_scaled κ c a) depth pref k peak dt p) (fun x y hxy => rel_pure hxy.2.1)

theorem mean_run_none [IsProbabilityMeasure μ] {depth k : ℕ} {peak : List ℤ} {dt pref : ℤ} {a : Appliance} (c : ℚ) (hp : a.power[k]? = none) (g : Profile → ℝ≥0∞) : MeanOf μ (applianceRun depth k peak dt pref (oneOf c a)) g = 0 := by
  unfold applianceRun
  rw [show (oneOf c a).power[k]? = none by
    show (a.power.map (c * ·))[k]? = none
    rw [List.getElem?_map, hp]
    rfl, meanOf_raise]

theorem power_oneOf {a : Appliance} {k : ℕ} {p : ℚ} (c : ℚ) (hp : a.power[k]? = some p) : (oneOf c a).power[k]? = some (c * p) := by
  show (a.power.map (c * ·))[k]? = some (c * p)
  rw [List.getElem?_map, hp]
  rfl

/-- Less power, at least in proportion. -/
theorem scaled_down [IsProbabilityMeasure μ] {κ c : ℚ} (h0 : 0 ≤ κ) (h1 : κ ≤ 1) (a : Appliance) (depth k : ℕ) (peak : List ℤ) (dt pref : ℤ) (i : Fin 1440) :
    ENNReal.ofReal (κ : ℝ) * MeanOf μ (applianceRun depth k peak dt pref (oneOf c a)) (loadAt i) ≤ MeanOf μ (applianceRun depth k peak dt pref (oneOf (κ * c) a)) (loadAt i) := by
  cases hp : a.power[k]? with
  | none => rw [mean_run_none c hp, mean_run_none (κ * c) hp, mul_zero]
  | some p =>
    rw [mean_run (power_oneOf c hp), mean_run (power_oneOf (κ * c) hp), ← meanOf_mul_left (fin_generate _ _ _ _ _ _ _), mul_assoc]
    refine mean_le_of_rel (rel_scaled_one κ c a depth pref k peak dt (c * p)) fun x y h => ?_
    unfold loadAt
    rcases h i with h | ⟨h, _⟩
    · rw [h, ofReal_scaled h0]
    · rw [h]
      exact ofReal_factor_le h1 _

/-- More power, at most in proportion. -/
theorem scaled_up [IsProbabilityMeasure μ] {κ c : ℚ} (h1 : 1 ≤ κ) (a : Appliance) (depth k : ℕ) (peak : List ℤ) (dt pref : ℤ) (i : Fin 1440) :
    MeanOf μ (applianceRun depth k peak dt pref (oneOf (κ * c) a)) (loadAt i) ≤ ENNReal.ofReal (κ : ℝ) * MeanOf μ (applianceRun depth k peak dt pref (oneOf c a)) (loadAt i) := by
  cases hp : a.power[k]? with
  | none => rw [mean_run_none c hp, mean_run_none (κ * c) hp, mul_zero]
  | some p =>
    rw [mean_run (power_oneOf c hp), mean_run (power_oneOf (κ * c) hp), ← meanOf_mul_left (fin_generate _ _ _ _ _ _ _), mul_assoc]
    have hrel := rel_scaled_one κ c a depth pref k peak dt (c * p)
    have hrel' : Rel (generateLoadProfile (oneOf (κ * c) a) depth pref k peak dt (κ * (c * p))) (generateLoadProfile (oneOf c a) depth pref k peak dt (c * p)) (fun y x => Multiplied κ x.dailyUse y.dailyUse) := by
      intro r
      rcases hrel r with ⟨e, h1, h2⟩ | ⟨x, y, r', h1, h2, h3⟩
      · exact .inl ⟨e, h2, h1⟩
      · exact .inr ⟨y, x, r', h2, h1, h3⟩
    refine mean_le_of_rel hrel' fun y x h => ?_
    unfold loadAt
    rcases h i with h | ⟨h, _⟩
    · rw [h, ofReal_scaled (by linarith)]
    · rw [h]
      have : (1 : ℝ≥0∞) ≤ ENNReal.ofReal (κ : ℝ) := ENNReal.one_le_ofReal.2 (by exact_mod_cast h1)
      calc ENNReal.ofReal ((x.dailyUse i : ℚ) : ℝ) = 1 * ENNReal.ofReal ((x.dailyUse i : ℚ) : ℝ) := (one_mul _).symm
        _ ≤ _ := by gcongr

/-! ## A single appliance knows no peak -/

theorem rel_number_one {a : Appliance} (h' : AlwaysTogether a) (b b' : Bool) : Rel (calcCoincidentSwitchOn a b) (calcCoincidentSwitchOn a b') (fun x y => x = y) := by
  have key : ∀ b : Bool, a.fixed = "no" → ∃ f : Draw → ℤ, (∀ d, f d = 1) ∧ calcCoincidentSwitchOn a b = nextDraw >>= fun d => pure (f d) := by
    intro b hfix
    have h : a.number = 1 := h'.resolve_right (not_not.2 hfix)
    cases b with
    | true =>
      refine ⟨_, fun d => ?_, run_on hfix⟩
      rw [h]
      exact min_eq_left (le_max_left _ _)
    | false =>
      refine ⟨_, fun d => ?_, run_off hfix (by omega)⟩
      rw [h]
      have h1 : ⌊(((1 : ℤ) : ℚ) - 1 / 2) * d.u⌋ = 0 := by
        rw [Int.floor_eq_zero_iff]
        have := d.u_nonneg
        have := d.u_le_one
        constructor
        · push_cast
          linarith
        · push_cast
          linarith
      rw [h1]
      rfl
  by_cases hfix : a.fixed = "no"
  · obtain ⟨f, hf, e⟩ := key b hfix
    obtain ⟨f', hf', e'⟩ := key b' hfix
    rw [e, e']
    exact rel_bind_same fun d => rel_pure ((hf d).trans (hf' d).symm)
  · have e : ∀ b, calcCoincidentSwitchOn a b = pure a.number := by
      intro b
      unfold calcCoincidentSwitchOn
      simp only
      rw [if_neg fun h => hfix h.2, if_neg fun h => hfix h.2]
    rw [e, e]
    exact rel_pure rfl

theorem rel_sat_same {α : Type} {m : Sim α} {Q : α → Prop} (h : Sat m Q (fun _ => True)) : Rel m m (fun x y => x = y ∧ Q x) := by
  intro r
  cases hm : m r with
  | error e => exact .inl ⟨e, rfl, rfl⟩
  | ok p => exact .inr ⟨p.1, p.1, p.2, rfl, rfl, rfl, h.ret ⟨r, p.2, hm⟩⟩

theorem same_number {a b : Appliance} (h : SameDefinition a b) : b.number = a.number := by
  have := congrArg Appliance.number h
  exact this

theorem same_always {a b : Appliance} (h : SameDefinition a b) (ha : AlwaysTogether a) : AlwaysTogether b :=
  ha.imp (fun h1 => (same_number h).trans h1) fun h1 h2 => h1 ((congrArg Appliance.fixed h).symm.trans h2)

theorem rel_peak_book {a : Appliance} (h : AlwaysTogether a) {q q' : List ℤ} (hq : q ≠ []) (hq' : q' ≠ []) (power : ℚ) (l : List ℤ) :
    Rel (bookEvent a q power l) (bookEvent a q' power l) (fun x y => x = y ∧ AlwaysTogether x.1) := by
  obtain ⟨s, hs⟩ : ∃ s, q.head? = some s := by cases q with | nil => exact absurd rfl hq | cons s _ => exact ⟨s, rfl⟩
  obtain ⟨s', hs'⟩ : ∃ s, q'.head? = some s := by cases q' with | nil => exact absurd rfl hq' | cons s _ => exact ⟨s, rfl⟩
  unfold bookEvent
  rw [hs, hs', List.getLast?_eq_some_getLast hq, List.getLast?_eq_some_getLast hq']
  cases l.head? with
  | none => exact rel_raise
  | some i0 =>
    cases l.getLast? with
    | none => exact rel_raise
    | some i1 =>
      simp only
      refine rel_bind (rel_number_one h _ _) ?_
      rintro x _ rfl
      refine rel_bind (rel_sat_same (sat_updateDailyUse_same a x power l)) ?_
      rintro b _ ⟨rfl, hb⟩
      exact rel_pure ⟨rfl, same_always hb h⟩

theorem rel_peak_loop {q q' : List ℤ} (hq : q ≠ []) (hq' : q' ≠ []) (depth : ℕ) (power : ℚ) (rt : ℤ) : ∀ (fuel : ℕ) (a : Appliance) (tot : ℤ) (log : List Booking), AlwaysTogether a →
    Rel (switchOnLoop depth q power rt fuel a tot log) (switchOnLoop depth q' power rt fuel a tot log) (fun x y => x = y) := by
  intro fuel
  induction fuel with
  | zero => exact fun a tot log _ => rel_raise
  | succ fuel ih =>
    intro a tot log h
    rw [loop_succ, loop_succ]
    refine rel_ite (fun _ => rel_bind (rel_sat_same (sat_randSwitchOn_same depth a rt)) ?_) fun _ => rel_pure rfl
    rintro p _ ⟨rfl, hp⟩
    have hn : AlwaysTogether p.1 := same_always hp h
    unfold afterEvent
    cases p.2 with
    | none => exact rel_pure rfl
    | some ev =>
      refine rel_ite (fun _ => rel_ite (fun _ => rel_bind (rel_peak_book hn hq hq' power _) ?_) fun _ => rel_pure rfl) fun _ => rel_bind (rel_peak_book hn hq hq' power _) ?_
      · rintro x _ ⟨rfl, _⟩
        exact rel_pure rfl
      · rintro x _ ⟨rfl, hx⟩
        exact ih _ _ _ hx

theorem rel_peak_generate {q q' : List ℤ} (hq : q ≠ []) (hq' : q' ≠ []) {a : Appliance} (h : AlwaysTogether a) (depth : ℕ) (pref : ℤ) (k : ℕ) (dt : ℤ) (power : ℚ) :
    Rel (generateLoadProfile a depth pref k q dt power) (generateLoadProfile a depth pref k q' dt power) (fun x y => x = y) := by
  by_cases hfl : a.flat = "yes"
  · have e : generateLoadProfile a depth pref k q dt power = generateLoadProfile a depth pref k q' dt power := by
      unfold generateLoadProfile generateLoadProfileInfo
      simp only [if_pos hfl]
    rw [e]
    exact rel_refl
  · rw [generate_split hfl, generate_split hfl]
    refine rel_bind_same fun o => ?_
    cases o with
    | none => exact rel_pure rfl
    | some o =>
      obtain ⟨w1, w2, w3, rt⟩ := o
      unfold restRun
      refine rel_bind_same fun d => ?_
      unfold eventsRun
      refine rel_bind (P := fun x y => x = y ∧ AlwaysTogether x) ?_ ?_
      · refine rel_sat_same (Q := AlwaysTogether) ?_
        refine (sat_assignRandomCycles_cfg { a with dailyUse := d }).post fun b hb => ?_
        obtain ⟨c1, c2, c3, rfl⟩ := hb
        exact h
      · rintro b _ ⟨rfl, hb⟩
        refine rel_bind (rel_peak_loop hq hq' depth power rt _ { b with freeSpots := initialSpots [w1, w2, w3] } 0 [] hb) ?_
        rintro x _ rfl
        exact rel_pure rfl

theorem peak_free [IsProbabilityMeasure μ] {q q' : List ℤ} (hq : q ≠ []) (hq' : q' ≠ []) {a : Appliance} (h : AlwaysTogether a) (depth : ℕ) (pref : ℤ) (k : ℕ) (dt : ℤ) (g : Profile → ℝ≥0∞) :
    MeanOf μ (applianceRun depth k q dt pref a) g = MeanOf μ (applianceRun depth k q' dt pref a) g := by
  cases hp : a.power[k]? with
  | none =>
    unfold applianceRun
    rw [hp]
  | some p =>
    rw [mean_run hp, mean_run hp]
    exact mean_of_rel (rel_peak_generate hq hq' h depth pref k dt p) fun x y h => by rw [h]

end Ramp
