import Verif.Lemmas.PythonRandom
import Verif.Lemmas.Num
import Verif.Lemmas.UnbiasedDay
import Mathlib.Algebra.Order.BigOperators.Group.Finset
import Mathlib.Algebra.BigOperators.Intervals

/-! # Averages over the grid of `random.random()` -/

set_option autoImplicit false

open MeasureTheory ENNReal

namespace Ramp

/-! ## Rounding -/

theorem round_pair {x y : ℚ} {n : ℤ} (h : x + y = n) : |((pyRound x + pyRound y : ℤ) : ℚ) - n| ≤ if x - ⌊x⌋ = 1 / 2 then 1 else 0 := by
  obtain ⟨a1, a2⟩ := pyRound_near x
  obtain ⟨b1, b2⟩ := pyRound_near y
  split_ifs with ht
  · rw [abs_le]
    push_cast
    constructor <;> linarith
  · have hs : (pyRound x : ℚ) - 1 / 2 < x ∧ x < pyRound x + 1 / 2 := by
      rcases pyRound_cases x with ⟨e, h1⟩ | ⟨e, h1⟩
      · have : x - ⌊x⌋ < 1 / 2 := lt_of_le_of_ne h1 ht
        have := Int.floor_le x
        rw [e]
        constructor <;> linarith
      · have : 1 / 2 < x - ⌊x⌋ := lt_of_le_of_ne h1 (Ne.symm ht)
        have := Int.lt_floor_add_one x
        rw [e]
        push_cast
        constructor <;> linarith
    have h1 : ((pyRound x + pyRound y : ℤ) : ℚ) - n < 1 := by push_cast; linarith [hs.1]
    have h2 : -1 < ((pyRound x + pyRound y : ℤ) : ℚ) - n := by push_cast; linarith [hs.2]
    have h1' : pyRound x + pyRound y - n < 1 := by exact_mod_cast h1
    have h2' : -1 < pyRound x + pyRound y - n := by exact_mod_cast h2
    have : pyRound x + pyRound y = n := by omega
    rw [this, sub_self, abs_zero]

/-- Few numbers of the grid fall just between two integers. -/
theorem few_ties (f d : ℤ) (m : ℕ) :
    ((Finset.range m).filter (fun k : ℕ => (f + d * ((k + 1 : ℕ) / (m + 1 : ℕ)) : ℚ) - ⌊(f + d * ((k + 1 : ℕ) / (m + 1 : ℕ)) : ℚ)⌋ = 1 / 2)).card ≤ d.natAbs := by
  have hm : (0 : ℚ) < (m + 1 : ℕ) := by positivity
  have hcard : (Finset.Ico (min f (f + d)) (max f (f + d))).card = d.natAbs := by
    rw [Int.card_Ico]
    omega
  rw [← hcard]
  refine Finset.card_le_card_of_injOn (fun k : ℕ => ⌊(f + d * ((k + 1 : ℕ) / (m + 1 : ℕ)) : ℚ)⌋) ?_ ?_
  · intro k hk
    obtain ⟨hk, ht⟩ := Finset.mem_filter.1 (Finset.mem_coe.1 hk)
    have hk := Finset.mem_range.1 hk
    have h0 : (0 : ℚ) ≤ (k + 1 : ℕ) / (m + 1 : ℕ) := by positivity
    have h1 : ((k + 1 : ℕ) / (m + 1 : ℕ) : ℚ) ≤ 1 := by
      rw [div_le_one hm]
      exact_mod_cast (by omega : k + 1 ≤ m + 1)
    rw [Finset.mem_coe, Finset.mem_Ico]
    beta_reduce
    generalize ((k + 1 : ℕ) / (m + 1 : ℕ) : ℚ) = t at *
    generalize hj : ⌊(f + d * t : ℚ)⌋ = j at *
    rcases le_total 0 d with hd | hd
    · have hd' : (0 : ℚ) ≤ d := by exact_mod_cast hd
      have e1 : (f : ℚ) - 1 < j := by nlinarith
      have e2 : (j : ℚ) < f + d := by nlinarith
      have e1' : f - 1 < j := by exact_mod_cast e1
      have e2' : j < f + d := by exact_mod_cast e2
      omega
    · have hd' : (d : ℚ) ≤ 0 := by exact_mod_cast hd
      have e1 : (f : ℚ) + d - 1 < j := by nlinarith
      have e2 : (j : ℚ) < f := by nlinarith
      have e1' : f + d - 1 < j := by exact_mod_cast e1
      have e2' : j < f := by exact_mod_cast e2
      omega
  · intro k hk l hl he
    obtain ⟨_, h1⟩ := Finset.mem_filter.1 (Finset.mem_coe.1 hk)
    obtain ⟨_, h2⟩ := Finset.mem_filter.1 (Finset.mem_coe.1 hl)
    have he' : ⌊(f + d * ((k + 1 : ℕ) / (m + 1 : ℕ)) : ℚ)⌋ = ⌊(f + d * ((l + 1 : ℕ) / (m + 1 : ℕ)) : ℚ)⌋ := he
    rw [he'] at h1
    have hx : (d : ℚ) * ((k + 1 : ℕ) / (m + 1 : ℕ)) = d * ((l + 1 : ℕ) / (m + 1 : ℕ)) := by linarith
    have hd : (d : ℚ) ≠ 0 := by
      intro hd
      rw [hd, zero_mul, add_zero, Int.floor_intCast, sub_self] at h2
      norm_num at h2
    have h3 := mul_left_cancel₀ hd hx
    rw [div_left_inj' hm.ne'] at h3
    have h4 : k + 1 = l + 1 := by exact_mod_cast h3
    omega

/-- The average of the rounded numbers between two integers is the middle, nearly. -/
theorem sum_round (f d : ℤ) (M : ℕ) (hM : 0 < M) :
    |2 * ∑ k ∈ Finset.range M, (pyRound (f + d * (k / M)) : ℚ) - M * (2 * f + d)| ≤ 2 * |(d : ℚ)| := by
  obtain ⟨m, rfl⟩ : ∃ m, M = m + 1 := ⟨M - 1, by omega⟩
  rw [Finset.sum_range_succ']
  have h0 : (pyRound (f + d * (((0 : ℕ) : ℚ) / (m + 1 : ℕ))) : ℚ) = f := by
    rw [Nat.cast_zero, zero_div, mul_zero, add_zero, pyRound_intCast]
  rw [h0]
  set F : ℕ → ℚ := fun k => (pyRound (f + d * ((k + 1 : ℕ) / (m + 1 : ℕ))) : ℚ) with hF
  have hm : ((m + 1 : ℕ) : ℚ) ≠ 0 := by positivity
  have hrefl : ∑ k ∈ Finset.range m, F k = ∑ k ∈ Finset.range m, F (m - 1 - k) := (Finset.sum_range_reflect F m).symm
  have htwo : 2 * ∑ k ∈ Finset.range m, F k = ∑ k ∈ Finset.range m, (F k + F (m - 1 - k)) := by
    rw [Finset.sum_add_distrib, ← hrefl]
    ring
  have hsum : |∑ k ∈ Finset.range m, (F k + F (m - 1 - k) - (2 * f + d))| ≤ |(d : ℚ)| := by
    refine (Finset.abs_sum_le_sum_abs _ _).trans ?_
    refine (Finset.sum_le_sum (g := fun k : ℕ => if (f + d * ((k + 1 : ℕ) / (m + 1 : ℕ)) : ℚ) - ⌊(f + d * ((k + 1 : ℕ) / (m + 1 : ℕ)) : ℚ)⌋ = 1 / 2 then (1 : ℚ) else 0) ?_).trans ?_
    · intro k hk
      have hk := Finset.mem_range.1 hk
      have hxy : (f + d * ((k + 1 : ℕ) / (m + 1 : ℕ)) : ℚ) + (f + d * ((m - 1 - k + 1 : ℕ) / (m + 1 : ℕ))) = ((2 * f + d : ℤ) : ℚ) := by
        have : ((m - 1 - k + 1 : ℕ) : ℚ) = (m + 1 : ℕ) - (k + 1 : ℕ) := by
          rw [show m - 1 - k + 1 = m - k by omega, Nat.cast_sub (by omega)]
          push_cast
          ring
        rw [this]
        field_simp
        push_cast
        ring
      have := round_pair hxy
      rw [Int.cast_add] at this
      have e2 : ((2 * f + d : ℤ) : ℚ) = 2 * f + d := by push_cast; ring
      rw [e2] at this
      exact this
    · rw [Finset.sum_boole]
      refine (Nat.cast_le.2 (few_ties f d m)).trans ?_
      rw [Nat.cast_natAbs, Int.cast_abs]
  rw [Finset.sum_sub_distrib, ← htwo, Finset.sum_const, Finset.card_range, nsmul_eq_mul] at hsum
  have e : 2 * (∑ k ∈ Finset.range m, F k + (f : ℚ)) - ((m + 1 : ℕ) : ℚ) * (2 * f + d) = (2 * ∑ k ∈ Finset.range m, F k - m * (2 * f + d)) - d := by
    push_cast
    ring
  rw [e]
  exact (abs_sub _ _).trans (by linarith)

/-! ## The average time of use -/

/-- The longest (or shortest) time of use that can be drawn after the number `x`. -/
def timeEnd (f : ℤ) (v x : ℚ) : ℤ := pyInt (f * (1 * (1 - v + ((1 + v) - (1 - v)) * x)))

/-- The time of use drawn with the numbers `x` and `y`. -/
def timeDrawn (f : ℤ) (v x y : ℚ) : ℤ := pyRound (f + (timeEnd f v x - f) * y)

/-- The average of the times of use over all pairs of numbers of a grid. -/
def averageTime (M : ℕ) (f : ℤ) (v : ℚ) : ℚ := (∑ j ∈ Finset.range M, ∑ k ∈ Finset.range M, (timeDrawn f v (j / M) (k / M) : ℚ)) / (M * M)

theorem timeEnd_bounds {f : ℤ} {v x : ℚ} (hf : 0 ≤ f) (h0 : 0 ≤ v) (h1 : v ≤ 1) (hx0 : 0 ≤ x) (hx1 : x ≤ 1) :
    (timeEnd f v x : ℚ) ≤ f * (1 - v + 2 * v * x) ∧ f * (1 - v + 2 * v * x) < timeEnd f v x + 1 ∧ ⌊(f : ℚ) * (1 - v)⌋ ≤ timeEnd f v x ∧ timeEnd f v x ≤ ⌊(f : ℚ) * (1 + v)⌋ := by
  have hf' : (0 : ℚ) ≤ f := by exact_mod_cast hf
  have e : (f : ℚ) * (1 * (1 - v + ((1 + v) - (1 - v)) * x)) = f * (1 - v + 2 * v * x) := by ring
  have hv : 0 ≤ v * x := mul_nonneg h0 hx0
  have hv1 : v * x ≤ v := mul_le_of_le_one_right h0 hx1
  have hn : (0 : ℚ) ≤ f * (1 - v + 2 * v * x) := mul_nonneg hf' (by linarith)
  unfold timeEnd
  rw [e]
  refine ⟨pyInt_le_self hn, lt_pyInt_add_one hn, ?_, ?_⟩
  · rw [pyInt_of_nonneg hn]
    exact Int.floor_le_floor (mul_le_mul_of_nonneg_left (by linarith) hf')
  · rw [pyInt_of_nonneg hn]
    exact Int.floor_le_floor (mul_le_mul_of_nonneg_left (by linarith) hf')

theorem sum_grid (M : ℕ) (hM : 0 < M) : ∑ j ∈ Finset.range M, ((j : ℚ) / M) = (M - 1) / 2 := by
  have hM' : (M : ℚ) ≠ 0 := by exact_mod_cast hM.ne'
  rw [← Finset.sum_div]
  have h := Finset.sum_range_id_mul_two M
  have h2 : (∑ j ∈ Finset.range M, (j : ℚ)) * 2 = M * (M - 1) := by
    have : (((∑ j ∈ Finset.range M, j) * 2 : ℕ) : ℚ) = ((M * (M - 1) : ℕ) : ℚ) := by rw [h]
    rw [Nat.cast_mul, Nat.cast_mul, Nat.cast_sum, Nat.cast_sub hM] at this
    push_cast at this
    exact this
  field_simp
  linarith

theorem grid_mem {M j : ℕ} (hj : j < M) : (0 : ℚ) ≤ (j : ℚ) / M ∧ (j : ℚ) / M ≤ 1 := by
  refine ⟨by positivity, ?_⟩
  rw [div_le_one (by exact_mod_cast (by omega : 0 < M))]
  exact_mod_cast hj.le

/-- The average is the middle between `func_time` and the average of the ends. -/
theorem averageTime_ends {M : ℕ} (hM : 0 < M) {f : ℤ} {v : ℚ} (hf : 0 ≤ f) (h0 : 0 ≤ v) (h1 : v ≤ 1) :
    |2 * ∑ j ∈ Finset.range M, ∑ k ∈ Finset.range M, (timeDrawn f v (j / M) (k / M) : ℚ) - M * (M * f + ∑ j ∈ Finset.range M, (timeEnd f v (j / M) : ℚ))| ≤
      M * (2 * (f + 1)) := by
  have hf' : (0 : ℚ) ≤ f := by exact_mod_cast hf
  have hfv : (f : ℚ) * v ≤ f := mul_le_of_le_one_right hf' h1
  have hfv0 : (0 : ℚ) ≤ f * v := mul_nonneg hf' h0
  -- one row
  have hrow : ∀ j ∈ Finset.range M, |2 * ∑ k ∈ Finset.range M, (timeDrawn f v (j / M) (k / M) : ℚ) - M * (f + timeEnd f v (j / M))| ≤ 2 * (f + 1) := by
    intro j hj
    have hj := Finset.mem_range.1 hj
    obtain ⟨x0, x1⟩ := grid_mem hj
    obtain ⟨g1, g2, _, _⟩ := timeEnd_bounds hf h0 h1 x0 x1
    have h := sum_round f (timeEnd f v (j / M) - f) M hM
    have hd : |((timeEnd f v (j / M) - f : ℤ) : ℚ)| ≤ f + 1 := by
      have hv : 0 ≤ f * v * ((j : ℚ) / M) := mul_nonneg hfv0 x0
      have hv1 : f * v * ((j : ℚ) / M) ≤ f * v := mul_le_of_le_one_right hfv0 x1
      rw [abs_le, Int.cast_sub]
      constructor <;> nlinarith
    have e : (M : ℚ) * (2 * f + (timeEnd f v (j / M) - f : ℤ)) = M * (f + timeEnd f v (j / M)) := by push_cast; ring
    rw [e] at h
    have e2 : ∀ k ∈ Finset.range M, (pyRound (f + ((timeEnd f v (j / M) - f : ℤ) : ℚ) * (k / M)) : ℚ) = timeDrawn f v (j / M) (k / M) := by
      intro k _
      rw [Int.cast_sub]
      rfl
    rw [Finset.sum_congr rfl e2] at h
    linarith
  have h2 := (Finset.abs_sum_le_sum_abs (fun j : ℕ => 2 * ∑ k ∈ Finset.range M, (timeDrawn f v (j / M) (k / M) : ℚ) - M * (f + timeEnd f v (j / M))) (Finset.range M)).trans
    (Finset.sum_le_sum hrow)
  rw [Finset.sum_const, Finset.card_range, nsmul_eq_mul, Finset.sum_sub_distrib, ← Finset.mul_sum, ← Finset.mul_sum, Finset.sum_add_distrib, Finset.sum_const, Finset.card_range,
    nsmul_eq_mul] at h2
  exact h2

/-- The average time of use is `func_time`, at most half a minute less (and a rounding error). -/
theorem averageTime_bounds {M : ℕ} (hM : 0 < M) {f : ℤ} {v : ℚ} (hf : 0 ≤ f) (h0 : 0 ≤ v) (h1 : v ≤ 1) :
    f - 1 / 2 - 2 * (f + 1) / M ≤ averageTime M f v ∧ averageTime M f v ≤ f + 2 * (f + 1) / M := by
  have hf' : (0 : ℚ) ≤ f := by exact_mod_cast hf
  have hM' : (0 : ℚ) < M := by exact_mod_cast hM
  have hfv : (f : ℚ) * v ≤ f := mul_le_of_le_one_right hf' h1
  have hfv0 : (0 : ℚ) ≤ f * v := mul_nonneg hf' h0
  -- the ends
  have hends : ∑ j ∈ Finset.range M, (f : ℚ) * (1 - v + 2 * v * ((j : ℚ) / M)) = f * (M - v) := by
    rw [← Finset.mul_sum, Finset.sum_add_distrib, Finset.sum_const, Finset.card_range, nsmul_eq_mul, ← Finset.mul_sum, sum_grid M hM]
    ring
  have hup : ∑ j ∈ Finset.range M, (timeEnd f v (j / M) : ℚ) ≤ f * (M - v) := by
    rw [← hends]
    refine Finset.sum_le_sum fun j hj => ?_
    obtain ⟨x0, x1⟩ := grid_mem (Finset.mem_range.1 hj)
    exact (timeEnd_bounds hf h0 h1 x0 x1).1
  have hlow : f * (M - v) - M ≤ ∑ j ∈ Finset.range M, (timeEnd f v (j / M) : ℚ) := by
    have : ∑ j ∈ Finset.range M, ((f : ℚ) * (1 - v + 2 * v * ((j : ℚ) / M)) - 1) ≤ ∑ j ∈ Finset.range M, (timeEnd f v (j / M) : ℚ) := by
      refine Finset.sum_le_sum fun j hj => ?_
      obtain ⟨x0, x1⟩ := grid_mem (Finset.mem_range.1 hj)
      have := (timeEnd_bounds hf h0 h1 x0 x1).2.1
      linarith
    rw [Finset.sum_sub_distrib, hends, Finset.sum_const, Finset.card_range, nsmul_eq_mul, mul_one] at this
    exact this
  have hall := averageTime_ends hM hf h0 h1
  rw [abs_le] at hall
  obtain ⟨ha, hb⟩ := hall
  unfold averageTime
  generalize ∑ j ∈ Finset.range M, ∑ k ∈ Finset.range M, (timeDrawn f v (j / M) (k / M) : ℚ) = S at *
  generalize ∑ j ∈ Finset.range M, (timeEnd f v (j / M) : ℚ) = G at *
  have hMM : (0 : ℚ) < M * M := mul_pos hM' hM'
  have e1 : (2 * ((f : ℚ) + 1) / M) * (M * M) = 2 * (f + 1) * M := by field_simp
  constructor
  · rw [le_div_iff₀ hMM, sub_mul, e1]
    nlinarith
  · rw [div_le_iff₀ hMM, add_mul, e1]
    nlinarith

/-- With a variability of less than a minute half of the ends are a minute less. -/
theorem averageTime_small {M : ℕ} (hM : 0 < M) {f : ℤ} {v : ℚ} (hf : 0 ≤ f) (h0 : 0 ≤ v) (h1 : v ≤ 1) (hpos : 0 < f * v) (hlt : f * v < 1) :
    averageTime M f v ≤ f - 1 / 4 + 2 * (f + 1) / M := by
  have hf' : (0 : ℚ) ≤ f := by exact_mod_cast hf
  have hM' : (0 : ℚ) < M := by exact_mod_cast hM
  have hend : ∀ j ∈ Finset.range M, (timeEnd f v (j / M) : ℚ) ≤ f - if 2 * j < M then 1 else 0 := by
    intro j hj
    obtain ⟨x0, x1⟩ := grid_mem (Finset.mem_range.1 hj)
    obtain ⟨g1, _, _, _⟩ := timeEnd_bounds hf h0 h1 x0 x1
    split_ifs with h2
    · have hx : (j : ℚ) / M < 1 / 2 := by
        rw [div_lt_iff₀ hM']
        have : (2 * j : ℚ) < M := by exact_mod_cast h2
        linarith
      have : (timeEnd f v (j / M) : ℚ) < f := by nlinarith
      have : timeEnd f v (j / M) < f := by exact_mod_cast this
      have : timeEnd f v (j / M) ≤ f - 1 := by omega
      exact_mod_cast this
    · have hx : f * v * ((j : ℚ) / M) ≤ f * v := mul_le_of_le_one_right hpos.le x1
      have : (timeEnd f v (j / M) : ℚ) < f + 1 := by nlinarith
      have : timeEnd f v (j / M) < f + 1 := by exact_mod_cast this
      have : timeEnd f v (j / M) ≤ f := by omega
      rw [sub_zero]
      exact_mod_cast this
  have hcount : (M : ℚ) / 2 ≤ ∑ j ∈ Finset.range M, (if 2 * j < M then (1 : ℚ) else 0) := by
    rw [Finset.sum_boole]
    have hsub : Finset.range ((M + 1) / 2) ⊆ (Finset.range M).filter (fun j => 2 * j < M) := by
      intro j hj
      have := Finset.mem_range.1 hj
      exact Finset.mem_filter.2 ⟨Finset.mem_range.2 (by omega), by omega⟩
    have hle := Finset.card_le_card hsub
    rw [Finset.card_range] at hle
    have h3 : M ≤ 2 * ((Finset.range M).filter (fun j => 2 * j < M)).card := by omega
    have h4 : (M : ℚ) ≤ 2 * (((Finset.range M).filter (fun j => 2 * j < M)).card : ℕ) := by exact_mod_cast h3
    linarith
  have hup : ∑ j ∈ Finset.range M, (timeEnd f v (j / M) : ℚ) ≤ M * f - M / 2 := by
    refine (Finset.sum_le_sum hend).trans ?_
    rw [Finset.sum_sub_distrib, Finset.sum_const, Finset.card_range, nsmul_eq_mul]
    linarith
  have hall := averageTime_ends hM hf h0 h1
  rw [abs_le] at hall
  obtain ⟨_, hb⟩ := hall
  unfold averageTime
  generalize ∑ j ∈ Finset.range M, ∑ k ∈ Finset.range M, (timeDrawn f v (j / M) (k / M) : ℚ) = S at *
  generalize ∑ j ∈ Finset.range M, (timeEnd f v (j / M) : ℚ) = G at *
  have hMM : (0 : ℚ) < M * M := mul_pos hM' hM'
  have e1 : (2 * ((f : ℚ) + 1) / M) * (M * M) = 2 * (f + 1) * M := by field_simp
  rw [div_le_iff₀ hMM, add_mul, e1]
  nlinarith

/-! ## Expected values over the grid -/

variable {μ : Measure Draw}

theorem mean_uniform [IsProbabilityMeasure μ] {M : ℕ} (hM : 0 < M) (h : OnGrid M μ) (a b : ℚ) (G : ℚ → ℝ≥0∞) :
    MeanOf μ (uniform a b) G = (M : ℝ≥0∞)⁻¹ * ∑ k ∈ Finset.range M, G (a + (b - a) * (k / M)) := by
  unfold uniform
  rw [meanOf_bind fin_nextDraw fun _ => fin_pure _, meanOf_nextDraw]
  simp only [meanOf_pure]
  have hM' : (M : ℚ) ≠ 0 := by exact_mod_cast hM.ne'
  have hae : ∀ᵐ d ∂μ, G (a + (b - a) * d.u) = ∑ k ∈ Finset.range M, Set.indicator {d : Draw | d.u = (k : ℚ) / M} (fun _ => G (a + (b - a) * ((k : ℚ) / M))) d := by
    rw [ae_iff]
    refine le_antisymm (le_trans (measure_mono ?_) (grid_sure hM h).le) zero_le
    intro d hd hk
    refine hd ?_
    obtain ⟨k, hk, hu⟩ := hk
    rw [Finset.sum_eq_single k]
    · rw [Set.indicator_of_mem (show d ∈ {d : Draw | d.u = (k : ℚ) / M} from hu), hu]
    · intro l _ hl
      have hne : ¬ d.u = (l : ℚ) / M := by
        intro hd'
        rw [hu, div_left_inj' hM'] at hd'
        exact hl (by exact_mod_cast hd'.symm)
      exact Set.indicator_of_notMem (show d ∉ {d : Draw | d.u = (l : ℚ) / M} from hne) _
    · exact fun hn => absurd hk hn
  rw [lintegral_congr_ae hae, lintegral_finsetSum _ fun _ _ => Measurable.of_discrete, Finset.mul_sum]
  refine Finset.sum_congr rfl fun k hk => ?_
  rw [lintegral_indicator_const MeasurableSet.of_discrete, h k (Finset.mem_range.1 hk), mul_comm]

theorem inv_ofReal {M : ℕ} (hM : 0 < M) (S : ℝ) : (M : ℝ≥0∞)⁻¹ * ENNReal.ofReal S = ENNReal.ofReal (S / M) := by
  have hM' : (0 : ℝ) < M := by exact_mod_cast hM
  rw [div_eq_inv_mul, ENNReal.ofReal_mul (by positivity), ENNReal.ofReal_inv_of_pos hM', ENNReal.ofReal_natCast]

/-- The expected value of a quantity that depends on the time of use alone, if the time of use is never raised to `func_cycle` nor cut. -/
theorem mean_time [IsProbabilityMeasure μ] {M : ℕ} (hM : 0 < M) (h : OnGrid M μ) {a : Appliance} {w1 w2 w3 : ℤ × ℤ} (hf : 0 ≤ a.funcTime)
    (h0 : 0 ≤ a.timeFractionRandomVariability) (h1 : a.timeFractionRandomVariability ≤ 1)
    (hl : a.funcCycle ≤ ⌊(a.funcTime : ℚ) * (1 - a.timeFractionRandomVariability)⌋)
    (hu : ((⌊(a.funcTime : ℚ) * (1 + a.timeFractionRandomVariability)⌋ : ℤ) : ℚ) ≤ 99 / 100 * totalTime w1 w2 w3) {α β : ℝ}
    (hpos : ∀ t : ℤ, ⌊(a.funcTime : ℚ) * (1 - a.timeFractionRandomVariability)⌋ ≤ t → t ≤ ⌊(a.funcTime : ℚ) * (1 + a.timeFractionRandomVariability)⌋ → 0 ≤ α * t + β) :
    MeanOf μ (randTotalTimeOfUse a w1 w2 w3) (fun t => ENNReal.ofReal (α * t + β)) =
      ENNReal.ofReal (α * ((averageTime M a.funcTime a.timeFractionRandomVariability : ℚ) : ℝ) + β) := by
  have hM' : (M : ℝ) ≠ 0 := by exact_mod_cast hM.ne'
  have hMq : (M : ℚ) ≠ 0 := by exact_mod_cast hM.ne'
  set f := a.funcTime with hfdef
  set v := a.timeFractionRandomVariability with hvdef
  have hff : ((⌊(f : ℚ) * (1 - v)⌋ : ℤ)) ≤ f ∧ f ≤ ⌊(f : ℚ) * (1 + v)⌋ := by
    have hf' : (0 : ℚ) ≤ f := by exact_mod_cast hf
    have hfv : 0 ≤ (f : ℚ) * v := mul_nonneg hf' h0
    refine ⟨?_, Int.le_floor.2 (by linarith)⟩
    have : ((⌊(f : ℚ) * (1 - v)⌋ : ℤ) : ℚ) ≤ f := (Int.floor_le _).trans (by linarith)
    exact_mod_cast this
  -- the time drawn
  have hdrawn : ∀ {x y : ℚ}, 0 ≤ x → x ≤ 1 → 0 ≤ y → y ≤ 1 → ⌊(f : ℚ) * (1 - v)⌋ ≤ timeDrawn f v x y ∧ timeDrawn f v x y ≤ ⌊(f : ℚ) * (1 + v)⌋ := by
    intro x y hx0 hx1 hy0 hy1
    obtain ⟨_, _, g3, g4⟩ := timeEnd_bounds hf h0 h1 hx0 hx1
    have g3' : ((⌊(f : ℚ) * (1 - v)⌋ : ℤ) : ℚ) ≤ timeEnd f v x := by exact_mod_cast g3
    have g4' : (timeEnd f v x : ℚ) ≤ (⌊(f : ℚ) * (1 + v)⌋ : ℤ) := by exact_mod_cast g4
    have f1 : ((⌊(f : ℚ) * (1 - v)⌋ : ℤ) : ℚ) ≤ f := by exact_mod_cast hff.1
    have f2 : (f : ℚ) ≤ (⌊(f : ℚ) * (1 + v)⌋ : ℤ) := by exact_mod_cast hff.2
    unfold timeDrawn
    exact ⟨le_pyRound (by nlinarith), pyRound_le (by nlinarith)⟩
  -- the draws
  have hrun : randTotalTimeOfUse a w1 w2 w3 = uniform (1 - v) (1 + v) >>= fun x => uniform f (pyInt (f * (1 * x))) >>= fun y =>
      (let randTime := pyRound y
       let randTime := if randTime < a.funcCycle then a.funcCycle else randTime
       let total := (w1.2 - w1.1) + (w2.2 - w2.1) + (w3.2 - w3.1)
       let randTime := if (randTime : ℚ) > 99 / 100 * total then pyInt (99 / 100 * total) else randTime
       if randTime < a.funcCycle then raise .valueError else pure randTime) := rfl
  have hlast : ∀ y, ⌊(f : ℚ) * (1 - v)⌋ ≤ pyRound y → pyRound y ≤ ⌊(f : ℚ) * (1 + v)⌋ → (let randTime := pyRound y
       let randTime := if randTime < a.funcCycle then a.funcCycle else randTime
       let total := (w1.2 - w1.1) + (w2.2 - w2.1) + (w3.2 - w3.1)
       let randTime := if (randTime : ℚ) > 99 / 100 * total then pyInt (99 / 100 * total) else randTime
       if randTime < a.funcCycle then raise .valueError else pure randTime : Sim ℤ) = pure (pyRound y) := by
    intro y hy1 hy2
    have hy2' : (pyRound y : ℚ) ≤ (⌊(f : ℚ) * (1 + v)⌋ : ℤ) := by exact_mod_cast hy2
    simp only
    rw [if_neg (by omega : ¬ pyRound y < a.funcCycle)]
    rw [if_neg (show ¬ (pyRound y : ℚ) > 99 / 100 * ((w1.2 - w1.1 + (w2.2 - w2.1) + (w3.2 - w3.1) : ℤ) : ℚ) from not_lt.2 (hy2'.trans hu))]
    rw [if_neg (by omega : ¬ pyRound y < a.funcCycle)]
  have hfin : ∀ y, Finitary (let randTime := pyRound y
       let randTime := if randTime < a.funcCycle then a.funcCycle else randTime
       let total := (w1.2 - w1.1) + (w2.2 - w2.1) + (w3.2 - w3.1)
       let randTime := if (randTime : ℚ) > 99 / 100 * total then pyInt (99 / 100 * total) else randTime
       if randTime < a.funcCycle then raise .valueError else pure randTime : Sim ℤ) := fun y => fin_ite (fin_raise _) (fin_pure _)
  rw [hrun, meanOf_bind (fin_uniform _ _) fun _ => fin_bind (fin_uniform _ _) hfin, mean_uniform hM h]
  have hin : ∀ j ∈ Finset.range M, MeanOf μ (uniform f (pyInt (f * (1 * ((1 - v) + ((1 + v) - (1 - v)) * ((j : ℚ) / M))))) >>= fun y =>
      (let randTime := pyRound y
       let randTime := if randTime < a.funcCycle then a.funcCycle else randTime
       let total := (w1.2 - w1.1) + (w2.2 - w2.1) + (w3.2 - w3.1)
       let randTime := if (randTime : ℚ) > 99 / 100 * total then pyInt (99 / 100 * total) else randTime
       if randTime < a.funcCycle then raise .valueError else pure randTime : Sim ℤ)) (fun t => ENNReal.ofReal (α * t + β)) =
      ENNReal.ofReal ((∑ k ∈ Finset.range M, (α * timeDrawn f v (j / M) (k / M) + β)) / M) := by
    intro j hj
    obtain ⟨x0, x1⟩ := grid_mem (Finset.mem_range.1 hj)
    rw [meanOf_bind (fin_uniform _ _) hfin, mean_uniform hM h, ← inv_ofReal hM]
    congr 1
    rw [ENNReal.ofReal_sum_of_nonneg]
    · refine Finset.sum_congr rfl fun k hk => ?_
      obtain ⟨y0, y1⟩ := grid_mem (Finset.mem_range.1 hk)
      obtain ⟨d1, d2⟩ := hdrawn x0 x1 y0 y1
      have e := hlast (f + (timeEnd f v (j / M) - f) * (k / M)) d1 d2
      unfold timeEnd at e
      rw [e, meanOf_pure]
      rfl
    · intro k hk
      obtain ⟨y0, y1⟩ := grid_mem (Finset.mem_range.1 hk)
      obtain ⟨d1, d2⟩ := hdrawn x0 x1 y0 y1
      exact hpos _ d1 d2
  rw [Finset.sum_congr rfl hin, ← ENNReal.ofReal_sum_of_nonneg, inv_ofReal hM]
  · congr 1
    unfold averageTime
    have e : ∀ j ∈ Finset.range M, (∑ k ∈ Finset.range M, (α * (timeDrawn f v (j / M) (k / M) : ℝ) + β)) / M =
        α * ((∑ k ∈ Finset.range M, (timeDrawn f v (j / M) (k / M) : ℝ)) / M) + β := by
      intro j _
      rw [Finset.sum_add_distrib, Finset.sum_const, Finset.card_range, nsmul_eq_mul, ← Finset.mul_sum]
      field_simp
    rw [Finset.sum_congr rfl e, Finset.sum_add_distrib, Finset.sum_const, Finset.card_range, nsmul_eq_mul, ← Finset.mul_sum, ← Finset.sum_div]
    rw [Rat.cast_div, Rat.cast_sum, Rat.cast_mul]
    simp only [Rat.cast_sum, Rat.cast_intCast, Rat.cast_natCast]
    field_simp
  · intro j hj
    obtain ⟨x0, x1⟩ := grid_mem (Finset.mem_range.1 hj)
    refine div_nonneg (Finset.sum_nonneg fun k hk => ?_) (by positivity)
    obtain ⟨y0, y1⟩ := grid_mem (Finset.mem_range.1 hk)
    obtain ⟨d1, d2⟩ := hdrawn x0 x1 y0 y1
    exact hpos _ d1 d2

end Ramp
