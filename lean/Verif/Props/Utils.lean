import Verif.Lemmas.Num
import Mathlib.Tactic.IntervalCases
import Mathlib.Tactic.FieldSimp
import Verif.Spec4

/-! # C01–C05: the helper functions of `ramp/core/utils.py` -/

set_option autoImplicit false

namespace Ramp

/-! ## C01 -/

/-- **C01.** The possible results of `random_variation(var, norm)` are exactly the numbers `norm * f` with `f` in the band
`[1 - var, 1 + var]`, and the call never raises. -/
theorem C01_random_variation_band (var norm x : ℚ) (hv : 0 ≤ var) :
    (Returns (randomVariation var norm) x ↔ ∃ f, 1 - var ≤ f ∧ f ≤ 1 + var ∧ x = norm * f) ∧
    NeverRaises (randomVariation var norm) := by
  refine ⟨⟨fun h => ?_, ?_⟩, ?_⟩
  · refine Sat.ret (Q := fun x => ∃ f, 1 - var ≤ f ∧ f ≤ 1 + var ∧ x = norm * f) (E := fun _ => True) ?_ h
    refine sat_bind (sat_uniform fun u h0 h1 => sat_pure ⟨_, ?_, ?_, rfl⟩)
    · nlinarith
    · nlinarith
  · rintro ⟨f, h1, h2, rfl⟩
    exact Reach.returns (reach_bind (reach_uniform_of_mem h1 h2) (reach_pure (norm * f)))
  · exact neverRaises_of_sat (Q := fun _ => True) (sat_bind (sat_uniform fun u h0 h1 => sat_pure trivial))

/-- **C01.** The band in the terms of the documentation: for a non-negative nominal value the possible results are exactly
the numbers between `norm*(1-var)` and `norm*(1+var)`. -/
theorem C01_random_variation_interval (var norm x : ℚ) (hv : 0 ≤ var) (hn : 0 ≤ norm) :
    Returns (randomVariation var norm) x ↔ norm * (1 - var) ≤ x ∧ x ≤ norm * (1 + var) := by
  rw [(C01_random_variation_band var norm x hv).1]
  constructor
  · rintro ⟨f, h1, h2, rfl⟩
    exact ⟨mul_le_mul_of_nonneg_left h1 hn, mul_le_mul_of_nonneg_left h2 hn⟩
  · rintro ⟨h1, h2⟩
    rcases eq_or_lt_of_le hn with h | h
    · subst h
      refine ⟨1, by linarith, by linarith, ?_⟩
      simp only [zero_mul] at h1 h2 ⊢
      exact le_antisymm h2 h1
    · refine ⟨x / norm, ?_, ?_, by field_simp⟩
      · rw [le_div_iff₀ h]; linarith
      · rw [div_le_iff₀ h]; linarith

/-- **C01.** Without variability the result is the nominal value, for every random draw. -/
theorem C01_random_variation_zero (norm : ℚ) (rng : Rng) :
    ∃ rng', randomVariation 0 norm rng = .ok (norm, rng') := by
  obtain ⟨x, rng', h⟩ := (C01_random_variation_band 0 norm 0 le_rfl).2.total rng
  have hx := (C01_random_variation_band 0 norm x le_rfl).1.1 ⟨rng, rng', h⟩
  obtain ⟨f, h1, h2, rfl⟩ := hx
  have : f = 1 := by linarith
  exact ⟨rng', by rw [h, this, mul_one]⟩

example : Returns (randomVariation (1/10) 50) 47 :=
  (C01_random_variation_interval _ _ _ (by norm_num) (by norm_num)).2 (by norm_num)

/-! ## C02 -/

theorem randomVariation_neg_part {var : ℚ} {t : ℤ} (hv : 0 ≤ var) (hv1 : var ≤ 1) (ht : 0 ≤ t) :
    Sat (randomVariation (-var) t) (fun d => 0 ≤ d ∧ PartLength var t (pyInt d).toNat) (fun _ => False) := by
  refine sat_bind (sat_uniform fun u h0 h1 => sat_pure ?_)
  have ht' : (0 : ℚ) ≤ t := by exact_mod_cast ht
  have hl : (t : ℚ) * (1 - var) ≤ t * (1 - -var + (1 + -var - (1 - -var)) * u) :=
    mul_le_mul_of_nonneg_left (by nlinarith) ht'
  have hu : (t : ℚ) * (1 - -var + (1 + -var - (1 - -var)) * u) ≤ t * (1 + var) :=
    mul_le_mul_of_nonneg_left (by nlinarith) ht'
  have hn : (0 : ℚ) ≤ t * (1 - var) := mul_nonneg ht' (by linarith)
  have hd : (0 : ℚ) ≤ t * (1 - -var + (1 + -var - (1 - -var)) * u) := hn.trans hl
  refine ⟨hd, ?_⟩
  unfold PartLength
  rw [Int.toNat_of_nonneg (pyInt_nonneg hd), pyInt_of_nonneg hd]
  exact ⟨Int.floor_le_floor hl, Int.floor_le_floor hu⟩

theorem reach_part {var : ℚ} {t : ℤ} {k : ℕ} (hv : 0 ≤ var) (hv1 : var ≤ 1) (ht : 0 ≤ t) (hk : PartLength var t k) :
    ∃ d : ℚ, Reach (randomVariation (-var) t) d ∧ pyInt d = k := by
  have ht' : (0 : ℚ) ≤ t := by exact_mod_cast ht
  have hn : (0 : ℚ) ≤ t * (1 - var) := mul_nonneg ht' (by linarith)
  obtain ⟨h1, h2⟩ := hk
  have h1' : (t : ℚ) * (1 - var) < k + 1 := by
    have := Int.lt_floor_add_one ((t : ℚ) * (1 - var))
    have h3 : ((⌊(t : ℚ) * (1 - var)⌋ : ℤ) : ℚ) ≤ (k : ℚ) := by exact_mod_cast h1
    linarith
  have h2' : (k : ℚ) ≤ t * (1 + var) := by
    have := Int.le_floor.1 h2; exact_mod_cast this
  -- the point max (t*(1-var)) k
  have key : ∃ d : ℚ, t * (1 - var) ≤ d ∧ d ≤ t * (1 + var) ∧ (k : ℚ) ≤ d ∧ d < k + 1 := by
    refine ⟨max (t * (1 - var)) k, le_max_left _ _, max_le ?_ h2', le_max_right _ _, max_lt h1' (by linarith)⟩
    exact mul_le_mul_of_nonneg_left (by linarith) ht'
  obtain ⟨d, hd1, hd2, hd3, hd4⟩ := key
  refine ⟨d, ?_, ?_⟩
  · rcases eq_or_lt_of_le ht' with h | h
    · have : d = 0 := by rw [← h] at hd1 hd2; simp at hd1 hd2; exact le_antisymm hd2 hd1
      subst this
      refine reach_bind (reach_uniform (u := 0) le_rfl (by norm_num) rfl) (reach_pure' ?_)
      rw [← h]; simp
    · have hx1 : 1 - var ≤ d / t := by rw [le_div_iff₀ h]; linarith
      have hx2 : d / t ≤ 1 + var := by rw [div_le_iff₀ h]; linarith
      rcases eq_or_lt_of_le hv with hv0 | hv0
      · refine reach_bind (reach_uniform (u := 0) (x := 1) le_rfl (by norm_num) (by rw [← hv0]; ring)) (reach_pure' ?_)
        rw [← hv0] at hd1 hd2
        have : d = t := by linarith
        rw [this, mul_one]
      · refine reach_bind (reach_uniform (u := (1 + var - d / t) / (2 * var)) (x := d / t) ?_ ?_ ?_) (reach_pure' ?_)
        · exact div_nonneg (by linarith) (by linarith)
        · rw [div_le_one (by linarith)]; linarith
        · field_simp; ring
        · field_simp
  · rw [pyInt_of_nonneg (by have : (0:ℚ) ≤ k := by positivity
                            linarith)]
    rw [Int.floor_eq_iff]; exact ⟨by exact_mod_cast hd3, by exact_mod_cast hd4⟩

theorem onesTimes_of_nonneg {d : ℤ} (h : 0 ≤ d) (p : ℚ) : onesTimes d p = .ok (List.replicate d.toNat p) := by
  unfold onesTimes; rw [if_neg (by omega)]

theorem sat_dutyCycle {var : ℚ} {t1 t2 : ℤ} (p1 p2 : ℚ) (hv : 0 ≤ var) (hv1 : var ≤ 1) (h1 : 0 ≤ t1) (h2 : 0 ≤ t2) :
    Sat (dutyCycle var t1 p1 t2 p2) (fun l => ∃ k1 k2, PartLength var t1 k1 ∧ PartLength var t2 k2 ∧
      l = List.replicate k1 p1 ++ List.replicate k2 p2) (fun _ => False) := by
  unfold dutyCycle
  refine sat_bind' (randomVariation_neg_part hv hv1 h1) fun d1 hd1 => ?_
  rw [onesTimes_of_nonneg (pyInt_nonneg hd1.1)]
  refine sat_bind (sat_liftE (fun a ha => ?_) (by simp))
  refine sat_bind' (randomVariation_neg_part hv hv1 h2) fun d2 hd2 => ?_
  rw [onesTimes_of_nonneg (pyInt_nonneg hd2.1)]
  refine sat_bind (sat_liftE (fun b hb => ?_) (by simp))
  refine sat_pure ⟨_, _, hd1.2, hd2.2, ?_⟩
  cases ha; cases hb; rfl

theorem reach_dutyCycle {var : ℚ} {t1 t2 : ℤ} (p1 p2 : ℚ) (hv : 0 ≤ var) (hv1 : var ≤ 1) (h1 : 0 ≤ t1) (h2 : 0 ≤ t2)
    {k1 k2 : ℕ} (hk1 : PartLength var t1 k1) (hk2 : PartLength var t2 k2) :
    Reach (dutyCycle var t1 p1 t2 p2) (List.replicate k1 p1 ++ List.replicate k2 p2) := by
  obtain ⟨d1, hr1, e1⟩ := reach_part hv hv1 h1 hk1
  obtain ⟨d2, hr2, e2⟩ := reach_part hv hv1 h2 hk2
  refine reach_bind hr1 (reach_bind (reach_liftE (a := List.replicate k1 p1) ?_)
    (reach_bind hr2 (reach_bind (reach_liftE (a := List.replicate k2 p2) ?_) (reach_pure _))))
  · rw [e1, onesTimes_of_nonneg (by omega)]; simp
  · rw [e2, onesTimes_of_nonneg (by omega)]; simp

/-- **C02.** The possible results of `duty_cycle` are exactly the arrays made of `k1` samples of `p1` followed by `k2`
samples of `p2` with each length in its band, and the call never raises. -/
theorem C02_duty_cycle_shape (var : ℚ) (t1 t2 : ℤ) (p1 p2 : ℚ) (l : List ℚ)
    (hv : 0 ≤ var) (hv1 : var ≤ 1) (h1 : 0 ≤ t1) (h2 : 0 ≤ t2) :
    (Returns (dutyCycle var t1 p1 t2 p2) l ↔
      ∃ k1 k2, PartLength var t1 k1 ∧ PartLength var t2 k2 ∧
        l = List.replicate k1 p1 ++ List.replicate k2 p2) ∧
    NeverRaises (dutyCycle var t1 p1 t2 p2) := by
  refine ⟨⟨fun h => (sat_dutyCycle p1 p2 hv hv1 h1 h2).ret h, ?_⟩, neverRaises_of_sat (sat_dutyCycle p1 p2 hv hv1 h1 h2)⟩
  rintro ⟨k1, k2, hk1, hk2, rfl⟩
  exact (reach_dutyCycle p1 p2 hv hv1 h1 h2 hk1 hk2).returns

/-- **C02.** Without variability the cycle is exactly `t1` samples of `p1` then `t2` of `p2`. -/
theorem C02_duty_cycle_exact (t1 t2 : ℕ) (p1 p2 : ℚ) (l : List ℚ) :
    Returns (dutyCycle 0 t1 p1 t2 p2) l ↔ l = List.replicate t1 p1 ++ List.replicate t2 p2 := by
  rw [(C02_duty_cycle_shape 0 t1 t2 p1 p2 l le_rfl (by norm_num) (by omega) (by omega)).1]
  simp only [PartLength, sub_zero, add_zero, mul_one]
  constructor
  · rintro ⟨k1, k2, ⟨a, b⟩, ⟨c, d⟩, rfl⟩
    simp at a b c d
    rw [le_antisymm b a, le_antisymm d c]
  · rintro rfl
    exact ⟨t1, t2, by simp, by simp, rfl⟩

/-- **C02.** A negative duration of the first part raises `ValueError` for every random outcome (no variability). -/
theorem C02_duty_cycle_negative (t1 t2 : ℤ) (p1 p2 : ℚ) (h : t1 < 0) (rng : Rng) :
    dutyCycle 0 t1 p1 t2 p2 rng = .error .valueError := by
  obtain ⟨r1, h1⟩ := C01_random_variation_zero (t1 : ℚ) rng
  unfold dutyCycle
  rw [neg_zero, bind_ok h1]
  exact bind_error (by simp [onesTimes, h, liftE])

/-- **C02.** A negative duration of the second part raises `ValueError` for every random outcome (no variability). -/
theorem C02_duty_cycle_negative_second (t1 t2 : ℤ) (p1 p2 : ℚ) (h1 : 0 ≤ t1) (h : t2 < 0) (rng : Rng) :
    dutyCycle 0 t1 p1 t2 p2 rng = .error .valueError := by
  obtain ⟨r1, hr1⟩ := C01_random_variation_zero (t1 : ℚ) rng
  obtain ⟨r2, hr2⟩ := C01_random_variation_zero (t2 : ℚ) r1
  unfold dutyCycle
  rw [neg_zero, bind_ok hr1, pyInt_intCast, onesTimes_of_nonneg h1]
  rw [bind_ok (a := List.replicate t1.toNat p1) (r' := r1) rfl, bind_ok hr2]
  exact bind_error (by simp [onesTimes, h, liftE])

-- A nominal 10 + 20 minute cycle with 25 % variability can come out as 8 + 23 minutes.
example : PartLength (1/4) 10 8 ∧ PartLength (1/4) 20 23 := by
  refine ⟨⟨?_, ?_⟩, ⟨?_, ?_⟩⟩ <;> norm_num [Int.floor_le_iff, Int.le_floor]

/-! ## C03 -/

theorem sat_randomChoice {var : ℚ} {t1 t2 : ℤ} (p1 p2 : ℚ) (hv : 0 ≤ var) (hv1 : var ≤ 1) (h1 : 0 ≤ t1) (h2 : 0 ≤ t2) :
    Sat (randomChoice var t1 p1 t2 p2) (fun l => ∃ k1 k2, PartLength var t1 k1 ∧ PartLength var t2 k2 ∧
      (l = List.replicate k1 p1 ++ List.replicate k2 p2 ∨ l = List.replicate k2 p2 ++ List.replicate k1 p1))
      (fun _ => False) := by
  unfold randomChoice
  refine sat_bind' (sat_dutyCycle p1 p2 hv hv1 h1 h2) ?_
  rintro _ ⟨k1, k2, hk1, hk2, rfl⟩
  refine sat_bind' (sat_dutyCycle p2 p1 hv hv1 h2 h1) ?_
  rintro _ ⟨j2, j1, hj2, hj1, rfl⟩
  exact sat_choice2 ⟨k1, k2, hk1, hk2, .inl rfl⟩ ⟨j1, j2, hj1, hj2, .inr rfl⟩

theorem PartLength.exists {var : ℚ} {t : ℤ} (hv : 0 ≤ var) (hv1 : var ≤ 1) (h : 0 ≤ t) : PartLength var t t.toNat := by
  have ht' : (0 : ℚ) ≤ t := by exact_mod_cast h
  unfold PartLength
  rw [Int.toNat_of_nonneg h]
  constructor
  · rw [Int.floor_le_iff]; nlinarith
  · rw [Int.le_floor]; nlinarith

/-- **C03.** The possible results of `random_choice` are exactly the two-part cycles and the swapped two-part cycles with
part lengths in their bands; both orders are possible, and the call never raises. -/
theorem C03_random_choice (var : ℚ) (t1 t2 : ℤ) (p1 p2 : ℚ) (l : List ℚ)
    (hv : 0 ≤ var) (hv1 : var ≤ 1) (h1 : 0 ≤ t1) (h2 : 0 ≤ t2) :
    (Returns (randomChoice var t1 p1 t2 p2) l ↔
      ∃ k1 k2, PartLength var t1 k1 ∧ PartLength var t2 k2 ∧
        (l = List.replicate k1 p1 ++ List.replicate k2 p2 ∨ l = List.replicate k2 p2 ++ List.replicate k1 p1)) ∧
    NeverRaises (randomChoice var t1 p1 t2 p2) := by
  refine ⟨⟨fun h => (sat_randomChoice p1 p2 hv hv1 h1 h2).ret h, ?_⟩,
    neverRaises_of_sat (sat_randomChoice p1 p2 hv hv1 h1 h2)⟩
  have n1 := PartLength.exists hv hv1 h1
  have n2 := PartLength.exists hv hv1 h2
  rintro ⟨k1, k2, hk1, hk2, rfl | rfl⟩
  · exact (reach_bind (reach_dutyCycle p1 p2 hv hv1 h1 h2 hk1 hk2)
      (reach_bind (reach_dutyCycle p2 p1 hv hv1 h2 h1 n2 n1) reach_choice2_left)).returns
  · exact (reach_bind (reach_dutyCycle p1 p2 hv hv1 h1 h2 n1 n2)
      (reach_bind (reach_dutyCycle p2 p1 hv hv1 h2 h1 hk2 hk1) reach_choice2_right)).returns

example : Returns (randomChoice 0 1 5 2 7) [7, 7, 5] :=
  (C03_random_choice 0 1 2 5 7 _ le_rfl (by norm_num) (by norm_num) (by norm_num)).1.2
    ⟨1, 2, by norm_num [PartLength], by norm_num [PartLength], .inr rfl⟩

/-! ## C04 -/

/-- **C04.** `within_peak_time_window` is true exactly when the two closed ranges share a minute. -/
theorem C04_within_peak (a b c d : ℤ) (hab : a ≤ b) (hcd : c ≤ d) :
    withinPeakTimeWindow a b c d = true ↔ ShareMinute a b c d := by
  unfold withinPeakTimeWindow ShareMinute
  simp only
  constructor
  · intro h
    refine ⟨max a c, ?_⟩
    split_ifs at h <;> first | omega | simp at h
  · rintro ⟨m, hm⟩
    split_ifs <;> first | rfl | (exfalso; omega)

/-- **C04.** `range_within_window` is true exactly when the event and the window, both closed, share a minute. -/
theorem C04_range_within_window (a b : ℤ) (w : ℤ × ℤ) (hab : a ≤ b) (hw : w.1 ≤ w.2) :
    rangeWithinWindow a b w = true ↔ ShareMinute a b w.1 w.2 := by
  unfold rangeWithinWindow ShareMinute
  simp only [Bool.not_eq_true', Bool.or_eq_false_iff, Bool.and_eq_false_iff, decide_eq_false_iff_not, not_lt]
  constructor
  · intro h
    exact ⟨max a w.1, by omega⟩
  · rintro ⟨m, hm⟩
    omega

/-- **C04.** For reversed ranges (which the callers never produce) the tests are still symmetric under swapping the ends of the
first range. -/
theorem C04_ends_order_irrelevant (a b c d : ℤ) (w : ℤ × ℤ) :
    withinPeakTimeWindow a b c d = withinPeakTimeWindow b a c d ∧
    rangeWithinWindow a b w = rangeWithinWindow b a w := by
  unfold withinPeakTimeWindow rangeWithinWindow
  constructor
  · simp only [and_comm]
  · simp only [Bool.and_comm]

example : withinPeakTimeWindow 10 20 20 30 = true ∧ withinPeakTimeWindow 10 20 21 30 = false := by decide

/-! ## C05 -/

/-- A calendar date of the proleptic Gregorian calendar. -/
def ValidDate (y m d : ℕ) : Prop := 1 ≤ y ∧ 1 ≤ m ∧ m ≤ 12 ∧ 1 ≤ d ∧ d ≤ daysInMonth y m

/-- The day after a date. -/
def nextDate (y m d : ℕ) : ℕ × ℕ × ℕ :=
  if d < daysInMonth y m then (y, m, d + 1) else if m < 12 then (y, m + 1, 1) else (y + 1, 1, 1)

theorem daysBeforeMonth_succ (y m : ℕ) (h : 1 ≤ m) :
    daysBeforeMonth y (m + 1) = daysBeforeMonth y m + daysInMonth y m := by
  unfold daysBeforeMonth
  obtain ⟨k, rfl⟩ : ∃ k, m = k + 1 := ⟨m - 1, by omega⟩
  simp [List.range_succ]

theorem yearLength (y : ℕ) : daysBeforeMonth y 13 = if isLeap y then 366 else 365 := by
  have : daysBeforeMonth y 13 = daysInMonth y 1 + daysInMonth y 2 + daysInMonth y 3 + daysInMonth y 4 +
    daysInMonth y 5 + daysInMonth y 6 + daysInMonth y 7 + daysInMonth y 8 + daysInMonth y 9 + daysInMonth y 10 +
    daysInMonth y 11 + daysInMonth y 12 := by
    simp [daysBeforeMonth, List.range_succ]; ring
  rw [this]
  simp only [daysInMonth]
  cases isLeap y <;> decide

theorem isLeap_iff (y : ℕ) : isLeap y = true ↔ (y % 4 = 0 ∧ (y % 100 ≠ 0 ∨ y % 400 = 0)) := by
  simp [isLeap]

theorem daysBeforeYear_succ (y : ℕ) (h : 1 ≤ y) :
    daysBeforeYear (y + 1) = daysBeforeYear y + ((if isLeap y then 366 else 365 : ℕ) : ℤ) := by
  unfold daysBeforeYear
  obtain ⟨p, rfl⟩ : ∃ p, y = p + 1 := ⟨y - 1, by omega⟩
  simp only [Nat.add_sub_cancel]
  norm_cast
  have e := isLeap_iff (p + 1)
  have d4 : (p + 1) / 4 = p / 4 + if (p + 1) % 4 = 0 then 1 else 0 := by split <;> omega
  have d100 : (p + 1) / 100 = p / 100 + if (p + 1) % 100 = 0 then 1 else 0 := by split <;> omega
  have d400 : (p + 1) / 400 = p / 400 + if (p + 1) % 400 = 0 then 1 else 0 := by split <;> omega
  have m1 : (p + 1) % 100 = 0 → (p + 1) % 4 = 0 := by omega
  have m2 : (p + 1) % 400 = 0 → (p + 1) % 100 = 0 := by omega
  have le : p / 100 ≤ p / 4 := by omega
  rw [d4, d100, d400]
  clear d4 d100 d400
  generalize (p + 1) % 4 = r4 at *
  generalize (p + 1) % 100 = r100 at *
  generalize (p + 1) % 400 = r400 at *
  generalize p / 4 = q4 at *
  generalize p / 100 = q100 at *
  generalize p / 400 = q400 at *
  by_cases hl : isLeap (p + 1) = true
  · rw [if_pos hl]
    obtain ⟨a, b⟩ := e.1 hl
    rw [if_pos a]
    split_ifs <;> omega
  · rw [if_neg hl]
    have c : ¬ (r4 = 0 ∧ (r100 ≠ 0 ∨ r400 = 0)) := fun h => hl (e.2 h)
    split_ifs <;> omega

/-- The day numbers used by the model follow the calendar: the next date has the next day number. -/
theorem C05_calendar (y m d : ℕ) (h : ValidDate y m d) :
    dateOrd (nextDate y m d).1 (nextDate y m d).2.1 (nextDate y m d).2.2 = dateOrd y m d + 1 := by
  obtain ⟨hy, hm1, hm2, hd1, hd2⟩ := h
  unfold nextDate
  split
  · simp [dateOrd]; omega
  · split
    · simp only [dateOrd]
      rw [daysBeforeMonth_succ y m hm1]; push_cast; omega
    · have hm : m = 12 := by omega
      subst hm
      have := yearLength y
      rw [daysBeforeMonth_succ y 12 (by omega)] at this
      have e0 : daysBeforeMonth (y + 1) 1 = 0 := by simp [daysBeforeMonth]
      simp only [dateOrd]
      rw [daysBeforeYear_succ y hy, e0, ← this]
      have : daysInMonth y 12 = 31 := rfl
      push_cast
      omega

/-- Days of the week. -/
inductive DayName | mon | tue | wed | thu | fri | sat | sun
  deriving DecidableEq

/-- The day of the week after a given one. -/
def DayName.next : DayName → DayName
  | .mon => .tue | .tue => .wed | .wed => .thu | .thu => .fri | .fri => .sat | .sat => .sun | .sun => .mon

/-- Name of a day given by the number of days elapsed since Monday 0001-01-01, by counting. -/
def dayName : ℕ → DayName
  | 0 => .mon
  | n + 1 => (dayName n).next

theorem dayName_eq (n : ℕ) : dayName n =
    if n % 7 = 0 then .mon else if n % 7 = 1 then .tue else if n % 7 = 2 then .wed else if n % 7 = 3 then .thu
    else if n % 7 = 4 then .fri else if n % 7 = 5 then .sat else .sun := by
  induction n with
  | zero => rfl
  | succ n ih =>
    rw [dayName, ih]
    have : n % 7 < 7 := Nat.mod_lt _ (by norm_num)
    rw [Nat.add_mod]
    generalize n % 7 = r at *
    interval_cases r <;> rfl

/-- **C05.** `get_day_type` is 1 exactly on Saturdays and Sundays, and 0 on the other days. -/
theorem C05_day_type (n : ℕ) :
    (getDayType n = 1 ↔ dayName n = .sat ∨ dayName n = .sun) ∧ (getDayType n = 0 ↔ ¬ (dayName n = .sat ∨ dayName n = .sun)) := by
  rw [dayName_eq]
  unfold getDayType weekday
  have : n % 7 < 7 := Nat.mod_lt _ (by norm_num)
  have e : (n : ℤ) % 7 = ((n % 7 : ℕ) : ℤ) := by norm_num
  rw [e]
  generalize n % 7 = r at *
  interval_cases r <;> decide

theorem length_yearlyPattern (y : ℕ) : (yearlyPattern y).length = if isLeap y then 366 else 365 := by
  unfold yearlyPattern dayRange
  rw [List.length_map, length_arange]
  have h := yearLength y
  rw [daysBeforeMonth_succ y 12 (by omega)] at h
  have e0 : daysBeforeMonth y 1 = 0 := by simp [daysBeforeMonth]
  have e1 : daysInMonth y 12 = 31 := rfl
  simp only [dateOrd, e0]
  omega

/-- **C05.** `yearly_pattern(y)` has one entry per day of the year, 365 or 366, and the entry of each calendar date is the
type of that date. -/
theorem C05_yearly_pattern (y m d : ℕ) (h : ValidDate y m d) :
    (yearlyPattern y).length = (if isLeap y then 366 else 365) ∧
    (yearlyPattern y)[(dateOrd y m d - dateOrd y 1 1).toNat]? = some (getDayType (dateOrd y m d)) := by
  refine ⟨length_yearlyPattern y, ?_⟩
  obtain ⟨hy, hm1, hm2, hd1, hd2⟩ := h
  have hlen := length_yearlyPattern y
  have hyl := yearLength y
  have mono : ∀ a b, 1 ≤ a → a ≤ b → daysBeforeMonth y a ≤ daysBeforeMonth y b := by
    intro a b ha hab
    induction b, hab using Nat.le_induction with
    | base => exact le_rfl
    | succ n hn ih => rw [daysBeforeMonth_succ y n (by omega)]; omega
  have hb := mono (m + 1) 13 (by omega) (by omega)
  rw [daysBeforeMonth_succ y m hm1] at hb
  have e0 : daysBeforeMonth y 1 = 0 := by simp [daysBeforeMonth]
  have hge : dateOrd y 1 1 ≤ dateOrd y m d := by simp only [dateOrd, e0]; push_cast; omega
  unfold yearlyPattern dayRange at hlen ⊢
  rw [List.length_map, length_arange] at hlen
  rw [List.getElem?_map, getElem?_arange]
  · simp only [Option.map_some]
    rw [Int.toNat_of_nonneg (by omega)]
    congr 2; omega
  · rw [hlen, ← hyl]
    simp only [dateOrd, e0]
    push_cast
    omega

/-- **C05.** `yearly_pattern()` without argument is the pattern of 365 days starting on a Monday. -/
theorem C05_default_pattern : yearlyPatternDefault = (List.range 365).map (fun (n : ℕ) => getDayType (n : ℤ)) := by
  decide +kernel

/-- **C05.** Both forms agree for every common year starting on a Monday. -/
theorem C05_patterns_agree (y : ℕ) (hl : isLeap y = false) (hm : weekday (dateOrd y 1 1) = 0) :
    yearlyPattern y = yearlyPatternDefault := by
  rw [C05_default_pattern]
  have hlen := length_yearlyPattern y
  rw [hl] at hlen
  apply List.ext_getElem?
  intro i
  by_cases hi : i < 365
  · unfold yearlyPattern dayRange at hlen ⊢
    rw [List.length_map, length_arange] at hlen
    rw [List.getElem?_map, getElem?_arange (by rw [hlen, if_neg (by decide)]; exact hi)]
    rw [List.getElem?_map, List.getElem?_range hi]
    simp only [Option.map_some]
    congr 1
    unfold weekday at hm
    unfold getDayType weekday
    rw [Int.add_emod, hm]; simp
  · rw [List.getElem?_eq_none (by rw [hlen, if_neg (by decide)]; omega),
      List.getElem?_eq_none (by rw [List.length_map, List.length_range]; omega)]

-- 2023-01-02 was a Monday, 2024 is a leap year, 2018 a common year starting on a Monday.
example : dayName (dateOrd 2023 1 2).toNat = .mon := by rw [dayName_eq]; decide
example : isLeap 2024 = true ∧ isLeap 1900 = false ∧ isLeap 2018 = false ∧ weekday (dateOrd 2018 1 1) = 0 := by decide
example : ValidDate 2024 2 29 := by unfold ValidDate; decide

end Ramp
