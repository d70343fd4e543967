import Verif.Spec5
import Verif.Lemmas.Num
import Mathlib.Tactic.Positivity
import Mathlib.Tactic.FieldSimp
import Mathlib.Tactic.IntervalCases

/-! # Double precision is a rounding in the sense of `Spec5` -/

set_option autoImplicit false

namespace Ramp

/-- `2 ^ e`. -/
local notation "two^" e:max => ((2 : ℚ) ^ (e : ℤ))

theorem two_zpow_pos (e : ℤ) : (0 : ℚ) < two^ e := zpow_pos (by norm_num) e

theorem pyRound_mono {p q : ℚ} (h : p ≤ q) : pyRound p ≤ pyRound q := by
  have hf : ⌊p⌋ ≤ ⌊q⌋ := Int.floor_le_floor h
  rcases eq_or_lt_of_le hf with e | e
  · unfold pyRound
    simp only [e]
    have h1 : p - (⌊q⌋ : ℚ) ≤ q - ⌊q⌋ := by linarith
    split_ifs <;> first | omega | (exfalso; linarith)
  · rcases pyRound_cases p with ⟨h1, _⟩ | ⟨h1, _⟩ <;> rcases pyRound_cases q with ⟨h2, _⟩ | ⟨h2, _⟩ <;> omega

theorem pyRound_neg (q : ℚ) : pyRound (-q) = -pyRound q := by
  by_cases hi : q = (⌊q⌋ : ℚ)
  · rw [hi]
    have : -((⌊q⌋ : ℤ) : ℚ) = ((-⌊q⌋ : ℤ) : ℚ) := by push_cast; rfl
    rw [this, pyRound_intCast, pyRound_intCast]
  · have hl := Int.floor_le q
    have hu := Int.lt_floor_add_one q
    have hlt : (⌊q⌋ : ℚ) < q := lt_of_le_of_ne hl (fun h => hi h.symm)
    have hfl : ⌊-q⌋ = -⌊q⌋ - 1 := by
      rw [Int.floor_eq_iff]; push_cast; constructor <;> linarith
    unfold pyRound
    simp only [hfl]
    push_cast
    split_ifs <;> first | omega | (exfalso; linarith)

theorem binary64_zero : binary64 0 = 0 := by simp [binary64]

theorem binary64_neg (x : ℚ) : binary64 (-x) = -binary64 x := by
  unfold binary64
  by_cases h : x = 0
  · simp [h]
  · rw [if_neg (neg_ne_zero.2 h), if_neg h]
    simp only [abs_neg, neg_div, pyRound_neg]
    push_cast
    ring

/-- The value at the binade of `x`. -/
theorem binary64_eq {x : ℚ} {L : ℤ} (h1 : (two^ L) ≤ x) (h2 : x < two^ (L + 1)) :
    binary64 x = pyRound (x / two^ (L - 52)) * two^ (L - 52) := by
  have hx : 0 < x := (two_zpow_pos L).trans_le h1
  have hlog : Int.log 2 |x| = L := by
    rw [abs_of_pos hx]
    refine le_antisymm ?_ ?_
    · have : Int.log 2 x < L + 1 := (Int.lt_zpow_iff_log_lt (by norm_num) hx).1 (by exact_mod_cast h2)
      omega
    · exact (Int.zpow_le_iff_le_log (by norm_num) hx).1 (by exact_mod_cast h1)
  unfold binary64
  rw [if_neg hx.ne']
  simp only [hlog]

theorem exists_binade {x : ℚ} (hx : 0 < x) : ∃ L : ℤ, (two^ L) ≤ x ∧ x < two^ (L + 1) := by
  refine ⟨Int.log 2 x, ?_, ?_⟩
  · have := Int.zpow_log_le_self (b := 2) (by norm_num) hx
    exact_mod_cast this
  · have := Int.lt_zpow_succ_log_self (b := 2) (by norm_num) x
    exact_mod_cast this

theorem scaled {x : ℚ} {L : ℤ} (h1 : (two^ L) ≤ x) (h2 : x < two^ (L + 1)) : (2 : ℚ) ^ 52 ≤ x / two^ (L - 52) ∧ x / (two^ (L - 52)) < 2 ^ 53 := by
  have hp := two_zpow_pos (L - 52)
  constructor
  · rw [le_div_iff₀ hp]
    calc (2 : ℚ) ^ 52 * two^ (L - 52) = two^ (52 + (L - 52)) := by rw [zpow_add₀ (by norm_num)]; norm_num
      _ = two^ L := by congr 1; ring
      _ ≤ x := h1
  · rw [div_lt_iff₀ hp]
    calc x < two^ (L + 1) := h2
      _ = two^ (53 + (L - 52)) := by congr 1; ring
      _ = (2 : ℚ) ^ 53 * two^ (L - 52) := by rw [zpow_add₀ (by norm_num)]; norm_num

/-- The result stays in the binade of the argument or is its upper end. -/
theorem binary64_binade {x : ℚ} {L : ℤ} (h1 : (two^ L) ≤ x) (h2 : x < two^ (L + 1)) : (two^ L) ≤ binary64 x ∧ binary64 x ≤ two^ (L + 1) := by
  obtain ⟨a, b⟩ := scaled h1 h2
  have hp := two_zpow_pos (L - 52)
  rw [binary64_eq h1 h2]
  constructor
  · have : (2 : ℤ) ^ 52 ≤ pyRound (x / two^ (L - 52)) := le_pyRound (by push_cast; exact a)
    have : ((2 : ℚ) ^ 52) ≤ pyRound (x / two^ (L - 52)) := by exact_mod_cast this
    calc (two^ L) = two^ (52 + (L - 52)) := by congr 1; ring
      _ = (2 : ℚ) ^ 52 * two^ (L - 52) := by rw [zpow_add₀ (by norm_num)]; norm_num
      _ ≤ _ := mul_le_mul_of_nonneg_right this hp.le
  · have : pyRound (x / two^ (L - 52)) ≤ (2 : ℤ) ^ 53 := pyRound_le (by push_cast; exact b.le)
    have : (pyRound (x / two^ (L - 52)) : ℚ) ≤ (2 : ℚ) ^ 53 := by exact_mod_cast this
    calc _ ≤ (2 : ℚ) ^ 53 * two^ (L - 52) := mul_le_mul_of_nonneg_right this hp.le
      _ = two^ (53 + (L - 52)) := by rw [zpow_add₀ (by norm_num)]; norm_num
      _ = two^ (L + 1) := by congr 1; ring

theorem binary64_pos {x : ℚ} (hx : 0 < x) : 0 < binary64 x := by
  obtain ⟨L, h1, h2⟩ := exists_binade hx
  exact (two_zpow_pos L).trans_le (binary64_binade h1 h2).1

theorem binary64_mono_pos {x y : ℚ} (hx : 0 < x) (h : x ≤ y) : binary64 x ≤ binary64 y := by
  obtain ⟨L, h1, h2⟩ := exists_binade hx
  obtain ⟨M, k1, k2⟩ := exists_binade (hx.trans_le h)
  have hLM : L ≤ M := by
    by_contra hc
    have : (two^ (M + 1)) ≤ two^ L := zpow_le_zpow_right₀ (by norm_num) (by omega)
    linarith
  rcases eq_or_lt_of_le hLM with e | e
  · subst e
    have hp := two_zpow_pos (L - 52)
    rw [binary64_eq h1 h2, binary64_eq k1 k2]
    refine mul_le_mul_of_nonneg_right ?_ hp.le
    have : pyRound (x / two^ (L - 52)) ≤ pyRound (y / two^ (L - 52)) := pyRound_mono (div_le_div_of_nonneg_right h hp.le)
    exact_mod_cast this
  · calc binary64 x ≤ two^ (L + 1) := (binary64_binade h1 h2).2
      _ ≤ two^ M := zpow_le_zpow_right₀ (by norm_num) (by omega)
      _ ≤ binary64 y := (binary64_binade k1 k2).1

theorem binary64_mono : Monotone binary64 := by
  intro x y h
  rcases lt_trichotomy x 0 with hx | hx | hx
  · rcases lt_trichotomy y 0 with hy | hy | hy
    · have := binary64_mono_pos (x := -y) (y := -x) (by linarith) (by linarith)
      rw [binary64_neg, binary64_neg] at this
      linarith
    · rw [hy, binary64_zero]
      have := binary64_pos (x := -x) (by linarith)
      rw [binary64_neg] at this
      linarith
    · have h1 := binary64_pos (x := -x) (by linarith)
      rw [binary64_neg] at h1
      have h2 := binary64_pos hy
      linarith
  · rw [hx, binary64_zero]
    rcases eq_or_lt_of_le (hx ▸ h) with hy | hy
    · rw [← hy, binary64_zero]
    · exact (binary64_pos hy).le
  · exact binary64_mono_pos hx h

/-- Numbers of 53 bits are not changed. -/
theorem binary64_exact {x : ℚ} {L : ℤ} (h1 : (two^ L) ≤ x) (h2 : x < two^ (L + 1)) {n : ℤ} (hn : x = n * two^ (L - 52)) : binary64 x = x := by
  rw [binary64_eq h1 h2]
  have : x / (two^ (L - 52)) = (n : ℚ) := by rw [hn, mul_div_assoc, div_self (two_zpow_pos _).ne', mul_one]
  rw [this, pyRound_intCast, ← hn]

theorem binary64_int_pos {n : ℤ} (h0 : 0 < n) (h1 : n < 2 ^ 53) : binary64 (n : ℚ) = n := by
  have hn : (0 : ℚ) < n := by exact_mod_cast h0
  obtain ⟨L, k1, k2⟩ := exists_binade hn
  have hL0 : 0 ≤ L := by
    by_contra hc
    have : (two^ (L + 1)) ≤ two^ 0 := zpow_le_zpow_right₀ (by norm_num) (by omega)
    have h1 : (1 : ℚ) ≤ n := by exact_mod_cast h0
    rw [zpow_zero] at this
    linarith
  have hL : L ≤ 52 := by
    by_contra hc
    have : (two^ (53 : ℤ)) ≤ two^ L := zpow_le_zpow_right₀ (by norm_num) (by omega)
    have h3 : (n : ℚ) < 2 ^ 53 := by exact_mod_cast h1
    have h4 : (two^ (53 : ℤ)) = (2 : ℚ) ^ 53 := by norm_num
    rw [h4] at this
    linarith
  refine binary64_exact k1 k2 (n := n * 2 ^ (52 - L).toNat) ?_
  push_cast
  have : ((2 : ℚ) ^ (52 - L).toNat) = two^ (52 - L) := by
    rw [← zpow_natCast, Int.toNat_of_nonneg (by omega)]
  rw [this, mul_assoc, ← zpow_add₀ (by norm_num)]
  have : 52 - L + (L - 52) = 0 := by ring
  rw [this, zpow_zero, mul_one]

theorem binary64_int (n : ℤ) (h : |n| < 2 ^ 53) : binary64 (n : ℚ) = n := by
  rw [abs_lt] at h
  rcases lt_trichotomy n 0 with hn | hn | hn
  · have := binary64_int_pos (n := -n) (by omega) (by omega)
    push_cast at this
    rw [binary64_neg] at this
    linarith
  · subst hn; simp [binary64_zero]
  · exact binary64_int_pos hn h.2

theorem binary64_idem_pos {x : ℚ} (hx : 0 < x) : binary64 (binary64 x) = binary64 x := by
  obtain ⟨L, h1, h2⟩ := exists_binade hx
  obtain ⟨a, b⟩ := binary64_binade h1 h2
  rcases eq_or_lt_of_le b with e | e
  · rw [e]
    refine binary64_exact (L := L + 1) le_rfl (zpow_lt_zpow_right₀ (by norm_num) (by omega)) (n := 2 ^ 52) ?_
    have : L + 1 = 52 + (L + 1 - 52) := by ring
    conv_lhs => rw [this, zpow_add₀ (by norm_num)]
    norm_num
  · exact binary64_exact a e (binary64_eq h1 h2)

theorem binary64_idem (x : ℚ) : binary64 (binary64 x) = binary64 x := by
  rcases lt_trichotomy x 0 with hx | hx | hx
  · have := binary64_idem_pos (x := -x) (by linarith)
    rw [binary64_neg, binary64_neg] at this
    linarith
  · rw [hx, binary64_zero, binary64_zero]
  · exact binary64_idem_pos hx

/-- Half a unit in the last place. -/
theorem binary64_error {x : ℚ} {L : ℤ} (h1 : (two^ L) ≤ x) (h2 : x < two^ (L + 1)) : |binary64 x - x| ≤ two^ (L - 53) := by
  have hp := two_zpow_pos (L - 52)
  obtain ⟨a, b⟩ := pyRound_near (x / two^ (L - 52))
  have e : (two^ (L - 52)) = 2 * two^ (L - 53) := by
    have : L - 52 = 1 + (L - 53) := by ring
    rw [this, zpow_add₀ (by norm_num)]; norm_num
  have hx : x / (two^ (L - 52)) * (two^ (L - 52)) = x := div_mul_cancel₀ _ hp.ne'
  rw [binary64_eq h1 h2, abs_le]
  generalize x / (two^ (L - 52)) = y at *
  rw [← hx]
  generalize (two^ (L - 52)) = s at *
  generalize (two^ (L - 53)) = t at *
  subst e
  constructor <;> nlinarith

theorem binary64_near {x : ℚ} (h : 0 ≤ x) : NearTo (1 / 2 ^ 53) 1 (binary64 x) x := by
  rcases eq_or_lt_of_le h with h | hx
  · rw [← h, binary64_zero]; simp [NearTo]
  · obtain ⟨L, h1, h2⟩ := exists_binade hx
    have hb := (binary64_binade h1 h2).1
    have he := abs_le.1 (binary64_error h1 h2)
    have e : (two^ L) = 2 ^ 53 * two^ (L - 53) := by
      have : L = 53 + (L - 53) := by ring
      conv_lhs => rw [this, zpow_add₀ (by norm_num)]
      norm_num
    rw [e] at h1 hb
    generalize (two^ (L - 53)) = t at *
    unfold NearTo
    rw [pow_one]
    constructor
    · have : t ≤ x * (1 / 2 ^ 53) := by rw [mul_one_div, le_div_iff₀ (by positivity)]; linarith
      linarith
    · have : t ≤ binary64 x * (1 / 2 ^ 53) := by rw [mul_one_div, le_div_iff₀ (by positivity)]; linarith
      linarith

/-- The double nearest to 0.99. -/
theorem binary64_099 : binary64 (99 / 100) = 8917127262193582 / 2 ^ 53 := by
  have h1 : (two^ (-1 : ℤ)) ≤ (99 / 100 : ℚ) := by norm_num
  have h2 : (99 / 100 : ℚ) < two^ ((-1 : ℤ) + 1) := by norm_num
  rw [binary64_eq h1 h2]
  have hs : (two^ ((-1 : ℤ) - 52)) = 1 / 2 ^ 53 := by norm_num [zpow_neg]
  rw [hs]
  have : pyRound ((99 / 100 : ℚ) / (1 / 2 ^ 53)) = 8917127262193582 := by
    have hf : ⌊((99 / 100 : ℚ) / (1 / 2 ^ 53))⌋ = 8917127262193582 := by rw [Int.floor_eq_iff]; norm_num
    unfold pyRound
    simp only [hf]
    norm_num
  rw [this]
  norm_num

theorem binary64_percent_exact {m : ℤ} (h0 : 1 ≤ m) (h1 : m ≤ 43) : binary64 (binary64 (99 / 100) * ((100 * m : ℤ) : ℚ)) = 99 * m := by
  rw [binary64_099]
  have hm0 : (1 : ℚ) ≤ m := by exact_mod_cast h0
  have hm1 : (m : ℚ) ≤ 43 := by exact_mod_cast h1
  obtain ⟨L, k1, k2⟩ := exists_binade (x := 99 * (m : ℚ)) (by linarith)
  have hL0 : 0 ≤ L := by
    by_contra hc
    have : (two^ (L + 1)) ≤ two^ 0 := zpow_le_zpow_right₀ (by norm_num) (by omega)
    rw [zpow_zero] at this
    linarith
  have hL : L ≤ 12 := by
    by_contra hc
    have : (two^ (13 : ℤ)) ≤ two^ L := zpow_le_zpow_right₀ (by norm_num) (by omega)
    have h4 : (two^ (13 : ℤ)) = 8192 := by norm_num
    rw [h4] at this
    linarith
  obtain ⟨l, rfl⟩ : ∃ l : ℕ, L = l := ⟨L.toNat, by omega⟩
  have e1 : (two^ (l : ℤ)) = (2 : ℚ) ^ l := by rw [zpow_natCast]
  have e2 : (two^ ((l : ℤ) + 1)) = (2 : ℚ) ^ (l + 1) := by rw [show ((l : ℤ) + 1) = ((l + 1 : ℕ) : ℤ) by push_cast; rfl, zpow_natCast]
  -- `99 * m` is not a power of two
  have k3 : (2 : ℚ) ^ l + 1 ≤ 99 * m := by
    have hle : (2 : ℤ) ^ l ≤ 99 * m := by rw [e1] at k1; exact_mod_cast k1
    have hne : (2 : ℤ) ^ l ≠ 99 * m := by
      intro he
      have hl : l ≤ 12 := by omega
      clear hL hL0 k1 k2 hle e1 e2
      interval_cases l <;> omega
    have : (2 : ℤ) ^ l + 1 ≤ 99 * m := by omega
    exact_mod_cast this
  set x : ℚ := 8917127262193582 / 2 ^ 53 * ((100 * m : ℤ) : ℚ) with hx
  have hxe : x = 99 * m - 8 / (100 * 2 ^ 53) * (100 * m) := by rw [hx]; push_cast; ring
  have hx1 : (two^ (l : ℤ)) ≤ x := by
    rw [e1, hxe]
    have : (8 / (100 * 2 ^ 53) * (100 * m) : ℚ) ≤ 1 := by norm_num; linarith
    linarith
  have hx2 : x < two^ ((l : ℤ) + 1) := by
    rw [hxe]
    have : (0 : ℚ) ≤ 8 / (100 * 2 ^ 53) * (100 * m) := by positivity
    linarith
  rw [binary64_eq hx1 hx2]
  have hp := two_zpow_pos ((l : ℤ) - 52)
  -- the scaled value is within half a unit of an integer
  have hi : (99 * (m : ℚ)) = ((99 * m * 2 ^ (52 - l) : ℤ) : ℚ) * two^ ((l : ℤ) - 52) := by
    push_cast
    have : ((2 : ℚ) ^ (52 - l)) = two^ (52 - (l : ℤ)) := by
      rw [← zpow_natCast]; congr 1; omega
    rw [this, mul_assoc, ← zpow_add₀ (by norm_num)]
    have : (52 : ℤ) - l + (l - 52) = 0 := by ring
    rw [this, zpow_zero, mul_one]
  have hr : pyRound (x / two^ ((l : ℤ) - 52)) = 99 * m * 2 ^ (52 - l) := by
    have hs : x / (two^ ((l : ℤ) - 52)) = ((99 * m * 2 ^ (52 - l) : ℤ) : ℚ) - 8 / (100 * 2 ^ 53) * (100 * m) / two^ ((l : ℤ) - 52) := by
      rw [hxe, sub_div, hi, mul_div_assoc, div_self hp.ne', mul_one]
    have hd0 : (0 : ℚ) ≤ 8 / (100 * 2 ^ 53) * (100 * m) / two^ ((l : ℤ) - 52) := by positivity
    have hd1 : (8 / (100 * 2 ^ 53) * (100 * m) / (two^ ((l : ℤ) - 52)) : ℚ) < 1 / 2 := by
      rw [div_lt_iff₀ hp]
      have e3 : (two^ ((l : ℤ) - 52)) = 2 ^ (l + 1) / 2 ^ 53 := by
        rw [eq_div_iff (by positivity), ← e2]
        have : ((2 : ℚ) ^ 53) = two^ (53 : ℤ) := by norm_num
        rw [this, ← zpow_add₀ (by norm_num)]
        congr 1; ring
      rw [e3]
      rw [e2] at k2
      have : (99 * (m : ℚ)) / 2 ^ 53 < 2 ^ (l + 1) / 2 ^ 53 := div_lt_div_of_pos_right k2 (by positivity)
      have h8 : (8 / (100 * 2 ^ 53) * (100 * m) : ℚ) = 8 * m / 2 ^ 53 := by ring
      rw [h8]
      have h9 : (8 * (m : ℚ) / 2 ^ 53) ≤ 1 / 2 * (99 * m / 2 ^ 53) := by
        have : (0 : ℚ) ≤ m / 2 ^ 53 := by positivity
        have e8 : (8 * (m : ℚ) / 2 ^ 53) = 8 * (m / 2 ^ 53) := by ring
        have e9 : (1 / 2 * (99 * (m : ℚ) / 2 ^ 53)) = 99 / 2 * (m / 2 ^ 53) := by ring
        rw [e8, e9]
        linarith
      linarith
    obtain ⟨a, b⟩ := pyRound_near (x / two^ ((l : ℤ) - 52))
    have hlo : ((99 * m * 2 ^ (52 - l) : ℤ) : ℚ) - 1 < pyRound (x / two^ ((l : ℤ) - 52)) := by rw [hs] at b ⊢; linarith
    have hhi : (pyRound (x / two^ ((l : ℤ) - 52)) : ℚ) < ((99 * m * 2 ^ (52 - l) : ℤ) : ℚ) + 1 := by rw [hs] at a ⊢; linarith
    have hlo' : 99 * m * 2 ^ (52 - l) - 1 < pyRound (x / two^ ((l : ℤ) - 52)) := by exact_mod_cast hlo
    have hhi' : pyRound (x / two^ ((l : ℤ) - 52)) < 99 * m * 2 ^ (52 - l) + 1 := by exact_mod_cast hhi
    omega
  rw [hr, ← hi]

theorem binary64_percent (n : ℤ) (h0 : 0 ≤ n) (h1 : n ≤ 4320) : ⌊binary64 (binary64 (99 / 100) * (n : ℚ))⌋ = 99 * n / 100 := by
  by_cases hd : n % 100 = 0
  · obtain ⟨m, rfl⟩ : ∃ m, n = 100 * m := ⟨n / 100, by omega⟩
    rcases eq_or_lt_of_le h0 with h | h
    · have : m = 0 := by omega
      subst this
      simp [binary64_zero]
    · rw [binary64_percent_exact (by omega) (by omega)]
      have : (99 * (m : ℚ)) = ((99 * m : ℤ) : ℚ) := by push_cast; rfl
      rw [this, Int.floor_intCast]
      omega
  · have hn : (0 : ℚ) ≤ n := by exact_mod_cast h0
    have hn1 : (n : ℚ) ≤ 4320 := by exact_mod_cast h1
    have hne := binary64_near (x := binary64 (99 / 100) * (n : ℚ)) (by rw [binary64_099]; positivity)
    rw [binary64_099] at hne ⊢
    generalize binary64 (8917127262193582 / 2 ^ 53 * (n : ℚ)) = y at *
    obtain ⟨a, b⟩ := hne
    rw [pow_one] at a b
    obtain ⟨q, r, hq, hr0, hr1⟩ : ∃ q r : ℤ, 99 * n = 100 * q + r ∧ 1 ≤ r ∧ r ≤ 99 := ⟨99 * n / 100, 99 * n % 100, by omega, by omega, by omega⟩
    have hq' : 99 * n / 100 = q := by omega
    rw [hq', Int.floor_eq_iff]
    have hqq : (99 * (n : ℚ)) = 100 * q + r := by exact_mod_cast hq
    have r0 : (1 : ℚ) ≤ r := by exact_mod_cast hr0
    have r1 : (r : ℚ) ≤ 99 := by exact_mod_cast hr1
    norm_num at a b ⊢
    constructor <;> linarith

/-- Double precision. -/
theorem binary64_rounding : Rounding binary64 (1 / 2 ^ 53) where
  pos := by positivity
  small := by norm_num
  mono := binary64_mono
  odd := binary64_neg
  idem := binary64_idem
  int := binary64_int
  near := fun _ h => binary64_near h
  percent := binary64_percent

end Ramp
