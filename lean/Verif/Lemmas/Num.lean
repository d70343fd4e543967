import Verif.Lemmas.Sat
import Mathlib.Data.List.Nodup

/-! # Lemmas on rounding, truncation and minute ranges -/

set_option autoImplicit false

namespace Ramp

theorem pyInt_of_nonneg {q : ℚ} (h : 0 ≤ q) : pyInt q = ⌊q⌋ := by simp [pyInt, h]

@[simp] theorem pyInt_intCast (n : ℤ) : pyInt (n : ℚ) = n := by
  unfold pyInt; split <;> simp

theorem pyInt_mono {p q : ℚ} (h : p ≤ q) : pyInt p ≤ pyInt q := by
  unfold pyInt
  split
  · rw [if_pos (by linarith)]; exact Int.floor_le_floor h
  · split
    · have h1 : ⌈p⌉ ≤ 0 := by rw [Int.ceil_le]; push_cast; linarith
      have h2 : 0 ≤ ⌊q⌋ := by rw [Int.le_floor]; push_cast; linarith
      omega
    · exact Int.ceil_le_ceil h

theorem pyInt_nonneg {q : ℚ} (h : 0 ≤ q) : 0 ≤ pyInt q := by
  rw [pyInt_of_nonneg h]; exact Int.floor_nonneg.2 h

theorem pyInt_le_self {q : ℚ} (h : 0 ≤ q) : (pyInt q : ℚ) ≤ q := by
  rw [pyInt_of_nonneg h]; exact Int.floor_le q

theorem lt_pyInt_add_one {q : ℚ} (h : 0 ≤ q) : q < pyInt q + 1 := by
  rw [pyInt_of_nonneg h]; exact Int.lt_floor_add_one q

theorem le_pyInt {q : ℚ} {n : ℤ} (h : (n : ℚ) ≤ q) : n ≤ pyInt q := by
  have := pyInt_mono h; simpa using this

theorem pyInt_le {q : ℚ} {n : ℤ} (h : q ≤ (n : ℚ)) : pyInt q ≤ n := by
  have := pyInt_mono h; simpa using this

theorem le_pyInt_iff {q : ℚ} (h : 0 ≤ q) {n : ℤ} : n ≤ pyInt q ↔ (n : ℚ) ≤ q := by
  rw [pyInt_of_nonneg h]; exact Int.le_floor

@[simp] theorem pyRound_intCast (n : ℤ) : pyRound (n : ℚ) = n := by
  unfold pyRound; simp

theorem pyRound_cases (q : ℚ) : (pyRound q = ⌊q⌋ ∧ q - ⌊q⌋ ≤ 1 / 2) ∨ (pyRound q = ⌊q⌋ + 1 ∧ 1 / 2 ≤ q - ⌊q⌋) := by
  unfold pyRound
  simp only
  split
  · left; exact ⟨rfl, by linarith⟩
  · split
    · right; exact ⟨rfl, by linarith⟩
    · split
      · left; exact ⟨rfl, by linarith⟩
      · right; exact ⟨rfl, by linarith⟩

theorem pyRound_near (q : ℚ) : (pyRound q : ℚ) - 1 / 2 ≤ q ∧ q ≤ pyRound q + 1 / 2 := by
  have hl := Int.floor_le q
  have hu := Int.lt_floor_add_one q
  rcases pyRound_cases q with ⟨h, h'⟩ | ⟨h, h'⟩ <;> rw [h] <;> push_cast <;> constructor <;> linarith

theorem le_pyRound {q : ℚ} {n : ℤ} (h : (n : ℚ) ≤ q) : n ≤ pyRound q := by
  have := Int.le_floor.2 h
  rcases pyRound_cases q with ⟨h, _⟩ | ⟨h, _⟩ <;> omega

theorem pyRound_le {q : ℚ} {n : ℤ} (h : q ≤ (n : ℚ)) : pyRound q ≤ n := by
  rcases pyRound_cases q with ⟨h1, _⟩ | ⟨h1, h2⟩
  · have hl := Int.floor_le q
    have : (⌊q⌋ : ℚ) ≤ n := by linarith
    have : ⌊q⌋ ≤ n := by exact_mod_cast this
    omega
  · have : (⌊q⌋ : ℚ) < n := by linarith
    have : ⌊q⌋ < n := by exact_mod_cast this
    omega

/-! ## Ranges of minutes -/

@[simp] theorem length_arange (a b : ℤ) : (arange a b).length = (b - a).toNat := by simp [arange]

theorem mem_arange {a b m : ℤ} : m ∈ arange a b ↔ a ≤ m ∧ m < b := by
  unfold arange
  simp only [List.mem_map, List.mem_range]
  constructor
  · rintro ⟨i, hi, rfl⟩; omega
  · rintro ⟨h1, h2⟩; exact ⟨(m - a).toNat, by omega, by omega⟩

theorem getElem?_arange {a b : ℤ} {i : ℕ} (h : i < (b - a).toNat) : (arange a b)[i]? = some (a + i) := by
  simp [arange, h]

theorem arange_nil {a b : ℤ} (h : b ≤ a) : arange a b = [] := by
  have : (b - a).toNat = 0 := by omega
  simp [arange, this]

theorem arange_cons {a b : ℤ} (h : a < b) : arange a b = a :: arange (a + 1) b := by
  apply List.ext_getElem?
  intro i
  rcases i with _ | i
  · rw [getElem?_arange (by omega)]; simp
  · by_cases hi : i + 1 < (b - a).toNat
    · rw [getElem?_arange hi, List.getElem?_cons_succ, getElem?_arange (by omega)]
      push_cast; congr 1; ring
    · rw [List.getElem?_eq_none (by simp; omega), List.getElem?_eq_none (by simp; omega)]

theorem arange_eq_minutesFrom (a : ℤ) (n : ℕ) : arange a (a + n) = minutesFrom a n := by
  induction n generalizing a with
  | zero => simp [minutesFrom, arange_nil]
  | succ n ih =>
    rw [arange_cons (by push_cast; omega), minutesFrom, ← ih]
    congr 2; push_cast; ring

theorem take_arange (a b : ℤ) (k : ℕ) (h : (k : ℤ) ≤ b - a) : (arange a b).take k = arange a (a + k) := by
  apply List.ext_getElem?
  intro i
  rw [List.getElem?_take]
  by_cases hi : i < k
  · rw [if_pos hi, getElem?_arange (by omega), getElem?_arange (by omega)]
  · rw [if_neg hi, List.getElem?_eq_none (by simp; omega)]

theorem head?_arange {a b : ℤ} (h : a < b) : (arange a b).head? = some a := by
  rw [arange_cons h]; rfl

theorem getLast?_arange {a b : ℤ} (h : a < b) : (arange a b).getLast? = some (b - 1) := by
  rw [List.getLast?_eq_getElem?, getElem?_arange (by simp; omega)]
  congr 1; simp; omega

theorem nodup_arange (a b : ℤ) : (arange a b).Nodup := by
  unfold arange
  refine List.Nodup.map ?_ List.nodup_range
  intro x y h
  simpa using h

theorem mem_minutesFrom {a m : ℤ} {n : ℕ} : m ∈ minutesFrom a n ↔ a ≤ m ∧ m < a + n := by
  rw [← arange_eq_minutesFrom, mem_arange]

@[simp] theorem length_minutesFrom (a : ℤ) (n : ℕ) : (minutesFrom a n).length = n := by
  rw [← arange_eq_minutesFrom]; simp

end Ramp
