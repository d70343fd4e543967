import Verif.Lemmas.Finitary
import Verif.Lemmas.Num

/-! # Lemmas on the peak time range -/

set_option autoImplicit false

namespace Ramp

theorem foldl_max_ge (l : List ℚ) : ∀ a : ℚ, a ≤ l.foldl max a ∧ (∀ x ∈ l, x ≤ l.foldl max a) ∧ (l.foldl max a = a ∨ l.foldl max a ∈ l) := by
  induction l with
  | nil => intro a; simp
  | cons b l ih =>
    intro a
    rw [List.foldl_cons]
    obtain ⟨h1, h2, h3⟩ := ih (max a b)
    refine ⟨le_trans (le_max_left _ _) h1, ?_, ?_⟩
    · intro x hx
      rcases List.mem_cons.1 hx with rfl | hx
      · exact le_trans (le_max_right _ _) h1
      · exact h2 x hx
    · rcases h3 with h3 | h3
      · rw [h3]
        rcases max_choice a b with h | h
        · exact .inl h
        · right; rw [h]; simp
      · exact .inr (List.mem_cons_of_mem _ h3)

theorem profileMax_ge (p : Profile) (i : Fin 1440) : p i ≤ profileMax p := by
  unfold profileMax
  obtain ⟨h1, h2, _⟩ := foldl_max_ge (List.ofFn p).tail (p 0)
  by_cases hi : i = 0
  · rw [hi]; exact h1
  · apply h2
    rw [List.ofFn_succ, List.tail_cons, List.mem_ofFn]
    exact ⟨i.pred hi, by rw [Fin.succ_pred]⟩

theorem profileMax_attained (p : Profile) : ∃ i, p i = profileMax p := by
  unfold profileMax
  obtain ⟨_, _, h⟩ := foldl_max_ge (List.ofFn p).tail (p 0)
  rcases h with h | h
  · exact ⟨0, h.symm⟩
  · have := List.mem_of_mem_tail h
    rw [List.mem_ofFn] at this
    exact this

theorem eq_profileMax {p : Profile} {i : Fin 1440} : p i = profileMax p ↔ ∀ j, p j ≤ p i := by
  constructor
  · intro h j; rw [h]; exact profileMax_ge p j
  · intro h
    obtain ⟨k, hk⟩ := profileMax_attained p
    exact le_antisymm (profileMax_ge p i) (hk ▸ h k)

theorem mem_peakWindow {p : Profile} {x : ℤ} : x ∈ peakWindow p ↔ ∃ i : Fin 1440, x = ((i : ℕ) : ℤ) ∧ ∀ j, p j ≤ p i := by
  unfold peakWindow
  simp only [List.mem_map, List.mem_filter, List.mem_finRange, true_and, decide_eq_true_eq, eq_profileMax]
  constructor
  · rintro ⟨i, h, rfl⟩; exact ⟨i, rfl, h⟩
  · rintro ⟨i, rfl, h⟩; exact ⟨i, h, rfl⟩

theorem peakWindow_sorted (p : Profile) : (peakWindow p).Pairwise (· < ·) := by
  unfold peakWindow
  rw [List.pairwise_map]
  refine List.Pairwise.imp ?_ (List.Pairwise.filter _ (List.pairwise_lt_finRange 1440))
  intro a b h
  exact_mod_cast h

theorem peakWindow_two {p : Profile} : (∃ a b rest, peakWindow p = a :: b :: rest) ↔ ∃ i j : Fin 1440, i ≠ j ∧ (∀ k, p k ≤ p i) ∧ ∀ k, p k ≤ p j := by
  constructor
  · rintro ⟨a, b, rest, h⟩
    have hs := peakWindow_sorted p
    rw [h] at hs
    have hab : a < b := (List.pairwise_cons.1 hs).1 b (by simp)
    obtain ⟨i, rfl, hi⟩ := mem_peakWindow.1 (h ▸ (by simp) : a ∈ peakWindow p)
    obtain ⟨j, rfl, hj⟩ := mem_peakWindow.1 (h ▸ (by simp) : b ∈ peakWindow p)
    exact ⟨i, j, by rintro rfl; omega, hi, hj⟩
  · rintro ⟨i, j, hne, hi, hj⟩
    have h1 := mem_peakWindow.2 ⟨i, rfl, hi⟩
    have h2 := mem_peakWindow.2 ⟨j, rfl, hj⟩
    match hw : peakWindow p with
    | [] => rw [hw] at h1; simp at h1
    | [a] =>
      rw [hw] at h1 h2
      simp only [List.mem_singleton] at h1 h2
      exact absurd (Fin.ext (by omega)) hne
    | a :: b :: rest => exact ⟨a, b, rest, rfl⟩

theorem totalMaximumProfile_eq (us : List User) (i : Fin 1440) : totalMaximumProfile us i = (us.map (fun u => u.maximumProfile i)).sum := by
  unfold totalMaximumProfile
  have : ∀ (us : List User) (p : Profile), (us.foldl (fun p u => fun i => p i + u.maximumProfile i) p) i = p i + (us.map (fun u => u.maximumProfile i)).sum := by
    intro us
    induction us with
    | nil => intro p; simp
    | cons u us ih => intro p; rw [List.foldl_cons, ih]; simp; ring
  rw [this]
  simp [zeros]

/-- The part of `calc_peak_time_range` after the peak window. -/
def peakRest (pe : ℚ) (mu sigma : ℚ) : Sim (List ℤ) := do
  let t ← gauss mu sigma
  let g ← gauss (pyRound t) (pe * pyRound t)
  pure (arange (pyRound t - max (pyRound |((pyRound t : ℤ) : ℚ) - g|) 1) (pyRound t + max (pyRound |((pyRound t : ℤ) : ℚ) - g|) 1))

theorem peak_one {us : List User} {pe : ℚ} (h : ∃! i : Fin 1440, ∀ k, totalMaximumProfile us k ≤ totalMaximumProfile us i) :
    peakTimeRangeOf us pe = raise .indexError := by
  unfold peakTimeRangeOf
  simp only
  split
  · rename_i a b rest hw
    obtain ⟨i, j, hne, hi, hj⟩ := peakWindow_two.1 ⟨a, b, rest, hw⟩
    obtain ⟨k, _, hk⟩ := h
    exact absurd ((hk i hi).trans (hk j hj).symm) hne
  · rfl

theorem peak_many {us : List User} {pe : ℚ} (h : ¬ ∃! i : Fin 1440, ∀ k, totalMaximumProfile us k ≤ totalMaximumProfile us i) :
    ∃ mu sigma : ℚ, 0 < sigma ∧ peakTimeRangeOf us pe = peakRest pe mu sigma := by
  have h2 : ∃ a b rest, peakWindow (totalMaximumProfile us) = a :: b :: rest := by
    rw [peakWindow_two]
    obtain ⟨i, hi⟩ := profileMax_attained (totalMaximumProfile us)
    rw [eq_profileMax] at hi
    by_contra hc
    push Not at hc
    refine h ⟨i, hi, fun j hj => ?_⟩
    by_contra hne
    obtain ⟨k, hk⟩ := hc j i hne hj
    exact absurd (hi k) (not_le.2 hk)
  obtain ⟨a, b, rest, hw⟩ := h2
  have hs := peakWindow_sorted (totalMaximumProfile us)
  rw [hw] at hs
  have hlast : a < (b :: rest).getLast (by simp) := (List.pairwise_cons.1 hs).1 _ (List.getLast_mem _)
  refine ⟨pyRound (average (a :: b :: rest)), 1 / 3 * ((((b :: rest).getLast (by simp) - a : ℤ)) : ℚ), ?_, ?_⟩
  · have : (0 : ℚ) < (((b :: rest).getLast (by simp) - a : ℤ) : ℚ) := by exact_mod_cast sub_pos.2 hlast
    linarith
  · unfold peakTimeRangeOf peakRest
    simp only
    split
    · rename_i a' b' rest' hw'
      have hh := hw'.symm.trans hw
      cases hh
      rw [hw']
    · rename_i hn
      exact absurd hw (hn a b rest)

end Ramp
