import Verif.Lemmas.Num

/-! # Lemmas on the list of free ranges -/

set_option autoImplicit false

namespace Ramp

/-- `findIdx?` gives a decomposition of the list. -/
theorem findIdx?_split {α : Type} {p : α → Bool} {l : List α} {i : ℕ} (h : l.findIdx? p = some i) :
    ∃ l1 x l2, l = l1 ++ x :: l2 ∧ l1.length = i ∧ p x = true ∧ ∀ y ∈ l1, p y = false := by
  induction l generalizing i with
  | nil => simp at h
  | cons y l ih =>
    rw [List.findIdx?_cons] at h
    by_cases hy : p y = true
    · rw [if_pos hy] at h
      cases h
      exact ⟨[], y, l, rfl, rfl, hy, by simp⟩
    · rw [if_neg hy] at h
      cases hl : l.findIdx? p with
      | none => rw [hl] at h; simp at h
      | some j =>
        rw [hl] at h
        simp at h
        obtain ⟨l1, x, l2, rfl, hlen, hx, hall⟩ := ih hl
        refine ⟨y :: l1, x, l2, rfl, by simp [hlen, h], hx, ?_⟩
        intro z hz
        rcases List.mem_cons.1 hz with rfl | hz
        · simpa using hy
        · exact hall z hz

theorem insertIdx_length_append {α : Type} (l1 l : List α) (x : α) :
    (l1 ++ l).insertIdx l1.length x = l1 ++ x :: l := by
  induction l1 with
  | nil => simp
  | cons y l1 ih => simp [ih]

/-- What replaces the range `s` when the minutes `i0..i1` are taken from it. -/
def cutSpot (s : Spot) (i0 i1 : ℤ) : List Spot :=
  if i0 = s.start ∧ i1 = s.stop then []
  else if i0 = s.start then [⟨i1 + 1, s.stop⟩]
  else if i1 = s.stop then [⟨s.start, i0⟩]
  else [⟨s.start, i0⟩, ⟨i1 + 1, s.stop⟩]

theorem bookSpots_cases (spots : List Spot) (i0 i1 : ℤ) :
    (bookSpots spots i0 i1 = spots ∧ ∀ s ∈ spots, ¬ (s.start ≤ i0 ∧ i1 ≤ s.stop)) ∨
    ∃ l1 s l2, spots = l1 ++ s :: l2 ∧ (s.start ≤ i0 ∧ i1 ≤ s.stop) ∧ (∀ t ∈ l1, ¬ (t.start ≤ i0 ∧ i1 ≤ t.stop)) ∧
      bookSpots spots i0 i1 = l1 ++ cutSpot s i0 i1 ++ l2 := by
  unfold bookSpots
  cases h : spots.findIdx? (fun fs => decide (i0 ≥ fs.start) && decide (i1 ≤ fs.stop)) with
  | none =>
    left
    refine ⟨rfl, ?_⟩
    intro s hs hc
    rw [List.findIdx?_eq_none_iff] at h
    have := h s hs
    simp [hc.1, hc.2] at this
  | some idx =>
    right
    obtain ⟨l1, s, l2, rfl, rfl, hs, hl1⟩ := findIdx?_split h
    refine ⟨l1, s, l2, rfl, by simpa using hs, ?_, ?_⟩
    · intro t ht hc
      have := hl1 t ht
      simp [hc.1, hc.2] at this
    · have e1 : (l1 ++ s :: l2)[l1.length]? = some s := by simp
      have e2 : (l1 ++ s :: l2).eraseIdx l1.length = l1 ++ l2 := by
        rw [List.eraseIdx_append_of_length_le (le_refl _)]; simp
      have e3 : ∀ x (l : List Spot), (l1 ++ l).insertIdx l1.length x = l1 ++ x :: l := by
        intro x l
        exact insertIdx_length_append l1 l x
      simp only [e1, e2]
      unfold cutSpot
      split_ifs <;> simp [e3]

theorem mem_cutSpot {s t : Spot} {i0 i1 : ℤ} (h0 : s.start ≤ i0) (h1 : i1 ≤ s.stop) (h : i0 ≤ i1)
    (ht : t ∈ cutSpot s i0 i1) : t.start ≤ t.stop ∧ s.start ≤ t.start ∧ t.stop ≤ s.stop := by
  unfold cutSpot at ht
  split_ifs at ht with a b c
  · simp at ht
  · simp at ht; subst ht; simp; omega
  · simp at ht; subst ht; simp; omega
  · simp at ht
    rcases ht with rfl | rfl <;> simp <;> omega

/-- Booking never creates time: every range afterwards is part of a range before. -/
theorem bookSpots_sub {spots : List Spot} {i0 i1 : ℤ} (h : i0 ≤ i1) (hs : ∀ s ∈ spots, s.start ≤ s.stop) :
    ∀ t ∈ bookSpots spots i0 i1, t.start ≤ t.stop ∧ ∃ s ∈ spots, s.start ≤ t.start ∧ t.stop ≤ s.stop := by
  intro t ht
  rcases bookSpots_cases spots i0 i1 with ⟨e, _⟩ | ⟨l1, s, l2, rfl, hc, _, e⟩
  · rw [e] at ht
    exact ⟨hs t ht, t, ht, le_rfl, le_rfl⟩
  · rw [e] at ht
    simp only [List.mem_append] at ht
    rcases ht with (ht | ht) | ht
    · exact ⟨hs t (by simp [ht]), t, by simp [ht], le_rfl, le_rfl⟩
    · obtain ⟨a, b, c⟩ := mem_cutSpot hc.1 hc.2 h ht
      exact ⟨a, s, by simp, b, c⟩
    · exact ⟨hs t (by simp [ht]), t, by simp [ht], le_rfl, le_rfl⟩

theorem SpotsApart.sublist {l l' : List Spot} (h : SpotsApart l) (hl : l'.Sublist l) : SpotsApart l' :=
  ⟨fun s hs => h.1 s (hl.subset hs), h.2.sublist hl⟩

theorem apart_symm {w v : ℤ × ℤ} (h : Apart w v) : Apart v w := h.symm

theorem spotsApart_append {l1 l2 : List Spot} :
    SpotsApart (l1 ++ l2) ↔ SpotsApart l1 ∧ SpotsApart l2 ∧
      ∀ s ∈ l1, ∀ t ∈ l2, Apart (s.start, s.stop) (t.start, t.stop) := by
  unfold SpotsApart
  rw [List.pairwise_append]
  constructor
  · rintro ⟨h1, h2, h3, h4⟩
    exact ⟨⟨fun s hs => h1 s (by simp [hs]), h2⟩, ⟨fun s hs => h1 s (by simp [hs]), h3⟩, h4⟩
  · rintro ⟨⟨h1, h2⟩, ⟨h3, h4⟩, h5⟩
    refine ⟨fun s hs => ?_, h2, h4, h5⟩
    rcases List.mem_append.1 hs with h | h
    · exact h1 s h
    · exact h3 s h

/-- Booking an event inside one of well-separated ranges: exactly the minutes of the event stop being available, and the
ranges stay separated. -/
theorem bookSpots_exact {spots : List Spot} {i0 i1 : ℤ} (h : i0 ≤ i1) (hs : SpotsApart spots)
    (hin : ∃ s ∈ spots, s.start ≤ i0 ∧ i1 < s.stop) :
    SpotsApart (bookSpots spots i0 i1) ∧
    ∀ m, Avail (bookSpots spots i0 i1) m ↔ Avail spots m ∧ ¬ (i0 ≤ m ∧ m ≤ i1) := by
  obtain ⟨u, hu, hu0, hu1⟩ := hin
  rcases bookSpots_cases spots i0 i1 with ⟨_, hno⟩ | ⟨l1, s, l2, rfl, hc, _, e⟩
  · exact absurd ⟨hu0, hu1.le⟩ (hno u hu)
  · -- the range found is the range containing the event
    have hap := hs
    rw [spotsApart_append] at hap
    obtain ⟨ha1, ha2, ha12⟩ := hap
    have ha2' : SpotsApart ([s] ++ l2) := ha2
    rw [spotsApart_append] at ha2'
    obtain ⟨has, ha3, hs3⟩ := ha2'
    have hsu : u = s := by
      rcases List.mem_append.1 hu with hm | hm
      · have := ha12 u hm s (by simp)
        unfold Apart at this; simp at this; omega
      · rcases List.mem_cons.1 hm with rfl | hm
        · rfl
        · have := hs3 s (by simp) u hm
          unfold Apart at this; simp at this; omega
    subst hsu
    have hstop : i1 ≠ u.stop := by omega
    rw [e]
    have hcut : SpotsApart (cutSpot u i0 i1) ∧
        ∀ m, Avail (cutSpot u i0 i1) m ↔ (u.start ≤ m ∧ m < u.stop) ∧ ¬ (i0 ≤ m ∧ m ≤ i1) := by
      unfold cutSpot
      rw [if_neg (by omega)]
      split_ifs with a
      · refine ⟨⟨by simp; omega, by simp⟩, fun m => ?_⟩
        simp [Avail]; omega
      · refine ⟨⟨by simp; omega, ?_⟩, fun m => ?_⟩
        · simp [Apart]; left; omega
        · simp [Avail]; omega
    have hsub : ∀ t ∈ cutSpot u i0 i1, u.start ≤ t.start ∧ t.stop ≤ u.stop := fun t ht =>
      (mem_cutSpot hc.1 hc.2 h ht).2
    refine ⟨?_, ?_⟩
    · rw [spotsApart_append, spotsApart_append]
      refine ⟨⟨ha1, hcut.1, ?_⟩, ha3, ?_⟩
      · intro x hx t ht
        have := ha12 x hx u (by simp)
        have h2 := hsub t ht
        unfold Apart at *; simp at *; omega
      · intro x hx t ht
        rcases List.mem_append.1 hx with hx | hx
        · exact ha12 x hx t (by simp [ht])
        · have := hs3 u (by simp) t ht
          have h2 := hsub x hx
          unfold Apart at *; simp at *; omega
    · intro m
      have hav : ∀ a b : List Spot, Avail (a ++ b) m ↔ Avail a m ∨ Avail b m := by
        intro a b; unfold Avail; simp only [List.mem_append]
        constructor
        · rintro ⟨x, hx | hx, h⟩
          · exact .inl ⟨x, hx, h⟩
          · exact .inr ⟨x, hx, h⟩
        · rintro (⟨x, hx, h⟩ | ⟨x, hx, h⟩)
          · exact ⟨x, .inl hx, h⟩
          · exact ⟨x, .inr hx, h⟩
      have hav1 : Avail (u :: l2) m ↔ (u.start ≤ m ∧ m < u.stop) ∨ Avail l2 m := by
        rw [← List.singleton_append, hav]; simp [Avail]
      rw [hav, hav, hav, hcut.2, hav1]
      constructor
      · rintro ((⟨x, hx, hx2⟩ | hx) | ⟨x, hx, hx2⟩)
        · refine ⟨.inl ⟨x, hx, hx2⟩, ?_⟩
          have := ha12 x hx u (by simp)
          unfold Apart at this; simp at this; omega
        · exact ⟨.inr (.inl hx.1), hx.2⟩
        · refine ⟨.inr (.inr ⟨x, hx, hx2⟩), ?_⟩
          have := hs3 u (by simp) x hx
          unfold Apart at this; simp at this; omega
      · rintro ⟨hx | hx | hx, hn⟩
        · exact .inl (.inl hx)
        · exact .inl (.inr ⟨hx, hn⟩)
        · exact .inr hx

theorem mem_switchOnChoices {spots : List Spot} {fc m : ℤ} :
    m ∈ switchOnChoices spots fc ↔ ∃ s ∈ spots, s.start ≤ m ∧ m ≤ s.stop - fc ∧ fc ≤ s.stop - s.start := by
  unfold switchOnChoices
  simp only [List.mem_flatMap]
  constructor
  · rintro ⟨s, hs, hm⟩
    split_ifs at hm with h
    · rw [mem_arange] at hm
      exact ⟨s, hs, by omega⟩
    · simp at hm
  · rintro ⟨s, hs, h⟩
    refine ⟨s, hs, ?_⟩
    rw [if_pos (by omega), mem_arange]
    omega

theorem switchOnChoices_eq_nil {spots : List Spot} {fc : ℤ} :
    (switchOnChoices spots fc).length = 0 ↔ ∀ s ∈ spots, s.stop - s.start < fc := by
  rw [List.length_eq_zero_iff, List.eq_nil_iff_forall_not_mem]
  constructor
  · intro h s hs
    by_contra hc
    exact h s.start (mem_switchOnChoices.2 ⟨s, hs, le_rfl, by omega, by omega⟩)
  · intro h m hm
    obtain ⟨s, hs, h1⟩ := mem_switchOnChoices.1 hm
    have := h s hs
    omega

end Ramp
