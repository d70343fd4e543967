import Verif.Spec11
import Verif.Props.PossibleCases
import Mathlib.Algebra.BigOperators.Fin
import Mathlib.Algebra.Order.BigOperators.Group.Finset

/-! # C88: the energy of a day -/

set_option autoImplicit false

namespace Ramp

/-- The energy of a day, in watt-minutes. -/
def energy (p : Profile) : ℚ := ∑ i, p i

/-! ## Counting minutes -/

theorem count_minutes {a b : ℤ} (h0 : 0 ≤ a) (h1 : a ≤ b) (h2 : b ≤ 1440) :
    (∑ i : Fin 1440, if a ≤ ((i : ℕ) : ℤ) ∧ ((i : ℕ) : ℤ) < b then (1 : ℚ) else 0) = b - a := by
  rw [Fin.sum_univ_eq_sum_range (fun i : ℕ => if a ≤ (i : ℤ) ∧ (i : ℤ) < b then (1 : ℚ) else 0) 1440, Finset.sum_boole]
  have : (Finset.range 1440).filter (fun i : ℕ => a ≤ (i : ℤ) ∧ (i : ℤ) < b) = Finset.Ico a.toNat b.toNat := by
    ext i
    simp only [Finset.mem_filter, Finset.mem_range, Finset.mem_Ico]
    omega
  rw [this, Nat.card_Ico, Nat.cast_sub (by omega)]
  have e1 : ((a.toNat : ℕ) : ℚ) = (a : ℚ) := by exact_mod_cast Int.toNat_of_nonneg h0
  have e2 : ((b.toNat : ℕ) : ℚ) = (b : ℚ) := by exact_mod_cast Int.toNat_of_nonneg (h0.trans h1)
  rw [e1, e2]

theorem sum_on_one {α : Type} (On : α → Prop) [DecidablePred On] (f : α → ℚ) : ∀ {l : List α} {x : α},
    l.Pairwise (fun a b => ¬ (On a ∧ On b)) → x ∈ l → On x → (l.map (fun a => if On a then f a else 0)).sum = f x
  | [], _, _, hx, _ => by simp at hx
  | a :: l, x, hp, hx, hon => by
    rw [List.pairwise_cons] at hp
    simp only [List.map_cons, List.sum_cons]
    rcases List.mem_cons.1 hx with rfl | hx
    · rw [if_pos hon]
      have : (l.map (fun a => if On a then f a else 0)) = l.map (fun _ => (0 : ℚ)) :=
        List.map_congr_left fun b hb => if_neg fun h => hp.1 b hb ⟨hon, h⟩
      rw [this]
      simp
    · rw [if_neg fun h => hp.1 x hx ⟨h, hon⟩, zero_add]
      exact sum_on_one On f hp.2 hx hon

theorem sum_on_none {α : Type} (On : α → Prop) [DecidablePred On] (f : α → ℚ) {l : List α} (h : ∀ x ∈ l, ¬ On x) :
    (l.map (fun a => if On a then f a else 0)).sum = 0 := by
  have : (l.map (fun a => if On a then f a else 0)) = l.map (fun _ => (0 : ℚ)) := List.map_congr_left fun b hb => if_neg (h b hb)
  rw [this]
  simp

theorem sum_list_swap {α : Type} (f : α → Fin 1440 → ℚ) : ∀ l : List α,
    (∑ i, (l.map (fun a => f a i)).sum) = (l.map (fun a => ∑ i, f a i)).sum
  | [] => by simp
  | a :: l => by simp only [List.map_cons, List.sum_cons, Finset.sum_add_distrib, sum_list_swap f l]

/-- Energies add up. -/
theorem energy_total (ps : List Profile) : energy (total ps) = (ps.map energy).sum := by
  have h := sum_list_swap (α := Profile) (fun p i => p i) ps
  have e : (ps.map energy) = ps.map (fun p => ∑ i, p i) := List.map_congr_left fun p _ => rfl
  rw [e]
  exact h

theorem energy_zeros : energy zeros = 0 := by simp [energy, zeros]

/-! ## The energy of a list of events -/

theorem PlainDay.disjoint {app : Appliance} {power : ℚ} {ws : List (ℤ × ℤ)} {time : ℤ} {es : List SwitchEvent} (h : PlainDay app power ws time es) (m : ℤ) :
    es.Pairwise (fun a b => ¬ (a.On m ∧ b.On m)) := by
  rw [List.pairwise_iff_getElem]
  rintro i j hi hj hij ⟨h1, h2⟩
  have hsplit : es = es.take j ++ es[j] :: es.drop (j + 1) := by
    rw [← List.drop_eq_getElem_cons hj, List.take_append_drop]
  obtain ⟨_, hfree⟩ := h.free _ _ _ hsplit
  refine hfree m h2.1 (lt_of_lt_of_le h2.2 (by omega)) es[i] ?_ h1
  rw [List.mem_take_iff_getElem]
  exact ⟨i, by omega, rfl⟩

theorem PlainDay.inside {app : Appliance} {power : ℚ} {ws : List (ℤ × ℤ)} {time : ℤ} {es : List SwitchEvent} (h : PlainDay app power ws time es)
    {e : SwitchEvent} (he : e ∈ es) : ∃ w ∈ ws, w.1 ≤ e.start ∧ e.start + e.minutes ≤ w.2 := by
  obtain ⟨l, r, rfl⟩ := List.append_of_mem he
  obtain ⟨⟨w, hw, h1, h2⟩, _⟩ := h.free l e r rfl
  exact ⟨w, hw, h1, by omega⟩

theorem apart_disjoint {w1 w2 w3 : ℤ × ℤ} (hap : WindowsApart w1 w2 w3) (d1 : DayWindow w1) (d2 : DayWindow w2) (d3 : DayWindow w3) (m : ℤ) :
    ([w1, w2, w3] : List (ℤ × ℤ)).Pairwise (fun a b => ¬ (InWindow a m ∧ InWindow b m)) := by
  unfold WindowsApart Apart at hap
  unfold DayWindow at d1 d2 d3
  simp only [List.pairwise_cons, List.mem_cons, List.not_mem_nil, or_false, forall_eq_or_imp, forall_eq, InWindow]
  refine ⟨⟨?_, ?_⟩, ?_, by simp⟩ <;> omega

/-- The energy of a day with these events: that of the events, and the marker for the other minutes of the windows. -/
theorem energy_of_events {app : Appliance} {power : ℚ} {w1 w2 w3 : ℤ × ℤ} {time : ℤ} {es : List SwitchEvent} {p : Profile} (hap : WindowsApart w1 w2 w3)
    (d1 : DayWindow w1) (d2 : DayWindow w2) (d3 : DayWindow w3) (h : PlainDay app power [w1, w2, w3] time es) (hp : DayProfile [w1, w2, w3] es p) :
    energy p = (es.map (fun e => (e.minutes : ℚ) * e.values.getD 0 0)).sum + 1 / 1000 * (totalTime w1 w2 w3 - minutesOn es) := by
  have hday : ∀ w ∈ ([w1, w2, w3] : List (ℤ × ℤ)), DayWindow w := by
    intro w hw
    simp only [List.mem_cons, List.not_mem_nil, or_false] at hw
    rcases hw with rfl | rfl | rfl <;> assumption
  have hpt : ∀ i : Fin 1440, p i = (es.map (fun e => if e.On ((i : ℕ) : ℤ) then (e.values.getD 0 0 - 1 / 1000) else 0)).sum +
      (([w1, w2, w3] : List (ℤ × ℤ)).map (fun w => if InWindow w ((i : ℕ) : ℤ) then (1 / 1000 : ℚ) else 0)).sum := by
    intro i
    obtain ⟨g1, g2, g3⟩ := hp i
    by_cases hon : ∃ e ∈ es, e.On ((i : ℕ) : ℤ)
    · obtain ⟨e, he, ho⟩ := hon
      obtain ⟨f, _, hv⟩ := h.power e he
      obtain ⟨w, hw, h1, h2⟩ := h.inside he
      rw [sum_on_one (fun e : SwitchEvent => e.On ((i : ℕ) : ℤ)) _ (h.disjoint _) he ho,
        sum_on_one (fun w => InWindow w ((i : ℕ) : ℤ)) (fun _ => (1 / 1000 : ℚ)) (apart_disjoint hap d1 d2 d3 _) hw
          ⟨by have := ho.1; omega, by have := ho.2; omega⟩, g1 e he ho (by rw [hv]; simp)]
      unfold SwitchEvent.valueAt
      rw [hv]
      simp [Nat.mod_one]
    · push Not at hon
      rw [sum_on_none (fun e : SwitchEvent => e.On ((i : ℕ) : ℤ)) _ hon, zero_add]
      by_cases hin : ∃ w ∈ ([w1, w2, w3] : List (ℤ × ℤ)), InWindow w ((i : ℕ) : ℤ)
      · obtain ⟨w, hw, hiw⟩ := hin
        rw [sum_on_one (fun w => InWindow w ((i : ℕ) : ℤ)) (fun _ => (1 / 1000 : ℚ)) (apart_disjoint hap d1 d2 d3 _) hw hiw]
        exact g2 (fun e he ho => absurd ho (hon e he)) ⟨w, hw, hiw⟩
      · rw [sum_on_none (fun w => InWindow w ((i : ℕ) : ℤ)) (fun _ => (1 / 1000 : ℚ)) (fun w hw hi => hin ⟨w, hw, hi⟩)]
        exact g3 (fun e he ho => absurd ho (hon e he)) hin
  have hev : ∀ e ∈ es, (∑ i : Fin 1440, if e.On ((i : ℕ) : ℤ) then (e.values.getD 0 0 - 1 / 1000) else 0) = (e.minutes : ℚ) * (e.values.getD 0 0 - 1 / 1000) := by
    intro e he
    obtain ⟨w, hw, h1, h2⟩ := h.inside he
    have hm := h.minutes e he
    obtain ⟨k1, k2, k3⟩ := hday w hw
    have := count_minutes (a := e.start) (b := e.start + e.minutes) (by omega) (by omega) (by omega)
    calc _ = ∑ i : Fin 1440, (if e.start ≤ ((i : ℕ) : ℤ) ∧ ((i : ℕ) : ℤ) < e.start + e.minutes then (1 : ℚ) else 0) * (e.values.getD 0 0 - 1 / 1000) :=
          Finset.sum_congr rfl fun i _ => by unfold SwitchEvent.On; rw [ite_mul, one_mul, zero_mul]
      _ = _ := by rw [← Finset.sum_mul, this]; push_cast; ring
  have hwin : ∀ w ∈ ([w1, w2, w3] : List (ℤ × ℤ)), (∑ i : Fin 1440, if InWindow w ((i : ℕ) : ℤ) then (1 / 1000 : ℚ) else 0) = ((w.2 : ℚ) - w.1) * (1 / 1000) := by
    intro w hw
    obtain ⟨k1, k2, k3⟩ := hday w hw
    have := count_minutes k1 k2 k3
    calc _ = ∑ i : Fin 1440, (if w.1 ≤ ((i : ℕ) : ℤ) ∧ ((i : ℕ) : ℤ) < w.2 then (1 : ℚ) else 0) * (1 / 1000) :=
          Finset.sum_congr rfl fun i _ => by unfold InWindow; rw [ite_mul, one_mul, zero_mul]
      _ = _ := by rw [← Finset.sum_mul, this]
  unfold energy
  rw [Finset.sum_congr rfl (fun i _ => hpt i), Finset.sum_add_distrib, sum_list_swap (fun (e : SwitchEvent) (i : Fin 1440) =>
      if e.On ((i : ℕ) : ℤ) then (e.values.getD 0 0 - 1 / 1000) else 0) es,
    sum_list_swap (fun (w : ℤ × ℤ) (i : Fin 1440) => if InWindow w ((i : ℕ) : ℤ) then (1 / 1000 : ℚ) else 0) [w1, w2, w3],
    List.map_congr_left hev, List.map_congr_left hwin]
  have hsum : ∀ l : List SwitchEvent, (l.map (fun e => (e.minutes : ℚ) * (e.values.getD 0 0 - 1 / 1000))).sum =
      (l.map (fun e => (e.minutes : ℚ) * e.values.getD 0 0)).sum - 1 / 1000 * minutesOn l := by
    intro l
    induction l with
    | nil => simp [minutesOn]
    | cons e l ih =>
      simp only [List.map_cons, List.sum_cons, ih, minutesOn]
      push_cast
      ring
  rw [hsum]
  simp only [List.map_cons, List.map_nil, List.sum_cons, List.sum_nil, totalTime]
  push_cast
  ring

/-! ## Counting unused minutes -/

theorem count_minutes_le {a b : ℤ} (h1 : a ≤ b) : (∑ i : Fin 1440, if a ≤ ((i : ℕ) : ℤ) ∧ ((i : ℕ) : ℤ) < b then (1 : ℚ) else 0) ≤ b - a := by
  rw [Fin.sum_univ_eq_sum_range (fun i : ℕ => if a ≤ (i : ℤ) ∧ (i : ℤ) < b then (1 : ℚ) else 0) 1440, Finset.sum_boole]
  have hsub : (Finset.range 1440).filter (fun i : ℕ => a ≤ (i : ℤ) ∧ (i : ℤ) < b) ⊆ Finset.Ico a.toNat b.toNat := by
    intro i
    simp only [Finset.mem_filter, Finset.mem_range, Finset.mem_Ico]
    omega
  have hc := Finset.card_le_card hsub
  rw [Nat.card_Ico] at hc
  have h2 : ((((Finset.range 1440).filter (fun i : ℕ => a ≤ (i : ℤ) ∧ (i : ℤ) < b)).card : ℕ) : ℤ) ≤ b - a := by omega
  exact_mod_cast h2

theorem sum_minutes {l : List SwitchEvent} : (l.map (fun e => (e.minutes : ℚ))).sum = ((minutesOn l : ℤ) : ℚ) := by
  induction l with
  | nil => simp [minutesOn]
  | cons e l ih => simp only [List.map_cons, List.sum_cons, ih, minutesOn]; push_cast; ring

theorem length_mul_le {c : ℤ} : ∀ {l : List SwitchEvent}, (∀ e ∈ l, c ≤ e.minutes) → (l.length : ℤ) * c ≤ minutesOn l
  | [], _ => by simp [minutesOn]
  | e :: l, h => by
    have h1 := h e (by simp)
    have h2 := length_mul_le (l := l) fun x hx => h x (by simp [hx])
    have e1 : minutesOn (e :: l) = e.minutes + minutesOn l := by simp [minutesOn]
    rw [e1, List.length_cons]
    push_cast
    linarith

/-- In a window without a free run of `func_cycle` minutes the unused minutes lie in gaps shorter than `func_cycle` before an event or before the end. -/
theorem unused_minutes {c : ℤ} {w : ℤ × ℤ} {es : List SwitchEvent} (hc : 1 ≤ c) (hw : DayWindow w) (hm : ∀ e ∈ es, c ≤ e.minutes)
    (hin : ∀ e ∈ es, w.1 ≤ e.start ∧ e.start + e.minutes ≤ w.2) (hno : ∀ a, ¬ FreeRun [w] es a c) :
    w.2 - w.1 ≤ minutesOn es + (es.length + 1) * (c - 1) := by
  have hnn : ∀ (α : Type) (l : List α) (On : α → Prop) [DecidablePred On], (0 : ℚ) ≤ (l.map (fun x => if On x then (1 : ℚ) else 0)).sum := by
    intro α l On _
    refine List.sum_nonneg fun x hx => ?_
    obtain ⟨e, _, rfl⟩ := List.mem_map.1 hx
    split_ifs <;> norm_num
  have hone : ∀ (α : Type) (l : List α) (On : α → Prop) [DecidablePred On] (x : α), x ∈ l → On x → (1 : ℚ) ≤ (l.map (fun x => if On x then (1 : ℚ) else 0)).sum := by
    intro α l On _ x hx hon
    obtain ⟨l1, l2, rfl⟩ := List.append_of_mem hx
    rw [List.map_append, List.map_cons, List.sum_append, List.sum_cons, if_pos hon]
    have := hnn α l1 On
    have := hnn α l2 On
    linarith
  -- every minute of the window is used or lies in a gap
  have hcov : ∀ i : Fin 1440, (if w.1 ≤ ((i : ℕ) : ℤ) ∧ ((i : ℕ) : ℤ) < w.2 then (1 : ℚ) else 0) ≤
      (es.map (fun e => if e.On ((i : ℕ) : ℤ) then (1 : ℚ) else 0)).sum +
      ((es.map (fun e => if e.start - (c - 1) ≤ ((i : ℕ) : ℤ) ∧ ((i : ℕ) : ℤ) < e.start then (1 : ℚ) else 0)).sum +
       (if w.2 - (c - 1) ≤ ((i : ℕ) : ℤ) ∧ ((i : ℕ) : ℤ) < w.2 then (1 : ℚ) else 0)) := by
    intro i
    have n1 := hnn _ es (fun e => e.On ((i : ℕ) : ℤ))
    have n2 := hnn _ es (fun e => e.start - (c - 1) ≤ ((i : ℕ) : ℤ) ∧ ((i : ℕ) : ℤ) < e.start)
    have n3 : (0 : ℚ) ≤ (if w.2 - (c - 1) ≤ ((i : ℕ) : ℤ) ∧ ((i : ℕ) : ℤ) < w.2 then (1 : ℚ) else 0) := by split_ifs <;> norm_num
    by_cases hi : w.1 ≤ ((i : ℕ) : ℤ) ∧ ((i : ℕ) : ℤ) < w.2
    · rw [if_pos hi]
      obtain ⟨i1, i2⟩ := hi
      by_cases hend : ((i : ℕ) : ℤ) + c ≤ w.2
      · have hf := hno ((i : ℕ) : ℤ)
        unfold FreeRun at hf
        push Not at hf
        obtain ⟨m, hm1, hm2, e, he, ho⟩ := hf ⟨w, List.mem_singleton_self w, i1, hend⟩
        obtain ⟨o1, o2⟩ := ho
        by_cases hs : e.start ≤ ((i : ℕ) : ℤ)
        · have := hone _ es (fun e => e.On ((i : ℕ) : ℤ)) e he ⟨hs, by omega⟩
          linarith
        · have := hone _ es (fun e => e.start - (c - 1) ≤ ((i : ℕ) : ℤ) ∧ ((i : ℕ) : ℤ) < e.start) e he ⟨by omega, by omega⟩
          linarith
      · rw [if_pos (by omega : w.2 - (c - 1) ≤ ((i : ℕ) : ℤ) ∧ ((i : ℕ) : ℤ) < w.2)]
        linarith
    · rw [if_neg hi]
      linarith
  have hsum := Finset.sum_le_sum (s := Finset.univ) fun i _ => hcov i
  have hgap : ∀ x : ℤ, (∑ i : Fin 1440, if x - (c - 1) ≤ ((i : ℕ) : ℤ) ∧ ((i : ℕ) : ℤ) < x then (1 : ℚ) else 0) ≤ (c : ℚ) - 1 := by
    intro x
    have h1 := count_minutes_le (a := x - (c - 1)) (b := x) (by omega)
    have h2 : ((x : ℤ) : ℚ) - ((x - (c - 1) : ℤ) : ℚ) = (c : ℚ) - 1 := by push_cast; ring
    rwa [h2] at h1
  have hgaps : (es.map (fun e => ∑ i : Fin 1440, if e.start - (c - 1) ≤ ((i : ℕ) : ℤ) ∧ ((i : ℕ) : ℤ) < e.start then (1 : ℚ) else 0)).sum ≤ es.length * ((c : ℚ) - 1) := by
    clear hcov hsum hno hin hm
    induction es with
    | nil => rw [List.map_nil, List.sum_nil, List.length_nil, Nat.cast_zero, zero_mul]
    | cons e l ih =>
      rw [List.map_cons, List.sum_cons, List.length_cons]
      refine (add_le_add (hgap e.start) ih).trans (le_of_eq ?_)
      push_cast
      ring
  rw [Finset.sum_add_distrib, Finset.sum_add_distrib, sum_list_swap (fun (e : SwitchEvent) (i : Fin 1440) => if e.On ((i : ℕ) : ℤ) then (1 : ℚ) else 0) es,
    sum_list_swap (fun (e : SwitchEvent) (i : Fin 1440) => if e.start - (c - 1) ≤ ((i : ℕ) : ℤ) ∧ ((i : ℕ) : ℤ) < e.start then (1 : ℚ) else 0) es,
    count_minutes hw.1 hw.2.1 hw.2.2,
    List.map_congr_left (f := fun e : SwitchEvent => ∑ i : Fin 1440, if e.On ((i : ℕ) : ℤ) then (1 : ℚ) else 0) (g := fun e => (e.minutes : ℚ)) (fun e he => by
      obtain ⟨h1, h2⟩ := hin e he
      have hm := hm e he
      obtain ⟨k1, k2, k3⟩ := hw
      have := count_minutes (a := e.start) (b := e.start + e.minutes) (by omega) (by omega) (by omega)
      unfold SwitchEvent.On
      rw [this]
      push_cast
      ring), sum_minutes] at hsum
  have key : ((w.2 - w.1 : ℤ) : ℚ) ≤ ((minutesOn es + (es.length + 1) * (c - 1) : ℤ) : ℚ) := by
    rw [Int.cast_sub]
    refine (hsum.trans (add_le_add le_rfl (add_le_add hgaps (hgap w.2)))).trans (le_of_eq ?_)
    push_cast
    ring
  exact_mod_cast key

/-- The events inside a window. -/
def eventsIn (w : ℤ × ℤ) (es : List SwitchEvent) : List SwitchEvent := es.filter (fun e => decide (w.1 ≤ e.start ∧ e.start + e.minutes ≤ w.2))

theorem minutesOn_append (l r : List SwitchEvent) : minutesOn (l ++ r) = minutesOn l + minutesOn r := by simp [minutesOn]

/-- A window without a free run of `func_cycle` minutes is blocked by the minutes of its events. -/
theorem blocked {c : ℤ} {w : ℤ × ℤ} {ws : List (ℤ × ℤ)} {es : List SwitchEvent} (hc : 1 ≤ c) (hw : DayWindow w) (hm : ∀ e ∈ es, c ≤ e.minutes) (hmem : w ∈ ws)
    (hin : ∀ e ∈ es, ∃ v ∈ ws, v.1 ≤ e.start ∧ e.start + e.minutes ≤ v.2)
    (hdis : ∀ v ∈ ws, v = w ∨ ∀ m, ¬ (InWindow v m ∧ InWindow w m)) (hno : ∀ a, ¬ FreeRun ws es a c)
    (hfit : minutesOn (eventsIn w es) ≤ w.2 - w.1) : Blocks c (w.2 - w.1) (minutesOn (eventsIn w es)) := by
  have hm' : ∀ e ∈ eventsIn w es, c ≤ e.minutes := fun e he => hm e (List.mem_filter.1 he).1
  have hin' : ∀ e ∈ eventsIn w es, w.1 ≤ e.start ∧ e.start + e.minutes ≤ w.2 := fun e he => of_decide_eq_true (List.mem_filter.1 he).2
  have hno' : ∀ a, ¬ FreeRun [w] (eventsIn w es) a c := by
    rintro a ⟨⟨v, hv, h1, h2⟩, h3⟩
    rw [List.mem_singleton] at hv
    subst hv
    refine hno a ⟨⟨v, hmem, h1, h2⟩, fun m hm1 hm2 e he ho => h3 m hm1 hm2 e (List.mem_filter.2 ⟨he, decide_eq_true ?_⟩) ho⟩
    obtain ⟨x, hx, g1, g2⟩ := hin e he
    obtain ⟨o1, o2⟩ := ho
    rcases hdis x hx with rfl | hd
    · exact ⟨g1, g2⟩
    · exact absurd ⟨⟨by omega, by omega⟩, ⟨by omega, by omega⟩⟩ (hd m)
  have hu := unused_minutes hc hw hm' hin' hno'
  have hlen := length_mul_le hm'
  have hdiv : ((eventsIn w es).length : ℤ) ≤ minutesOn (eventsIn w es) / c := (Int.le_ediv_iff_mul_le (by omega)).2 hlen
  refine ⟨?_, hfit, ?_⟩
  · cases he : eventsIn w es with
    | nil => exact .inl (by simp [minutesOn])
    | cons e l =>
      refine .inr ?_
      rw [he] at hm' hlen
      rw [List.length_cons] at hlen
      push_cast at hlen
      have : 0 ≤ (l.length : ℤ) * c := by positivity
      linarith
  · have : ((eventsIn w es).length + 1 : ℤ) * (c - 1) ≤ (minutesOn (eventsIn w es) / c + 1) * (c - 1) := mul_le_mul_of_nonneg_right (by omega) (by omega)
    omega

/-- Disjoint events inside a window take at most its minutes. -/
theorem minutes_fit {w : ℤ × ℤ} {es : List SwitchEvent} (hw : DayWindow w) (hm : ∀ e ∈ es, 1 ≤ e.minutes) (hin : ∀ e ∈ es, w.1 ≤ e.start ∧ e.start + e.minutes ≤ w.2)
    (hdis : ∀ m, es.Pairwise (fun a b => ¬ (a.On m ∧ b.On m))) : minutesOn es ≤ w.2 - w.1 := by
  have hcov : ∀ i : Fin 1440, (es.map (fun e => if e.On ((i : ℕ) : ℤ) then (1 : ℚ) else 0)).sum ≤ (if w.1 ≤ ((i : ℕ) : ℤ) ∧ ((i : ℕ) : ℤ) < w.2 then (1 : ℚ) else 0) := by
    intro i
    by_cases hon : ∃ e ∈ es, e.On ((i : ℕ) : ℤ)
    · obtain ⟨e, he, ho⟩ := hon
      rw [sum_on_one (fun e : SwitchEvent => e.On ((i : ℕ) : ℤ)) (fun _ => (1 : ℚ)) (hdis _) he ho]
      obtain ⟨h1, h2⟩ := hin e he
      obtain ⟨o1, o2⟩ := ho
      rw [if_pos ⟨by omega, by omega⟩]
    · push Not at hon
      rw [sum_on_none (fun e : SwitchEvent => e.On ((i : ℕ) : ℤ)) (fun _ => (1 : ℚ)) hon]
      split_ifs <;> norm_num
  have hsum := Finset.sum_le_sum (s := Finset.univ) fun i _ => hcov i
  rw [sum_list_swap (fun (e : SwitchEvent) (i : Fin 1440) => if e.On ((i : ℕ) : ℤ) then (1 : ℚ) else 0) es, count_minutes hw.1 hw.2.1 hw.2.2,
    List.map_congr_left (f := fun e : SwitchEvent => ∑ i : Fin 1440, if e.On ((i : ℕ) : ℤ) then (1 : ℚ) else 0) (g := fun e => (e.minutes : ℚ)) (fun e he => by
      obtain ⟨h1, h2⟩ := hin e he
      have hm := hm e he
      obtain ⟨k1, k2, k3⟩ := hw
      have := count_minutes (a := e.start) (b := e.start + e.minutes) (by omega) (by omega) (by omega)
      unfold SwitchEvent.On
      rw [this]
      push_cast
      ring), sum_minutes] at hsum
  exact_mod_cast hsum

/-- An event lies inside at most one of windows that do not touch. -/
theorem minutes_split {w1 w2 w3 : ℤ × ℤ} (hap : WindowsApart w1 w2 w3) : ∀ {es : List SwitchEvent}, (∀ e ∈ es, 1 ≤ e.minutes) →
    minutesOn (eventsIn w1 es) + minutesOn (eventsIn w2 es) + minutesOn (eventsIn w3 es) ≤ minutesOn es
  | [], _ => by simp [eventsIn, minutesOn]
  | e :: es, h => by
    have ih := minutes_split hap (es := es) fun x hx => h x (by simp [hx])
    have he := h e (by simp)
    unfold WindowsApart Apart at hap
    unfold eventsIn at ih ⊢
    simp only [List.filter_cons]
    split_ifs with h1 h2 h3 h3 h2 h3 h3
    all_goals simp only [decide_eq_true_eq] at *
    all_goals simp only [minutesOn_cons]
    all_goals omega

/-- If the windows have room for the time of use, it is always used up. -/
theorem all_used_room {app : Appliance} {power : ℚ} {w1 w2 w3 : ℤ × ℤ} {time : ℤ} {es : List SwitchEvent} (hap : WindowsApart w1 w2 w3) (d1 : DayWindow w1)
    (d2 : DayWindow w2) (d3 : DayWindow w3) (h : PlainDay app power [w1, w2, w3] time es) (hfc : 1 ≤ app.funcCycle) (hroom : RoomFor app.funcCycle time w1 w2 w3) :
    minutesOn es = time := by
  by_contra hne
  have hlt : minutesOn es < time := lt_of_le_of_ne h.total hne
  have hno := h.stop.resolve_left hne
  have hlong : ∀ e ∈ es, app.funcCycle ≤ e.minutes := by
    intro e he
    obtain ⟨l, r, rfl⟩ := List.append_of_mem he
    by_contra hs
    exact hne (h.short l e r rfl (by omega)).2
  have hin : ∀ e ∈ es, ∃ v ∈ [w1, w2, w3], v.1 ≤ e.start ∧ e.start + e.minutes ≤ v.2 := fun e he => h.inside he
  have hfit : ∀ w, DayWindow w → minutesOn (eventsIn w es) ≤ w.2 - w.1 := fun w hw =>
    minutes_fit hw (fun e he => h.minutes e (List.mem_filter.1 he).1) (fun e he => of_decide_eq_true (List.mem_filter.1 he).2) fun m => (h.disjoint m).filter _
  have hap' := hap
  unfold WindowsApart Apart at hap'
  have hdis : ∀ w ∈ [w1, w2, w3], ∀ v ∈ [w1, w2, w3], v = w ∨ ∀ m, ¬ (InWindow v m ∧ InWindow w m) := by
    unfold DayWindow at d1 d2 d3
    simp only [List.mem_cons, List.not_mem_nil, or_false, InWindow]
    rintro w (rfl | rfl | rfl) v (rfl | rfl | rfl)
    all_goals first
      | exact .inl rfl
      | (refine .inr fun m => ?_; omega)
  have key := hroom _ _ _ (blocked hfc d1 hlong (by simp) hin (hdis w1 (by simp)) hno (hfit w1 d1)) (blocked hfc d2 hlong (by simp) hin (hdis w2 (by simp)) hno (hfit w2 d2))
    (blocked hfc d3 hlong (by simp) hin (hdis w3 (by simp)) hno (hfit w3 d3))
  have := minutes_split hap h.minutes
  omega

/-! ## The energy of an appliance -/

theorem eventNumber_bounds {app : Appliance} (hn : 1 ≤ app.number) {c : ℤ} (h : NumberOn app c) : 1 ≤ c ∧ c ≤ app.number := by
  unfold NumberOn at h
  split_ifs at h <;> omega

/-- What a day of an appliance without duty cycles comes to: the windows of the day, the time of use of the day and the minutes `m` of
this time that were really used: all of it if `func_cycle` is 1, or if the windows have room for it. -/
structure DayOfUse (app : Appliance) (w1 w2 w3 : ℤ × ℤ) (time m : ℤ) : Prop where
  m1 : MovedWindow app.window1 app.randomVar1 w1
  m2 : MovedWindow app.window2 app.randomVar2 w2
  m3 : MovedWindow app.window3 app.randomVar3 w3
  limit : TimeOfUse app w1 w2 w3 time
  used : 0 ≤ m ∧ m ≤ time
  all : app.funcCycle = 1 → m = time
  room : RoomFor app.funcCycle time w1 w2 w3 → m = time

/-- With `func_cycle = 1` there is always a free minute as long as the time of use is not reached. -/
theorem all_used {app : Appliance} {power : ℚ} {w1 w2 w3 : ℤ × ℤ} {time : ℤ} {es : List SwitchEvent} (hap : WindowsApart w1 w2 w3) (d1 : DayWindow w1)
    (d2 : DayWindow w2) (d3 : DayWindow w3) (ht : TimeOfUse app w1 w2 w3 time) (h : PlainDay app power [w1, w2, w3] time es) (hfc : app.funcCycle = 1) :
    minutesOn es = time := by
  by_contra hne
  have hlt : minutesOn es < time := lt_of_le_of_ne h.total hne
  have hno := h.stop.resolve_left hne
  -- every minute of a window belongs to an event
  have hcov : ∀ i : Fin 1440, (([w1, w2, w3] : List (ℤ × ℤ)).map (fun w => if InWindow w ((i : ℕ) : ℤ) then (1 : ℚ) else 0)).sum ≤
      (es.map (fun e => if e.On ((i : ℕ) : ℤ) then (1 : ℚ) else 0)).sum := by
    intro i
    by_cases hin : ∃ w ∈ ([w1, w2, w3] : List (ℤ × ℤ)), InWindow w ((i : ℕ) : ℤ)
    · obtain ⟨w, hw, hiw⟩ := hin
      rw [sum_on_one (fun w => InWindow w ((i : ℕ) : ℤ)) (fun _ => (1 : ℚ)) (apart_disjoint hap d1 d2 d3 _) hw hiw]
      have := hno ((i : ℕ) : ℤ)
      unfold FreeRun at this
      rw [hfc] at this
      push Not at this
      obtain ⟨m, hm1, hm2, e, he, ho⟩ := this ⟨w, hw, hiw.1, hiw.2⟩
      have : m = ((i : ℕ) : ℤ) := by omega
      subst this
      rw [sum_on_one (fun e : SwitchEvent => e.On ((i : ℕ) : ℤ)) (fun _ => (1 : ℚ)) (h.disjoint _) he ho]
    · rw [sum_on_none (fun w => InWindow w ((i : ℕ) : ℤ)) (fun _ => (1 : ℚ)) (fun w hw hi => hin ⟨w, hw, hi⟩)]
      apply List.sum_nonneg
      intro x hx
      obtain ⟨e, _, rfl⟩ := List.mem_map.1 hx
      split_ifs <;> norm_num
  have hday : ∀ w ∈ ([w1, w2, w3] : List (ℤ × ℤ)), DayWindow w := by
    intro w hw
    simp only [List.mem_cons, List.not_mem_nil, or_false] at hw
    rcases hw with rfl | rfl | rfl <;> assumption
  have hsum := Finset.sum_le_sum (s := Finset.univ) fun i _ => hcov i
  rw [sum_list_swap (fun (e : SwitchEvent) (i : Fin 1440) => if e.On ((i : ℕ) : ℤ) then (1 : ℚ) else 0) es,
    sum_list_swap (fun (w : ℤ × ℤ) (i : Fin 1440) => if InWindow w ((i : ℕ) : ℤ) then (1 : ℚ) else 0) [w1, w2, w3],
    List.map_congr_left (f := fun w : ℤ × ℤ => ∑ i : Fin 1440, if InWindow w ((i : ℕ) : ℤ) then (1 : ℚ) else 0) (g := fun w : ℤ × ℤ => (w.2 : ℚ) - w.1)
      (fun w hw => by unfold InWindow; exact count_minutes (hday w hw).1 (hday w hw).2.1 (hday w hw).2.2),
    List.map_congr_left (f := fun e : SwitchEvent => ∑ i : Fin 1440, if e.On ((i : ℕ) : ℤ) then (1 : ℚ) else 0) (g := fun e => (e.minutes : ℚ)) (fun e he => by
      obtain ⟨w, hw, h1, h2⟩ := h.inside he
      have hm := h.minutes e he
      obtain ⟨k1, k2, k3⟩ := hday w hw
      have := count_minutes (a := e.start) (b := e.start + e.minutes) (by omega) (by omega) (by omega)
      unfold SwitchEvent.On
      rw [this]
      push_cast
      ring)] at hsum
  have hmo : ∀ l : List SwitchEvent, (l.map (fun e => (e.minutes : ℚ))).sum = ((minutesOn l : ℤ) : ℚ) := by
    intro l
    induction l with
    | nil => simp [minutesOn]
    | cons e l ih => simp only [List.map_cons, List.sum_cons, ih, minutesOn]; push_cast; ring
  rw [hmo] at hsum
  have htot : ((totalTime w1 w2 w3 : ℤ) : ℚ) ≤ ((minutesOn es : ℤ) : ℚ) := by
    refine le_trans (le_of_eq ?_) hsum
    simp only [List.map_cons, List.map_nil, List.sum_cons, List.sum_nil, totalTime]
    push_cast
    ring
  have htot' : totalTime w1 w2 w3 ≤ minutesOn es := by exact_mod_cast htot
  obtain ⟨h99, n, _, _, rfl⟩ := ht
  have h0 : 0 ≤ totalTime w1 w2 w3 := by
    unfold totalTime
    unfold DayWindow at d1 d2 d3
    omega
  have : ⌊(99 / 100 : ℚ) * totalTime w1 w2 w3⌋ ≤ totalTime w1 w2 w3 := by
    have : (99 / 100 : ℚ) * totalTime w1 w2 w3 ≤ ((totalTime w1 w2 w3 : ℤ) : ℚ) := by
      have : (0 : ℚ) ≤ ((totalTime w1 w2 w3 : ℤ) : ℚ) := by exact_mod_cast h0
      linarith
    exact_mod_cast (Int.floor_le _).trans this
  omega

theorem events_energy_bounds {app : Appliance} {power : ℚ} {ws : List (ℤ × ℤ)} {time : ℤ} {es : List SwitchEvent} (h : PlainDay app power ws time es)
    (hn : 1 ≤ app.number) (hpow : 0 ≤ power) (h0 : 0 ≤ app.thermalPVar) (h1 : app.thermalPVar ≤ 1) :
    (minutesOn es : ℚ) * (power * (1 - app.thermalPVar)) ≤ (es.map (fun e => (e.minutes : ℚ) * e.values.getD 0 0)).sum ∧
    (es.map (fun e => (e.minutes : ℚ) * e.values.getD 0 0)).sum ≤ (minutesOn es : ℚ) * (app.number * power * (1 + app.thermalPVar)) := by
  have hv : ∀ e ∈ es, 1 ≤ e.minutes ∧ power * (1 - app.thermalPVar) ≤ e.values.getD 0 0 ∧ e.values.getD 0 0 ≤ app.number * power * (1 + app.thermalPVar) := by
    intro e he
    obtain ⟨f, hf, hv⟩ := h.power e he
    obtain ⟨n1, n2⟩ := eventNumber_bounds hn (h.number e he)
    have n1' : (1 : ℚ) ≤ e.number := by exact_mod_cast n1
    have n2' : (e.number : ℚ) ≤ app.number := by exact_mod_cast n2
    rw [abs_of_nonneg h0, abs_le] at hf
    rw [hv]
    simp only [List.getD_cons_zero]
    have g1 : 0 ≤ f := by linarith [hf.1]
    have g2 : (1 - app.thermalPVar) ≤ f := by linarith [hf.1]
    have g3 : f ≤ 1 + app.thermalPVar := by linarith [hf.2]
    refine ⟨h.minutes e he, ?_, ?_⟩
    · calc power * (1 - app.thermalPVar) ≤ power * f := mul_le_mul_of_nonneg_left g2 hpow
        _ = 1 * (power * f) := by ring
        _ ≤ e.number * (power * f) := mul_le_mul_of_nonneg_right n1' (mul_nonneg hpow g1)
        _ = _ := by ring
    · calc (e.number : ℚ) * power * f = e.number * (power * f) := by ring
        _ ≤ app.number * (power * f) := mul_le_mul_of_nonneg_right n2' (mul_nonneg hpow g1)
        _ ≤ app.number * (power * (1 + app.thermalPVar)) :=
          mul_le_mul_of_nonneg_left (mul_le_mul_of_nonneg_left g3 hpow) (by linarith)
        _ = _ := by ring
  clear h
  induction es with
  | nil => simp [minutesOn]
  | cons e l ih =>
    obtain ⟨i1, i2⟩ := ih (fun x hx => hv x (List.mem_cons_of_mem _ hx))
    obtain ⟨k1, k2, k3⟩ := hv e (List.mem_cons_self ..)
    have k1' : (0 : ℚ) ≤ e.minutes := by exact_mod_cast (by omega : (0 : ℤ) ≤ e.minutes)
    have e1 : (minutesOn (e :: l) : ℚ) = e.minutes + minutesOn l := by simp [minutesOn]
    rw [e1]
    simp only [List.map_cons, List.sum_cons, add_mul]
    exact ⟨add_le_add (mul_le_mul_of_nonneg_left k2 k1') i1, add_le_add (mul_le_mul_of_nonneg_left k3 k1') i2⟩

theorem dayOfUse {app : Appliance} (hs : WellSeparated app) (hfix : app.fixedCycle ≤ 0) (hfl : app.flat ≠ "yes") {depth : ℕ} {pref : ℤ}
    {profI : ℕ} {peak : List ℤ} (hpk : peak ≠ []) {dayType : ℤ} {power : ℚ} {app' : Appliance}
    (h : Returns (generateLoadProfile app (depth + 1) pref profI peak dayType power) app') :
    (app'.dailyUse = zeros ∧ (SkippedForSure app pref dayType ∨ app.occasionalUse < 1)) ∨
    ∃ w1 w2 w3 time es, DayOfUse app w1 w2 w3 time (minutesOn es) ∧ PlainDay app power [w1, w2, w3] time es ∧
      energy app'.dailyUse = (es.map (fun e => (e.minutes : ℚ) * e.values.getD 0 0)).sum + 1 / 1000 * (totalTime w1 w2 w3 - minutesOn es) := by
  rcases (C83_possible_days_plain hs hfix hfl hpk app'.dailyUse).1 ⟨app', h, rfl⟩ with h | ⟨_, _, w1, w2, w3, time, es, m1, m2, m3, d1, d2, d3, ht, hpl, hp⟩
  · exact .inl h
  · refine .inr ⟨w1, w2, w3, time, es, ⟨m1, m2, m3, ht, ⟨?_, hpl.total⟩, ?_, ?_⟩, hpl, energy_of_events (hs.apart w1 w2 w3 m1 m2 m3) d1 d2 d3 hpl hp⟩
    · exact minutesOn_nonneg hpl.minutes
    · exact all_used (hs.apart w1 w2 w3 m1 m2 m3) d1 d2 d3 ht hpl
    · exact all_used_room (hs.apart w1 w2 w3 m1 m2 m3) d1 d2 d3 hpl hs.shortest

/-- **C88.** An appliance without duty cycles whose windows do not touch, whatever the random draws: either it stays off (if it may), or with
`m` the minutes it is on during the day, its energy is between `m` times the least power (one appliance, lower end of the power variability) and
`m` times the greatest (all appliances, upper end), plus the marker of 0.001 for each other minute of its windows; `m` is at most the time of use of
the day, and equal to it if `func_cycle` is 1 or the windows leave enough room. -/
theorem C88_energy_of_a_day {app : Appliance} (hs : WellSeparated app) (hfix : app.fixedCycle ≤ 0) (hfl : app.flat ≠ "yes") {depth : ℕ} {pref : ℤ}
    {profI : ℕ} {peak : List ℤ} (hpk : peak ≠ []) {dayType : ℤ} {power : ℚ} (hpow : 0 ≤ power) (htv : app.thermalPVar ≤ 1) {app' : Appliance}
    (h : Returns (generateLoadProfile app (depth + 1) pref profI peak dayType power) app') :
    (app'.dailyUse = zeros ∧ (SkippedForSure app pref dayType ∨ app.occasionalUse < 1)) ∨
    ∃ w1 w2 w3 time m, DayOfUse app w1 w2 w3 time m ∧
      m * (power * (1 - app.thermalPVar)) + 1 / 1000 * (totalTime w1 w2 w3 - m) ≤ energy app'.dailyUse ∧
      energy app'.dailyUse ≤ m * (app.number * power * (1 + app.thermalPVar)) + 1 / 1000 * (totalTime w1 w2 w3 - m) := by
  rcases dayOfUse hs hfix hfl hpk h with h | ⟨w1, w2, w3, time, es, hd, hpl, he⟩
  · exact .inl h
  · obtain ⟨g1, g2⟩ := events_energy_bounds hpl hs.number hpow hs.cycles.tv htv
    exact .inr ⟨w1, w2, w3, time, _, hd, by rw [he]; linarith, by rw [he]; linarith⟩

/-- **C88.** If moreover all appliances are always on together (`fixed` is not "no") and the power does not vary, the energy of the `m` minutes is
exactly `m * number * power`. -/
theorem C88_energy_of_a_fixed_day {app : Appliance} (hs : WellSeparated app) (hfix : app.fixedCycle ≤ 0) (hfl : app.flat ≠ "yes") {depth : ℕ} {pref : ℤ}
    {profI : ℕ} {peak : List ℤ} (hpk : peak ≠ []) {dayType : ℤ} {power : ℚ} (htv : app.thermalPVar = 0) (hall : app.fixed ≠ "no") {app' : Appliance}
    (h : Returns (generateLoadProfile app (depth + 1) pref profI peak dayType power) app') :
    (app'.dailyUse = zeros ∧ (SkippedForSure app pref dayType ∨ app.occasionalUse < 1)) ∨
    ∃ w1 w2 w3 time m, DayOfUse app w1 w2 w3 time m ∧
      energy app'.dailyUse = m * (app.number * power) + 1 / 1000 * (totalTime w1 w2 w3 - m) := by
  rcases dayOfUse hs hfix hfl hpk h with h | ⟨w1, w2, w3, time, es, hd, hpl, he⟩
  · exact .inl h
  · refine .inr ⟨w1, w2, w3, time, _, hd, ?_⟩
    rw [he, add_left_inj]
    have hv : ∀ e ∈ es, (e.minutes : ℚ) * e.values.getD 0 0 = e.minutes * (app.number * power) := by
      intro e hm
      obtain ⟨f, hf, hv⟩ := hpl.power e hm
      have hn := hpl.number e hm
      unfold NumberOn at hn
      rw [if_neg hall] at hn
      rw [htv, abs_zero] at hf
      have : f = 1 := by linarith [abs_nonpos_iff.1 hf]
      rw [hv, hn, this]
      simp
    rw [List.map_congr_left hv]
    clear hv he hd hpl
    induction es with
    | nil => simp [minutesOn]
    | cons e l ih =>
      simp only [List.map_cons, List.sum_cons, ih, minutesOn]
      push_cast
      ring

/-- **C88.** Nothing random left: an appliance with `func_cycle = 1`, without any variability, with `fixed` not "no", that is used every day, takes exactly the
same energy on every day of its type and preference, whatever the random draws: `number * power` for each of its `func_time` minutes (at most 99 % of its
windows), and the marker for the others. -/
theorem C88_constant_energy {app : Appliance} (hs : WellSeparated app) (hfix : app.fixedCycle ≤ 0) (hfl : app.flat ≠ "yes") {depth : ℕ} {pref : ℤ}
    {profI : ℕ} {peak : List ℤ} (hpk : peak ≠ []) {dayType : ℤ} {power : ℚ} (htv : app.thermalPVar = 0) (hall : app.fixed ≠ "no")
    (hvar : app.timeFractionRandomVariability = 0 ∧ app.randomVar1 = 0 ∧ app.randomVar2 = 0 ∧ app.randomVar3 = 0) (hcyc : app.funcCycle = 1)
    (hocc : 1 ≤ app.occasionalUse) (huse : ¬ SkippedForSure app pref dayType) {app' : Appliance}
    (h : Returns (generateLoadProfile app (depth + 1) pref profI peak dayType power) app') :
    ∃ m : ℤ, m = min app.funcTime ⌊(99 / 100 : ℚ) * totalTime app.window1 app.window2 app.window3⌋ ∧
      energy app'.dailyUse = m * (app.number * power) + 1 / 1000 * (totalTime app.window1 app.window2 app.window3 - m) := by
  rcases C88_energy_of_a_fixed_day hs hfix hfl hpk htv hall h with ⟨_, h | h⟩ | ⟨w1, w2, w3, time, m, hd, he⟩
  · exact absurd h huse
  · linarith
  · obtain ⟨v0, v1, v2, v3⟩ := hvar
    have e1 := hd.m1
    have e2 := hd.m2
    have e3 := hd.m3
    rw [v1] at e1
    rw [v2] at e2
    rw [v3] at e3
    rw [moved_zero hs.windows.w1 e1, moved_zero hs.windows.w2 e2, moved_zero hs.windows.w3 e3] at he hd
    refine ⟨m, ?_, he⟩
    rw [hd.all hcyc]
    obtain ⟨_, n, h1, h2, h3⟩ := hd.limit
    rw [v0] at h1 h2
    simp only [sub_zero, add_zero, mul_one, Int.floor_intCast] at h1 h2
    have hft : 1 ≤ app.funcTime := by
      have := hs.time
      rcases lt_or_eq_of_le this with h | h
      · omega
      · exact absurd (.inr (.inr h.symm)) huse
    rw [h3]
    omega

theorem energy_windowProfile {w1 w2 w3 : ℤ × ℤ} (hap : WindowsApart w1 w2 w3) (d1 : DayWindow w1) (d2 : DayWindow w2) (d3 : DayWindow w3) (v : ℚ) :
    energy (windowProfile w1 w2 w3 v) = v * totalTime w1 w2 w3 := by
  have hday : ∀ w ∈ ([w1, w2, w3] : List (ℤ × ℤ)), DayWindow w := by
    intro w hw
    simp only [List.mem_cons, List.not_mem_nil, or_false] at hw
    rcases hw with rfl | rfl | rfl <;> assumption
  have hpt : ∀ i : Fin 1440, windowProfile w1 w2 w3 v i =
      v * (([w1, w2, w3] : List (ℤ × ℤ)).map (fun w => if InWindow w ((i : ℕ) : ℤ) then (1 : ℚ) else 0)).sum := by
    intro i
    by_cases hin : ∃ w ∈ ([w1, w2, w3] : List (ℤ × ℤ)), InWindow w ((i : ℕ) : ℤ)
    · obtain ⟨w, hw, hiw⟩ := hin
      rw [sum_on_one (fun w => InWindow w ((i : ℕ) : ℤ)) (fun _ => (1 : ℚ)) (apart_disjoint hap d1 d2 d3 _) hw hiw, mul_one]
      unfold windowProfile
      rw [if_pos]
      simp only [List.mem_cons, List.not_mem_nil, or_false] at hw
      rcases hw with rfl | rfl | rfl
      · exact .inl hiw
      · exact .inr (.inl hiw)
      · exact .inr (.inr hiw)
    · rw [sum_on_none (fun w => InWindow w ((i : ℕ) : ℤ)) (fun _ => (1 : ℚ)) (fun w hw hi => hin ⟨w, hw, hi⟩), mul_zero]
      unfold windowProfile
      rw [if_neg]
      rintro (h | h | h)
      · exact hin ⟨w1, by simp, h⟩
      · exact hin ⟨w2, by simp, h⟩
      · exact hin ⟨w3, by simp, h⟩
  unfold energy
  rw [Finset.sum_congr rfl (fun i _ => hpt i), ← Finset.mul_sum,
    sum_list_swap (fun (w : ℤ × ℤ) (i : Fin 1440) => if InWindow w ((i : ℕ) : ℤ) then (1 : ℚ) else 0) [w1, w2, w3],
    List.map_congr_left (f := fun w : ℤ × ℤ => ∑ i : Fin 1440, if InWindow w ((i : ℕ) : ℤ) then (1 : ℚ) else 0) (g := fun w : ℤ × ℤ => (w.2 : ℚ) - w.1)
      (fun w hw => by unfold InWindow; exact count_minutes (hday w hw).1 (hday w hw).2.1 (hday w hw).2.2)]
  simp only [List.map_cons, List.map_nil, List.sum_cons, List.sum_nil, totalTime]
  push_cast
  ring

/-- **C88.** A flat appliance whose windows do not touch takes `number * power` during all minutes of its windows of the day, and no time of use is
taken into account. -/
theorem C88_flat_energy {app : Appliance} (hs : WellSeparated app) (hfl : app.flat = "yes") {depth : ℕ} {pref : ℤ} {profI : ℕ} {peak : List ℤ}
    {dayType : ℤ} {power : ℚ} (hpw : app.power[profI]? = some power) {app' : Appliance}
    (h : Returns (generateLoadProfile app depth pref profI peak dayType power) app') :
    (app'.dailyUse = zeros ∧ (SkippedForSure app pref dayType ∨ app.occasionalUse < 1)) ∨
    ∃ w1 w2 w3, MovedWindow app.window1 app.randomVar1 w1 ∧ MovedWindow app.window2 app.randomVar2 w2 ∧ MovedWindow app.window3 app.randomVar3 w3 ∧
      energy app'.dailyUse = power * app.number * totalTime w1 w2 w3 := by
  rcases (C84_flat_days hs.windows hs.time hs.variability hfl hpw app'.dailyUse).1 ⟨app', h, rfl⟩ with
    h | ⟨_, _, w1, w2, w3, m1, m2, m3, d1, d2, d3, _, hp⟩
  · exact .inl h
  · exact .inr ⟨w1, w2, w3, m1, m2, m3, by rw [hp]; exact energy_windowProfile (hs.apart w1 w2 w3 m1 m2 m3) d1 d2 d3 _⟩

/-! ## Upper bounds for any appliance and for use cases -/

/-- The most energy one appliance of the list can take on a day: its greatest load during its longest time of use (all day, if it is flat), and the marker of
0.001 otherwise. -/
def mostEnergy (P : Appliance → ℚ) (a : Appliance) : ℚ :=
  if a.flat = "yes" then 1440 * applianceBound P a
  else max (a.funcCycle : ℚ) (a.funcTime * (1 + a.timeFractionRandomVariability)) * applianceBound P a + 1440 * (1 / 1000)

/-- Times of use and variabilities are not negative. -/
structure SensibleTime (a : Appliance) : Prop where
  time : 0 ≤ a.funcTime
  variability : 0 ≤ a.timeFractionRandomVariability ∧ a.timeFractionRandomVariability ≤ 1

theorem applianceBound_pos (P : Appliance → ℚ) (a : Appliance) : 0 < applianceBound P a :=
  lt_of_lt_of_le (by norm_num) (le_max_left _ _)

theorem energy_le_of_le {p : Profile} {B : ℚ} (h : ∀ i, p i ≤ B) : energy p ≤ 1440 * B := by
  unfold energy
  refine le_trans (Finset.sum_le_sum fun i _ => h i) ?_
  rw [Finset.sum_const, Finset.card_univ, Fintype.card_fin, nsmul_eq_mul]
  norm_num

/-- **C88.** The energy of any day of any appliance, also one with duty cycles or touching windows: at least 0 and at most its greatest load times its longest
time of use, plus the marker. -/
theorem C88_most_energy {depth k : ℕ} {peak : List ℤ} {dt pref : ℤ} {a : Appliance} {p : Profile} {P : Appliance → ℚ} (hs : PowersUpTo (P a) a)
    (ht : SensibleTime a) (h : ApplianceDay depth k peak dt pref a p) : 0 ≤ energy p ∧ energy p ≤ mostEnergy P a := by
  have hb := applianceDay_bounds hs h
  refine ⟨Finset.sum_nonneg fun i _ => (hb i).1, ?_⟩
  have hB := applianceBound_pos P a
  unfold mostEnergy
  by_cases hfl : a.flat = "yes"
  · rw [if_pos hfl]
    exact energy_le_of_le fun i => (hb i).2
  · rw [if_neg hfl]
    have hM : (0 : ℚ) ≤ max (a.funcCycle : ℚ) (a.funcTime * (1 + a.timeFractionRandomVariability)) := by
      refine le_max_of_le_left ?_
      exact_mod_cast (by have := hs.cycle; omega : (0 : ℤ) ≤ a.funcCycle)
    obtain ⟨pw, a', h1, h2, rfl⟩ := h
    obtain ⟨o, h2⟩ := returns_generate_iff.1 h2
    cases o with
    | none =>
      rcases (sat_generateInfo a depth pref k peak dt pw hs.windows hs.cycle).ret h2 with ⟨_, h, _⟩ | ⟨info, h, _⟩
      · simp only at h
        rw [h]
        show energy zeros ≤ _
        rw [energy_zeros]
        have := mul_nonneg hM hB.le
        linarith
      · simp at h
    | some info =>
      obtain ⟨hused, _⟩ := C21_minutes_in_use_partial hs.windows hs.cycle hfl ht.time ht.variability.1 ht.variability.2 h2
      set S := (Finset.univ : Finset (Fin 1440)).filter (fun i => a'.dailyUse i ≠ 0 ∧ a'.dailyUse i ≠ 1 / 1000) with hS
      have hpt : ∀ i : Fin 1440, a'.dailyUse i ≤ (if i ∈ S then applianceBound P a else 0) + 1 / 1000 := by
        intro i
        by_cases hi : i ∈ S
        · rw [if_pos hi]
          have := (hb i).2
          linarith
        · rw [if_neg hi]
          rw [hS, Finset.mem_filter] at hi
          push Not at hi
          by_cases h0 : a'.dailyUse i = 0
          · rw [h0]; norm_num
          · rw [hi (Finset.mem_univ _) h0]; norm_num
      unfold energy
      refine le_trans (Finset.sum_le_sum fun i _ => hpt i) ?_
      rw [Finset.sum_add_distrib, Finset.sum_const, Finset.card_univ, Fintype.card_fin, nsmul_eq_mul, Finset.sum_ite_mem, Finset.univ_inter,
        Finset.sum_const, nsmul_eq_mul]
      have := mul_le_mul_of_nonneg_right hused hB.le
      have e : ((1440 : ℕ) : ℚ) = 1440 := by norm_num
      rw [e]
      linarith

theorem forall₂_energy_le {α : Type} {R : α → Profile → Prop} {B : α → ℚ} {l : List α} {ps : List Profile}
    (h : List.Forall₂ R l ps) (hb : ∀ a ∈ l, ∀ p, R a p → 0 ≤ energy p ∧ energy p ≤ B a) : 0 ≤ energy (total ps) ∧ energy (total ps) ≤ (l.map B).sum := by
  rw [energy_total]
  induction h with
  | nil => simp
  | cons h1 h2 ih =>
    obtain ⟨h3, h4⟩ := ih fun b hm => hb b (List.mem_cons_of_mem _ hm)
    obtain ⟨h5, h6⟩ := hb _ (List.mem_cons_self ..) _ h1
    simp only [List.map_cons, List.sum_cons]
    exact ⟨by linarith, by linarith⟩

/-- **C88.** The energy of every simulated day of a use case is at most the sum over users of `num_users` times the greatest energies of their appliances. -/
theorem C88_most_energy_of_a_use_case {env : Env} {depth : ℕ} {uc uc' : UseCase} {ds peak : List ℤ} {days : Option (List ℤ)} {rows : List Profile}
    {P : Appliance → ℚ} (hr : Ready uc ds peak) (hs : ∀ u ∈ uc.users, ∀ a ∈ u.appList, PowersUpTo (P a) a ∧ SensibleTime a)
    (h : Returns (generateDaily env depth uc days) (uc', rows)) (p : Profile) (hp : p ∈ rows) :
    0 ≤ energy p ∧ energy p ≤ (uc.users.map (fun u => (u.numUsers.toNat : ℚ) * (u.appList.map (mostEnergy P)).sum)).sum := by
  obtain ⟨hlen, hday⟩ := (C45_superposition days hr rows).1 ⟨uc', h⟩
  obtain ⟨k, hk⟩ := List.mem_iff_getElem?.1 hp
  obtain ⟨hk1, _⟩ := List.getElem?_eq_some_iff.1 hk
  have hd : ds[k]? = some ds[k] := List.getElem?_eq_getElem (by omega)
  obtain ⟨ps, h1, rfl⟩ := hday k _ p hd hk
  refine forall₂_energy_le h1 fun u hu q hq => ?_
  obtain ⟨qs, hlen, hm, rfl⟩ := hq
  rw [energy_total]
  have hB : ∀ x ∈ qs.map energy, 0 ≤ x ∧ x ≤ (u.appList.map (mostEnergy P)).sum := by
    intro x hx
    obtain ⟨q, hq, rfl⟩ := List.mem_map.1 hx
    obtain ⟨pref, rs, _, hrs, rfl⟩ := hm q hq
    exact forall₂_energy_le hrs fun a ha r hr => C88_most_energy (hs u hu a ha).1 (hs u hu a ha).2 hr
  exact sum_nonneg_le (by simpa using hlen) hB

/-! ### A case for C88 -/

/-- Three lamps, always switched together, for twenty minutes between 18:00 and 20:00. -/
def lampRow : Appliance := { number := 3, fixed := "yes", window1 := (1080, 1200), funcTime := 20, funcCycle := 1, power := [10] }

theorem lampRow_separated : WellSeparated lampRow := by
  refine ⟨⟨?_, ?_, ?_, ?_, ?_, ?_⟩, ?_, ?_, ?_, ?_, ?_, ?_, ?_⟩
  · unfold DayWindow lampRow; norm_num
  · unfold DayWindow lampRow; norm_num
  · unfold DayWindow lampRow; norm_num
  · unfold lampRow; norm_num
  · unfold lampRow; norm_num
  · unfold lampRow; norm_num
  · intro w1 w2 w3 m1 m2 m3
    have e2 : w2 = (0, 0) := moved_zero (w := (0, 0)) (by unfold DayWindow; norm_num) m2
    have e3 : w3 = (0, 0) := moved_zero (w := (0, 0)) (by unfold DayWindow; norm_num) m3
    subst e2 e3
    unfold WindowsApart
    simp
  · constructor <;> norm_num [lampRow]
  · intro h; simp [lampRow] at h
  · norm_num [lampRow]
  · norm_num [lampRow]
  · norm_num [lampRow]
  · norm_num [lampRow]

/-- A day of the three lamps: 20 minutes at 30 W and 0.001 W in the other hundred minutes, whatever the draws. -/
example : (∃ app', Returns (generateLoadProfile lampRow 1000 0 0 (minutesFrom 0 60) 0 10) app') ∧
    ∀ app', Returns (generateLoadProfile lampRow 1000 0 0 (minutesFrom 0 60) 0 10) app' → energy app'.dailyUse = 600 + 1 / 10 := by
  constructor
  · cases hm : runOf (generateLoadProfileInfo lampRow 1000 0 0 (minutesFrom 0 60) 0 10) (constantDraws 5) with
    | none => exact absurd hm (by decide +kernel)
    | some l =>
      obtain ⟨app', info, h, _⟩ := runOf_some hm
      exact ⟨app', returns_generate_iff.2 ⟨_, h⟩⟩
  · intro app' h
    obtain ⟨m, h1, h2⟩ := C88_constant_energy lampRow_separated (by norm_num [lampRow]) (by simp [lampRow]) (depth := 999) (by simp [minutesFrom])
      rfl (by simp [lampRow]) ⟨rfl, rfl, rfl, rfl⟩ rfl (by norm_num [lampRow]) (by unfold SkippedForSure; simp [lampRow]) h
    have : m = 20 := by
      rw [h1]
      norm_num [lampRow, totalTime]
    rw [h2, this]
    norm_num [lampRow, totalTime]

end Ramp
