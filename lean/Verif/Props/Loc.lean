import Verif.Model.Loc
import Verif.Props.Draw

/-! # C98: selection of rows by their labels -/

set_option autoImplicit false

namespace Ramp

/-- `t` does not lie before the bound: not before the timestamp, or not on a day before that of the text. -/
def NotEarlier : TimeBound → ℤ → Prop
  | .stamp s, t => s ≤ t
  | .day d, t => d ≤ t / 1440

/-- `t` does not lie after the bound; all of the day of a text belongs to the slice, and so does a timestamp itself. -/
def NotLater : TimeBound → ℤ → Prop
  | .stamp s, t => t ≤ s
  | .day d, t => t / 1440 ≤ d

/-- The labels select the rows `ks` of those with the timestamps `ts`. -/
def SelectsTimes (ts : List ℤ) : RowLabels → List ℕ → Prop
  | .all, ks => ks = List.range ts.length
  | .slice a b, ks => ks.Pairwise (· < ·) ∧ ∀ k, k ∈ ks ↔ ∃ t, ts[k]? = some t ∧ (∀ x ∈ a, NotEarlier x t) ∧ ∀ x ∈ b, NotLater x t
  | .day d, ks => ((∃ t ∈ ts, t / 1440 ≤ d) ∧ ∃ t ∈ ts, d ≤ t / 1440) ∧ ks.Pairwise (· < ·) ∧ ∀ k, k ∈ ks ↔ ∃ t, ts[k]? = some t ∧ t / 1440 = d
  | .one t, ks => ∃ k, ts[k]? = some t ∧ ks = [k]
  | .many l, ks => List.Forall₂ (fun t k => ts[k]? = some t) l ks

/-- Labels that select rows and not a single one: not a timestamp, and the text of a day only if the data are finer than days. -/
def SeveralRows (ts : List ℤ) : RowLabels → Prop
  | .one _ => False
  | .day _ => ∃ t ∈ ts, t % 1440 ≠ 0
  | _ => True

theorem finer_iff (ts : List ℤ) : finerThanDays ts = true ↔ ∃ t ∈ ts, t % 1440 ≠ 0 := by
  unfold finerThanDays
  rw [List.any_eq_true]
  simp

theorem stampsOf_stamps : ∀ ts : List ℤ, stampsOf (ts.map Label.stamp) = some ts
  | [] => rfl
  | t :: ts => by rw [List.map_cons, stampsOf, stampsOf_stamps ts]; rfl

theorem lt_takeWhile {p : ℤ → Bool} (hp : ∀ s t, s ≤ t → p t = true → p s = true) : ∀ {ts : List ℤ}, ts.Pairwise (· < ·) → ∀ {k : ℕ} {t : ℤ}, ts[k]? = some t →
    (k < (ts.takeWhile p).length ↔ p t = true)
  | [], _, k, t, h => by simp at h
  | s :: ts, hs, k, t, h => by
    rw [List.pairwise_cons] at hs
    cases k with
    | zero =>
      simp only [List.getElem?_cons_zero, Option.some.injEq] at h
      subst h
      cases hps : p s with
      | true => simp [List.takeWhile_cons, hps]
      | false => simp [List.takeWhile_cons, hps]
    | succ k =>
      rw [List.getElem?_cons_succ] at h
      have ih := lt_takeWhile hp hs.2 h
      cases hps : p s with
      | true =>
        rw [List.takeWhile_cons, if_pos hps, List.length_cons, ← ih]
        omega
      | false =>
        rw [List.takeWhile_cons, if_neg (by rw [hps]; decide)]
        simp only [List.length_nil, Nat.not_lt_zero, false_iff]
        intro hpt
        rw [hp s t (le_of_lt (hs.1 t (List.mem_of_getElem? h))) hpt] at hps
        cases hps

theorem sliceList_nat {α : Type} (l : List α) (i j : ℕ) : sliceList l (some (i : ℤ)) (some (j : ℤ)) = (l.take j).drop i := by
  simp only [sliceList, Option.map_some, Option.getD_some, boundOf]
  rw [if_neg (by omega), if_neg (by omega), Int.toNat_natCast, Int.toNat_natCast]
  have h1 : l.take (min j l.length) = l.take j := by
    rw [List.take_eq_take_iff]
    omega
  rw [h1]
  rcases le_total i l.length with h | h
  · rw [min_eq_left h]
  · rw [min_eq_right h, List.drop_eq_nil_of_le (by simp), List.drop_eq_nil_of_le (by simp; omega)]

theorem chooseRows_slice (i j : ℕ) : ∀ cols : DrawnLines, chooseRows (.slice (some (i : ℤ)) (some (j : ℤ))) cols = .ok (cols.map (fun c => (c.1, (c.2.take j).drop i)))
  | [] => rfl
  | c :: cols => by
    rw [chooseRows, chooseRows_slice i j cols]
    simp only [choose, sliceList_nat, List.map_cons]

theorem sliceList_all {α : Type} (l : List α) : sliceList l none none = l := by
  simp [sliceList]

theorem rowSlice_iloc (f : Frame) (i j : ℕ) : ilocFrame f (.slice (some (i : ℤ)) (some (j : ℤ))) (.slice none none) = .ok (rowSlice f i j) := by
  unfold ilocFrame
  simp only [choose, sliceList_nat, sliceList_all, chooseRows_slice, Positions.single]
  rfl

theorem selects_all (n : ℕ) : Selects n (.slice none none) (List.range n) := by
  refine ⟨List.pairwise_lt_range, fun k => ?_⟩
  simp [NotBefore, Before]

theorem all_iloc (f : Frame) (hf : f.Ok) : ilocFrame f (.slice none none) (.slice none none) = .ok f := by
  have h : ∀ cols : DrawnLines, chooseRows (.slice none none) cols = .ok cols := by
    intro cols
    induction cols with
    | nil => rfl
    | cons c cols ih => rw [chooseRows, ih]; simp only [choose, sliceList_all]
  unfold ilocFrame
  simp only [choose, sliceList_all, h, Positions.single]
  rfl

/-- What the rows chosen by `iloc` are. -/
theorem rows_iloc {f g : Frame} (hf : f.Ok) {p : Positions} (hp : p.single = false) {ks : List ℕ} (hks : Selects f.index.length p ks)
    (h : ilocFrame f p (.slice none none) = .ok g) : IsSelection f ks (List.range f.columns.length) g := by
  obtain ⟨g', h1, h2⟩ := (iloc_cases f hf p (.slice none none)).2 ks _ hks (selects_all _)
  rw [h, hp] at h2
  cases h2
  exact h1

theorem first_iff (x : TimeBound) (t : ℤ) : x.first ≤ t ↔ NotEarlier x t := by
  cases x with
  | stamp s => exact Iff.rfl
  | day d =>
    show 1440 * d ≤ t ↔ d ≤ t / 1440
    omega

theorem last_iff (x : TimeBound) (t : ℤ) : t ≤ x.last ↔ NotLater x t := by
  cases x with
  | stamp s => exact Iff.rfl
  | day d =>
    show t ≤ 1440 * d + 1439 ↔ t / 1440 ≤ d
    omega

theorem searchLeft_iff {ts : List ℤ} (hs : ts.Pairwise (· < ·)) {k : ℕ} {t : ℤ} (h : ts[k]? = some t) (x : ℤ) : searchLeft ts x ≤ k ↔ x ≤ t := by
  have := lt_takeWhile (p := fun s => decide (s < x)) (fun s t h1 h2 => by simp only [decide_eq_true_eq] at h2 ⊢; omega) hs h
  unfold searchLeft
  simp only [decide_eq_true_eq] at this
  omega

theorem searchRight_iff {ts : List ℤ} (hs : ts.Pairwise (· < ·)) {k : ℕ} {t : ℤ} (h : ts[k]? = some t) (x : ℤ) : k < searchRight ts x ↔ t ≤ x := by
  have := lt_takeWhile (p := fun s => decide (s ≤ x)) (fun s t h1 h2 => by simp only [decide_eq_true_eq] at h2 ⊢; omega) hs h
  unfold searchRight
  simpa only [decide_eq_true_eq] using this

theorem nat_slice (n i j : ℕ) : ∃ ks, Selects n (.slice (some (i : ℤ)) (some (j : ℤ))) ks ∧ ks.Pairwise (· < ·) ∧ ∀ k, k ∈ ks ↔ k < n ∧ i ≤ k ∧ k < j := by
  obtain ⟨ks, h1, _⟩ := slice_areAt (List.range n) (some (i : ℤ)) (some (j : ℤ))
  rw [List.length_range] at h1
  refine ⟨ks, h1, h1.1, fun k => ?_⟩
  rw [h1.2]
  simp only [NotBefore, Before, Option.mem_def, Option.some.injEq, forall_eq']
  rw [if_neg (by omega), if_neg (by omega)]
  omega

theorem pairwise_mem_unique {ks ks' : List ℕ} (h : ks.Pairwise (· < ·)) (h' : ks'.Pairwise (· < ·)) (hm : ∀ k, k ∈ ks ↔ k ∈ ks') : ks = ks' := by
  refine (List.perm_of_nodup_nodup_toFinset_eq (h.imp fun h => ne_of_lt h) (h'.imp fun h => ne_of_lt h) ?_).eq_of_pairwise (fun a b _ _ h1 h2 => absurd (lt_trans h1 h2) (lt_irrefl _)) h h'
  ext k
  simp [hm]

theorem times_unique {ts : List ℤ} (hs : ts.Pairwise (· < ·)) {rows : RowLabels} {ks ks' : List ℕ} (h : SelectsTimes ts rows ks) (h' : SelectsTimes ts rows ks') : ks = ks' := by
  have huniq : ∀ {t : ℤ} {k k' : ℕ}, ts[k]? = some t → ts[k']? = some t → k = k' := by
    intro t k k' h1 h2
    have hnd : ts.Nodup := hs.imp fun h => ne_of_lt h
    exact (List.getElem?_inj (List.getElem?_eq_some_iff.1 h1).1 hnd).1 (h1.trans h2.symm)
  cases rows with
  | all => rw [show ks = _ from h, show ks' = _ from h']
  | slice a b => exact pairwise_mem_unique h.1 h'.1 fun k => (h.2 k).trans (h'.2 k).symm
  | day d => exact pairwise_mem_unique h.2.1 h'.2.1 fun k => (h.2.2 k).trans (h'.2.2 k).symm
  | one t =>
    obtain ⟨k, h1, rfl⟩ := h
    obtain ⟨k', h2, rfl⟩ := h'
    rw [huniq h1 h2]
  | many l =>
    have h1 : List.Forall₂ (fun t k => ts[k]? = some t) l ks := h
    have h2 : List.Forall₂ (fun t k => ts[k]? = some t) l ks' := h'
    clear h h'
    induction h1 generalizing ks' with
    | nil => cases h2; rfl
    | cons g1 _ ih =>
      cases h2 with
      | cons g2 g3 => rw [huniq g1 g2, ih g3]

/-- What `loc` does with row labels that are not single: the rows selected, or `KeyError`. -/
theorem locRows_cases {f : Frame} (hf : f.Ok) {ts : List ℤ} (hidx : f.index = ts.map Label.stamp) (hs : ts.Pairwise (· < ·)) {rows : RowLabels} (hr : SeveralRows ts rows) :
    (∃ ks g, SelectsTimes ts rows ks ∧ IsSelection f ks (List.range f.columns.length) g ∧ locRows f rows = .ok (g, false)) ∨
    ((¬ ∃ ks, SelectsTimes ts rows ks) ∧ locRows f rows = .error .keyError) := by
  have hlen : f.index.length = ts.length := by rw [hidx, List.length_map]
  have hlt : ∀ {k : ℕ}, k < ts.length ↔ ∃ t, ts[k]? = some t := by
    intro k
    constructor
    · intro h
      exact ⟨ts[k], List.getElem?_eq_getElem h⟩
    · rintro ⟨t, h⟩
      exact (List.getElem?_eq_some_iff.1 h).1
  unfold locRows
  rw [hidx, stampsOf_stamps]
  simp only
  cases rows with
  | all =>
    left
    refine ⟨List.range ts.length, f, rfl, ?_, rfl⟩
    have := rows_iloc hf (p := .slice none none) rfl (selects_all _) (all_iloc f hf)
    rwa [hlen] at this
  | slice a b =>
    left
    simp only
    obtain ⟨ks, k1, k2, k3⟩ := nat_slice ts.length ((a.map (fun x => searchLeft ts x.first)).getD 0) ((b.map (fun x => searchRight ts x.last)).getD ts.length)
    refine ⟨ks, _, ⟨k2, fun k => ?_⟩, rows_iloc hf rfl (by rw [hlen]; exact k1) (rowSlice_iloc f _ _), rfl⟩
    rw [k3]
    constructor
    · rintro ⟨h1, h2, h3⟩
      obtain ⟨t, ht⟩ := hlt.1 h1
      refine ⟨t, ht, fun x hx => ?_, fun x hx => ?_⟩
      · cases hx
        exact (first_iff x t).1 ((searchLeft_iff hs ht _).1 h2)
      · cases hx
        exact (last_iff x t).1 ((searchRight_iff hs ht _).1 h3)
    · rintro ⟨t, ht, h2, h3⟩
      refine ⟨hlt.2 ⟨t, ht⟩, ?_, ?_⟩
      · cases a with
        | none => exact Nat.zero_le _
        | some x => exact (searchLeft_iff hs ht _).2 ((first_iff x t).2 (h2 x rfl))
      · cases b with
        | none => exact hlt.2 ⟨t, ht⟩
        | some x => exact (searchRight_iff hs ht _).2 ((last_iff x t).2 (h3 x rfl))
  | day d =>
    have hfin : finerThanDays ts = true := (finer_iff ts).2 hr
    simp only [rowsOfDay]
    rw [if_pos hfin]
    have hne : ts ≠ [] := by
      rintro rfl
      obtain ⟨t, h, _⟩ := hr
      cases h
    have hhead : ∀ t ∈ ts, ts.headD 0 ≤ t := by
      cases ts with
      | nil => exact absurd rfl hne
      | cons s l =>
        intro t ht
        rcases List.mem_cons.1 ht with rfl | ht
        · exact le_refl _
        · exact le_of_lt ((List.pairwise_cons.1 hs).1 t ht)
    have hheadm : ts.headD 0 ∈ ts := by
      cases ts with
      | nil => exact absurd rfl hne
      | cons s l => exact List.mem_cons_self
    have hlastm : ts.getLastD 0 ∈ ts := by
      rw [List.getLastD_eq_getLast?, List.getLast?_eq_some_getLast hne]
      exact List.getLast_mem hne
    have hlast : ∀ t ∈ ts, t ≤ ts.getLastD 0 := by
      intro t ht
      rw [List.getLastD_eq_getLast?, List.getLast?_eq_some_getLast hne]
      show t ≤ ts.getLast hne
      have hap : ts.dropLast ++ [ts.getLast hne] = ts := List.dropLast_append_getLast hne
      rw [← hap] at ht hs
      rcases List.mem_append.1 ht with h | h
      · exact le_of_lt ((List.pairwise_append.1 hs).2.2 t h _ (List.mem_singleton.2 rfl))
      · rw [List.mem_singleton.1 h]
    by_cases hout : 1440 * d + 1439 < ts.headD 0 ∨ ts.getLastD 0 < 1440 * d
    · right
      rw [if_pos hout]
      refine ⟨?_, rfl⟩
      rintro ⟨ks, ⟨⟨t, ht, h1⟩, t', ht', h2⟩, _⟩
      have := hhead t ht
      have := hlast t' ht'
      omega
    · left
      rw [if_neg hout]
      push Not at hout
      obtain ⟨ks, k1, k2, k3⟩ := nat_slice ts.length (searchLeft ts (1440 * d)) (searchRight ts (1440 * d + 1439))
      refine ⟨ks, _, ⟨⟨⟨_, hheadm, by omega⟩, _, hlastm, by omega⟩, k2, fun k => ?_⟩, rows_iloc hf rfl (by rw [hlen]; exact k1) (rowSlice_iloc f _ _), rfl⟩
      rw [k3]
      constructor
      · rintro ⟨h1, h2, h3⟩
        obtain ⟨t, ht⟩ := hlt.1 h1
        rw [searchLeft_iff hs ht] at h2
        rw [searchRight_iff hs ht] at h3
        exact ⟨t, ht, by omega⟩
      · rintro ⟨t, ht, h2⟩
        exact ⟨hlt.2 ⟨t, ht⟩, (searchLeft_iff hs ht _).2 (by omega), (searchRight_iff hs ht _).2 (by omega)⟩
  | one t => exact hr.elim
  | many l =>
    simp only
    by_cases hall : ∀ t ∈ l, t ∈ ts
    · left
      rw [if_pos hall]
      have hsel : List.Forall₂ (At ts.length) (l.map (fun t => (ts.idxOf t : ℤ))) (l.map ts.idxOf) := by
        clear hr
        induction l with
        | nil => exact .nil
        | cons t l ih =>
          refine .cons ⟨List.idxOf_lt_length_iff.2 (hall t List.mem_cons_self), .inl ⟨Int.natCast_nonneg _, rfl⟩⟩ (ih fun s h => hall s (List.mem_cons_of_mem _ h))
      obtain ⟨g, h1, h2⟩ := (iloc_cases f hf (.many (l.map (fun t => (ts.idxOf t : ℤ)))) (.slice none none)).2 (l.map ts.idxOf) _
        (by rw [hlen]; exact hsel) (selects_all _)
      rw [if_neg (by simp [Positions.single])] at h2
      rw [h2]
      refine ⟨l.map ts.idxOf, g, ?_, h1, rfl⟩
      show List.Forall₂ (fun t k => ts[k]? = some t) l (l.map ts.idxOf)
      clear h1 h2 hsel hr
      induction l with
      | nil => exact .nil
      | cons t l ih =>
        refine .cons ?_ (ih fun s h => hall s (List.mem_cons_of_mem _ h))
        have h3 := List.idxOf_lt_length_iff.2 (hall t List.mem_cons_self)
        rw [List.getElem?_eq_getElem h3, List.getElem_idxOf]
    · right
      rw [if_neg hall]
      refine ⟨?_, rfl⟩
      rintro ⟨ks, hks⟩
      refine hall fun t ht => ?_
      have hks' : List.Forall₂ (fun t k => ts[k]? = some t) l ks := hks
      clear hks hall hr
      induction hks' with
      | nil => cases ht
      | cons g1 _ ih =>
        rcases List.mem_cons.1 ht with rfl | ht
        · exact List.mem_of_getElem? g1
        · exact ih ht

/-- **C98, `loc` by rows, partial.** For data over sorted timestamps, called with a slice of timestamps or of texts of days, a list of timestamps, or the text of a day (if the data
are finer than days), `loc` returns the rows selected, in the order asked for, with all columns: a slice contains both of its bounds and all of the day of a text; else, when
a timestamp of the list is missing or the day lies before or after all of the data, it raises `KeyError`.  Missing: a single timestamp (`C98_loc_one_row_partial`). -/
theorem C98_loc_rows_partial {f : Frame} (hf : f.Ok) {ts : List ℤ} (hidx : f.index = ts.map Label.stamp) (hs : ts.Pairwise (· < ·)) {rows : RowLabels} (hr : SeveralRows ts rows) :
    (∀ g, locFrame f rows .none = .ok g ↔ ∃ ks, SelectsTimes ts rows ks ∧ IsSelection f ks (List.range f.columns.length) g) ∧
    (∀ e, locFrame f rows .none = .error e ↔ e = .keyError ∧ ¬ ∃ ks, SelectsTimes ts rows ks) := by
  unfold locFrame
  rcases locRows_cases hf hidx hs hr with ⟨ks, g, h1, h2, h3⟩ | ⟨h1, h2⟩
  · rw [h3]
    simp only [locColumns]
    refine ⟨fun g' => ?_, fun e => ?_⟩
    · constructor
      · intro h
        cases h
        exact ⟨ks, h1, h2⟩
      · rintro ⟨ks', g1, g2⟩
        rw [times_unique hs g1 h1] at g2
        rw [isSelection_unique g2 h2]
        rfl
    · constructor
      · intro h
        cases h
      · rintro ⟨_, h⟩
        exact absurd ⟨ks, h1⟩ h
  · rw [h2]
    simp only
    refine ⟨fun g => ?_, fun e => ?_⟩
    · constructor
      · intro h
        cases h
      · rintro ⟨ks, h3, _⟩
        exact absurd ⟨ks, h3⟩ h1
    · constructor
      · intro h
        cases h
        exact ⟨rfl, h1⟩
      · rintro ⟨rfl, _⟩
        rfl

/-- **C98, `loc` by rows and columns, partial.** With rows and columns `loc` returns what it returns for the rows first and then for the columns, and it raises what the first of these
that fails raises. -/
theorem C98_loc_both_partial (f : Frame) (rows : RowLabels) (columns : Chosen) {ts : List ℤ} (hidx : f.index = ts.map Label.stamp) (hr : SeveralRows ts rows) :
    locFrame f rows columns = (match locFrame f rows .none with
      | .ok g => locColumns g columns
      | .error e => .error e) := by
  have hfalse : ∀ x, locRows f rows = .ok x → x.2 = false := by
    intro x hx
    unfold locRows at hx
    rw [hidx, stampsOf_stamps] at hx
    cases rows with
    | all => cases hx; rfl
    | slice a b => cases hx; rfl
    | day d =>
      simp only [rowsOfDay] at hx
      rw [if_pos ((finer_iff ts).2 hr)] at hx
      split_ifs at hx
      cases hx; rfl
    | one t => exact hr.elim
    | many l =>
      simp only at hx
      split_ifs at hx
      cases h : ilocFrame f (.many (l.map (fun t => (ts.idxOf t : ℤ)))) (.slice none none) with
      | error e => rw [h] at hx; cases hx
      | ok g => rw [h] at hx; cases hx; rfl
  unfold locFrame
  cases h : locRows f rows with
  | error e => rfl
  | ok x =>
    obtain ⟨g, single⟩ := x
    have := hfalse _ h
    simp only at this
    subst this
    simp only
    rw [show locColumns g .none = .ok g from rfl]
    cases h2 : locColumns g columns with
    | error e => simp [h2]
    | ok x => simp [h2]

/-- **C98 is false for single rows**: a timestamp that is there raises `ValueError`, one that is not `KeyError`; the text of a day does the same when the data have one row per day. -/
theorem C98_loc_one_row_partial (f : Frame) {ts : List ℤ} (hidx : f.index = ts.map Label.stamp) (t : ℤ) :
    locFrame f (.one t) .none = .error (if t ∈ ts then .valueError else .keyError) ∧
    ((∀ t ∈ ts, t % 1440 = 0) → ∀ d, locFrame f (.day d) .none = locFrame f (.one (1440 * d)) .none) := by
  unfold locFrame locRows
  rw [hidx, stampsOf_stamps]
  refine ⟨?_, fun h d => ?_⟩
  · simp only [rowAt]
    by_cases ht : t ∈ ts
    · rw [if_pos ht, if_pos ht]
      rfl
    · rw [if_neg ht, if_neg ht]
  · simp only [rowsOfDay]
    rw [if_neg]
    rw [finer_iff]
    rintro ⟨t, h1, h2⟩
    exact h2 (h t h1)

/-- Non-vacuity of C98: data every six hours of two days. -/
def sixHours : Frame := { index := [.stamp 0, .stamp 360, .stamp 720, .stamp 1080, .stamp 1440, .stamp 1800], columns := [("case 1", [some 1, some 2, some 3, some 4, some 5, some 6])] }

example : sixHours.Ok ∧ sixHours.index = [0, 360, 720, 1080, 1440, 1800].map Label.stamp ∧ [(0 : ℤ), 360, 720, 1080, 1440, 1800].Pairwise (· < ·) ∧
    SeveralRows [0, 360, 720, 1080, 1440, 1800] (.day 1) :=
  ⟨⟨by decide +kernel, by decide +kernel⟩, rfl, by decide, 360, by decide, by decide⟩

example : locFrame sixHours (.slice (some (.stamp 361)) (some (.day 0))) .none = .ok { index := [.stamp 720, .stamp 1080], columns := [("case 1", [some 3, some 4])] } ∧
    locFrame sixHours (.day 1) (.names ["case 1"]) = .ok { index := [.stamp 1440, .stamp 1800], columns := [("case 1", [some 5, some 6])] } ∧
    locFrame sixHours (.day 2) .none = .error .keyError ∧ locFrame sixHours (.one 360) .none = .error .valueError ∧
    locFrame sixHours (.many [1440, 0]) .none = .ok { index := [.stamp 1440, .stamp 0], columns := [("case 1", [some 5, some 1])] } ∧
    locFrame sixHours (.many [1441]) .none = .error .keyError := by decide +kernel

end Ramp
