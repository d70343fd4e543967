import Verif.Model.Draw
import Verif.Props.Post

/-! # Properties C97, C98: what the plots draw, and selections of the data -/

set_option autoImplicit false

namespace Ramp

/-! ## C97: what the plots draw -/

/-- The engine is one of the two documented names, in upper or lower case letters. -/
def KnownEngine (engine : String) : Prop := engine.toList.map Char.toLower = "matplotlib".toList ∨ engine.toList.map Char.toLower = "plotly".toList

/-- The names that the argument `columns` asks for, `None` if it asks for everything. -/
def Chosen.asked : Chosen → Option (List String)
  | .none => Option.none
  | .name c => some [c]
  | .names l => some l

theorem toLower_eq_iff (s t : String) : s.toLower = t ↔ s.toList.map Char.toLower = t.toList := by
  rw [← String.toList_inj]
  unfold String.toLower
  rw [String.toList_map]

theorem checkEngine_known {engine : String} (h : KnownEngine engine) : ∃ e, checkEngine engine = .ok e := by
  unfold checkEngine
  rcases h with h | h
  · rw [← toLower_eq_iff] at h
    rw [if_pos h]; exact ⟨_, rfl⟩
  · rw [← toLower_eq_iff] at h
    split_ifs <;> exact ⟨_, rfl⟩

theorem checkEngine_unknown {engine : String} (h : ¬ KnownEngine engine) : checkEngine engine = .error .valueError := by
  unfold KnownEngine at h
  rw [← toLower_eq_iff, ← toLower_eq_iff] at h
  unfold checkEngine
  rw [if_neg (fun h1 => h (.inl h1)), if_neg (fun h1 => h (.inr h1))]

theorem lookup_iff_mem {β : Type} {c : String} {v : β} : ∀ {l : List (String × β)}, (l.map (fun p => p.1)).Nodup → (l.lookup c = some v ↔ (c, v) ∈ l)
  | [], _ => by simp
  | (d, w) :: l, h => by
    rw [List.map_cons, List.nodup_cons] at h
    rw [List.lookup_cons]
    by_cases hcd : c = d
    · subst hcd
      simp only [beq_self_eq_true, Option.some.injEq, List.mem_cons, Prod.mk.injEq, true_and]
      constructor
      · intro he; exact .inl he.symm
      · rintro (he | he)
        · exact he.symm
        · exact absurd (List.mem_map_of_mem (f := fun p : String × β => p.1) he) h.1
    · have : (c == d) = false := by simp [hcd]
      simp only [this, List.mem_cons, Prod.mk.injEq, hcd, false_and, false_or]
      exact lookup_iff_mem h.2

theorem column_lookup_none {β : Type} {c : String} : ∀ {l : List (String × β)}, l.lookup c = none ↔ c ∉ l.map (fun p => p.1)
  | [] => by simp
  | (d, w) :: l => by
    rw [List.lookup_cons]
    by_cases hcd : c = d
    · subst hcd; simp
    · have : (c == d) = false := by simp [hcd]
      simp only [this, List.map_cons, List.mem_cons, hcd, false_or]
      exact column_lookup_none

theorem column_ok_iff {f : Frame} (hf : f.Ok) {c : String} {l : List (Option ℚ)} : f.column c = .ok l ↔ (c, l) ∈ f.columns := by
  rw [← lookup_iff_mem hf.names]
  unfold Frame.column
  cases f.columns.lookup c <;> simp

theorem column_error_iff {f : Frame} {c : String} {e : Err} : f.column c = .error e ↔ e = .keyError ∧ c ∉ f.columns.map (fun p => p.1) := by
  rw [← column_lookup_none]
  unfold Frame.column
  cases f.columns.lookup c <;> simp [eq_comm]

theorem select_ok_iff {f : Frame} (hf : f.Ok) : ∀ {l : List String} {r : DrawnLines},
    selectFrame f l = .ok r ↔ r.map (fun d => d.1) = l ∧ ∀ d ∈ r, d ∈ f.columns
  | [], r => by
    simp only [selectFrame, Except.ok.injEq, List.map_eq_nil_iff]
    constructor
    · rintro rfl; simp
    · rintro ⟨rfl, _⟩; rfl
  | k :: ks, r => by
    simp only [selectFrame]
    cases hc : f.column k with
    | error e =>
      have hk := (column_error_iff.1 hc).2
      simp only [reduceCtorEq, false_iff]
      rintro ⟨h1, h2⟩
      cases r with
      | nil => simp at h1
      | cons d r =>
        simp only [List.map_cons, List.cons.injEq] at h1
        exact hk (h1.1 ▸ List.mem_map_of_mem (f := fun p : String × List (Option ℚ) => p.1) (h2 d (by simp)))
    | ok l =>
      have hk := (column_ok_iff hf).1 hc
      simp only
      have uniq : ∀ d ∈ f.columns, d.1 = k → d = (k, l) := by
        intro d hd he
        have : f.column k = .ok d.2 := (column_ok_iff hf).2 (by rw [← he]; exact hd)
        rw [hc, Except.ok.injEq] at this
        exact Prod.ext he this.symm
      cases hs : selectFrame f ks with
      | error e =>
        simp only [reduceCtorEq, false_iff]
        rintro ⟨h1, h2⟩
        cases r with
        | nil => simp at h1
        | cons d r =>
          simp only [List.map_cons, List.cons.injEq] at h1
          have := (select_ok_iff hf (l := ks) (r := r)).2 ⟨h1.2, fun d hd => h2 d (by simp [hd])⟩
          rw [hs] at this
          cases this
      | ok r' =>
        have ih := (select_ok_iff hf (l := ks) (r := r')).1 hs
        simp only [Except.ok.injEq]
        constructor
        · rintro rfl
          refine ⟨by simp [ih.1], ?_⟩
          intro d hd
          rcases List.mem_cons.1 hd with rfl | hd
          · exact hk
          · exact ih.2 d hd
        · rintro ⟨h1, h2⟩
          cases r with
          | nil => simp at h1
          | cons d r =>
            simp only [List.map_cons, List.cons.injEq] at h1
            have := (select_ok_iff hf (l := ks) (r := r)).2 ⟨h1.2, fun d hd => h2 d (by simp [hd])⟩
            rw [hs, Except.ok.injEq] at this
            rw [this, uniq d (h2 d (by simp)) h1.1]

theorem select_error_iff {f : Frame} {e : Err} : ∀ {l : List String},
    selectFrame f l = .error e ↔ e = .keyError ∧ ∃ c ∈ l, c ∉ f.columns.map (fun p => p.1)
  | [] => by simp [selectFrame]
  | k :: ks => by
    simp only [selectFrame]
    cases hc : f.column k with
    | error e' =>
      have hk := column_error_iff.1 hc
      simp only [Except.error.injEq]
      constructor
      · rintro rfl; exact ⟨hk.1, k, by simp, hk.2⟩
      · rintro ⟨rfl, _⟩; exact hk.1
    | ok l =>
      have hk : k ∈ f.columns.map (fun p => p.1) := by
        by_contra h
        have := (column_error_iff (f := f) (c := k) (e := .keyError)).2 ⟨rfl, h⟩
        rw [hc] at this; cases this
      have ih := select_error_iff (f := f) (e := e) (l := ks)
      simp only
      have : (∃ c ∈ k :: ks, c ∉ f.columns.map (fun p => p.1)) ↔ ∃ c ∈ ks, c ∉ f.columns.map (fun p => p.1) := by
        constructor
        · rintro ⟨c, hc, hn⟩
          rcases List.mem_cons.1 hc with rfl | hc
          · exact absurd hk hn
          · exact ⟨c, hc, hn⟩
        · rintro ⟨c, hc, hn⟩; exact ⟨c, by simp [hc], hn⟩
      rw [this, ← ih]
      cases selectFrame f ks <;> simp

/-- **C97, `line` and `area`.** Any engine other than the two documented ones (in whatever case) is refused with `ValueError`.  With one of
them, `columns=None` draws every column of the data, and a name or a list of names draws exactly the columns of these names, in the order
asked for, each with its values in the data; it fails only if one of them is missing, with `KeyError`. -/
theorem C97_lines (f : Frame) (hf : f.Ok) (columns : Chosen) (engine : String) :
    (¬ KnownEngine engine → drawLines f columns engine = .error .valueError) ∧
    (KnownEngine engine →
      (columns.asked = none → drawLines f columns engine = .ok f.columns) ∧
      ∀ l, columns.asked = some l →
        (∀ drawn, drawLines f columns engine = .ok drawn ↔ drawn.map (fun d => d.1) = l ∧ ∀ d ∈ drawn, d ∈ f.columns) ∧
        (∀ e, drawLines f columns engine = .error e ↔ e = .keyError ∧ ∃ c ∈ l, c ∉ f.columns.map (fun d => d.1))) := by
  unfold drawLines
  refine ⟨fun h => (by rw [checkEngine_unknown h]), fun h => ?_⟩
  obtain ⟨e, he⟩ := checkEngine_known h
  rw [he]
  cases columns with
  | none => exact ⟨fun _ => rfl, fun l hl => by cases hl⟩
  | name c =>
    refine ⟨fun h => (by cases h), fun l hl => ?_⟩
    cases hl
    exact ⟨fun _ => select_ok_iff hf, fun _ => select_error_iff⟩
  | names l =>
    refine ⟨fun h => (by cases h), fun l hl => ?_⟩
    cases hl
    exact ⟨fun _ => select_ok_iff hf, fun _ => select_error_iff⟩

/-- **C97, `load_duration_curve`.** The curve drawn is that of C66; other engines are refused, a missing column is a `KeyError`. -/
theorem C97_duration_curve (f : Frame) (column engine : String) :
    (¬ KnownEngine engine → drawDurationCurve f column engine = .error .valueError) ∧
    (KnownEngine engine → drawDurationCurve f column engine = loadDurationCurve f column ∧
      (column ∉ f.columns.map (fun d => d.1) ↔ drawDurationCurve f column engine = .error .keyError)) := by
  unfold drawDurationCurve
  refine ⟨fun h => (by rw [checkEngine_unknown h]), fun h => ?_⟩
  obtain ⟨e, he⟩ := checkEngine_known h
  rw [he]
  refine ⟨rfl, ?_⟩
  simp only [loadDurationCurve]
  constructor
  · intro hc
    rw [column_error_iff.2 ⟨rfl, hc⟩]
  · intro hl
    cases hc : f.column column with
    | error e => exact (column_error_iff.1 hc).2
    | ok l => rw [hc] at hl; cases hl

/-- `l` holds, row by row, the mean of the columns of `f` (missing values skipped). -/
def RowMeans (f : Frame) (l : List (Option ℚ)) : Prop := l.length = f.index.length ∧
  ∀ i < f.index.length, ∃ row : List (Option ℚ), row.length = f.columns.length ∧
    (∀ (j : ℕ) (c : String × List (Option ℚ)), f.columns[j]? = some c → row[j]? = c.2[i]?) ∧
    ∃ x, l[i]? = some x ∧ IsAggregate .mean (present row) x

theorem shadowMain_spec (f : Frame) (hf : f.Ok) (main : Option String) (average : Bool) :
    ((main.isSome ↔ average = true) → shadowMain f main average = .error .valueError) ∧
    (main = none → average = true → ∃ m, shadowMain f main average = .ok ("Average", m) ∧ RowMeans f m) ∧
    (∀ c, main = some c → average = false →
      (∀ d, shadowMain f main average = .ok d ↔ d.1 = c ∧ d ∈ f.columns) ∧
      (∀ e, shadowMain f main average = .error e ↔ e = .keyError ∧ c ∉ f.columns.map (fun d => d.1))) := by
  refine ⟨?_, ?_, ?_⟩
  · cases main <;> cases average <;> simp [shadowMain]
  · rintro rfl rfl
    obtain ⟨_, _, s, m, _, hm, _, hlen, hrow⟩ := C79_across_columns f hf
    have hc : (meanFrame f).column "Mean" = .ok m := by
      unfold Frame.column; rw [hm]; simp [List.lookup]
    refine ⟨m, by simp only [shadowMain, hc], hlen, fun i hi => ?_⟩
    obtain ⟨row, h1, h2, _, h4, _⟩ := hrow i hi
    exact ⟨row, h1, h2, h4⟩
  · rintro c rfl rfl
    simp only [shadowMain]
    cases hc : f.column c with
    | ok l =>
      have hm := (column_ok_iff hf).1 hc
      have hin : c ∈ f.columns.map (fun d => d.1) := List.mem_map_of_mem (f := fun d : String × List (Option ℚ) => d.1) hm
      refine ⟨fun d => ?_, fun e => by simp only [reduceCtorEq, hin, not_true_eq_false, and_false]⟩
      simp only [Except.ok.injEq]
      constructor
      · rintro rfl; exact ⟨rfl, hm⟩
      · rintro ⟨rfl, hd⟩
        have : f.column d.1 = .ok d.2 := (column_ok_iff hf).2 hd
        rw [hc, Except.ok.injEq] at this
        rw [this]
    | error e' =>
      have hk := column_error_iff.1 hc
      refine ⟨fun d => ?_, fun e => ?_⟩
      · simp only [reduceCtorEq, false_iff]
        rintro ⟨rfl, hd⟩
        exact hk.2 (List.mem_map_of_mem (f := fun d : String × List (Option ℚ) => d.1) hd)
      · simp only [Except.error.injEq, hk.1, hk.2, not_false_eq_true, and_true, eq_comm]

/-- **C97, `shadow`, partial.** With a documented engine and `columns` a text: the dark line is the average of the columns, row by row, if
`average=True` and no main column is given, and the main column if it is given and `average=False`; every other combination is a
`ValueError`.  The light lines are all columns if `columns` is "all" in whatever case, else the one named.  A missing column is a `KeyError`.
Missing: a list of columns, the documented type of the argument (`C97_shadow_list_partial`). -/
theorem C97_shadow_partial (f : Frame) (hf : f.Ok) (main : Option String) (columns : String) (average : Bool) (engine : String) :
    (¬ KnownEngine engine → drawShadow f main (.name columns) average engine = .error .valueError) ∧
    (KnownEngine engine →
      ((main.isSome ↔ average = true) → drawShadow f main (.name columns) average engine = .error .valueError) ∧
      ∀ wanted : List String, wanted = (if columns.toList.map Char.toLower = "all".toList then f.columns.map (fun d => d.1) else [columns]) →
      (main = none → average = true →
        (∀ s, drawShadow f main (.name columns) average engine = .ok s → s.main.1 = "Average" ∧ RowMeans f s.main.2 ∧
          s.others.map (fun d => d.1) = wanted ∧ ∀ d ∈ s.others, d ∈ f.columns) ∧
        (∀ e, drawShadow f main (.name columns) average engine = .error e ↔ e = .keyError ∧ ∃ c ∈ wanted, c ∉ f.columns.map (fun d => d.1))) ∧
      (∀ c, main = some c → average = false →
        (∀ s, drawShadow f main (.name columns) average engine = .ok s → s.main.1 = c ∧ s.main ∈ f.columns ∧
          s.others.map (fun d => d.1) = wanted ∧ ∀ d ∈ s.others, d ∈ f.columns) ∧
        (∀ e, drawShadow f main (.name columns) average engine = .error e ↔
          e = .keyError ∧ ∃ d ∈ c :: wanted, d ∉ f.columns.map (fun d => d.1)))) := by
  unfold drawShadow
  refine ⟨fun h => (by rw [checkEngine_unknown h]), fun h => ?_⟩
  obtain ⟨e, he⟩ := checkEngine_known h
  rw [he]
  obtain ⟨h1, h2, h3⟩ := shadowMain_spec f hf main average
  refine ⟨fun h => (by simp only [h1 h]), fun wanted hw => ?_⟩
  have ho : shadowOthers f (.name columns) = selectFrame f wanted := by
    simp only [shadowOthers, toLower_eq_iff]
    rw [hw]
    split_ifs <;> rfl
  refine ⟨fun ha hb => ?_, fun c ha hb => ?_⟩
  · obtain ⟨m, hm, hr⟩ := h2 ha hb
    simp only [hm, ho]
    constructor
    · intro s hs
      cases hsel : selectFrame f wanted with
      | error e => rw [hsel] at hs; cases hs
      | ok o =>
        rw [hsel] at hs
        simp only [Except.ok.injEq] at hs
        subst hs
        exact ⟨rfl, hr, (select_ok_iff hf).1 hsel⟩
    · intro e
      rw [← select_error_iff]
      cases selectFrame f wanted <;> simp
  · obtain ⟨h4, h5⟩ := h3 c ha hb
    cases hm : shadowMain f main average with
    | error e' =>
      have hk := (h5 e').1 hm
      refine ⟨fun s hs => (by cases hs), fun e => ?_⟩
      simp only [Except.error.injEq]
      constructor
      · rintro rfl; exact ⟨hk.1, c, by simp, hk.2⟩
      · rintro ⟨rfl, _⟩; exact hk.1
    | ok m =>
      have hk := (h4 m).1 hm
      have hin : c ∈ f.columns.map (fun d => d.1) := hk.1 ▸ List.mem_map_of_mem (f := fun d : String × List (Option ℚ) => d.1) hk.2
      simp only [ho]
      constructor
      · intro s hs
        cases hsel : selectFrame f wanted with
        | error e => rw [hsel] at hs; cases hs
        | ok o =>
          rw [hsel] at hs
          simp only [Except.ok.injEq] at hs
          subst hs
          exact ⟨hk.1, hk.2, (select_ok_iff hf).1 hsel⟩
      · intro e
        have : (∃ d ∈ c :: wanted, d ∉ f.columns.map (fun p => p.1)) ↔ ∃ d ∈ wanted, d ∉ f.columns.map (fun p => p.1) := by
          constructor
          · rintro ⟨d, hd, hn⟩
            rcases List.mem_cons.1 hd with rfl | hd
            · exact absurd hin hn
            · exact ⟨d, hd, hn⟩
          · rintro ⟨d, hd, hn⟩; exact ⟨d, by simp [hd], hn⟩
        rw [this, ← select_error_iff]
        cases selectFrame f wanted <;> simp

/-- **C97 is false for lists of columns in `shadow`.** The documented type of `columns` is a list, but no list is ever drawn: once the other
arguments are fine, every list raises `AttributeError`. -/
theorem C97_shadow_list_partial (f : Frame) (l : List String) (engine : String) (main : Option String) (average : Bool) :
    (∀ s, drawShadow f main (.names l) average engine ≠ .ok s) ∧
    (f.Ok → KnownEngine engine → drawShadow f none (.names l) true engine = .error .attributeError) := by
  constructor
  · intro s
    unfold drawShadow
    cases checkEngine engine with
    | error e => simp
    | ok _ => cases shadowMain f main average <;> simp [shadowOthers]
  · intro hf h
    obtain ⟨e, he⟩ := checkEngine_known h
    obtain ⟨m, hm, _⟩ := (shadowMain_spec f hf none true).2.1 rfl rfl
    simp only [drawShadow, he, hm, shadowOthers]

theorem smallFrame_ok : smallFrame.Ok := ⟨by decide +kernel, by decide +kernel⟩

/-- Non-vacuity of C97. -/
example : KnownEngine "Plotly" ∧ ¬ KnownEngine "bokeh" ∧ drawLines smallFrame (.names ["case 2", "case 1"]) "Plotly" =
      .ok [("case 2", [some 1, some 1, some 1, some 0, some 0]), ("case 1", [some 3, some 1, none, some 5, some 2])] ∧
    drawLines smallFrame (.name "case 3") "MATPLOTLIB" = .error .keyError ∧
    drawShadow smallFrame none (.name "All") true "plotly" =
      .ok ⟨("Average", [some 2, some 1, some 1, some (5 / 2), some 1]), smallFrame.columns⟩ := by
  unfold KnownEngine
  decide +kernel

/-! ## C98: selections -/

/-- The position `i`, counted from the end if it is negative, is `k`, one of `n` elements. -/
def At (n : ℕ) (i : ℤ) (k : ℕ) : Prop := k < n ∧ ((0 ≤ i ∧ (k : ℤ) = i) ∨ (i < 0 ∧ (k : ℤ) = i + n))

/-- `k` is not before the bound `a`, counted from the end if it is negative. -/
def NotBefore (n : ℕ) (a : Option ℤ) (k : ℕ) : Prop := ∀ x ∈ a, (if x < 0 then x + n else x) ≤ k

/-- `k` is before the bound `b`. -/
def Before (n : ℕ) (b : Option ℤ) (k : ℕ) : Prop := ∀ x ∈ b, (k : ℤ) < (if x < 0 then x + n else x)

/-- The argument selects the positions `ks` of `n`: a slice those within its bounds, in their order; a list its positions, one after the
other. -/
def Selects (n : ℕ) : Positions → List ℕ → Prop
  | .slice a b, ks => ks.Pairwise (· < ·) ∧ ∀ k, k ∈ ks ↔ k < n ∧ NotBefore n a k ∧ Before n b k
  | .many is, ks => List.Forall₂ (At n) is ks
  | .one i, ks => ∃ k, At n i k ∧ ks = [k]

/-- The elements of `l` at the positions `ks`. -/
def AreAt {α : Type} (l : List α) (ks : List ℕ) (r : List α) : Prop := List.Forall₂ (fun k x => l[k]? = some x) ks r

theorem areAt_unique {α : Type} {l : List α} {ks : List ℕ} {r r' : List α} (h : AreAt l ks r) (h' : AreAt l ks r') : r = r' := by
  unfold AreAt at h h'
  induction h generalizing r' with
  | nil => cases h'; rfl
  | cons h1 _ ih =>
    cases h' with
    | cons h2 h3 =>
      rw [h1, Option.some.injEq] at h2
      rw [h2, ih h3]

theorem at_unique {n : ℕ} {i : ℤ} {k k' : ℕ} (h : At n i k) (h' : At n i k') : k = k' := by
  unfold At at h h'; omega

theorem pickOne_ok {α : Type} {l : List α} {i : ℤ} {x : α} : pickOne l i = .ok x ↔ ∃ k, At l.length i k ∧ l[k]? = some x := by
  unfold pickOne At
  have key : (match (if i < 0 then (if i + l.length < 0 then none else l[(i + l.length).toNat]?) else l[i.toNat]?) with
      | some x => Except.ok x
      | none => .error Err.indexError) = .ok x ↔
      (if i < 0 then (if i + l.length < 0 then none else l[(i + l.length).toNat]?) else l[i.toNat]?) = some x := by
    split <;> rename_i h <;> rw [h] <;> simp
  refine key.trans ?_
  split_ifs with h1 h2
  · simp only [reduceCtorEq, false_iff]
    rintro ⟨k, hk, _⟩; omega
  · constructor
    · intro h
      have := (List.getElem?_eq_some_iff.1 h).1
      exact ⟨_, ⟨this, .inr ⟨h1, by omega⟩⟩, h⟩
    · rintro ⟨k, hk, hx⟩
      have : k = (i + l.length).toNat := by omega
      rw [← this]; exact hx
  · constructor
    · intro h
      have := (List.getElem?_eq_some_iff.1 h).1
      exact ⟨_, ⟨this, .inl ⟨by omega, by omega⟩⟩, h⟩
    · rintro ⟨k, hk, hx⟩
      have : k = i.toNat := by omega
      rw [← this]; exact hx

theorem pickOne_error {α : Type} {l : List α} {i : ℤ} {e : Err} : pickOne l i = .error e ↔ e = .indexError ∧ ¬ ∃ k, At l.length i k := by
  cases h : pickOne l i with
  | ok x =>
    obtain ⟨k, hk, _⟩ := pickOne_ok.1 h
    simp only [reduceCtorEq, false_iff]
    exact fun h => h.2 ⟨k, hk⟩
  | error e' =>
    have he : e' = .indexError := by
      unfold pickOne at h
      split at h
      · cases h
      · cases h; rfl
    have hn : ¬ ∃ k, At l.length i k := by
      rintro ⟨k, hk⟩
      have := pickOne_ok (l := l) (i := i) (x := l[k]'hk.1) |>.2 ⟨k, hk, by simp⟩
      rw [h] at this; cases this
    simp only [Except.error.injEq, he, hn, not_false_eq_true, and_true, eq_comm]

theorem pickMany_ok {α : Type} {l : List α} : ∀ {is : List ℤ} {r : List α},
    pickMany l is = .ok r ↔ ∃ ks, List.Forall₂ (At l.length) is ks ∧ AreAt l ks r
  | [], r => by
    simp only [pickMany, Except.ok.injEq]
    constructor
    · rintro rfl; exact ⟨[], .nil, .nil⟩
    · rintro ⟨ks, h1, h2⟩
      cases h1; cases h2; rfl
  | i :: is, r => by
    simp only [pickMany]
    cases h1 : pickOne l i with
    | error e =>
      simp only [reduceCtorEq, false_iff]
      rintro ⟨ks, hks, _⟩
      cases hks with
      | cons h2 _ => exact (pickOne_error.1 h1).2 ⟨_, h2⟩
    | ok x =>
      obtain ⟨k, hk, hx⟩ := pickOne_ok.1 h1
      simp only
      cases h2 : pickMany l is with
      | error e =>
        simp only [reduceCtorEq, false_iff]
        rintro ⟨ks, hks, hr⟩
        cases hks with
        | cons h3 h4 =>
          cases hr with
          | cons h5 h6 =>
            have := (pickMany_ok (l := l)).2 ⟨_, h4, h6⟩
            rw [h2] at this; cases this
      | ok r' =>
        obtain ⟨ks, h3, h4⟩ := (pickMany_ok (l := l)).1 h2
        simp only [Except.ok.injEq]
        constructor
        · rintro rfl
          exact ⟨k :: ks, .cons hk h3, .cons hx h4⟩
        · rintro ⟨ks', h5, h6⟩
          cases h5 with
          | cons h7 h8 =>
            cases h6 with
            | cons h9 h10 =>
              have e1 := at_unique hk h7
              subst e1
              rw [hx, Option.some.injEq] at h9
              have := (pickMany_ok (l := l)).2 ⟨_, h8, h10⟩
              rw [h2, Except.ok.injEq] at this
              rw [h9, this]

theorem pickMany_error {α : Type} {l : List α} {e : Err} : ∀ {is : List ℤ},
    pickMany l is = .error e ↔ e = .indexError ∧ ¬ ∃ ks, List.Forall₂ (At l.length) is ks
  | [] => by
    simp only [pickMany, reduceCtorEq, false_iff]
    exact fun h => h.2 ⟨[], .nil⟩
  | i :: is => by
    simp only [pickMany]
    have split : (∃ ks, List.Forall₂ (At l.length) (i :: is) ks) ↔ (∃ k, At l.length i k) ∧ ∃ ks, List.Forall₂ (At l.length) is ks := by
      constructor
      · rintro ⟨ks, h⟩
        cases h with
        | cons h1 h2 => exact ⟨⟨_, h1⟩, _, h2⟩
      · rintro ⟨⟨k, hk⟩, ks, hks⟩; exact ⟨k :: ks, .cons hk hks⟩
    rw [split]
    cases h1 : pickOne l i with
    | error e' =>
      have hk := pickOne_error.1 h1
      simp only [Except.error.injEq, hk.1, hk.2, false_and, not_false_eq_true, and_true, eq_comm]
    | ok x =>
      obtain ⟨k, hk, _⟩ := pickOne_ok.1 h1
      simp only
      have hex : ∃ k, At l.length i k := ⟨k, hk⟩
      have ih := pickMany_error (l := l) (e := e) (is := is)
      simp only [hex, true_and]
      rw [← ih]
      cases pickMany l is <;> simp

theorem slice_areAt {α : Type} (l : List α) (a b : Option ℤ) : ∃ ks, Selects l.length (.slice a b) ks ∧ AreAt l ks (sliceList l a b) := by
  obtain ⟨start, hstart⟩ : ∃ s, s = (a.map (boundOf l.length)).getD 0 := ⟨_, rfl⟩
  obtain ⟨stop, hstop⟩ : ∃ s, s = (b.map (boundOf l.length)).getD l.length := ⟨_, rfl⟩
  have hs : ∀ k < l.length, (NotBefore l.length a k ↔ start ≤ k) := by
    intro k hk
    unfold NotBefore
    cases a with
    | none => simp at hstart; simp [hstart]
    | some x =>
      simp only [Option.map_some, Option.getD_some, boundOf] at hstart
      simp only [Option.mem_some_iff, forall_eq']
      split_ifs at hstart ⊢ <;> omega
  have ht : ∀ k < l.length, (Before l.length b k ↔ k < stop) := by
    intro k hk
    unfold Before
    cases b with
    | none => simp at hstop; simp [hstop, hk]
    | some x =>
      simp only [Option.map_some, Option.getD_some, boundOf] at hstop
      simp only [Option.mem_some_iff, forall_eq']
      split_ifs at hstop ⊢ <;> omega
  have hle : stop ≤ l.length := by
    cases b with
    | none => simp at hstop; omega
    | some x =>
      simp only [Option.map_some, Option.getD_some, boundOf] at hstop
      split_ifs at hstop <;> omega
  have e : sliceList l a b = (l.take stop).drop start := by
    unfold sliceList; rw [hstart, hstop]
  refine ⟨List.range' start (stop - start), ⟨List.pairwise_lt_range', ?_⟩, ?_⟩
  · intro k
    rw [List.mem_range'_1]
    constructor
    · intro hk
      have hkl : k < l.length := by omega
      exact ⟨hkl, (hs k hkl).2 hk.1, (ht k hkl).2 (by omega)⟩
    · rintro ⟨hkl, h1, h2⟩
      have h1 := (hs k hkl).1 h1
      have h2 := (ht k hkl).1 h2
      omega
  · rw [e]
    unfold AreAt
    rw [List.forall₂_iff_get]
    have hlen : ((l.take stop).drop start).length = stop - start := by
      rw [List.length_drop, List.length_take]; omega
    refine ⟨by rw [hlen, List.length_range'], ?_⟩
    intro i h1 h2
    rw [hlen] at h2
    simp only [List.get_eq_getElem, List.getElem_range', List.getElem_drop, List.getElem_take, Nat.one_mul]
    exact List.getElem?_eq_getElem _

theorem selects_unique {n : ℕ} {p : Positions} {ks ks' : List ℕ} (h : Selects n p ks) (h' : Selects n p ks') : ks = ks' := by
  cases p with
  | slice a b =>
    obtain ⟨h1, h2⟩ := h
    obtain ⟨h1', h2'⟩ := h'
    exact List.Perm.eq_of_pairwise (fun _ _ _ _ ha hb => absurd ha (by omega)) h1 h1'
      ((List.perm_ext_iff_of_nodup (h1.imp (fun h => h.ne)) (h1'.imp (fun h => h.ne))).2 (fun k => (h2 k).trans (h2' k).symm))
  | many is =>
    simp only [Selects] at h h'
    induction h generalizing ks' with
    | nil => cases h'; rfl
    | cons h1 _ ih =>
      cases h' with
      | cons h2 h3 => rw [at_unique h1 h2, ih h3]
  | one i =>
    obtain ⟨k, hk, rfl⟩ := h
    obtain ⟨k', hk', rfl⟩ := h'
    rw [at_unique hk hk']

theorem choose_ok {α : Type} {l : List α} {p : Positions} {r : List α} : choose l p = .ok r ↔ ∃ ks, Selects l.length p ks ∧ AreAt l ks r := by
  cases p with
  | slice a b =>
    obtain ⟨ks, h1, h2⟩ := slice_areAt l a b
    simp only [choose, Except.ok.injEq]
    constructor
    · rintro rfl; exact ⟨ks, h1, h2⟩
    · rintro ⟨ks', h3, h4⟩
      rw [selects_unique h3 h1] at h4
      exact areAt_unique h2 h4
  | many is => exact pickMany_ok
  | one i =>
    simp only [choose, Selects]
    cases h : pickOne l i with
    | error e =>
      simp only [reduceCtorEq, false_iff]
      rintro ⟨ks, ⟨k, hk, _⟩, _⟩
      exact (pickOne_error.1 h).2 ⟨k, hk⟩
    | ok x =>
      obtain ⟨k, hk, hx⟩ := pickOne_ok.1 h
      simp only [Except.ok.injEq]
      constructor
      · rintro rfl; exact ⟨[k], ⟨k, hk, rfl⟩, .cons hx .nil⟩
      · rintro ⟨ks, ⟨k', hk', rfl⟩, h2⟩
        rw [at_unique hk' hk] at h2
        exact areAt_unique (.cons hx .nil) h2

theorem choose_error {α : Type} {l : List α} {p : Positions} {e : Err} : choose l p = .error e ↔ e = .indexError ∧ ¬ ∃ ks, Selects l.length p ks := by
  cases p with
  | slice a b =>
    obtain ⟨ks, h1, _⟩ := slice_areAt l a b
    simp only [choose, reduceCtorEq, false_iff]
    exact fun h => h.2 ⟨ks, h1⟩
  | many is => exact pickMany_error
  | one i =>
    simp only [choose, Selects]
    have : (∃ ks, ∃ k, At l.length i k ∧ ks = [k]) ↔ ∃ k, At l.length i k :=
      ⟨fun ⟨_, k, hk, _⟩ => ⟨k, hk⟩, fun ⟨k, hk⟩ => ⟨[k], k, hk, rfl⟩⟩
    rw [this, ← pickOne_error (l := l)]
    cases pickOne l i <;> simp

/-- The data have the rows `ks` and the columns `js` of `f`, with the names, timestamps and values they have there. -/
structure IsSelection (f : Frame) (ks js : List ℕ) (g : Frame) : Prop where
  index : AreAt f.index ks g.index
  columns : List.Forall₂ (fun (j : ℕ) (c : String × List (Option ℚ)) => ∃ d, f.columns[j]? = some d ∧ c.1 = d.1 ∧ AreAt d.2 ks c.2) js g.columns

theorem chooseRows_spec {n : ℕ} {p : Positions} {ks : List ℕ} (hks : Selects n p ks) : ∀ {cols : DrawnLines}, (∀ c ∈ cols, c.2.length = n) →
    ∃ r, chooseRows p cols = .ok r ∧ List.Forall₂ (fun d c => c.1 = d.1 ∧ AreAt d.2 ks c.2) cols r
  | [], _ => ⟨[], rfl, .nil⟩
  | c :: cols, h => by
    obtain ⟨r, hr, hf⟩ := chooseRows_spec hks (cols := cols) (fun d hd => h d (by simp [hd]))
    have hl := h c (by simp)
    have hnot : ∀ e, choose c.2 p ≠ .error e := by
      intro e he
      exact (choose_error.1 he).2 ⟨ks, by rw [hl]; exact hks⟩
    cases hc : choose c.2 p with
    | error e => exact absurd hc (hnot e)
    | ok l =>
      obtain ⟨ks', h1, h2⟩ := choose_ok.1 hc
      rw [hl] at h1
      rw [selects_unique h1 hks] at h2
      exact ⟨(c.1, l) :: r, by simp only [chooseRows, hc, hr], .cons ⟨rfl, h2⟩ hf⟩

theorem isSelection_unique {f g g' : Frame} {ks js : List ℕ} (h : IsSelection f ks js g) (h' : IsSelection f ks js g') : g = g' := by
  have e1 := areAt_unique h.index h'.index
  have e2 : g.columns = g'.columns := by
    obtain ⟨_, h2⟩ := h
    obtain ⟨_, h2'⟩ := h'
    revert h2 h2'
    generalize g'.columns = r'
    generalize g.columns = r
    intro h2
    induction h2 generalizing r' with
    | nil => intro h; cases h; rfl
    | cons h1 _ ih =>
      intro h
      cases h with
      | cons h3 h4 =>
        rw [ih _ h4]
        obtain ⟨d, a1, a2, a3⟩ := h1
        obtain ⟨d', b1, b2, b3⟩ := h3
        rw [a1, Option.some.injEq] at b1
        subst b1
        exact congrArg (· :: _) (Prod.ext (a2.trans b2.symm) (areAt_unique a3 b3))
  cases g; cases g'; simp_all

theorem iloc_cases (f : Frame) (hf : f.Ok) (rows columns : Positions) :
    (¬ ((∃ ks, Selects f.index.length rows ks) ∧ ∃ js, Selects f.columns.length columns js) → ilocFrame f rows columns = .error .indexError) ∧
    (∀ ks js, Selects f.index.length rows ks → Selects f.columns.length columns js → ∃ g, IsSelection f ks js g ∧
      ilocFrame f rows columns = if rows.single || columns.single then .error .valueError else .ok g) := by
  constructor
  · intro h
    unfold ilocFrame
    cases h1 : choose f.index rows with
    | error e => rw [(choose_error.1 h1).1]
    | ok index =>
      obtain ⟨ks, hks, _⟩ := choose_ok.1 h1
      simp only
      cases h2 : choose f.columns columns with
      | error e => rw [(choose_error.1 h2).1]
      | ok cols =>
        obtain ⟨js, hjs, _⟩ := choose_ok.1 h2
        exact absurd ⟨⟨ks, hks⟩, js, hjs⟩ h
  · intro ks js hks hjs
    unfold ilocFrame
    cases h1 : choose f.index rows with
    | error e => exact absurd ⟨ks, hks⟩ (choose_error.1 h1).2
    | ok index =>
      obtain ⟨ks', h3, hindex⟩ := choose_ok.1 h1
      rw [selects_unique h3 hks] at hindex
      simp only
      cases h2 : choose f.columns columns with
      | error e => exact absurd ⟨js, hjs⟩ (choose_error.1 h2).2
      | ok cols =>
        obtain ⟨js', h4, hcols⟩ := choose_ok.1 h2
        rw [selects_unique h4 hjs] at hcols
        have hmem : ∀ c ∈ cols, c.2.length = f.index.length := by
          intro c hc
          have : ∃ j : ℕ, f.columns[j]? = some c := by
            unfold AreAt at hcols
            clear h2 h4 hjs
            induction hcols with
            | nil => simp at hc
            | cons h5 _ ih =>
              rcases List.mem_cons.1 hc with rfl | hc
              · exact ⟨_, h5⟩
              · exact ih hc
          obtain ⟨j, hj⟩ := this
          exact hf.length c (List.mem_of_getElem? hj)
        obtain ⟨r, hr, hfr⟩ := chooseRows_spec hks hmem
        refine ⟨⟨index, r⟩, ⟨hindex, ?_⟩, by simp only [hr]⟩
        clear h2 h4 hr hmem hjs
        unfold AreAt at hcols
        simp only
        induction hcols generalizing r with
        | nil => cases hfr; exact .nil
        | cons h5 _ ih =>
          cases hfr with
          | cons h6 h7 => exact .cons ⟨_, h5, h6.1, h6.2⟩ (ih _ h7)

/-- **C98, `iloc`.** Called with slices or lists of positions, `iloc` returns an object if and only if every position is there, and its data
are the selected rows and columns in the order asked for, with their timestamps, names and values; else it raises `IndexError`.  The data
of the object itself are not changed (the call returns a new object).  Missing: single positions (`C98_single_position_partial`). -/
theorem C98_iloc_partial (f : Frame) (hf : f.Ok) (rows columns : Positions) (hr : rows.single = false) (hc : columns.single = false) :
    (∀ g, ilocFrame f rows columns = .ok g ↔
      ∃ ks js, Selects f.index.length rows ks ∧ Selects f.columns.length columns js ∧ IsSelection f ks js g) ∧
    (∀ e, ilocFrame f rows columns = .error e ↔
      e = .indexError ∧ ¬ ((∃ ks, Selects f.index.length rows ks) ∧ ∃ js, Selects f.columns.length columns js)) := by
  obtain ⟨h1, h2⟩ := iloc_cases f hf rows columns
  by_cases hex : (∃ ks, Selects f.index.length rows ks) ∧ ∃ js, Selects f.columns.length columns js
  · obtain ⟨⟨ks, hks⟩, js, hjs⟩ := hex
    obtain ⟨g, hg, he⟩ := h2 ks js hks hjs
    rw [hr, hc] at he
    simp only [Bool.or_self, Bool.false_eq_true, if_false] at he
    rw [he]
    refine ⟨fun g' => ?_, fun e => ?_⟩
    · simp only [Except.ok.injEq]
      constructor
      · rintro rfl; exact ⟨ks, js, hks, hjs, hg⟩
      · rintro ⟨ks', js', h3, h4, h5⟩
        rw [selects_unique h3 hks, selects_unique h4 hjs] at h5
        exact isSelection_unique hg h5
    · simp only [reduceCtorEq, false_iff]
      exact fun h => h.2 ⟨⟨ks, hks⟩, js, hjs⟩
  · rw [h1 hex]
    refine ⟨fun g => ?_, fun e => ?_⟩
    · simp only [reduceCtorEq, false_iff]
      rintro ⟨ks, js, h3, h4, _⟩
      exact hex ⟨⟨ks, h3⟩, js, h4⟩
    · simp only [Except.error.injEq, hex, not_false_eq_true, and_true, eq_comm]

/-- **C98 is false for single positions**, the first documented type of the arguments: whatever the data, no row, column or cell can be
selected; a position that is there raises `ValueError`, one that is not `IndexError`. -/
theorem C98_single_position_partial (f : Frame) (hf : f.Ok) (rows columns : Positions) (h : rows.single = true ∨ columns.single = true) :
    ilocFrame f rows columns = .error .valueError ∨ ilocFrame f rows columns = .error .indexError := by
  obtain ⟨h1, h2⟩ := iloc_cases f hf rows columns
  by_cases hex : (∃ ks, Selects f.index.length rows ks) ∧ ∃ js, Selects f.columns.length columns js
  · obtain ⟨⟨ks, hks⟩, js, hjs⟩ := hex
    obtain ⟨g, hg, he⟩ := h2 ks js hks hjs
    left
    rw [he, if_pos]
    rcases h with h | h <;> simp [h]
  · exact .inr (h1 hex)

/-- **C98, `head`.** `head(n)` has all columns and the first `n` rows (all of them if there are fewer); `head(-n)` all but the last `n`. -/
theorem C98_head (f : Frame) (hf : f.Ok) (n : ℕ) :
    headFrame f n = { index := f.index.take n, columns := f.columns.map (fun c => (c.1, c.2.take n)) } ∧
    (0 < n → headFrame f (-(n : ℤ)) =
      { index := f.index.take (f.index.length - n), columns := f.columns.map (fun c => (c.1, c.2.take (f.index.length - n))) }) := by
  have hpos : ∀ {α : Type} (l : List α), sliceList l none (some (n : ℤ)) = l.take n := by
    intro α l
    simp only [sliceList, Option.map_none, Option.getD_none, Option.map_some, Option.getD_some, boundOf, List.drop_zero]
    rw [if_neg (by omega), Int.toNat_natCast, List.take_eq_take_iff]
    omega
  have hneg : 0 < n → ∀ {α : Type} (l : List α), sliceList l none (some (-(n : ℤ))) = l.take (l.length - n) := by
    intro h α l
    simp only [sliceList, Option.map_none, Option.getD_none, Option.map_some, Option.getD_some, boundOf, List.drop_zero]
    rw [if_pos (by omega)]
    congr 1
    omega
  refine ⟨by unfold headFrame; simp only [hpos], fun h => ?_⟩
  unfold headFrame
  rw [hneg h]
  congr 1
  refine List.map_congr_left fun c hc => ?_
  rw [hneg h, hf.length c hc]

/-- **C98, `loc` by columns, partial.** A list of names gives the object with these columns in this order and all rows; a missing one is a
`KeyError`.  For the selection of rows see `C98_loc_rows_partial`.  Missing: a single name, which is documented but never accepted. -/
theorem C98_loc_partial (f : Frame) (hf : f.Ok) (l : List String) (c : String) :
    (∀ g, locColumns f (.names l) = .ok g ↔ g.index = f.index ∧ g.columns.map (fun d => d.1) = l ∧ ∀ d ∈ g.columns, d ∈ f.columns) ∧
    (∀ e, locColumns f (.names l) = .error e ↔ e = .keyError ∧ ∃ c ∈ l, c ∉ f.columns.map (fun d => d.1)) ∧
    (∀ g, locColumns f (.name c) ≠ .ok g) ∧
    (c ∈ f.columns.map (fun d => d.1) → locColumns f (.name c) = .error .valueError) := by
  refine ⟨fun g => ?_, fun e => ?_, fun g => ?_, fun hc => ?_⟩
  · simp only [locColumns]
    cases h : selectFrame f l with
    | error e =>
      simp only [reduceCtorEq, false_iff]
      rintro ⟨_, h2⟩
      rw [(select_ok_iff hf).2 h2] at h; cases h
    | ok cols =>
      simp only [Except.ok.injEq]
      constructor
      · rintro rfl; exact ⟨rfl, (select_ok_iff hf).1 h⟩
      · rintro ⟨h1, h2⟩
        rw [(select_ok_iff hf).2 h2, Except.ok.injEq] at h
        cases g; simp_all
  · rw [← select_error_iff]
    simp only [locColumns]
    cases selectFrame f l <;> simp
  · simp only [locColumns]
    cases f.column c <;> simp
  · simp only [locColumns]
    cases h : f.column c with
    | ok _ => rfl
    | error e => exact absurd hc (column_error_iff.1 h).2

/-- **C98, `from_file`, partial.** A spreadsheet gives the object with its data, or with the index that is passed if it has as many entries.
Any path that ends with neither ".csv" nor ".xlsx" is refused, and so is, with `TypeError`, every csv file, documented as readable. -/
theorem C98_from_file_partial (sheets : Text → Option Frame) (name : Text) (index : Option (List Label)) :
    (∀ f, sheets (name ++ ".xlsx".toList) = some f → ∀ g, fromFile sheets (name ++ ".xlsx".toList) index = .ok g ↔
      g.columns = f.columns ∧ match index with
        | none => g.index = f.index
        | some i => g.index = i ∧ i.length = f.index.length) ∧
    fromFile sheets (name ++ ".csv".toList) index = .error .typeError ∧
    (¬ ".csv".toList <:+ name → ¬ ".xlsx".toList <:+ name → fromFile sheets name index = .error .valueError) := by
  have hx : (".csv".toList).isSuffixOf (name ++ ".xlsx".toList) = false := by
    by_contra h
    rw [Bool.not_eq_false] at h
    have h := List.isSuffixOf_iff_suffix.1 h
    have h5 : "xlsx".toList <:+ name ++ ".xlsx".toList := ⟨name ++ ".".toList, by simp⟩
    have h6 := List.suffix_of_suffix_length_le h h5 (by decide)
    revert h6; decide
  refine ⟨fun f hf g => ?_, ?_, fun h1 h2 => ?_⟩
  · unfold fromFile
    rw [hx, if_neg (by simp), if_pos (List.isSuffixOf_iff_suffix.2 ⟨name, rfl⟩), hf]
    cases index with
    | none =>
      simp only [Except.ok.injEq]
      constructor
      · rintro rfl; exact ⟨rfl, rfl⟩
      · rintro ⟨h1, h2⟩; cases g; cases f; simp_all
    | some i =>
      simp only
      split_ifs with hl
      · simp only [false_iff]
        rintro ⟨_, _, h⟩; exact hl h
      · simp only [Except.ok.injEq]
        constructor
        · rintro rfl; exact ⟨rfl, rfl, by omega⟩
        · rintro ⟨h1, h2, _⟩; cases g; cases f; simp_all
  · unfold fromFile
    rw [if_pos (List.isSuffixOf_iff_suffix.2 ⟨name, rfl⟩)]
  · unfold fromFile
    rw [if_neg (fun h => h1 (List.isSuffixOf_iff_suffix.1 h)), if_neg (fun h => h2 (List.isSuffixOf_iff_suffix.1 h))]

/-- Non-vacuity of C98. -/
example : ilocFrame smallFrame (.slice (some (-3)) none) (.many [1, 0, -1]) =
      .ok { index := [.stamp 60, .stamp 90, .stamp 200], columns :=
        [("case 2", [some 1, some 0, some 0]), ("case 1", [none, some 5, some 2]), ("case 2", [some 1, some 0, some 0])] } ∧
    ilocFrame smallFrame (.many [5]) (.slice none none) = .error .indexError ∧
    ilocFrame smallFrame (.one 0) (.slice none none) = .error .valueError ∧
    headFrame smallFrame 2 = { index := [.stamp 0, .stamp 30], columns := [("case 1", [some 3, some 1]), ("case 2", [some 1, some 1])] } := by
  decide +kernel

end Ramp
