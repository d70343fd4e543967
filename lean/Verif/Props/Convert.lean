import Verif.Lemmas.Convert

/-! # Properties C70 and C77: the conversion of old input files -/

set_option autoImplicit false

namespace Ramp

/-! ## C70: what happens to the text of the input file -/

/-- The line imports from the package as it was before version 0.5. -/
def OldImport (l : Text) : Prop := oldImport <:+: l

instance (l : Text) : Decidable (OldImport l) := decidable_of_iff _ hasText_iff

/-- The code that is appended: once, and only if asked for. -/
def AppendedCode (keepNames : Bool) (t code : Text) : Prop :=
  code = if keepNames = true ∧ markerLine ∉ readLines t then convertNames else []

/-- `l'` is `l` with every old import replaced by the new one, and nothing else changed. -/
def NewImports (l l' : Text) : Prop := (∃ pieces : List Text, l = oldImport.intercalate pieces ∧ l' = newImport.intercalate pieces) ∧ ¬ OldImport l'

/-- The number of lines with an old import. -/
def oldImports (t : Text) : ℕ := (readLines t).countP (fun l => decide (OldImport l))

theorem oldImport_ne : oldImport ≠ [] := by decide

theorem oldImport_oneLine : OneLine oldImport := by unfold OneLine; decide

theorem newImport_oneLine : OneLine newImport := by unfold OneLine; decide

theorem import_clean1 : ∀ s, s <:+ newImport → s ≠ [] → ¬ s <+: oldImport ∧ ¬ oldImport <+: s := by
  have key : ∀ s ∈ suffixes newImport, s ≠ [] → ¬ s <+: oldImport ∧ ¬ oldImport <+: s := by decide
  exact fun s hs => key s (mem_suffixes.2 hs)

theorem import_clean2 : ∀ s, s <:+ oldImport → s ≠ [] → s ≠ oldImport → ¬ s <+: newImport ∧ ¬ newImport <+: s := by
  have key : ∀ s ∈ suffixes oldImport, s ≠ [] → s ≠ oldImport → ¬ s <+: newImport ∧ ¬ newImport <+: s := by decide
  exact fun s hs => key s (mem_suffixes.2 hs)

theorem newImports_replaceAll (l : Text) : NewImports l (replaceAll oldImport newImport l) := by
  obtain ⟨ps, -, h1, h2⟩ := replaceAll_pieces (new := newImport) oldImport_ne l
  exact ⟨⟨ps, h1, h2⟩, replaceAll_clean oldImport_ne import_clean1 import_clean2 l⟩

theorem lineToChange_none : ∀ {ls : List Text} {k : ℕ}, lineToChange k ls = none → ∀ l ∈ ls, ¬ OldImport l
  | [], _, _, l, hl => by simp at hl
  | a :: ls, k, h, l, hl => by
    unfold lineToChange at h
    cases hr : lineToChange (k + 1) ls with
    | some j => rw [hr] at h; cases h
    | none =>
      rw [hr] at h
      simp only at h
      split_ifs at h with h1
      rcases List.mem_cons.1 hl with rfl | hl
      · exact fun h' => h1 (hasText_iff.2 h')
      · exact lineToChange_none hr l hl

theorem lineToChange_some : ∀ {ls : List Text} {k i : ℕ}, lineToChange k ls = some i → ∃ pre l post, ls = pre ++ l :: post ∧ i = k + pre.length ∧
    OldImport l ∧ ∀ x ∈ post, ¬ OldImport x
  | [], _, _, h => by cases h
  | a :: ls, k, i, h => by
    unfold lineToChange at h
    cases hr : lineToChange (k + 1) ls with
    | some j =>
      rw [hr] at h
      cases h
      obtain ⟨pre, l, post, h1, h2, h3⟩ := lineToChange_some hr
      exact ⟨a :: pre, l, post, by rw [h1]; rfl, by rw [h2]; simp; omega, h3⟩
    | none =>
      rw [hr] at h
      simp only at h
      split_ifs at h with h1
      cases h
      exact ⟨[], a, ls, rfl, rfl, hasText_iff.1 h1, lineToChange_none hr⟩

theorem changeLine_at (pre : List Text) (l : Text) (post : List Text) :
    changeLine (pre ++ l :: post) pre.length = pre ++ replaceAll oldImport newImport l :: post := by
  unfold changeLine
  induction pre with
  | nil => rfl
  | cons a pre ih => simp [ih]

theorem appended (keep : Bool) (t : Text) :
    AppendedCode keep t (if (if (readLines t).contains markerLine then false else keep) then convertNames else []) := by
  unfold AppendedCode
  congr 1
  rw [eq_iff_iff]
  by_cases h : markerLine ∈ readLines t
  · simp [h]
  · simp [h]

/-- **C70, what a conversion does to the file.** The last line with an old import is given the new import, all other lines stay as they
are, and the code that keeps the names is appended unless it is already there. -/
theorem C70_conversion_edits (keep : Bool) (t : Text) (hne : t ≠ []) : ∃ t' code, convertText keep t = .ok t' ∧ AppendedCode keep t code ∧
    (((∀ l ∈ readLines t, ¬ OldImport l) ∧ t' = t ++ code) ∨
      ∃ pre l l' post, readLines t = pre ++ l :: post ∧ OldImport l ∧ (∀ x ∈ post, ¬ OldImport x) ∧ NewImports l l' ∧
        t' = pre.flatten ++ l' ++ post.flatten ++ code) := by
  have hc := appended keep t
  unfold convertText
  simp only
  cases h : lineToChange 0 (readLines t) with
  | none =>
    have hl : (readLines t).getLast? ≠ none := by
      intro h'
      rw [List.getLast?_eq_none_iff] at h'
      apply hne
      rw [← readLines_flatten t, h']
      rfl
    obtain ⟨x, hx⟩ := Option.ne_none_iff_exists'.1 hl
    rw [hx]
    exact ⟨_, _, rfl, hc, .inl ⟨lineToChange_none h, rfl⟩⟩
  | some i =>
    obtain ⟨pre, l, post, h1, h2, h3, h4⟩ := lineToChange_some h
    refine ⟨_, _, rfl, hc, .inr ⟨pre, l, _, post, h1, h3, h4, newImports_replaceAll l, ?_⟩⟩
    rw [h1, h2, Nat.zero_add, changeLine_at]
    simp

/-- **C70.** A file without any text cannot be converted. -/
theorem C70_empty_file_partial (keep : Bool) : convertText keep [] = .error .indexError := rfl

/-! ### Converting again -/

theorem lines_change {pre post : List Text} {l : Text} (h : Lines (pre ++ l :: post)) : Lines (pre ++ replaceAll oldImport newImport l :: post) := by
  induction pre with
  | nil =>
    rw [List.nil_append] at h ⊢
    cases h with
    | last h1 h2 =>
      refine .last ?_ (replaceAll_oneLine oldImport_ne newImport_oneLine _ h2)
      obtain ⟨ps, h3, h4, h5⟩ := replaceAll_pieces (new := newImport) oldImport_ne l
      intro h0
      rw [h5] at h0
      obtain ⟨p, ps, rfl⟩ := List.exists_cons_of_ne_nil h3
      cases ps with
      | nil =>
        simp [List.intercalate, List.intersperse] at h0 h4
        exact h1 (by rw [h4, h0])
      | cons q ps =>
        rw [intercalate_cons (by simp)] at h0
        have : newImport ≠ [] := by decide
        simp [this] at h0
    | cons h1 h2 =>
      rw [replaceAll_newline oldImport_ne oldImport_oneLine]
      exact .cons (replaceAll_oneLine oldImport_ne newImport_oneLine _ h1) h2
  | cons a pre ih =>
    rw [List.cons_append] at h ⊢
    generalize hls : pre ++ l :: post = ls at h ih
    cases h with
    | last h1 h2 => simp at hls
    | cons h1 h2 => exact .cons h1 (ih h2)

theorem closeLines_count (ls : List Text) : (closeLines ls).countP (fun l => decide (OldImport l)) = ls.countP (fun l => decide (OldImport l)) := by
  have hnl : ¬ OldImport ['\n'] := by decide
  induction ls with
  | nil => simp [closeLines, hnl]
  | cons l ls ih =>
    cases ls with
    | nil =>
      unfold closeLines
      split_ifs
      · simp [List.countP_cons, hnl]
      · have : OldImport (l ++ ['\n']) ↔ OldImport l := by
          unfold OldImport
          rw [infix_newline oldImport_oneLine oldImport_ne]
          simp [List.infix_nil, oldImport_ne]
        simp [List.countP_cons, this]
    | cons l' ls => rw [closeLines, List.countP_cons, List.countP_cons, ih]

theorem closeLines_marker (ls : List Text) (h : markerLine ∈ ls) : markerLine ∈ closeLines ls := by
  induction ls with
  | nil => simp at h
  | cons l ls ih =>
    cases ls with
    | nil =>
      rw [List.mem_singleton] at h
      subst h
      have : markerLine.getLast? = some '\n' := by decide
      simp [closeLines, this]
    | cons l' ls =>
      unfold closeLines
      rcases List.mem_cons.1 h with rfl | h
      · exact List.mem_cons_self
      · exact List.mem_cons_of_mem _ (ih h)

theorem convertNames_lines : ∃ s, convertNames = '\n' :: s ∧ markerLine ∈ readLines s ∧ oldImports s = 0 := by
  refine ⟨convertNames.tail, ?_, ?_, ?_⟩ <;> decide +kernel

theorem oldImports_append_code (t : Text) {keep : Bool} {t0 code : Text} (h : AppendedCode keep t0 code) : oldImports (t ++ code) = oldImports t := by
  unfold AppendedCode at h
  split_ifs at h
  · obtain ⟨s, h1, h2, h3⟩ := convertNames_lines
    rw [h, h1]
    unfold oldImports at *
    rw [readLines_append, List.countP_append, closeLines_count, h3, Nat.add_zero]
  · rw [h, List.append_nil]

/-- The marker is there after a conversion that keeps the names. -/
theorem marker_appended (t : Text) {t0 code : Text} (h : AppendedCode true t0 code) (h1 : markerLine ∈ readLines t0 → markerLine ∈ readLines t) :
    markerLine ∈ readLines (t ++ code) := by
  unfold AppendedCode at h
  by_cases hm : markerLine ∈ readLines t0
  · rw [if_neg (by simp [hm])] at h
    rw [h, List.append_nil]
    exact h1 hm
  · rw [if_pos ⟨rfl, hm⟩] at h
    obtain ⟨s, h2, h3, -⟩ := convertNames_lines
    rw [h, h2, readLines_append]
    exact List.mem_append_right _ h3

theorem oldImports_zero {t : Text} : oldImports t = 0 ↔ ∀ l ∈ readLines t, ¬ OldImport l := by
  unfold oldImports
  rw [List.countP_eq_zero]
  simp

/-- Every conversion takes away one of the lines with an old import, and leaves the mark of the added code. -/
theorem conversion_counts {keep : Bool} {t t' : Text} (h : convertText keep t = .ok t') : oldImports t' = oldImports t - 1 ∧
    (keep = true → markerLine ∈ readLines t') ∧ (markerLine ∈ readLines t → markerLine ∈ readLines t') ∧ t' ≠ [] := by
  have hne : t ≠ [] := by rintro rfl; cases h
  obtain ⟨t1, code, h1, h2, h3⟩ := C70_conversion_edits keep t hne
  rw [h] at h1
  cases h1
  have hmark : ∀ t1 : Text, (markerLine ∈ readLines t → markerLine ∈ readLines t1) → (markerLine ∈ readLines t → markerLine ∈ readLines (t1 ++ code)) := by
    intro t1 h4 hm
    have : code = [] := by rw [AppendedCode, if_neg (by simp [hm])] at h2; exact h2
    rw [this, List.append_nil]
    exact h4 hm
  rcases h3 with ⟨h3, rfl⟩ | ⟨pre, l, l', post, h3, h4, h5, h6, h7⟩
  · refine ⟨?_, ?_, hmark t id, by simp [hne]⟩
    · rw [oldImports_append_code _ h2, oldImports_zero.2 h3]
    · rintro rfl
      exact marker_appended t h2 id
  · have hl' : l' = replaceAll oldImport newImport l := by
      have := h
      unfold convertText at this
      simp only at this
      cases hlc : lineToChange 0 (readLines t) with
      | none => exact absurd h4 (lineToChange_none hlc l (by rw [h3]; simp))
      | some i =>
        obtain ⟨pre2, l2, post2, g1, g2, g3, g4⟩ := lineToChange_some hlc
        rw [hlc] at this
        simp only [Except.ok.injEq] at this
        have hpre : pre = pre2 ∧ l = l2 ∧ post = post2 := by
          rw [h3] at g1
          rcases List.append_eq_append_iff.1 g1 with ⟨a, e1, e2⟩ | ⟨a, e1, e2⟩
          · cases a with
            | nil => simp at e1 e2; exact ⟨e1.symm, e2.1, e2.2⟩
            | cons x a =>
              simp only [List.cons_append, List.cons.injEq] at e2
              exact absurd g3 (h5 l2 (by rw [e2.2]; simp))
          · cases a with
            | nil => simp at e1 e2; exact ⟨e1, e2.1.symm, e2.2.symm⟩
            | cons x a =>
              simp only [List.cons_append, List.cons.injEq] at e2
              exact absurd h4 (g4 l (by rw [e2.2]; simp))
        obtain ⟨rfl, rfl, rfl⟩ := hpre
        rw [h3, g2, Nat.zero_add, changeLine_at, h7] at this
        have hcode : (if (if (pre ++ l :: post).contains markerLine then false else keep) then convertNames else []) = code := by
          rw [← h3]
          have := appended keep t
          unfold AppendedCode at this h2
          rw [this, h2]
        rw [hcode] at this
        have := List.append_cancel_right this
        rw [List.flatten_append, List.flatten_cons, List.append_assoc] at this
        have := List.append_cancel_left this
        exact (List.append_cancel_right this).symm
    have hlines := lines_change (h3 ▸ lines_readLines t)
    rw [← hl'] at hlines
    have hread : readLines (pre.flatten ++ l' ++ post.flatten) = pre ++ l' :: post := by
      have := readLines_of_lines hlines
      rwa [List.flatten_append, List.flatten_cons, ← List.append_assoc] at this
    have hm : markerLine ∈ readLines t → markerLine ∈ readLines (pre.flatten ++ l' ++ post.flatten) := by
      rw [hread, h3]
      have : l ≠ markerLine := by
        rintro rfl
        exact absurd h4 (by decide +kernel)
      simp only [List.mem_append, List.mem_cons]
      rintro (h | h | h)
      · exact .inl h
      · exact absurd h.symm this
      · exact .inr (.inr h)
    have hnil : pre.flatten ++ l' ++ post.flatten ++ code ≠ [] := by
      intro h0
      have : readLines (pre.flatten ++ l' ++ post.flatten) = [] := by
        have : pre.flatten ++ l' ++ post.flatten = [] := (List.append_eq_nil_iff.1 h0).1
        rw [this]; rfl
      rw [hread] at this
      simp at this
    rw [h7]
    refine ⟨?_, ?_, hmark _ hm, hnil⟩
    · rw [oldImports_append_code _ h2]
      unfold oldImports
      rw [hread, h3, List.countP_append, List.countP_append, List.countP_cons, List.countP_cons]
      simp [h4, h6.2]
    · rintro rfl
      exact marker_appended _ h2 hm

/-- Convert `n` times. -/
def convertTimes (keep : Bool) : ℕ → Text → Except Err Text
  | 0, t => .ok t
  | n + 1, t => match convertText keep t with
    | .error e => .error e
    | .ok t => convertTimes keep n t

theorem convert_stable {keep : Bool} {t : Text} (hne : t ≠ []) (h0 : oldImports t = 0) (hm : keep = true → markerLine ∈ readLines t) :
    convertText keep t = .ok t := by
  obtain ⟨t1, code, h1, h2, h3⟩ := C70_conversion_edits keep t hne
  have hc : code = [] := by
    rw [AppendedCode, if_neg (fun h => h.2 (hm h.1))] at h2
    exact h2
  rcases h3 with ⟨-, h3⟩ | ⟨pre, l, l', post, h3, h4, -⟩
  · rw [h1, h3, hc, List.append_nil]
  · exact absurd h4 (oldImports_zero.1 h0 l (by rw [h3]; simp))

/-- **C70, partial.** When at most one line has an old import, converting a file a second time changes nothing.  Missing: files with
several such lines (`C70_two_imports_partial`). -/
theorem C70_second_conversion_partial (keep : Bool) (t t' : Text) (h1 : oldImports t ≤ 1) (h : convertText keep t = .ok t') :
    convertText keep t' = .ok t' := by
  obtain ⟨h2, h3, -, h4⟩ := conversion_counts h
  exact convert_stable h4 (by omega) h3

/-- **C70, how often it takes.** A file with `n` lines with an old import no longer changes after `n` conversions (one if `n` is 0), and
then has no old import left; the code that keeps the names is there. -/
theorem C70_conversions_settle_partial (keep : Bool) (t t' : Text) (n : ℕ) (hn : oldImports t ≤ n) (h1 : 1 ≤ n)
    (h : convertTimes keep n t = .ok t') : convertText keep t' = .ok t' ∧ (∀ l ∈ readLines t', ¬ OldImport l) ∧
      (keep = true → markerLine ∈ readLines t') := by
  have key : ∀ (n : ℕ) (t : Text), convertTimes keep n t = .ok t' → oldImports t ≤ n → t ≠ [] → (n = 0 → keep = true → markerLine ∈ readLines t) →
      t' ≠ [] ∧ oldImports t' = 0 ∧ (keep = true → markerLine ∈ readLines t') := by
    intro n
    induction n with
    | zero =>
      intro t h hn hne hm
      cases h
      exact ⟨hne, by omega, hm rfl⟩
    | succ n ih =>
      intro t h hn _ _
      unfold convertTimes at h
      cases hc : convertText keep t with
      | error e => rw [hc] at h; cases h
      | ok t1 =>
        rw [hc] at h
        obtain ⟨h2, h3, -, h4⟩ := conversion_counts hc
        exact ih t1 h (by omega) h4 (fun _ => h3)
  have hne : t ≠ [] := by
    rintro rfl
    cases n with
    | zero => omega
    | succ n => cases h
  obtain ⟨h2, h3, h4⟩ := key n t h hn hne (by omega)
  exact ⟨convert_stable h2 h3 h4, oldImports_zero.1 h3, h4⟩

/-- **C70 is false in general.** A file with two import lines is changed again by the second conversion. -/
theorem C70_two_imports_partial : ∃ t t' t'', t = "from core import User\nfrom core import Appliance\n".toList ∧
    convertText true t = .ok t' ∧ convertText true t' = .ok t'' ∧ t' ≠ t'' := by
  refine ⟨_, "from core import User\nfrom ramp.core.core import Appliance\n".toList ++ convertNames,
    "from ramp.core.core import User\nfrom ramp.core.core import Appliance\n".toList ++ convertNames, rfl, ?_, ?_, ?_⟩
  · decide +kernel
  · decide +kernel
  · decide +kernel

/-- A concrete case for the theorems above: one import, and a last line without line break. -/
example : let t := "from core import User\nUser_list = []".toList
    oldImports t = 1 ∧ convertText true t = .ok ("from ramp.core.core import User\nUser_list = []".toList ++ convertNames) := by
  decide +kernel

/-! ## C77: where the converted users are saved -/

/-- A name of an input file without its extension. -/
structure InputName (name : Text) : Prop where
  some : name ≠ []
  inDir : '/' ∉ name
  noExt : ¬ ".py".toList <:+: name

theorem replace_extension {name : Text} (h : ¬ ".py".toList <:+: name) (suffix : Text) :
    replaceAll ".py".toList suffix (name ++ ".py".toList) = name ++ suffix := by
  induction name with
  | nil =>
    have := replaceAll_prefix (old := ".py".toList) (new := suffix) (by decide) []
    simpa [replaceAll, replaceGo] using this
  | cons c name ih =>
    rw [List.cons_append, replaceAll_step, ih (fun h' => h (h'.trans ⟨[c], [], by simp⟩))]
    · rfl
    · rintro ⟨s, hs⟩
      have hs' : '.' :: 'p' :: 'y' :: s = c :: (name ++ ['.', 'p', 'y']) := hs
      match name, h, hs' with
      | [], _, hs' => simp at hs'
      | [d], _, hs' => simp at hs'
      | d :: e :: rest, h, hs' =>
        simp only [List.cons_append, List.cons.injEq] at hs'
        obtain ⟨rfl, rfl, rfl, -⟩ := hs'
        exact h ⟨[], rest, rfl⟩

theorem baseName_of {dir name : Text} (h : '/' ∉ name) : baseName (dir ++ '/' :: name) = name := by
  unfold baseName
  rw [List.reverse_append, List.reverse_cons, List.append_assoc, List.takeWhile_append_of_pos]
  · simp
  · intro c hc
    simp only [decide_eq_true_eq]
    rintro rfl
    exact h (List.mem_reverse.1 hc)

theorem dropWhile_all {p : Char → Bool} {l m : List Char} (h : ∀ c ∈ l, p c = true) : (l ++ m).dropWhile p = m.dropWhile p := by
  induction l with
  | nil => rfl
  | cons a l ih => rw [List.cons_append, List.dropWhile_cons, if_pos (h a (by simp)), ih (fun c hc => h c (by simp [hc]))]

theorem dirName_of {dir name : Text} (h : '/' ∉ name) (hd : dir ≠ []) (hl : dir.getLast? ≠ some '/') : dirName (dir ++ '/' :: name) = dir := by
  have h1 : ((dir ++ '/' :: name).reverse.dropWhile (· ≠ '/')).reverse = dir ++ ['/'] := by
    rw [List.reverse_append, List.reverse_cons, List.append_assoc, dropWhile_all]
    · simp
    · intro c hc
      simp only [decide_eq_true_eq]
      rintro rfl
      exact h (List.mem_reverse.1 hc)
  have h2 : ((dir ++ ['/']).reverse.dropWhile (· = '/')).reverse = dir := by
    rw [List.reverse_append, List.reverse_singleton, List.singleton_append, List.dropWhile_cons, if_pos (by simp)]
    cases hr : dir.reverse with
    | nil => exact absurd (List.reverse_eq_nil_iff.1 hr) hd
    | cons c l =>
      have hc : c ≠ '/' := by
        rintro rfl
        apply hl
        rw [List.getLast?_eq_head?_reverse, hr]
        rfl
      rw [List.dropWhile_cons, if_neg (by simpa using hc), ← hr, List.reverse_reverse]
  unfold dirName
  simp only [h1, h2, if_neg hd]

/-- **C77.** `ramp_convert -i dir/name.py` saves the users in `dir/name<suffix>.xlsx`, beside the input file; with `-o out` in
`out/name<suffix>.xlsx`. -/
theorem C77_saved_beside_input (dir name suffix out : Text) (hn : InputName name) (hd : dir ≠ [] ∧ dir.getLast? ≠ some '/')
    (ho : out ≠ [] ∧ out.getLast? ≠ some '/') :
    convertedPath (dir ++ '/' :: (name ++ ".py".toList)) none suffix = dir ++ '/' :: (name ++ suffix ++ ".xlsx".toList) ∧
    convertedPath (dir ++ '/' :: (name ++ ".py".toList)) (some out) suffix = out ++ '/' :: (name ++ suffix ++ ".xlsx".toList) := by
  have hs : '/' ∉ name ++ ".py".toList := by
    rw [List.mem_append, not_or]
    exact ⟨hn.inDir, by decide⟩
  have hj : ∀ o : Text, o ≠ [] → o.getLast? ≠ some '/' → joinPath o (name ++ suffix) ++ ".xlsx".toList = o ++ '/' :: (name ++ suffix ++ ".xlsx".toList) := by
    intro o h1 h2
    unfold joinPath
    have h3 : ¬ (['/'].isPrefixOf (name ++ suffix) = true) := by
      obtain ⟨c, l, rfl⟩ := List.exists_cons_of_ne_nil hn.some
      have : '/' ≠ c := by rintro rfl; exact hn.inDir (by simp)
      simp [List.isPrefixOf, this]
    rw [if_neg h3, if_neg (by rintro (h | h); exact h1 h; exact h2 h)]
    simp
  unfold convertedPath
  simp only [baseName_of hs, replace_extension hn.noExt, dirName_of hs hd.1 hd.2]
  exact ⟨hj dir hd.1 hd.2, hj out ho.1 ho.2⟩

/-- **C77.** Different input files are saved in different files, as long as `-o` is not used. -/
theorem C77_outputs_differ (dir dir' name name' suffix : Text) (hn : InputName name) (hn' : InputName name') (hs : '/' ∉ suffix)
    (hd : dir ≠ [] ∧ dir.getLast? ≠ some '/') (hd' : dir' ≠ [] ∧ dir'.getLast? ≠ some '/')
    (h : convertedPath (dir ++ '/' :: (name ++ ".py".toList)) none suffix = convertedPath (dir' ++ '/' :: (name' ++ ".py".toList)) none suffix) :
    dir = dir' ∧ name = name' := by
  rw [(C77_saved_beside_input dir name suffix dir hn hd hd).1, (C77_saved_beside_input dir' name' suffix dir' hn' hd' hd').1] at h
  have hb := congrArg baseName h
  have key : ∀ {n : Text}, InputName n → '/' ∉ n ++ suffix ++ ".xlsx".toList := by
    intro n hn
    simp only [List.mem_append, not_or]
    exact ⟨⟨hn.inDir, hs⟩, by decide⟩
  rw [baseName_of (key hn), baseName_of (key hn')] at hb
  have h1 := List.append_cancel_right (List.append_cancel_right hb)
  subst h1
  exact ⟨List.append_cancel_right h, rfl⟩

/-- **C77 is false with other names or with `-o`.** `m/a.py` and `m/a.py.py` are saved in the same file; so are `x/a.py` and `y/a.py`
with `-o out`. -/
theorem C77_collisions_partial :
    convertedPath "m/a.py".toList none [] = convertedPath "m/a.py.py".toList none [] ∧
    convertedPath "x/a.py".toList (some "out".toList) [] = convertedPath "y/a.py".toList (some "out".toList) [] := by
  decide +kernel

/-- A concrete case. -/
example : InputName "input_file_1".toList ∧ convertedPath "old/input_file_1.py".toList none "_new".toList = "old/input_file_1_new.xlsx".toList := by
  refine ⟨⟨by decide, by decide, ?_⟩, by decide +kernel⟩
  rw [← hasText_iff]
  decide

end Ramp
