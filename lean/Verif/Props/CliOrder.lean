import Verif.Props.CliYear

/-! # C62: the order of the files of the months -/

set_option autoImplicit false

namespace Ramp

/-- The number made of the digits of a name. -/
def nameNumber (name : Text) : ℕ := digitsValue (digitsOf name)

theorem foldl_digits (t : Text) : ∀ n : ℕ, t.foldl (fun n c => 10 * n + (c.toNat - 48)) n = n * 10 ^ t.length + digitsValue t := by
  unfold digitsValue
  induction t with
  | nil => intro n; simp
  | cons c t ih =>
    intro n
    rw [List.foldl_cons, ih, List.foldl_cons, ih (10 * 0 + (c.toNat - 48)), List.length_cons, pow_succ]
    ring

theorem digitsValue_append (s t : Text) : digitsValue (s ++ t) = digitsValue s * 10 ^ t.length + digitsValue t := by
  have : digitsValue (s ++ t) = t.foldl (fun n c => 10 * n + (c.toNat - 48)) (digitsValue s) := by
    unfold digitsValue
    rw [List.foldl_append]
  rw [this, foldl_digits]

theorem isDigit_range {c : Char} (h : c.isDigit = true) : c.toNat - 48 ≤ 9 ∧ (c.toNat - 48 = 0 → c = '0') := by
  unfold Char.isDigit at h
  simp only [Bool.and_eq_true, decide_eq_true_eq, ge_iff_le] at h
  have h1 : 48 ≤ c.val.toNat := UInt32.le_iff_toNat_le.1 h.1
  have h2 : c.val.toNat ≤ 57 := UInt32.le_iff_toNat_le.1 h.2
  have he : c.toNat = c.val.toNat := rfl
  refine ⟨by omega, fun h0 => ?_⟩
  apply Char.ext
  apply UInt32.toNat_inj.1
  show c.val.toNat = 48
  omega

theorem digitsValue_lt : ∀ (t : Text), (∀ c ∈ t, c.isDigit = true) → digitsValue t < 10 ^ t.length
  | [], _ => by simp [digitsValue]
  | c :: t, h => by
    have h1 := (isDigit_range (h c (by simp))).1
    have h2 := digitsValue_lt t (fun d hd => h d (List.mem_cons_of_mem _ hd))
    have : digitsValue (c :: t) = digitsValue [c] * 10 ^ t.length + digitsValue t := digitsValue_append [c] t
    rw [this, List.length_cons, pow_succ]
    have h3 : digitsValue [c] ≤ 9 := by simpa [digitsValue] using h1
    nlinarith [show 0 < 10 ^ t.length by positivity]

theorem digitsValue_ge {c : Char} {t : Text} (hc : c.isDigit = true) (h0 : c ≠ '0') : 10 ^ t.length ≤ digitsValue (c :: t) := by
  have h1 := (isDigit_range hc).2
  have : digitsValue (c :: t) = digitsValue [c] * 10 ^ t.length + digitsValue t := digitsValue_append [c] t
  rw [this]
  have h3 : 1 ≤ digitsValue [c] := by
    simp only [digitsValue, List.foldl_cons, List.foldl_nil]
    by_contra hc'
    exact h0 (h1 (by omega))
  nlinarith [show 0 < 10 ^ t.length by positivity]

theorem digitsOf_isDigit (t : Text) : ∀ c ∈ digitsOf t, c.isDigit = true := fun _ hc => (List.mem_filter.1 hc).2

theorem key_join {dir name : Text} (h : '/' ∉ name) : digitsOf (joinPath dir name) = digitsOf dir ++ digitsOf name := by
  unfold joinPath
  have hp : ¬ (['/'].isPrefixOf name = true) := by
    cases name with
    | nil => simp [List.isPrefixOf]
    | cons c t =>
      simp only [List.isPrefixOf, Bool.and_true, beq_iff_eq]
      intro hc
      exact h (List.mem_cons.2 (.inl hc))
  rw [if_neg hp]
  unfold digitsOf
  split_ifs
  · rw [List.filter_append]
  · rw [List.filter_append, List.filter_cons_of_neg (by decide)]

/-- The order by the numbers of the paths is the order by the numbers of the names: the folder has no digits other than 0, or the names have
equally many digits, or no leading zeros. -/
def NamesDecide (dir : Text) (names : List Text) : Prop := nameNumber dir = 0 ∨ (∀ a ∈ names, ∀ b ∈ names, (digitsOf a).length = (digitsOf b).length) ∨
  ∀ a ∈ names, (digitsOf a).head? ≠ some '0'

theorem number_of_key {dir : Text} {names : List Text} (hd : NamesDecide dir names) {a b : Text} (ha : a ∈ names) (hb : b ∈ names)
    (h1 : '/' ∉ a) (h2 : '/' ∉ b) (h : fileKey (joinPath dir a) ≤ fileKey (joinPath dir b)) : nameNumber a ≤ nameNumber b := by
  unfold fileKey at h
  rw [key_join h1, key_join h2, digitsValue_append, digitsValue_append] at h
  unfold nameNumber NamesDecide at *
  rcases hd with hd | hd | hd
  · unfold nameNumber at hd
    rw [hd] at h
    simpa using h
  · rw [hd a ha b hb] at h
    omega
  · have la := digitsValue_lt _ (digitsOf_isDigit a)
    have lb := digitsValue_lt _ (digitsOf_isDigit b)
    by_contra hc
    push Not at hc
    -- `a` has at least as many digits as `b`
    have hlen : (digitsOf b).length ≤ (digitsOf a).length := by
      by_contra hl
      push Not at hl
      cases hdb : digitsOf b with
      | nil => rw [hdb] at hl; simp at hl
      | cons c t =>
        have hcd : c.isDigit = true := digitsOf_isDigit b c (by rw [hdb]; simp)
        have h0 : c ≠ '0' := by
          intro hc0
          exact hd b hb (by rw [hdb, hc0]; rfl)
        have := digitsValue_ge (t := t) hcd h0
        rw [← hdb] at this
        rw [hdb, List.length_cons] at hl
        have hpow : 10 ^ (digitsOf a).length ≤ 10 ^ t.length := Nat.pow_le_pow_right (by norm_num) (by omega)
        omega
    have hpow : 10 ^ (digitsOf b).length ≤ 10 ^ (digitsOf a).length := Nat.pow_le_pow_right (by norm_num) hlen
    have := Nat.mul_le_mul_left (digitsValue (digitsOf dir)) hpow
    omega

/-- **C62, partial.** If the names decide, the months come from the files in the numerical order of the names.  Missing: folders with digits
and names with leading zeros (`C62_order_false_partial`). -/
theorem C62_order_partial (w : World) (dir ext : Text) (files : List Text) (h : IsMonthFiles w dir ext files) (hs : ∀ f ∈ w.listDir dir, '/' ∉ f)
    (hd : NamesDecide dir ((w.listDir dir).filter (endsWith ext))) : ∃ names : List Text, names.Perm ((w.listDir dir).filter (endsWith ext)) ∧
      files = names.map (joinPath dir) ∧ names.Pairwise (fun a b => nameNumber a ≤ nameNumber b) := by
  obtain ⟨hp, hsort⟩ := h
  have hall : List.Forall₂ (fun f n => f = joinPath dir n) (folderFiles w dir ext) ((w.listDir dir).filter (endsWith ext)) := by
    unfold folderFiles
    rw [List.forall₂_map_left_iff]
    exact List.forall₂_same.2 (fun _ _ => rfl)
  obtain ⟨names, h1, h2⟩ := List.perm_comp_forall₂ hp hall
  have hfiles : files = names.map (joinPath dir) := by
    clear h2 hp hsort
    induction h1 with
    | nil => rfl
    | cons h _ ih => rw [List.map_cons, ← ih, h]
  refine ⟨names, h2, hfiles, ?_⟩
  rw [hfiles, List.pairwise_map] at hsort
  refine hsort.imp_of_mem ?_
  intro a b ha hb hab
  have ha' := h2.mem_iff.1 ha
  have hb' := h2.mem_iff.1 hb
  exact number_of_key hd ha' hb' (hs a (List.mem_filter.1 ha').1) (hs b (List.mem_filter.1 hb').1) hab

/-- **C62, partial.** If moreover the numbers of the names are 1 to 12, month `m` comes from the file with the number `m`. -/
theorem C62_numbered_partial (w : World) (dir ext : Text) (files : List Text) (h : IsMonthFiles w dir ext files) (hs : ∀ f ∈ w.listDir dir, '/' ∉ f)
    (hd : NamesDecide dir ((w.listDir dir).filter (endsWith ext)))
    (hn : (((w.listDir dir).filter (endsWith ext)).map nameNumber).Perm [1, 2, 3, 4, 5, 6, 7, 8, 9, 10, 11, 12]) (i : ℕ) (f : Text)
    (hf : files[i]? = some f) : ∃ name ∈ w.listDir dir, f = joinPath dir name ∧ nameNumber name = i + 1 := by
  obtain ⟨names, h1, rfl, h3⟩ := C62_order_partial w dir ext files h hs hd
  have hnum : names.map nameNumber = [1, 2, 3, 4, 5, 6, 7, 8, 9, 10, 11, 12] := by
    refine List.Perm.eq_of_pairwise (le := fun a b => a ≤ b) (fun a b _ _ => le_antisymm) ?_ (by decide) ((h1.map nameNumber).trans hn)
    rw [List.pairwise_map]
    exact h3
  rw [List.getElem?_map, Option.map_eq_some_iff] at hf
  obtain ⟨name, hname, rfl⟩ := hf
  refine ⟨name, (List.mem_filter.1 (h1.mem_iff.1 (List.mem_of_getElem? hname))).1, rfl, ?_⟩
  have hi : (names.map nameNumber)[i]? = some (nameNumber name) := by rw [List.getElem?_map, hname]; rfl
  rw [hnum] at hi
  have hi' : i < 12 := by
    have := (List.getElem?_eq_some_iff.1 hi).1
    simpa using this
  interval_cases i <;> simpa using hi.symm

/-- The files of a folder named after a year, the first nine with leading zeros. -/
def paddedNames : List Text := ["001.xlsx".toList, "002.xlsx".toList, "003.xlsx".toList, "004.xlsx".toList, "005.xlsx".toList, "006.xlsx".toList,
  "007.xlsx".toList, "008.xlsx".toList, "009.xlsx".toList, "10.xlsx".toList, "11.xlsx".toList, "12.xlsx".toList]

/-- **C62 is false for some names.** In the folder `2020` the files of October to December come first: the digits of the folder count too. -/
theorem C62_order_false_partial (w : World) (hw : w.listDir "2020".toList = paddedNames) : paddedNames.map nameNumber = [1, 2, 3, 4, 5, 6, 7, 8, 9, 10, 11, 12] ∧
    ∃ files, monthFiles w "2020".toList "xlsx".toList = .ok files ∧ files.map (fun f => nameNumber (baseName f)) = [10, 11, 12, 1, 2, 3, 4, 5, 6, 7, 8, 9] := by
  refine ⟨by decide +kernel, ?_⟩
  have key : ∀ files, files = (paddedNames.filter (endsWith "xlsx".toList)).map (joinPath "2020".toList) →
      files.any (fun f => (digitsOf f).isEmpty) = false ∧
      (files.insertionSort (fun a b => fileKey a ≤ fileKey b)).map (fun f => nameNumber (baseName f)) = [10, 11, 12, 1, 2, 3, 4, 5, 6, 7, 8, 9] := by
    rintro _ rfl
    decide +kernel
  unfold monthFiles
  rw [hw]
  simp only
  obtain ⟨h1, h2⟩ := key _ rfl
  rw [h1, if_neg (by simp)]
  exact ⟨_, rfl, h2⟩

/-- Non-vacuity of C62_order_partial and C62_numbered_partial: twelve names without leading zeros, in any folder. -/
example (dir : Text) : NamesDecide dir (["10", "11", "12", "1", "2", "3", "4", "5", "6", "7", "8", "9"].map (fun s => s.toList ++ ".xlsx".toList)) ∧
    ((["10", "11", "12", "1", "2", "3", "4", "5", "6", "7", "8", "9"].map (fun s => s.toList ++ ".xlsx".toList)).map nameNumber).Perm
      [1, 2, 3, 4, 5, 6, 7, 8, 9, 10, 11, 12] :=
  ⟨.inr (.inr (by decide)), by decide +kernel⟩

/-! ## A year -/

/-- A computer with a folder `in` of twelve spreadsheets. -/
def yearWorld : World := { lampWorld with
  isDir := fun t => t = "in".toList
  listDir := fun _ => ["10", "11", "12", "1", "2", "3", "4", "5", "6", "7", "8", "9"].map (fun s => s.toList ++ ".xlsx".toList)
  sheet := fun _ => some (lampSheet 5 100 200) }

/-- A leap year, one file per month. -/
def yearArgs : CliArgs := { fnames := some ["in".toList], years := some [2020] }

theorem yearArgs_command : YearCommand yearWorld yearArgs 2020 "in".toList := ⟨rfl, by norm_num, rfl, rfl, ⟨[], rfl⟩, rfl⟩

/-- Some outcome of the random module lets the month be run; only the number of days is computed. -/
def monthTest (i : ℕ) : Bool := (valueOf (plainRun yearWorld noWorkers (monthArgs yearArgs 2020 i [])) (constantDraws 0)).isSome

theorem yearWorld_test : (List.range 12).all monthTest = true := by decide +kernel

theorem yearWorld_ext : (folderFiles yearWorld "in".toList "xlsx".toList).all (endsWith ".xlsx".toList) = true := by decide +kernel

/-- Every month can be run with every file. -/
theorem yearWorld_runs (i : ℕ) (hi : i < 12) (f : Text) (hf : f ∈ folderFiles yearWorld "in".toList "xlsx".toList) :
    ∃ rows, Returns (runUseCase yearWorld noWorkers (monthArgs yearArgs 2020 i f)) (some rows) := by
  have h := List.all_eq_true.1 yearWorld_test i (List.mem_range.2 hi)
  unfold monthTest at h
  obtain ⟨rows, hn⟩ := Option.isSome_iff_exists.1 h
  obtain ⟨rows', h3, -⟩ := valueOf_map (g := id) (b := rows) (by rw [hn]; rfl)
  exact ⟨rows', returns_runUseCase (List.all_eq_true.1 yearWorld_ext f hf) h3⟩

/-- Non-vacuity of C62_year: a leap year is simulated, and the minutes of the year and the hours are written. -/
theorem yearWorld_year : ∃ f h, Returns (mainCli yearWorld (fun _ => noWorkers) yearArgs []) (.year "/home".toList f h) ∧ f.index.length = 1440 * 366 := by
  obtain ⟨files, hfiles, hiff⟩ := C62_year yearWorld (fun _ => noWorkers) yearArgs [] 2020 "in".toList yearArgs_command (by decide) (by decide +kernel)
    (fun l h => by cases h)
  have hlen : files.length = 12 := by rw [hfiles.perm.length_eq]; rfl
  have hex : ∀ i : Fin 12, ∃ rows, Returns (runUseCase yearWorld noWorkers (monthArgs yearArgs 2020 i (files[i.val]'(by omega)))) (some rows) :=
    fun i => yearWorld_runs i i.2 _ (hfiles.perm.mem_iff.1 (List.getElem_mem _))
  choose rows hrows using hex
  obtain ⟨hours, hh⟩ := hourly_ok 2020 (List.ofFn rows)
  refine ⟨_, hours, (hiff _).2 ⟨List.ofFn rows, by simp, ?_, hours, hh, rfl⟩, by simp [yearMinutes, yearDays, isLeap]⟩
  intro i f o hf ho
  have hi : i < 12 := by
    have := (List.getElem?_eq_some_iff.1 hf).1
    omega
  rw [List.getElem?_eq_getElem (by omega)] at hf
  cases hf
  rw [List.getElem?_ofFn, dif_pos hi] at ho
  cases ho
  exact ⟨monthDays (hrows ⟨i, hi⟩), hrows ⟨i, hi⟩⟩

end Ramp
