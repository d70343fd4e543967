import Verif.Props.CliPlan

/-! # C61: which results are kept -/

set_option autoImplicit false

namespace Ramp

/-- The path of the results of a run: the output path, or a file of the folder `results` of the package, named after the input file with
every `.` replaced. -/
def resultPath (base : Text) (r : RunArgs) : Text := r.ofname.getD
  (joinPath (joinPath base "results".toList) ("output_file_".toList ++ (replaceAll ".".toList "_".toList (fileNameOf r.fname)) ++ ".csv".toList))

/-- The series holds the minutes of the daily profiles. -/
def HoldsProfiles (s : List ℚ) (rows : List Profile) : Prop := s.length = 1440 * rows.length ∧
  ∀ (k : ℕ) (p : Profile) (i : Fin 1440), rows[k]? = some p → s[1440 * k + i.val]? = some (p i)

theorem holds_series (rows : List Profile) : HoldsProfiles (profileSeries rows) rows := ⟨series_length rows, series_entry rows⟩

theorem export_eq (base : Text) (fs : Files) (s : List ℚ) (r : RunArgs) :
    exportSeries base fs s none (some r.fname) r.ofname = writeFile fs (resultPath base r) s := by
  unfold exportSeries exportPath resultPath
  cases r.ofname <;> rfl

theorem lookup_write (fs : Files) (p q : Text) (s : List ℚ) : (writeFile fs p s).lookup q = if q = p then some s else fs.lookup q := by
  unfold writeFile
  by_cases h : q = p
  · subst h
    simp
  · rw [if_neg h, List.lookup_cons]
    have : (q == p) = false := by simpa using h
    rw [this]
    simp only
    induction fs with
    | nil => rfl
    | cons f fs ih =>
      obtain ⟨x, y⟩ := f
      by_cases hx : x = p
      · subst hx
        rw [List.filter_cons_of_neg (by simp), List.lookup_cons]
        have : (q == x) = false := by simpa using h
        rw [this]
        exact ih
      · rw [List.filter_cons_of_pos (by simpa using hx), List.lookup_cons, List.lookup_cons]
        split
        · rfl
        · exact ih

/-- A path that no run writes to is unchanged. -/
theorem filesAfter_other {base : Text} {p : Text} : ∀ {rs : List RunArgs} {outs : List (Option (List Profile))} {fs : Files},
    (∀ (i : ℕ) (r : RunArgs) (rows : List Profile), rs[i]? = some r → outs[i]? = some (some rows) → resultPath base r ≠ p) → (filesAfter base rs outs fs).lookup p = fs.lookup p
  | [], [], fs, _ => rfl
  | [], o :: outs, fs, _ => rfl
  | r :: rs, [], fs, _ => rfl
  | r :: rs, none :: outs, fs, h => filesAfter_other (rs := rs) (outs := outs) (fs := fs)
      (fun i r' rows h1 h2 => h (i + 1) r' rows (by rwa [List.getElem?_cons_succ]) (by rwa [List.getElem?_cons_succ]))
  | r :: rs, some rows :: outs, fs, h => by
    have ih := filesAfter_other (rs := rs) (outs := outs) (fs := exportSeries base fs (profileFormatting rows).2.2 none (some r.fname) r.ofname)
      (fun i r' rows h1 h2 => h (i + 1) r' rows (by rwa [List.getElem?_cons_succ]) (by rwa [List.getElem?_cons_succ]))
    have h0 := h 0 r rows rfl rfl
    unfold filesAfter
    rw [ih, export_eq, lookup_write, if_neg (fun hp => h0 hp.symm)]

/-- The last run that writes to a path decides what is there. -/
theorem filesAfter_last {base : Text} : ∀ {rs : List RunArgs} {outs : List (Option (List Profile))} {fs : Files} {i : ℕ} {r : RunArgs}
    {rows : List Profile}, rs[i]? = some r → outs[i]? = some (some rows) →
    (∀ j r' rows', i < j → rs[j]? = some r' → outs[j]? = some (some rows') → resultPath base r' ≠ resultPath base r) →
    (filesAfter base rs outs fs).lookup (resultPath base r) = some (profileSeries rows)
  | [], outs, fs, i, r, rows, h1, h2, h3 => by simp at h1
  | r0 :: rs, [], fs, i, r, rows, h1, h2, h3 => by simp at h2
  | r0 :: rs, o :: outs, fs, 0, r, rows, h1, h2, h3 => by
    simp only [List.getElem?_cons_zero, Option.some.injEq] at h1 h2
    subst h1 h2
    unfold filesAfter
    rw [filesAfter_other, export_eq, lookup_write, if_pos rfl]
    · rfl
    · intro i r' rows' h4 h5
      exact h3 (i + 1) r' rows' (by omega) (by rwa [List.getElem?_cons_succ]) (by rwa [List.getElem?_cons_succ])
  | r0 :: rs, o :: outs, fs, i + 1, r, rows, h1, h2, h3 => by
    rw [List.getElem?_cons_succ] at h1 h2
    have hrest : ∀ j r' rows', i < j → rs[j]? = some r' → outs[j]? = some (some rows') → resultPath base r' ≠ resultPath base r := by
      intro j r' rows' hj h4 h5
      exact h3 (j + 1) r' rows' (by omega) (by rwa [List.getElem?_cons_succ]) (by rwa [List.getElem?_cons_succ])
    cases o with
    | none =>
      unfold filesAfter
      exact filesAfter_last h1 h2 hrest
    | some x =>
      unfold filesAfter
      exact filesAfter_last h1 h2 hrest

/-- **C61, partial.** With several input files the results of a file are still available after the run, if no later file has the same
result path: the file at that path holds the minutes of its daily profiles.  Missing: files with the same result path
(`C61_same_path_partial`). -/
theorem C61_distinct_paths_partial (w : World) (wk : ℕ → Workers) (a : CliArgs) (fs fs' : Files) (fnames : List Text) (hf : a.fnames = some fnames)
    (hm : ¬ MonthMode w a) (hy : YearsOk a) (hn : FitsFiles a.numDays fnames.length) (ho : FitsFiles a.ofnames fnames.length)
    (h : Returns (mainCli w wk a fs) (.files fs')) : ∃ s e, UsesDates a s e ∧ ∃ outs : List (Option (List Profile)), outs.length = fnames.length ∧
      ∀ k f, fnames[k]? = some f → ∃ o, outs[k]? = some o ∧ Returns (runUseCase w (wk k) (fileRun a s e k f)) o ∧
        ∀ rows, o = some rows → (∀ j g, k < j → fnames[j]? = some g → resultPath w.base (fileRun a s e j g) ≠ resultPath w.base (fileRun a s e k f)) →
          ∃ series, fs'.lookup (resultPath w.base (fileRun a s e k f)) = some series ∧ HoldsProfiles series rows := by
  obtain ⟨s, e, hu, hp⟩ := C59_main w wk a fs fnames hf hm hy hn ho
  obtain ⟨outs, h1, h2, h3⟩ := (hp _).1 h
  cases h3
  refine ⟨s, e, hu, outs, h1, ?_⟩
  intro k f hk
  have hk' : k < outs.length := by
    rw [h1]
    exact (List.getElem?_eq_some_iff.1 hk).1
  refine ⟨outs[k], List.getElem?_eq_getElem hk', h2 k f _ hk (List.getElem?_eq_getElem hk'), ?_⟩
  intro rows ho' hd
  refine ⟨_, filesAfter_last (i := k) (r := fileRun a s e k f) (by rw [List.getElem?_mapIdx, hk]; rfl)
    (by rw [List.getElem?_eq_getElem hk', ho']) ?_, holds_series rows⟩
  intro j r' rows' hj h4 h5
  rw [List.getElem?_mapIdx] at h4
  cases hg : fnames[j]? with
  | none => rw [hg] at h4; cases h4
  | some g =>
    rw [hg] at h4
    cases h4
    exact hd j g hj hg

/-- **C61 is false for files with the same result path.** Only the last of them decides what the file holds. -/
theorem C61_same_path_partial (w : World) (wk : ℕ → Workers) (a : CliArgs) (fs fs' : Files) (fnames : List Text) (hf : a.fnames = some fnames)
    (hm : ¬ MonthMode w a) (hy : YearsOk a) (hn : FitsFiles a.numDays fnames.length) (ho : FitsFiles a.ofnames fnames.length)
    (h : Returns (mainCli w wk a fs) (.files fs')) : ∃ s e, UsesDates a s e ∧ ∃ outs : List (Option (List Profile)), outs.length = fnames.length ∧
      (∀ k f o, fnames[k]? = some f → outs[k]? = some o → Returns (runUseCase w (wk k) (fileRun a s e k f)) o) ∧
      ∀ p : Text, fs'.lookup p = fs.lookup p ∨ ∃ k f rows, fnames[k]? = some f ∧ outs[k]? = some (some rows) ∧ resultPath w.base (fileRun a s e k f) = p ∧
        (∀ j g rows', k < j → fnames[j]? = some g → outs[j]? = some (some rows') → resultPath w.base (fileRun a s e j g) ≠ p) ∧
        ∃ series, fs'.lookup p = some series ∧ HoldsProfiles series rows := by
  obtain ⟨s, e, hu, hp⟩ := C59_main w wk a fs fnames hf hm hy hn ho
  obtain ⟨outs, h1, h2, h3⟩ := (hp _).1 h
  cases h3
  refine ⟨s, e, hu, outs, h1, h2, ?_⟩
  intro p
  have hidx : ∀ j r, (fnames.mapIdx (fileRun a s e))[j]? = some r → ∃ g, fnames[j]? = some g ∧ r = fileRun a s e j g := by
    intro j r hr
    rw [List.getElem?_mapIdx] at hr
    cases hg : fnames[j]? with
    | none => rw [hg] at hr; cases hr
    | some g => rw [hg] at hr; cases hr; exact ⟨g, rfl, rfl⟩
  by_cases hex : ∃ k f rows, fnames[k]? = some f ∧ outs[k]? = some (some rows) ∧ resultPath w.base (fileRun a s e k f) = p
  · right
    -- the last of them
    have hfin : ∀ n, ∀ k f rows, fnames.length - k ≤ n → fnames[k]? = some f → outs[k]? = some (some rows) → resultPath w.base (fileRun a s e k f) = p →
        ∃ k f rows, fnames[k]? = some f ∧ outs[k]? = some (some rows) ∧ resultPath w.base (fileRun a s e k f) = p ∧
          ∀ j g rows', k < j → fnames[j]? = some g → outs[j]? = some (some rows') → resultPath w.base (fileRun a s e j g) ≠ p := by
      intro n
      induction n with
      | zero =>
        intro k f rows hk hf' _ _
        have := (List.getElem?_eq_some_iff.1 hf').1
        omega
      | succ n ih =>
        intro k f rows hk hf' ho' hp'
        by_cases hlater : ∃ j g rows', k < j ∧ fnames[j]? = some g ∧ outs[j]? = some (some rows') ∧ resultPath w.base (fileRun a s e j g) = p
        · obtain ⟨j, g, rows', hj, hg, ho2, hp2⟩ := hlater
          have := (List.getElem?_eq_some_iff.1 hg).1
          exact ih j g rows' (by omega) hg ho2 hp2
        · push Not at hlater
          exact ⟨k, f, rows, hf', ho', hp', hlater⟩
    obtain ⟨k, f, rows, h4, h5, h6⟩ := hex
    obtain ⟨k, f, rows, h4, h5, h6, h7⟩ := hfin _ k f rows le_rfl h4 h5 h6
    refine ⟨k, f, rows, h4, h5, h6, h7, _, ?_, holds_series rows⟩
    rw [← h6]
    refine filesAfter_last (by rw [List.getElem?_mapIdx, h4]; rfl) h5 ?_
    intro j r' rows' hj h8 h9
    obtain ⟨g, hg, rfl⟩ := hidx j r' h8
    rw [h6]
    exact h7 j g rows' hj hg h9
  · left
    push Not at hex
    apply filesAfter_other
    intro i r rows h4 h5
    obtain ⟨g, hg, rfl⟩ := hidx i r h4
    exact hex i g rows hg h5

/-- When two runs have the same result path: the same output path; without output paths, the same name in two folders, or names that
differ in `.` and `_` only. -/
theorem same_path (base : Text) (r r' : RunArgs) (h : (∃ o, r.ofname = some o ∧ r'.ofname = some o) ∨
    (r.ofname = none ∧ r'.ofname = none ∧ replaceAll ".".toList "_".toList (fileNameOf r.fname) = replaceAll ".".toList "_".toList (fileNameOf r'.fname))) :
    resultPath base r = resultPath base r' := by
  unfold resultPath
  rcases h with ⟨o, h1, h2⟩ | ⟨h1, h2, h3⟩
  · rw [h1, h2]; rfl
  · rw [h1, h2, h3]

/-- Three commands whose files have the same result path. -/
example : resultPath "b".toList { fname := "x/a.xlsx".toList } = resultPath "b".toList { fname := "y/a.xlsx".toList } ∧
    resultPath "b".toList { fname := "a.b.xlsx".toList } = resultPath "b".toList { fname := "a_b.xlsx".toList } ∧
    resultPath "b".toList { fname := "a.xlsx".toList, ofname := some "o".toList } = resultPath "b".toList { fname := "b.xlsx".toList, ofname := some "o".toList } := by
  decide

theorem one_row {rows : List Profile} {i : Fin 1440} {x : ℚ} (h : rows.map (fun p => p i) = [x]) : ∃ p, rows = [p] ∧ p i = x := by
  cases rows with
  | nil => cases h
  | cons p rows =>
    rw [List.map_cons, List.cons.injEq, List.map_eq_nil_iff] at h
    exact ⟨p, by rw [h.2], h.1⟩

/-- Two files of a command, one output path. -/
def twoFiles : CliArgs := { fnames := some ["1.xlsx".toList, "2.xlsx".toList], ofnames := some ["out".toList], numDays := some [1] }

/-- **C61 is false.** With one output path for two files only one file of results is left, and it holds those of the second file (power 9), not
those of the first (power 5). -/
theorem C61_lost_partial : (∃ fs', Returns (mainCli lampWorld (fun _ => noWorkers) twoFiles []) (.files fs')) ∧
    ∃ rows1 rows2, Returns (runUseCase lampWorld noWorkers { fname := "1.xlsx".toList, ofname := some "out".toList, numDays := some 1 }) (some rows1) ∧
      Returns (runUseCase lampWorld noWorkers { fname := "2.xlsx".toList, ofname := some "out".toList, numDays := some 1 }) (some rows2) ∧
      (∃ series, Returns (mainCli lampWorld (fun _ => noWorkers) twoFiles []) (.files [("out".toList, series)]) ∧ HoldsProfiles series rows2) ∧
      (∃ p, rows1 = [p] ∧ p 150 = 5) ∧ (∃ p, rows2 = [p] ∧ p 150 = 9) := by
  obtain ⟨rows1, h1, h2⟩ := valueOf_map (m := plainRun lampWorld noWorkers { fname := "1.xlsx".toList, ofname := some "out".toList, numDays := some 1 }) (rng := constantDraws 0)
    (g := fun rows => rows.map (fun p => p 150)) (b := [5]) (by decide +kernel)
  obtain ⟨rows2, h3, h4⟩ := valueOf_map (m := plainRun lampWorld noWorkers { fname := "2.xlsx".toList, ofname := some "out".toList, numDays := some 1 }) (rng := constantDraws 0)
    (g := fun rows => rows.map (fun p => p 150)) (b := [9]) (by decide +kernel)
  have hr1 := returns_runUseCase (by decide) h1
  have hr2 := returns_runUseCase (by decide) h3
  have hp : planCli lampWorld twoFiles = .ok (.files [{ fname := "1.xlsx".toList, ofname := some "out".toList, numDays := some 1 },
    { fname := "2.xlsx".toList, ofname := some "out".toList, numDays := some 1 }]) := rfl
  have hmain : Returns (mainCli lampWorld (fun _ => noWorkers) twoFiles []) (.files [("out".toList, profileSeries rows2)]) := by
    unfold mainCli
    simp only [hp]
    rw [returns_bind (fin_runFiles _ _ _ _ _)]
    refine ⟨[("out".toList, profileSeries rows2)], returns_runFiles.2 ⟨[some rows1, some rows2], rfl, ?_, ?_⟩, returns_pure.2 rfl⟩
    · intro i r o hr ho
      match i with
      | 0 => 
        simp only [List.getElem?_cons_zero, Option.some.injEq] at hr ho
        subst hr ho
        exact hr1
      | 1 =>
        simp only [List.getElem?_cons_succ, List.getElem?_cons_zero, Option.some.injEq] at hr ho
        subst hr ho
        exact hr2
      | i + 2 => simp at hr
    · unfold filesAfter filesAfter filesAfter
      rw [export_eq, export_eq]
      simp [writeFile, resultPath, profileFormatting]
  refine ⟨⟨_, hmain⟩, rows1, rows2, hr1, hr2, ⟨_, hmain, holds_series rows2⟩, ?_, ?_⟩
  · exact one_row h2
  · exact one_row h4

end Ramp
