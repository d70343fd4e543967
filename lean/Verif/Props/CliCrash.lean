import Verif.Model.CliTrace
import Verif.Props.CliResults
import Verif.Props.CliOrder
import Verif.Props.Interrupted

/-! # Property C96: the files of results at any moment of a run of the command line -/

set_option autoImplicit false

namespace Ramp

/-! ## The executions are those of the model of the command line -/

theorem traced_bind {σ α β : Type} (m : Traced σ α) (f : α → Traced σ β) (r : Rng) :
    (m >>= f) r = match m r with | (l, .ok (a, r')) => (l ++ (f a r').1, (f a r').2) | (l, .error e) => (l, .error e) := rfl

/-- The files on disk after a run that ends. -/
def diskAfter (d : Disk) : CliResult → Disk
  | .nothing => d
  | .files fs => { d with series := fs }
  | .year folder m h => { d with tables := writeTable (writeTable d.tables (minutesPath folder) m) (hoursPath folder) h }

theorem export_run {base p : Text} {fs : Files} {s : List ℚ} {fname ofname : Option Text} (h : exportPath base none fname ofname = some p) (r : Rng) :
    tracedExport base fs s fname ofname r = ((List.range (s.length + 1)).map (fun n => writeFile fs p (s.take n)), .ok (writeFile fs p s, r)) := by
  unfold tracedExport
  rw [h]
  show ((List.range (s.length + 1)).map (fun n => writeFile fs p (s.take n)) ++ [], _) = _
  rw [List.append_nil]
  rfl

theorem outcome_export (base : Text) (fs : Files) (s : List ℚ) (fname ofname : Option Text) :
    outcome (tracedExport base fs s fname ofname) = pure (exportSeries base fs s none fname ofname) := by
  unfold tracedExport exportSeries
  cases exportPath base none fname ofname with
  | none => rfl
  | some p => rfl

theorem outcome_files (w : World) (wk : ℕ → Workers) : ∀ (rs : List RunArgs) (k : ℕ) (fs : Files), outcome (tracedFiles w wk k rs fs) = runFiles w wk k rs fs
  | [], _, _ => rfl
  | r :: rs, k, fs => by
    unfold tracedFiles runFiles
    rw [outcome_bind, outcome_quiet]
    congr 1
    funext res
    cases res with
    | none => exact outcome_files w wk rs _ _
    | some rows =>
      simp only [outcome_bind, outcome_export, sim_pure_bind]
      exact outcome_files w wk rs _ _

theorem outcome_table (ts : List (Text × Frame)) (p : Text) (f : Frame) : outcome (tracedTable ts p f) = pure (writeTable ts p f) := rfl

theorem outcome_main (w : World) (wk : ℕ → Workers) (a : CliArgs) (d : Disk) : outcome (tracedMain w wk a d) = (do
    let res ← mainCli w wk a d.series
    pure (diskAfter d res)) := by
  unfold tracedMain mainCli
  cases planCli w a with
  | error e => rfl
  | ok p => cases p with
    | nothing => rfl
    | files runs =>
      simp only [outcome_bind, outcome_within, outcome_files, outcome_pure, sim_bind_assoc, sim_pure_bind]
      rfl
    | months y runs folder =>
      simp only [outcome_bind, outcome_within, outcome_quiet, outcome_table, outcome_pure, sim_bind_assoc, sim_pure_bind]
      rfl

/-- **C96.** The executions considered below are those of the model: the outcome is that of `main`, with the files it leaves behind. -/
theorem C96_executions (w : World) (wk : ℕ → Workers) (a : CliArgs) (d : Disk) (rng : Rng) :
    (∀ e, (tracedMain w wk a d rng).2 = .error e ↔ mainCli w wk a d.series rng = .error e) ∧
    ∀ d' rng', (tracedMain w wk a d rng).2 = .ok (d', rng') ↔ ∃ res, mainCli w wk a d.series rng = .ok (res, rng') ∧ d' = diskAfter d res := by
  have h : (tracedMain w wk a d rng).2 = (mainCli w wk a d.series >>= fun res => pure (diskAfter d res)) rng := congrFun (outcome_main w wk a d) rng
  rw [h]
  cases hm : mainCli w wk a d.series rng with
  | error e' =>
    rw [bind_error hm]
    simp
  | ok p =>
    obtain ⟨res, r'⟩ := p
    rw [bind_ok hm]
    refine ⟨fun e => ⟨fun h => (by cases h), fun h => (by cases h)⟩, fun d' rng' => ⟨fun h => ?_, ?_⟩⟩
    · cases h
      exact ⟨res, rfl, rfl⟩
    · rintro ⟨res', h1, rfl⟩
      cases h1
      rfl

/-! ## Several input files -/

/-- What is at a path after the runs `rs` with results `outs`. -/
theorem filesAfter_holds (base : Text) (rs : List RunArgs) (outs : List (Option (List Profile))) (fs : Files) (p : Text) :
    ((filesAfter base rs outs fs).lookup p = fs.lookup p ∧
      ∀ (i : ℕ) (r : RunArgs) (rows : List Profile), rs[i]? = some r → outs[i]? = some (some rows) → resultPath base r ≠ p) ∨
    ∃ (i : ℕ) (r : RunArgs) (rows : List Profile), rs[i]? = some r ∧ outs[i]? = some (some rows) ∧ resultPath base r = p ∧
      (∀ (j : ℕ) (r' : RunArgs) (rows' : List Profile), i < j → rs[j]? = some r' → outs[j]? = some (some rows') → resultPath base r' ≠ p) ∧
      (filesAfter base rs outs fs).lookup p = some (profileSeries rows) := by
  by_cases hex : ∃ (i : ℕ) (r : RunArgs) (rows : List Profile), rs[i]? = some r ∧ outs[i]? = some (some rows) ∧ resultPath base r = p
  · right
    have hfin : ∀ (n i : ℕ) (r : RunArgs) (rows : List Profile), rs.length - i ≤ n → rs[i]? = some r → outs[i]? = some (some rows) → resultPath base r = p →
        ∃ (i : ℕ) (r : RunArgs) (rows : List Profile), rs[i]? = some r ∧ outs[i]? = some (some rows) ∧ resultPath base r = p ∧
          ∀ (j : ℕ) (r' : RunArgs) (rows' : List Profile), i < j → rs[j]? = some r' → outs[j]? = some (some rows') → resultPath base r' ≠ p := by
      intro n
      induction n with
      | zero =>
        intro i r rows hi hr _ _
        have := (List.getElem?_eq_some_iff.1 hr).1
        omega
      | succ n ih =>
        intro i r rows hi hr ho hp
        by_cases hlater : ∃ (j : ℕ) (r' : RunArgs) (rows' : List Profile), i < j ∧ rs[j]? = some r' ∧ outs[j]? = some (some rows') ∧ resultPath base r' = p
        · obtain ⟨j, r', rows', hj, hr', ho', hp'⟩ := hlater
          have := (List.getElem?_eq_some_iff.1 hr').1
          exact ih j r' rows' (by omega) hr' ho' hp'
        · push Not at hlater
          exact ⟨i, r, rows, hr, ho, hp, hlater⟩
    obtain ⟨i, r, rows, h1, h2, h3⟩ := hex
    obtain ⟨i, r, rows, h1, h2, h3, h4⟩ := hfin _ i r rows le_rfl h1 h2 h3
    refine ⟨i, r, rows, h1, h2, h3, h4, ?_⟩
    rw [← h3]
    refine filesAfter_last h1 h2 ?_
    rw [h3]
    exact h4
  · left
    push Not at hex
    exact ⟨filesAfter_other hex, hex⟩

/-- The states of the disk while the runs `rs` are executed. -/
def RunsOnTheWay (w : World) (wk : ℕ → Workers) (k : ℕ) (rs : List RunArgs) (fs fs' : Files) : Prop :=
  ∃ outs : List (Option (List Profile)), outs.length ≤ rs.length ∧
    (∀ i r o, rs[i]? = some r → outs[i]? = some o → Returns (runUseCase w (wk (k + i)) r) o) ∧
    ∃ r rows n, rs[outs.length]? = some r ∧ Returns (runUseCase w (wk (k + outs.length)) r) (some rows) ∧
      fs' = writeFile (filesAfter w.base rs outs fs) (resultPath w.base r) ((profileSeries rows).take n)

theorem onTheWay_cons {w : World} {wk : ℕ → Workers} {k : ℕ} {r : RunArgs} {rs : List RunArgs} {fs fs1 fs' : Files} {o : Option (List Profile)}
    (ho : Returns (runUseCase w (wk k) r) o) (h1 : ∀ outs, filesAfter w.base (r :: rs) (o :: outs) fs = filesAfter w.base rs outs fs1)
    (h : RunsOnTheWay w wk (k + 1) rs fs1 fs') : RunsOnTheWay w wk k (r :: rs) fs fs' := by
  obtain ⟨outs, h2, h3, r', rows, n, h4, h5, rfl⟩ := h
  refine ⟨o :: outs, by simpa using h2, ?_, r', rows, n, by simpa using h4, ?_, ?_⟩
  · intro i r'' o'' hr hoo
    cases i with
    | zero =>
      simp only [List.getElem?_cons_zero, Option.some.injEq] at hr hoo
      subst hr hoo
      exact ho
    | succ i =>
      rw [List.getElem?_cons_succ] at hr hoo
      have := h3 i r'' o'' hr hoo
      rwa [show k + (i + 1) = k + 1 + i by ring]
  · rwa [List.length_cons, show k + (outs.length + 1) = k + 1 + outs.length by ring]
  · rw [h1]

theorem sat_returns {α : Type} (m : Sim α) : Sat m (fun a => Returns m a) (fun _ => True) := by
  intro r
  cases h : m r with
  | error e => trivial
  | ok p => exact ⟨r, p.2, h⟩

theorem visits_files (w : World) (wk : ℕ → Workers) : ∀ (rs : List RunArgs) (k : ℕ) (fs : Files),
    Visits (tracedFiles w wk k rs fs) (fun fs' => RunsOnTheWay w wk k rs fs fs') (fun _ => True)
  | [], _, _ => visits_pure trivial
  | r :: rs, k, fs => by
    unfold tracedFiles
    refine visits_bind (visits_quiet (sat_returns _)) fun o ho => ?_
    cases o with
    | none =>
      exact visits_weaken (visits_files w wk rs (k + 1) fs) (fun fs' h => onTheWay_cons ho (fun _ => rfl) h) (fun _ h => h)
    | some rows =>
      have he : exportPath w.base none (some r.fname) r.ofname = some (resultPath w.base r) := by
        unfold exportPath resultPath
        cases r.ofname <;> rfl
      refine visits_bind (R := fun fs1 => fs1 = writeFile fs (resultPath w.base r) (profileSeries rows)) ?_ fun fs1 h1 => ?_
      · unfold tracedExport
        rw [he]
        refine visits_bind (visits_notes (Q := fun _ => True) (fun fs' h => ?_) trivial) fun _ _ => visits_pure rfl
        obtain ⟨n, -, rfl⟩ := List.mem_map.1 h
        refine ⟨[], Nat.zero_le _, fun i r o _ h => by simp at h, r, rows, n, rfl, ho, rfl⟩
      · subst h1
        refine visits_weaken (visits_files w wk rs (k + 1) _) (fun fs' h => onTheWay_cons ho (fun outs => ?_) h) (fun _ h => h)
        conv_lhs => unfold filesAfter
        rw [export_eq]
        rfl

/-- What a path holds once the files with results `outs` have been run: what it held, if no run wrote to it, or the profiles of the last run
that did. -/
def HoldsResults (w : World) (a : CliArgs) (s e : Option Date) (fnames : List Text) (outs : List (Option (List Profile))) (before after : Files) (p : Text) : Prop :=
  (after.lookup p = before.lookup p ∧ ∀ k f rows, fnames[k]? = some f → outs[k]? = some (some rows) → resultPath w.base (fileRun a s e k f) ≠ p) ∨
  ∃ k f rows series, fnames[k]? = some f ∧ outs[k]? = some (some rows) ∧ resultPath w.base (fileRun a s e k f) = p ∧
    (∀ j g rows', k < j → fnames[j]? = some g → outs[j]? = some (some rows') → resultPath w.base (fileRun a s e j g) ≠ p) ∧
    after.lookup p = some series ∧ HoldsProfiles series rows

theorem mapIdx_get {a : CliArgs} {s e : Option Date} {fnames : List Text} {j : ℕ} {r : RunArgs} :
    (fnames.mapIdx (fileRun a s e))[j]? = some r ↔ ∃ g, fnames[j]? = some g ∧ r = fileRun a s e j g := by
  rw [List.getElem?_mapIdx]
  cases fnames[j]? with
  | none => simp
  | some g =>
    simp only [Option.map_some, Option.some.injEq]
    constructor
    · rintro rfl; exact ⟨g, rfl, rfl⟩
    · rintro ⟨_, rfl, rfl⟩; rfl

theorem holdsResults_after (w : World) (a : CliArgs) (s e : Option Date) (fnames : List Text) (outs : List (Option (List Profile))) (fs : Files) (p : Text) :
    HoldsResults w a s e fnames outs fs (filesAfter w.base (fnames.mapIdx (fileRun a s e)) outs fs) p := by
  rcases filesAfter_holds w.base (fnames.mapIdx (fileRun a s e)) outs fs p with ⟨h1, h2⟩ | ⟨i, r, rows, h1, h2, h3, h4, h5⟩
  · exact .inl ⟨h1, fun k f rows hf ho => h2 k _ rows (mapIdx_get.2 ⟨f, hf, rfl⟩) ho⟩
  · obtain ⟨f, hf, rfl⟩ := mapIdx_get.1 h1
    exact .inr ⟨i, f, rows, _, hf, h2, h3, fun j g rows' hj hg ho => h4 j _ rows' hj (mapIdx_get.2 ⟨g, hg, rfl⟩) ho, h5, holds_series rows⟩

/-- **C96.** A run of the command line with several input files that is stopped at any moment leaves, for some number of files run so far (their
results are `outs`), every path with what it held or with the complete profiles of the last of these files that has this path for its
results; except at most the path of the results of the next file, if these are just being written: it holds their first values.  Nothing else is
changed. -/
theorem C96_files (w : World) (wk : ℕ → Workers) (a : CliArgs) (d d' : Disk) (rng : Rng) (fnames : List Text) (hf : a.fnames = some fnames)
    (hm : ¬ MonthMode w a) (hy : YearsOk a) (hn : FitsFiles a.numDays fnames.length) (ho : FitsFiles a.ofnames fnames.length)
    (h : d' ∈ d :: visited (tracedMain w wk a d) rng) : d'.tables = d.tables ∧ ∃ s e, UsesDates a s e ∧ ∃ outs : List (Option (List Profile)), outs.length ≤ fnames.length ∧
      (∀ k f o, fnames[k]? = some f → outs[k]? = some o → Returns (runUseCase w (wk k) (fileRun a s e k f)) o) ∧
      ∀ p : Text, HoldsResults w a s e fnames outs d.series d'.series p ∨
        ∃ f rows series n, fnames[outs.length]? = some f ∧ Returns (runUseCase w (wk outs.length) (fileRun a s e outs.length f)) (some rows) ∧
          resultPath w.base (fileRun a s e outs.length f) = p ∧ HoldsProfiles series rows ∧ d'.series.lookup p = some (series.take n) := by
  obtain ⟨s, e, hu, hp⟩ := C59_plan w a fnames hf hm hy hn ho
  rcases List.mem_cons.1 h with rfl | h
  · exact ⟨rfl, s, e, hu, [], Nat.zero_le _, fun k f o _ hh => by simp at hh, fun p => .inl (.inl ⟨rfl, fun k f rows _ hh => by simp at hh⟩)⟩
  have hv : Visits (tracedMain w wk a d) (fun d' => d'.tables = d.tables ∧ RunsOnTheWay w wk 0 (fnames.mapIdx (fileRun a s e)) d.series d'.series) (fun _ => True) := by
    unfold tracedMain
    simp only [hp]
    refine visits_bind (visits_within (visits_files w wk _ 0 d.series) fun fs' h => ?_) fun _ _ => visits_pure trivial
    exact ⟨rfl, h⟩
  obtain ⟨ht, outs, h1, h2, r, rows, n, h3, h4, h5⟩ := (hv rng).1 d' h
  obtain ⟨f, hf', rfl⟩ := mapIdx_get.1 h3
  refine ⟨ht, s, e, hu, outs, by simpa using h1, fun k f o hk ho => ?_, fun p => ?_⟩
  · have := h2 k _ o (mapIdx_get.2 ⟨f, hk, rfl⟩) ho
    rwa [Nat.zero_add] at this
  · by_cases hpp : p = resultPath w.base (fileRun a s e outs.length f)
    · subst hpp
      rw [Nat.zero_add] at h4
      refine .inr ⟨f, rows, _, n, hf', h4, rfl, holds_series rows, ?_⟩
      rw [h5, lookup_write, if_pos rfl]
    · left
      have := holdsResults_after w a s e fnames outs d.series p
      unfold HoldsResults at this ⊢
      rw [h5, lookup_write, if_neg hpp]
      exact this

/-- The runs that ended before the one that raised. -/
theorem files_error (w : World) (wk : ℕ → Workers) : ∀ (rs : List RunArgs) (k : ℕ) (fs : Files) (rng : Rng) (e : Err), (tracedFiles w wk k rs fs rng).2 = .error e →
    ∃ (outs : List (Option (List Profile))) (r : RunArgs), rs[outs.length]? = some r ∧ Raises (runUseCase w (wk (k + outs.length)) r) e ∧
      (∀ i r o, rs[i]? = some r → outs[i]? = some o → Returns (runUseCase w (wk (k + i)) r) o) ∧
      ((tracedFiles w wk k rs fs rng).1.getLast?).getD fs = filesAfter w.base rs outs fs := by
  intro rs
  induction rs with
  | nil => intro k fs rng e h; cases h
  | cons r rs ih =>
    intro k fs rng e h
    have cons : ∀ (o : Option (List Profile)) (fs1 : Files) (rng1 : Rng), Returns (runUseCase w (wk k) r) o →
        (∀ outs, filesAfter w.base (r :: rs) (o :: outs) fs = filesAfter w.base rs outs fs1) → (tracedFiles w wk (k + 1) rs fs1 rng1).2 = .error e →
        ∃ (outs : List (Option (List Profile))) (r' : RunArgs), (r :: rs)[outs.length]? = some r' ∧ Raises (runUseCase w (wk (k + outs.length)) r') e ∧
          (∀ i r' o, (r :: rs)[i]? = some r' → outs[i]? = some o → Returns (runUseCase w (wk (k + i)) r') o) ∧
          ((tracedFiles w wk (k + 1) rs fs1 rng1).1.getLast?).getD fs1 = filesAfter w.base (r :: rs) outs fs := by
      intro o fs1 rng1 hret h1 h2
      obtain ⟨outs, r', h3, h4, h5, h6⟩ := ih (k + 1) fs1 rng1 e h2
      refine ⟨o :: outs, r', by simpa using h3, ?_, ?_, ?_⟩
      · rwa [List.length_cons, show k + (outs.length + 1) = k + 1 + outs.length by ring]
      · intro i r'' o'' hr hoo
        cases i with
        | zero =>
          simp only [List.getElem?_cons_zero, Option.some.injEq] at hr hoo
          subst hr hoo
          exact hret
        | succ i =>
          rw [List.getElem?_cons_succ] at hr hoo
          have := h5 i r'' o'' hr hoo
          rwa [show k + (i + 1) = k + 1 + i by ring]
      · rw [h1, h6]
    have he : exportPath w.base none (some r.fname) r.ofname = some (resultPath w.base r) := by
      unfold exportPath resultPath
      cases r.ofname <;> rfl
    have step : tracedFiles w wk k (r :: rs) fs rng = match runUseCase w (wk k) r rng with
        | .error e => ([], .error e)
        | .ok (none, r1) => tracedFiles w wk (k + 1) rs fs r1
        | .ok (some rows, r1) => let fs1 := writeFile fs (resultPath w.base r) (profileSeries rows)
          (((List.range ((profileSeries rows).length + 1)).map (fun n => writeFile fs (resultPath w.base r) ((profileSeries rows).take n)))
            ++ (tracedFiles w wk (k + 1) rs fs1 r1).1, (tracedFiles w wk (k + 1) rs fs1 r1).2) := by
      conv_lhs => unfold tracedFiles
      rw [traced_bind]
      unfold quiet
      cases hr : runUseCase w (wk k) r rng with
      | error e => rfl
      | ok p =>
        obtain ⟨o, r1⟩ := p
        cases o with
        | none => rfl
        | some rows =>
          simp only [List.nil_append]
          rw [traced_bind, export_run he]
          rfl
    rw [step] at h ⊢
    cases hr : runUseCase w (wk k) r rng with
    | error e' =>
      rw [hr] at h
      cases h
      exact ⟨[], r, rfl, ⟨rng, hr⟩, fun i r o _ hh => by simp at hh, rfl⟩
    | ok p =>
      obtain ⟨o, r1⟩ := p
      rw [hr] at h
      cases o with
      | none =>
        exact cons none fs r1 ⟨rng, r1, hr⟩ (fun _ => rfl) h
      | some rows =>
        simp only at h ⊢
        obtain ⟨outs, r', h1, h2, h3, h4⟩ := cons (some rows) (writeFile fs (resultPath w.base r) (profileSeries rows)) r1 ⟨rng, r1, hr⟩ (fun outs => by
          conv_lhs => unfold filesAfter
          rw [export_eq]
          rfl) h
        refine ⟨outs, r', h1, h2, h3, ?_⟩
        rw [← h4, List.getLast?_append, List.getLast?_map, List.getLast?_range]
        simp

/-- **C96.** When the run of an input file raises, the results of the files before it are on disk, complete (of files with the same
result path those of the last), and nothing else has changed. -/
theorem C96_failure (w : World) (wk : ℕ → Workers) (a : CliArgs) (d : Disk) (rng : Rng) (err : Err) (fnames : List Text) (hf : a.fnames = some fnames)
    (hm : ¬ MonthMode w a) (hy : YearsOk a) (hn : FitsFiles a.numDays fnames.length) (ho : FitsFiles a.ofnames fnames.length)
    (h : mainCli w wk a d.series rng = .error err) : ∃ d', (d :: visited (tracedMain w wk a d) rng).getLast? = some d' ∧ d'.tables = d.tables ∧ ∃ s e, UsesDates a s e ∧
      ∃ outs : List (Option (List Profile)), (∃ f, fnames[outs.length]? = some f ∧ Raises (runUseCase w (wk outs.length) (fileRun a s e outs.length f)) err) ∧
      (∀ k f o, fnames[k]? = some f → outs[k]? = some o → Returns (runUseCase w (wk k) (fileRun a s e k f)) o) ∧
      ∀ p : Text, HoldsResults w a s e fnames outs d.series d'.series p := by
  obtain ⟨s, e, hu, hp⟩ := C59_plan w a fnames hf hm hy hn ho
  have hm' := ((C96_executions w wk a d rng).1 err).2 h
  have hstep : tracedMain w wk a d rng = match tracedFiles w wk 0 (fnames.mapIdx (fileRun a s e)) d.series rng with
      | (l, .ok (fs, r')) => (l.map (fun fs => { d with series := fs }) ++ [], .ok ({ d with series := fs }, r'))
      | (l, .error e) => (l.map (fun fs => { d with series := fs }), .error e) := by
    unfold tracedMain
    simp only [hp]
    rw [traced_bind]
    unfold within
    rcases tracedFiles w wk 0 (fnames.mapIdx (fileRun a s e)) d.series rng with ⟨l, _ | ⟨fs, r'⟩⟩ <;> rfl
  have key := files_error w wk (fnames.mapIdx (fileRun a s e)) 0 d.series rng err
  unfold visited
  rw [hstep] at hm' ⊢
  revert hm' key
  rcases tracedFiles w wk 0 (fnames.mapIdx (fileRun a s e)) d.series rng with ⟨l, e' | ⟨fs, r'⟩⟩
  · intro hm' key
    cases hm'
    obtain ⟨outs, r, h1, h2, h3, h4⟩ := key rfl
    obtain ⟨f, hf', rfl⟩ := mapIdx_get.1 h1
    refine ⟨{ d with series := l.getLast?.getD d.series }, ?_, rfl, s, e, hu, outs, ⟨f, hf', by rwa [Nat.zero_add] at h2⟩, fun k g o hk ho => ?_, fun p => ?_⟩
    · rw [List.getLast?_cons, List.getLast?_map]
      cases l.getLast? <;> rfl
    · have := h3 k _ o (mapIdx_get.2 ⟨g, hk, rfl⟩) ho
      rwa [Nat.zero_add] at this
    · simp only at h4 ⊢
      rw [h4]
      exact holdsResults_after w a s e fnames outs d.series p
  · intro hm'
    cases hm'

/-! ## One input file per month -/

theorem join_ne (folder a b : Text) (ha : ['/'].isPrefixOf a = false) (hb : ['/'].isPrefixOf b = false) (h : a ≠ b) : joinPath folder a ≠ joinPath folder b := by
  unfold joinPath
  rw [ha, hb]
  simp only [Bool.false_eq_true, if_false]
  split_ifs with h1
  · exact fun e => h (List.append_cancel_left e)
  · exact fun e => h (List.cons.inj (List.append_cancel_left e)).2

theorem minutes_ne_hours (folder : Text) : minutesPath folder ≠ hoursPath folder := join_ne _ _ _ (by decide) (by decide) (by decide)

theorem lookup_writeTable (ts : List (Text × Frame)) (p q : Text) (f : Frame) : (writeTable ts p f).lookup q = if q = p then some f else ts.lookup q := by
  unfold writeTable
  by_cases h : q = p
  · subst h
    simp
  · rw [if_neg h, List.lookup_cons]
    have : (q == p) = false := by simpa using h
    rw [this]
    simp only
    induction ts with
    | nil => rfl
    | cons g ts ih =>
      obtain ⟨x, y⟩ := g
      by_cases hx : x = p
      · subst hx
        rw [List.filter_cons_of_neg (by simp), List.lookup_cons]
        have : (q == x) = false := by simpa using h
        rw [this]
        exact ih
      · rw [List.filter_cons_of_pos (by simpa using hx), List.lookup_cons, List.lookup_cons]
        split
        · rfl
        · exact ih

/-- The states of the disk while the tables of a year are written. -/
def YearOnTheWay (folder : Text) (f hours : Frame) (before after : List (Text × Frame)) : Prop :=
  (∀ p, p ≠ minutesPath folder → p ≠ hoursPath folder → after.lookup p = before.lookup p) ∧
  ((∃ n, after.lookup (minutesPath folder) = some (firstRows f n) ∧ after.lookup (hoursPath folder) = before.lookup (hoursPath folder)) ∨
    ∃ n, after.lookup (minutesPath folder) = some f ∧ after.lookup (hoursPath folder) = some (firstRows hours n))

theorem year_hours {y : ℕ} {s : List ℚ} {f : Frame} (h : yearFrame y s = .ok f) : ∃ hours, hourlyFrame f = .ok hours := by
  unfold yearFrame at h
  simp only at h
  split_ifs at h
  cases h
  have key : ∀ l : List ℤ, stampsOf (l.map Label.stamp) = some l := by
    intro l
    induction l with
    | nil => rfl
    | cons t l ih => rw [List.map_cons, stampsOf, ih]; rfl
  generalize minuteRange (Date.stamp ⟨y, 1, 1⟩) (Date.stamp ⟨y, 12, 31⟩ + 23 * 60 + 59) = ts
  have hcol : ∀ rule name, ∃ x, hourlyColumn { index := ts.map Label.stamp, columns := [("0", s.map some)] } rule name = .ok x := by
    intro rule name
    unfold hourlyColumn pandasResample
    rw [key]
    simp only
    cases ts.min? with
    | none => exact ⟨_, rfl⟩
    | some lo => cases ts.max? with
      | none => exact ⟨_, rfl⟩
      | some hi => exact ⟨_, rfl⟩
  obtain ⟨x1, h1⟩ := hcol .mean "mean"
  obtain ⟨x2, h2⟩ := hcol .max "max"
  obtain ⟨x3, h3⟩ := hcol .min "min"
  unfold hourlyFrame
  rw [h1, h2, h3]
  exact ⟨_, rfl⟩

/-- **C96.** A command with one input file per month writes nothing before all twelve months have been simulated; stopped at a later moment it
leaves the first rows of the table of minutes, or the complete table of minutes and the first rows of the table of hours, those of a
possible result of the command (`C62_year`).  Nothing else is changed. -/
theorem C96_year (w : World) (wk : ℕ → Workers) (a : CliArgs) (d d' : Disk) (rng : Rng) (y : ℤ) (dir : Text) (h : YearCommand w a y dir)
    (hd : d' ∈ visited (tracedMain w wk a d) rng) : d'.series = d.series ∧ ∃ f hours, Returns (mainCli w wk a d.series) (.year (resultFolder w a) f hours) ∧
      YearOnTheWay (resultFolder w a) f hours d.tables d'.tables := by
  have hplan := plan_year h
  cases hm : monthFiles w dir a.extension with
  | error e =>
    rw [hm] at hplan
    unfold visited tracedMain at hd
    simp only [hplan] at hd
    cases hd
  | ok fs =>
    rw [hm] at hplan
    simp only at hplan
    split_ifs at hplan with hl
    swap
    · unfold visited tracedMain at hd
      simp only [hplan] at hd
      cases hd
    cases hs : spreadDays a.numDays fs.length with
    | error e =>
      rw [hs] at hplan
      unfold visited tracedMain at hd
      simp only [hplan] at hd
      cases hd
    | ok ns =>
      rw [hs] at hplan
      simp only at hplan
      have hfold : (yearFolder (outputs a.ofnames)).getD w.current = resultFolder w a := by
        unfold yearFolder outputs resultFolder
        rcases a.ofnames with _ | (_ | ⟨o, _ | ⟨o', l⟩⟩) <;> rfl
      have hv : Visits (tracedMain w wk a d) (fun d' => d'.series = d.series ∧ ∃ f hours,
          Returns (mainCli w wk a d.series) (.year (resultFolder w a) f hours) ∧ YearOnTheWay (resultFolder w a) f hours d.tables d'.tables) (fun _ => True) := by
        unfold tracedMain
        simp only [hplan]
        refine visits_bind (visits_quiet (sat_returns _)) fun l hl => ?_
        cases hf : yearFrame y.toNat l.flatten with
        | error e =>
          intro r
          exact ⟨fun s hs => (by cases hs), fun _ _ _ => trivial⟩
        | ok f =>
          obtain ⟨hours, hh⟩ := year_hours hf
          have hret : Returns (mainCli w wk a d.series) (.year (resultFolder w a) f hours) := by
            obtain ⟨r1, r2, hl⟩ := hl
            refine ⟨r1, r2, ?_⟩
            unfold mainCli
            simp only [hplan]
            rw [bind_ok hl, hf, sim_liftE_ok_bind, hh, sim_liftE_ok_bind, hfold]
            rfl
          rw [hfold]
          refine visits_bind (visits_quiet (E := fun _ => True) (Q := fun g => g = f) (fun r => rfl)) fun g hg => ?_
          subst hg
          rw [hh]
          have hne := minutes_ne_hours (resultFolder w a)
          refine visits_bind (R := fun ts => ts = writeTable d.tables (minutesPath (resultFolder w a)) g) (visits_within (P := fun ts => ∃ n, ts = writeTable d.tables (minutesPath (resultFolder w a)) (firstRows g n)) ?_ ?_) fun ts hts => ?_
          · refine visits_bind (visits_notes (Q := fun _ => True) (fun ts hts => ?_) trivial) fun _ _ => visits_pure rfl
            obtain ⟨n, -, rfl⟩ := List.mem_map.1 hts
            exact ⟨n, rfl⟩
          · rintro ts ⟨n, rfl⟩
            refine ⟨rfl, g, hours, hret, fun p h1 _ => ?_, .inl ⟨n, ?_, ?_⟩⟩
            · simp only [lookup_writeTable, if_neg h1]
            · simp only [lookup_writeTable, if_true]
            · simp only [lookup_writeTable, if_neg hne.symm]
          · subst hts
            refine visits_bind (visits_quiet (E := fun _ => True) (Q := fun g => g = hours) (fun r => rfl)) fun g' hg => ?_
            subst hg
            refine visits_bind (visits_within (P := fun ts => ∃ n, ts = writeTable (writeTable d.tables (minutesPath (resultFolder w a)) g) (hoursPath (resultFolder w a)) (firstRows g' n))
              (Q := fun _ => True) ?_ ?_) fun _ _ => visits_pure trivial
            · refine visits_bind (visits_notes (Q := fun _ => True) (fun ts hts => ?_) trivial) fun _ _ => visits_pure trivial
              obtain ⟨n, -, rfl⟩ := List.mem_map.1 hts
              exact ⟨n, rfl⟩
            · rintro ts ⟨n, rfl⟩
              refine ⟨rfl, g, g', hret, fun p h1 h2 => ?_, .inr ⟨n, ?_, ?_⟩⟩
              · simp only [lookup_writeTable, if_neg h1, if_neg h2]
              · simp only [lookup_writeTable, if_neg hne, if_true]
              · simp only [lookup_writeTable, if_true]
      exact (hv rng).1 d' hd

/-! ## Cases -/

/-- Two files, the second does not exist. -/
def secondMissing : CliArgs := { fnames := some ["1.xlsx".toList, "x.xlsx".toList], numDays := some [1], ofnames := some ["a".toList, "b".toList] }

/-- The exception of two computations one after the other, in a form that the kernel can evaluate. -/
def errorOfTwo {α β : Type} (m : Sim α) (n : Sim β) (rng : Rng) : Option Err := match m rng with
  | .error e => some e
  | .ok (_, r) => match n r with
    | .error e => some e
    | .ok _ => none

theorem errorOfTwo_some {α β : Type} {m : Sim α} {n : Sim β} {rng : Rng} {e : Err} (h : errorOfTwo m n rng = some e) :
    m rng = .error e ∨ ∃ a r, m rng = .ok (a, r) ∧ n r = .error e := by
  unfold errorOfTwo at h
  cases hm : m rng with
  | error e' => rw [hm] at h; cases h; exact .inl rfl
  | ok p =>
    obtain ⟨a, r⟩ := p
    rw [hm] at h
    simp only at h
    cases hn : n r with
    | error e' => rw [hn] at h; cases h; exact .inr ⟨a, r, rfl, hn⟩
    | ok q => rw [hn] at h; cases h

def secondMissingRuns : List RunArgs := [{ fname := "1.xlsx".toList, ofname := some "a".toList, numDays := some 1 },
  { fname := "x.xlsx".toList, ofname := some "b".toList, numDays := some 1 }]

theorem files_two {w : World} {wk : Workers} {r1 r2 : RunArgs} {rng : Rng} {e : Err} (h1 : endsWith ".xlsx".toList r1.fname = true)
    (h2 : endsWith ".xlsx".toList r2.fname = true) (h : errorOfTwo (plainRun w wk r1) (plainRun w wk r2) rng = some e) (fs : Files) :
    runFiles w (fun _ => wk) 0 [r1, r2] fs rng = .error e := by
  unfold runFiles
  rw [run_eq _ _ _ h1, sim_bind_assoc]
  rcases errorOfTwo_some h with h3 | ⟨a, r, h3, h4⟩
  · exact bind_error h3
  · rw [bind_ok h3, sim_pure_bind]
    simp only
    unfold runFiles
    rw [run_eq _ _ _ h2, sim_bind_assoc]
    exact bind_error h4

theorem secondMissing_plan : planCli lampWorld secondMissing = .ok (.files secondMissingRuns) := rfl

theorem secondMissing_error : errorOfTwo (plainRun lampWorld noWorkers { fname := "1.xlsx".toList, ofname := some "a".toList, numDays := some 1 })
    (plainRun lampWorld noWorkers { fname := "x.xlsx".toList, ofname := some "b".toList, numDays := some 1 }) (constantDraws 0) = some .fileNotFoundError := by decide +kernel

theorem secondMissing_first : endsWith ".xlsx".toList "1.xlsx".toList = true := by decide

theorem secondMissing_second : endsWith ".xlsx".toList "x.xlsx".toList = true := by decide

theorem main_files_error {w : World} {wk : ℕ → Workers} {a : CliArgs} {fs : Files} {rng : Rng} {e : Err} {runs : List RunArgs}
    (hp : planCli w a = .ok (.files runs)) (h : runFiles w wk 0 runs fs rng = .error e) : mainCli w wk a fs rng = .error e := by
  unfold mainCli
  rw [hp]
  exact bind_error h

theorem secondMissing_fails : ∃ rng, mainCli lampWorld (fun _ => noWorkers) secondMissing [] rng = .error .fileNotFoundError := by
  exact ⟨constantDraws 0, main_files_error secondMissing_plan (files_two secondMissing_first secondMissing_second secondMissing_error [])⟩

theorem secondMissing_options : ¬ MonthMode lampWorld secondMissing ∧ YearsOk secondMissing ∧ FitsFiles secondMissing.numDays 2 ∧ FitsFiles secondMissing.ofnames 2 :=
  ⟨(by rintro ⟨y, f, rest, h, -⟩; cases h), (fun ys h => by cases h), (fun l h => by cases h; exact .inl rfl), (fun l h => by cases h; exact .inr rfl)⟩

/-- Non-vacuity of C96_failure and C96_files: the command can fail; then the disk holds what `C96_failure` says. -/
example : ∃ rng d', (({} : Disk) :: visited (tracedMain lampWorld (fun _ => noWorkers) secondMissing {}) rng).getLast? = some d' ∧
    ∃ s e outs, ∀ p, HoldsResults lampWorld secondMissing s e ["1.xlsx".toList, "x.xlsx".toList] outs [] d'.series p := by
  obtain ⟨rng, h⟩ := secondMissing_fails
  obtain ⟨h1, h2, h3, h4⟩ := secondMissing_options
  obtain ⟨d', h5, -, s, e, -, outs, -, -, h6⟩ := C96_failure lampWorld (fun _ => noWorkers) secondMissing {} rng _ _ rfl h1 h2 h3 h4 h
  exact ⟨rng, d', h5, s, e, outs, h6⟩

/-- A run that writes results: the first state after the start is the file of the results, still empty. -/
theorem visits_first {w : World} {wk : ℕ → Workers} {k : ℕ} {r : RunArgs} {rs : List RunArgs} {fs : Files} {rows : List Profile}
    (h : Returns (runUseCase w (wk k) r) (some rows)) : ∃ rng fs', fs' ∈ visited (tracedFiles w wk k (r :: rs) fs) rng ∧
      fs'.lookup (resultPath w.base r) = some [] := by
  obtain ⟨rng, r1, h⟩ := h
  have he : exportPath w.base none (some r.fname) r.ofname = some (resultPath w.base r) := by
    unfold exportPath resultPath
    cases r.ofname <;> rfl
  refine ⟨rng, writeFile fs (resultPath w.base r) [], ?_, by rw [lookup_write, if_pos rfl]⟩
  unfold visited tracedFiles
  rw [traced_bind]
  unfold quiet
  rw [h]
  simp only [List.nil_append]
  rw [traced_bind, export_run he]
  exact List.mem_append_left _ (List.mem_map.2 ⟨0, by simp, rfl⟩)

/-- Non-vacuity of C96_year: a year can be simulated, and its tables are written. -/
example : ∃ rng d', (tracedMain yearWorld (fun _ => noWorkers) yearArgs {} rng).2.toOption.map Prod.fst = some d' ∧
    (∃ f, d'.tables.lookup (minutesPath "/home".toList) = some f ∧ f.index.length = 1440 * 366) ∧ d'.tables.lookup (hoursPath "/home".toList) ≠ none := by
  obtain ⟨f, h, ⟨rng, r1, hm⟩, hl⟩ := yearWorld_year
  refine ⟨rng, diskAfter {} (.year "/home".toList f h), ?_, ⟨f, ?_, hl⟩, ?_⟩
  · rw [((C96_executions yearWorld (fun _ => noWorkers) yearArgs {} rng).2 _ r1).2 ⟨_, hm, rfl⟩]
    rfl
  · show (writeTable (writeTable _ _ f) _ h).lookup _ = _
    rw [lookup_writeTable, if_neg (minutes_ne_hours _), lookup_writeTable, if_pos rfl]
  · show (writeTable (writeTable _ _ f) _ h).lookup _ ≠ _
    rw [lookup_writeTable, if_pos rfl]
    simp

end Ramp
