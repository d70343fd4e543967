import Verif.Model.CliSays
import Verif.Props.CliCrash
import Verif.Props.Readers

/-! # C119: what the command line prints -/

set_option autoImplicit false

namespace Ramp

/-- The years of `-y` can be used: no date beside them, and the first and the last are years of the calendar. -/
def YearsUsable (a : CliArgs) : Prop := ∀ ys, a.years = some ys → a.dateStart = none ∧ a.dateEnd = none ∧ ys ≠ [] ∧
  ∀ y, ys.head? = some y ∨ ys.getLast? = some y → 1 ≤ y ∧ y ≤ 9999

/-- The paths named by the lines "Writing RAMP results to ...". -/
def pathsSaid (l : List Said) : List Text := l.filterMap (fun m => match m with
  | .writing p => some p
  | _ => none)

/-- The place of a line: dates, input, writing of results, folder of the results. -/
def Said.rank : Said → ℕ
  | .startChosen _ | .endChosen _ => 0
  | .monthFiles _ | .notFolder => 1
  | .noInput => 2
  | .writing _ | .noPath => 3
  | .resultsIn _ => 4

/-! ## The parts -/

/-- The lines about dates. -/
def datesSaid (a : CliArgs) : List Said := match a.numDays, a.dateStart, a.dateEnd with
  | none, none, some e => [.startChosen ⟨e.year, 1, 1⟩]
  | none, some s, none => [.endChosen ⟨s.year, 12, 31⟩]
  | _, _, _ => []

/-- The lines about the folder of the months. -/
def monthsSaid (w : World) (a : CliArgs) : List Said := match a.years, a.fnames with
  | some [_], some (f :: _) =>
    if w.isDir f then match monthFiles w f a.extension with
      | .ok fs => if fs.length = 12 then [.monthFiles fs] else []
      | .error _ => []
    else [.notFolder]
  | _, _ => []

theorem saysDates_run (a : CliArgs) (r : Rng) : saysDates a.numDays a.dateStart a.dateEnd r = (datesSaid a, .ok (completeDates a.numDays a.dateStart a.dateEnd, r)) := by
  unfold saysDates datesSaid completeDates
  rcases a.numDays with _ | n <;> rcases a.dateStart with _ | s <;> rcases a.dateEnd with _ | e <;> rfl

theorem saysMonths_run (w : World) (a : CliArgs) (r : Rng) : saysMonths w a.years a.fnames a.extension r =
    (monthsSaid w a, (monthMode w a.years a.fnames a.extension).map (fun m => (m, r))) := by
  unfold saysMonths monthsSaid monthMode
  rcases a.years with _ | (_ | ⟨y, _ | ⟨y', ys⟩⟩) <;> rcases a.fnames with _ | (_ | ⟨f, fs⟩) <;> try rfl
  simp only
  cases hd : w.isDir f with
  | false => rfl
  | true =>
    simp only [if_true]
    rw [traced_bind]
    cases hm : monthFiles w f a.extension with
    | error e => rfl
    | ok fs =>
      show ([] ++ _, _) = _
      by_cases h12 : fs.length = 12
      · simp only [if_pos h12]
        rfl
      · simp only [if_neg h12]
        rfl

theorem planCli_parts (w : World) (a : CliArgs) : planCli w a =
    match yearDates a.years (completeDates a.numDays a.dateStart a.dateEnd).1 (completeDates a.numDays a.dateStart a.dateEnd).2 with
    | .error e => .error e
    | .ok (s, e) => match monthMode w a.years a.fnames a.extension with
      | .error e => .error e
      | .ok mode => match a.fnames with
        | none => .ok .nothing
        | some fnames => planRuns a s e fnames mode := by
  rfl

theorem traced_ok {σ α β : Type} {m : Traced σ α} {f : α → Traced σ β} {r r' : Rng} {l : List σ} {x : α} (h : m r = (l, .ok (x, r'))) :
    (m >>= f) r = (l ++ (f x r').1, (f x r').2) := by
  rw [traced_bind, h]

theorem traced_error {σ α β : Type} {m : Traced σ α} {f : α → Traced σ β} {r : Rng} {l : List σ} {e : Err} (h : m r = (l, .error e)) : (m >>= f) r = (l, .error e) := by
  rw [traced_bind, h]

/-- The lines printed before the first simulation. -/
def planSaid (w : World) (a : CliArgs) : List Said :=
  datesSaid a ++ (match yearDates a.years (completeDates a.numDays a.dateStart a.dateEnd).1 (completeDates a.numDays a.dateStart a.dateEnd).2 with
    | .error _ => []
    | .ok _ => monthsSaid w a ++ if a.fnames = none then [.noInput] else [])

theorem saysPlan_run (w : World) (a : CliArgs) (r : Rng) : saysPlan w a r = (planSaid w a, (planCli w a).map (fun p => (p, r))) := by
  rw [planCli_parts]
  unfold saysPlan planSaid
  rw [traced_ok (saysDates_run a r)]
  cases hy : yearDates a.years (completeDates a.numDays a.dateStart a.dateEnd).1 (completeDates a.numDays a.dateStart a.dateEnd).2 with
  | error e =>
    rw [traced_error (l := []) (e := e) rfl]
    rfl
  | ok se =>
    rw [traced_ok (l := []) (x := se) (r' := r) rfl]
    have hrun := saysMonths_run w a r
    cases hm : monthMode w a.years a.fnames a.extension with
    | error e =>
      rw [hm] at hrun
      rw [traced_error (l := monthsSaid w a) (e := e) hrun]
      have : a.fnames ≠ none := by
        intro hf
        rw [hf] at hm
        unfold monthMode at hm
        split at hm <;> simp_all
      simp [this, Except.map]
    | ok mode =>
      rw [hm] at hrun
      rw [traced_ok (l := monthsSaid w a) (x := mode) (r' := r) hrun]
      cases hf : a.fnames with
      | none => rfl
      | some fnames =>
        simp only [List.nil_append, quiet, reduceCtorEq, if_false]
        cases planRuns a se.1 se.2 fnames mode <;> rfl

theorem outcome_saysPlan (w : World) (a : CliArgs) : outcome (saysPlan w a) = liftE (planCli w a) := by
  funext r
  show (saysPlan w a r).2 = _
  rw [saysPlan_run]
  cases planCli w a <;> rfl

theorem outcome_saysExport (base : Text) (fs : Files) (s : List ℚ) (j : Option ℕ) (fname ofname : Option Text) :
    outcome (saysExport base fs s j fname ofname) = pure (exportSeries base fs s j fname ofname) := by
  unfold saysExport exportSeries
  cases exportPath base j fname ofname with
  | none => rfl
  | some p => rfl

theorem outcome_saysFiles (w : World) (wk : ℕ → Workers) : ∀ (rs : List RunArgs) (k : ℕ) (fs : Files), outcome (saysFiles w wk k rs fs) = runFiles w wk k rs fs
  | [], _, _ => rfl
  | r :: rs, k, fs => by
    unfold saysFiles runFiles
    rw [outcome_bind, outcome_quiet]
    congr 1
    funext res
    cases res with
    | none => exact outcome_saysFiles w wk rs _ _
    | some rows =>
      simp only [outcome_bind, outcome_saysExport, sim_pure_bind]
      exact outcome_saysFiles w wk rs _ _

/-- **C119.** The lines accompany the execution of `main`, they do not change it. -/
theorem C119_same_main (w : World) (wk : ℕ → Workers) (a : CliArgs) (fs : Files) (rng : Rng) : (saysMain w wk a fs rng).2 = mainCli w wk a fs rng := by
  have : outcome (saysMain w wk a fs) = mainCli w wk a fs := by
    unfold saysMain mainCli
    rw [outcome_bind, outcome_saysPlan]
    cases planCli w a with
    | error e => rfl
    | ok p => cases p with
      | nothing => rfl
      | files runs =>
        rw [sim_liftE_ok_bind]
        simp only [outcome_bind, outcome_saysFiles, outcome_pure]
      | months y runs folder =>
        rw [sim_liftE_ok_bind]
        simp only [outcome_bind, outcome_quiet, outcome_note, outcome_pure, sim_pure_bind]
  exact congrFun this rng

/-! ## The whole output -/

/-- The lines printed from the first simulation on. -/
def runSaid (w : World) (wk : ℕ → Workers) (a : CliArgs) (fs : Files) (rng : Rng) : List Said := match planCli w a with
  | .ok (.files runs) => visited (saysFiles w wk 0 runs fs) rng
  | .ok (.months _ _ folder) => match mainCli w wk a fs rng with
    | .ok _ => [.resultsIn (folder.getD w.current)]
    | .error _ => []
  | _ => []

theorem visited_main (w : World) (wk : ℕ → Workers) (a : CliArgs) (fs : Files) (rng : Rng) :
    visited (saysMain w wk a fs) rng = planSaid w a ++ runSaid w wk a fs rng := by
  unfold visited saysMain runSaid
  have hrun := saysPlan_run w a rng
  cases hp : planCli w a with
  | error e =>
    rw [hp] at hrun
    rw [traced_error hrun]
    simp
  | ok p =>
    rw [hp] at hrun
    rw [traced_ok hrun]
    cases p with
    | nothing => rfl
    | files runs =>
      show planSaid w a ++ _ = _
      congr 1
      show ((saysFiles w wk 0 runs fs >>= fun fs => pure (CliResult.files fs)) rng).1 = (saysFiles w wk 0 runs fs rng).1
      rcases hf : saysFiles w wk 0 runs fs rng with ⟨l, e | ⟨x, r'⟩⟩
      · rw [traced_error hf]
      · rw [traced_ok hf]
        show l ++ [] = l
        rw [List.append_nil]
    | months y runs folder =>
      show planSaid w a ++ _ = _
      congr 1
      have hmain : mainCli w wk a fs rng = (do
          let l ← runMonths w wk 0 runs
          let f ← liftE (yearFrame y l.flatten)
          let h ← liftE (hourlyFrame f)
          pure (CliResult.year (folder.getD w.current) f h) : Sim CliResult) rng := by
        unfold mainCli
        rw [hp]
      rw [hmain]
      simp only
      cases hl : runMonths w wk 0 runs rng with
      | error e =>
        rw [traced_error (l := []) (e := e) (by unfold quiet; rw [hl]), bind_error hl]
      | ok x =>
        obtain ⟨l, r1⟩ := x
        rw [traced_ok (l := []) (x := l) (r' := r1) (by unfold quiet; rw [hl]), bind_ok hl]
        cases hf : yearFrame y l.flatten with
        | error e =>
          rw [traced_error (l := []) (e := e) rfl]
          rfl
        | ok f =>
          rw [traced_ok (l := []) (x := f) (r' := r1) rfl, sim_liftE_ok_bind]
          cases hh : hourlyFrame f with
          | error e =>
            rw [traced_error (l := []) (e := e) rfl]
            rfl
          | ok h => rfl

theorem path_of_run (base : Text) (r : RunArgs) : exportPath base none (some r.fname) r.ofname = some (resultPath base r) := by
  unfold exportPath resultPath
  cases r.ofname <;> rfl

/-- The lines printed while the files are run are the paths of the results of the spreadsheets run so far. -/
theorem saysFiles_visits (w : World) (wk : ℕ → Workers) : ∀ (rs : List RunArgs) (k : ℕ) (fs : Files) (rng : Rng), ∃ ps : List Text,
    visited (saysFiles w wk k rs fs) rng = ps.map Said.writing ∧ ps <+: (rs.filter (fun r => endsWith ".xlsx".toList r.fname)).map (resultPath w.base) ∧
    ∀ fs' rng', runFiles w wk k rs fs rng = .ok (fs', rng') → ps = (rs.filter (fun r => endsWith ".xlsx".toList r.fname)).map (resultPath w.base) ∧
      ∀ p, (p ∈ ps → fs'.lookup p ≠ none) ∧ (p ∉ ps → fs'.lookup p = fs.lookup p)
  | [], k, fs, rng => ⟨[], rfl, by simp, fun fs' rng' h => by cases h; simp⟩
  | r :: rs, k, fs, rng => by
    unfold visited saysFiles runFiles
    cases hr : runUseCase w (wk k) r rng with
    | error e =>
      rw [traced_error (l := []) (e := e) (by unfold quiet; rw [hr]), bind_error hr]
      exact ⟨[], rfl, by simp, fun fs' rng' h => by cases h⟩
    | ok x =>
      obtain ⟨res, r1⟩ := x
      rw [traced_ok (l := []) (x := res) (r' := r1) (by unfold quiet; rw [hr]), bind_ok hr]
      cases res with
      | none =>
        have hx : endsWith ".xlsx".toList r.fname = false := by
          by_contra hc
          rw [Bool.not_eq_false] at hc
          unfold runUseCase at hr
          rw [if_pos hc] at hr
          have hret : Returns (do
            let uc ← prepareRun w r
            let rows ← simulateRun w (wk k) uc
            pure (some rows) : Sim (Option (List Profile))) none := ⟨rng, r1, hr⟩
          rw [returns_bind (fin_prepareRun _ _)] at hret
          obtain ⟨uc, -, h2⟩ := hret
          rw [returns_bind (fin_simulateRun _ _ _)] at h2
          obtain ⟨rows, -, h3⟩ := h2
          cases returns_pure.1 h3
        obtain ⟨ps, h1, h2, h3⟩ := saysFiles_visits w wk rs (k + 1) fs r1
        refine ⟨ps, ?_, ?_, ?_⟩
        · show [] ++ _ = _
          rw [List.nil_append]
          exact h1
        · rw [List.filter_cons_of_neg (by rw [hx]; simp)]
          exact h2
        · rw [List.filter_cons_of_neg (by rw [hx]; simp)]
          exact h3
      | some rows =>
        have hx : endsWith ".xlsx".toList r.fname = true := (returns_run ⟨rng, r1, hr⟩).1
        simp only
        have hexp : saysExport w.base fs (profileFormatting rows).2.2 none (some r.fname) r.ofname r1 =
            ([.writing (resultPath w.base r)], .ok (exportSeries w.base fs (profileFormatting rows).2.2 none (some r.fname) r.ofname, r1)) := by
          unfold saysExport exportSeries
          rw [path_of_run]
          rfl
        rw [traced_ok hexp]
        obtain ⟨ps, h1, h2, h3⟩ := saysFiles_visits w wk rs (k + 1) (exportSeries w.base fs (profileFormatting rows).2.2 none (some r.fname) r.ofname) r1
        rw [List.filter_cons_of_pos (by rw [hx]), List.map_cons]
        refine ⟨resultPath w.base r :: ps, ?_, ?_, ?_⟩
        · rw [List.map_cons, ← h1]
          rfl
        · exact List.cons_prefix_cons.2 ⟨rfl, h2⟩
        · intro fs' rng' h
          obtain ⟨k1, k2⟩ := h3 fs' rng' h
          refine ⟨by rw [k1], fun p => ⟨fun hp => ?_, fun hp => ?_⟩⟩
          · by_cases hps : p ∈ ps
            · exact (k2 p).1 hps
            · rw [(k2 p).2 hps]
              rcases List.mem_cons.1 hp with rfl | hp
              · unfold exportSeries
                rw [path_of_run]
                simp only
                rw [lookup_write, if_pos rfl]
                simp
              · exact absurd hp hps
          · rw [List.mem_cons, not_or] at hp
            rw [(k2 p).2 hp.2]
            unfold exportSeries
            rw [path_of_run]
            simp only
            rw [lookup_write, if_neg hp.1]

theorem runSaid_rank {w : World} {wk : ℕ → Workers} {a : CliArgs} {fs : Files} {rng : Rng} : ∀ m ∈ runSaid w wk a fs rng, (∃ p, m = .writing p) ∨ ∃ d, m = .resultsIn d := by
  intro m hm
  unfold runSaid at hm
  cases hp : planCli w a with
  | error e => rw [hp] at hm; simp at hm
  | ok p =>
    rw [hp] at hm
    cases p with
    | nothing => simp at hm
    | files runs =>
      obtain ⟨ps, h1, -, -⟩ := saysFiles_visits w wk runs 0 fs rng
      simp only at hm
      rw [h1, List.mem_map] at hm
      obtain ⟨p, -, rfl⟩ := hm
      exact .inl ⟨p, rfl⟩
    | months y runs folder =>
      simp only at hm
      split at hm
      · exact .inr ⟨_, List.mem_singleton.1 hm⟩
      · simp at hm

theorem datesSaid_cases (a : CliArgs) : (datesSaid a = [] ∧ ¬ (a.numDays = none ∧ a.dateStart = none ∧ a.dateEnd ≠ none) ∧ ¬ (a.numDays = none ∧ a.dateStart ≠ none ∧ a.dateEnd = none)) ∨
    (∃ e, a.numDays = none ∧ a.dateStart = none ∧ a.dateEnd = some e ∧ datesSaid a = [.startChosen ⟨e.year, 1, 1⟩]) ∨
    (∃ s, a.numDays = none ∧ a.dateStart = some s ∧ a.dateEnd = none ∧ datesSaid a = [.endChosen ⟨s.year, 12, 31⟩]) := by
  unfold datesSaid
  rcases a.numDays with _ | n <;> rcases a.dateStart with _ | s <;> rcases a.dateEnd with _ | e <;> simp

theorem monthsSaid_cases (w : World) (a : CliArgs) : monthsSaid w a = [] ∨ (∃ fs, monthsSaid w a = [.monthFiles fs]) ∨ monthsSaid w a = [.notFolder] := by
  unfold monthsSaid
  split
  · split_ifs
    · split
      · split_ifs <;> simp
      · simp
    · simp
  · simp

theorem yearDates_ok_iff (a : CliArgs) (hne : a.years ≠ some []) :
    (∃ p, yearDates a.years (completeDates a.numDays a.dateStart a.dateEnd).1 (completeDates a.numDays a.dateStart a.dateEnd).2 = .ok p) ↔ YearsUsable a := by
  have key : ((completeDates a.numDays a.dateStart a.dateEnd).1.isSome = true ∨ (completeDates a.numDays a.dateStart a.dateEnd).2.isSome = true) ↔
      ¬ (a.dateStart = none ∧ a.dateEnd = none) := by
    unfold completeDates
    rcases a.numDays with _ | n <;> rcases a.dateStart with _ | s <;> rcases a.dateEnd with _ | e <;> simp
  unfold yearDates YearsUsable
  cases hy : a.years with
  | none => simp
  | some ys =>
    simp only [Option.some.injEq, forall_eq']
    rw [hy] at hne
    by_cases hd : a.dateStart = none ∧ a.dateEnd = none
    · rw [if_neg (by rw [key]; exact fun h => h hd)]
      obtain ⟨y, ys, rfl⟩ : ∃ y l, ys = y :: l := List.exists_cons_of_ne_nil (by simpa using hne)
      simp only [List.head?_cons, List.getLast?_cons, Option.some.injEq, hd, true_and, ne_eq, reduceCtorEq, not_false_eq_true]
      generalize ys.getLast?.getD y = z
      unfold yearDate
      by_cases h1 : 1 ≤ y ∧ y ≤ 9999 <;> by_cases h2 : 1 ≤ z ∧ z ≤ 9999
      · rw [if_pos h1, if_pos h2]
        refine ⟨fun _ x hx => ?_, fun _ => ⟨_, rfl⟩⟩
        rcases hx with rfl | rfl
        · exact h1
        · exact h2
      · rw [if_pos h1, if_neg h2]
        exact ⟨fun ⟨_, h⟩ => (by cases h), fun h => absurd (h z (.inr rfl)) h2⟩
      · rw [if_neg h1, if_pos h2]
        exact ⟨fun ⟨_, h⟩ => (by cases h), fun h => absurd (h y (.inl rfl)) h1⟩
      · rw [if_neg h1, if_neg h2]
        exact ⟨fun ⟨_, h⟩ => (by cases h), fun h => absurd (h y (.inl rfl)) h1⟩
    · rw [if_pos (key.2 hd)]
      exact ⟨fun ⟨_, h⟩ => (by cases h), fun h => absurd ⟨h.1, h.2.1⟩ hd⟩

/-- Whether a line about the input is printed. -/
theorem mem_visited {w : World} {wk : ℕ → Workers} {a : CliArgs} {fs : Files} {rng : Rng} (hne : a.years ≠ some []) (m : Said) :
    m ∈ visited (saysMain w wk a fs) rng ↔ m ∈ datesSaid a ∨ (YearsUsable a ∧ (m ∈ monthsSaid w a ∨ (a.fnames = none ∧ m = .noInput))) ∨ m ∈ runSaid w wk a fs rng := by
  rw [visited_main]
  unfold planSaid
  rw [← yearDates_ok_iff a hne]
  cases yearDates a.years (completeDates a.numDays a.dateStart a.dateEnd).1 (completeDates a.numDays a.dateStart a.dateEnd).2 with
  | error e => simp
  | ok p => by_cases hf : a.fnames = none <;> simp [hf, or_assoc]

theorem datesSaid_mem {a : CliArgs} {m : Said} (h : m ∈ datesSaid a) : ∃ d, m = .startChosen d ∨ m = .endChosen d := by
  rcases datesSaid_cases a with ⟨h1, -⟩ | ⟨e, -, -, -, h1⟩ | ⟨e, -, -, -, h1⟩ <;> rw [h1] at h <;> simp at h <;> exact ⟨_, by tauto⟩

theorem monthsSaid_mem {w : World} {a : CliArgs} {m : Said} (h : m ∈ monthsSaid w a) : (∃ fs, m = .monthFiles fs) ∨ m = .notFolder := by
  rcases monthsSaid_cases w a with h1 | ⟨fs, h1⟩ | h1 <;> rw [h1] at h <;> simp at h
  · exact .inl ⟨_, h⟩
  · exact .inr h

/-! ## The theorems -/

/-- **C119, dates.** However the run ends: a start (an end) is announced to be chosen exactly if there is no `-n`, and an end but no start (a start but no end), and it is 1 January
(31 December) of that year; and the input files are then simulated from (until) this day. -/
theorem C119_dates (w : World) (wk : ℕ → Workers) (a : CliArgs) (fs : Files) (rng : Rng) (hne : a.years ≠ some []) (d : Date) :
    (.startChosen d ∈ visited (saysMain w wk a fs) rng ↔ a.numDays = none ∧ a.dateStart = none ∧ ∃ e, a.dateEnd = some e ∧ d = ⟨e.year, 1, 1⟩) ∧
    (.endChosen d ∈ visited (saysMain w wk a fs) rng ↔ a.numDays = none ∧ a.dateEnd = none ∧ ∃ s, a.dateStart = some s ∧ d = ⟨s.year, 12, 31⟩) ∧
    (∀ runs, planCli w a = .ok (.files runs) → ∀ r ∈ runs, (.startChosen d ∈ visited (saysMain w wk a fs) rng → r.dateStart = some d.stamp) ∧
      (.endChosen d ∈ visited (saysMain w wk a fs) rng → r.dateEnd = some d.stamp)) := by
  have hrun : ∀ m ∈ runSaid w wk a fs rng, m ≠ .startChosen d ∧ m ≠ .endChosen d := by
    intro m hm
    rcases runSaid_rank m hm with ⟨p, rfl⟩ | ⟨p, rfl⟩ <;> simp
  have hmon : ∀ m ∈ monthsSaid w a, m ≠ .startChosen d ∧ m ≠ .endChosen d := by
    intro m hm
    rcases monthsSaid_mem hm with ⟨p, rfl⟩ | rfl <;> simp
  have h1 : .startChosen d ∈ visited (saysMain w wk a fs) rng ↔ .startChosen d ∈ datesSaid a := by
    rw [mem_visited hne]
    refine ⟨?_, .inl⟩
    rintro (h | ⟨-, h | ⟨-, h⟩⟩ | h)
    · exact h
    · exact absurd rfl (hmon _ h).1
    · cases h
    · exact absurd rfl (hrun _ h).1
  have h2 : .endChosen d ∈ visited (saysMain w wk a fs) rng ↔ .endChosen d ∈ datesSaid a := by
    rw [mem_visited hne]
    refine ⟨?_, .inl⟩
    rintro (h | ⟨-, h | ⟨-, h⟩⟩ | h)
    · exact h
    · exact absurd rfl (hmon _ h).2
    · cases h
    · exact absurd rfl (hrun _ h).2
  have k1 : .startChosen d ∈ datesSaid a ↔ a.numDays = none ∧ a.dateStart = none ∧ ∃ e, a.dateEnd = some e ∧ d = ⟨e.year, 1, 1⟩ := by
    unfold datesSaid
    rcases a.numDays with _ | n <;> rcases a.dateStart with _ | s <;> rcases a.dateEnd with _ | e <;> simp
  have k2 : .endChosen d ∈ datesSaid a ↔ a.numDays = none ∧ a.dateEnd = none ∧ ∃ s, a.dateStart = some s ∧ d = ⟨s.year, 12, 31⟩ := by
    unfold datesSaid
    rcases a.numDays with _ | n <;> rcases a.dateStart with _ | s <;> rcases a.dateEnd with _ | e <;> simp
  refine ⟨h1.trans k1, h2.trans k2, fun runs hp r hr => ?_⟩
  have hdates : ∀ s e, yearDates a.years (completeDates a.numDays a.dateStart a.dateEnd).1 (completeDates a.numDays a.dateStart a.dateEnd).2 = .ok (s, e) →
      r.dateStart = s.map Date.stamp ∧ r.dateEnd = e.map Date.stamp := by
    intro s e hy
    rw [planCli_parts, hy] at hp
    simp only at hp
    cases hm : monthMode w a.years a.fnames a.extension with
    | error e => rw [hm] at hp; cases hp
    | ok mode =>
      rw [hm] at hp
      cases hf : a.fnames with
      | none => rw [hf] at hp; cases hp
      | some fnames =>
        rw [hf] at hp
        simp only at hp
        unfold planRuns at hp
        cases mode with
        | some m =>
          simp only at hp
          split at hp <;> cases hp
        | none =>
          simp only at hp
          split at hp
          · cases hp
          · split at hp
            · cases hp
            · cases hp
              unfold fileRuns at hr
              rw [List.mem_map] at hr
              obtain ⟨x, -, rfl⟩ := hr
              exact ⟨rfl, rfl⟩
  have hyears : (a.dateStart ≠ none ∨ a.dateEnd ≠ none) → a.years = none := by
    intro h
    by_contra hy
    rw [C59_year_and_date w a hy h] at hp
    cases hp
  refine ⟨fun h => ?_, fun h => ?_⟩
  · obtain ⟨e1, e2, e, e3, rfl⟩ := k1.1 (h1.1 h)
    have := hdates (some ⟨e.year, 1, 1⟩) (some e) (by rw [hyears (.inr (by rw [e3]; simp)), e1, e2, e3]; rfl)
    exact this.1
  · obtain ⟨e1, e2, s, e3, rfl⟩ := k2.1 (h2.1 h)
    have := hdates (some s) (some ⟨s.year, 12, 31⟩) (by rw [hyears (.inl (by rw [e3]; simp)), e1, e2, e3]; rfl)
    exact this.2

/-- **C119, input.** However the run ends: "provide path to input file" is printed exactly if there is no `-i` (and the years can be used), then nothing is simulated; "the input path is
not a folder" exactly if a single year is given and the first input is not a folder. -/
theorem C119_input (w : World) (wk : ℕ → Workers) (a : CliArgs) (fs : Files) (rng : Rng) (hne : a.years ≠ some []) :
    (.noInput ∈ visited (saysMain w wk a fs) rng ↔ YearsUsable a ∧ a.fnames = none) ∧
    (.noInput ∈ visited (saysMain w wk a fs) rng → mainCli w wk a fs rng = .ok (.nothing, rng)) ∧
    (.notFolder ∈ visited (saysMain w wk a fs) rng ↔ YearsUsable a ∧ ∃ y f rest, a.years = some [y] ∧ a.fnames = some (f :: rest) ∧ w.isDir f = false) := by
  have hrun : ∀ m ∈ runSaid w wk a fs rng, m ≠ .noInput ∧ m ≠ .notFolder := by
    intro m hm
    rcases runSaid_rank m hm with ⟨p, rfl⟩ | ⟨p, rfl⟩ <;> simp
  have hdat : ∀ m ∈ datesSaid a, m ≠ .noInput ∧ m ≠ .notFolder := by
    intro m hm
    obtain ⟨d, rfl | rfl⟩ := datesSaid_mem hm <;> simp
  have h1 : .noInput ∈ visited (saysMain w wk a fs) rng ↔ YearsUsable a ∧ a.fnames = none := by
    rw [mem_visited hne]
    constructor
    · rintro (h | ⟨hy, h | ⟨h, -⟩⟩ | h)
      · exact absurd rfl (hdat _ h).1
      · rcases monthsSaid_mem h with ⟨fs, h⟩ | h <;> cases h
      · exact ⟨hy, h⟩
      · exact absurd rfl (hrun _ h).1
    · rintro ⟨hy, h⟩
      exact .inr (.inl ⟨hy, .inr ⟨h, rfl⟩⟩)
  refine ⟨h1, fun h => ?_, ?_⟩
  · obtain ⟨hy, hf⟩ := h1.1 h
    obtain ⟨p, hp⟩ := (yearDates_ok_iff a hne).2 hy
    have hm : monthMode w a.years a.fnames a.extension = .ok none := by
      rw [hf]
      unfold monthMode
      split <;> simp_all
    have : planCli w a = .ok .nothing := by
      rw [planCli_parts, hp, hm, hf]
    unfold mainCli
    rw [this]
    rfl
  · rw [mem_visited hne]
    constructor
    · rintro (h | ⟨hy, h | ⟨-, h⟩⟩ | h)
      · exact absurd rfl (hdat _ h).2
      · refine ⟨hy, ?_⟩
        unfold monthsSaid at h
        split at h
        · rename_i y f rest e1 e2
          split_ifs at h with hdir
          · split at h
            · split_ifs at h <;> simp at h
            · simp at h
          · exact ⟨y, f, rest, e1, e2, by simpa using hdir⟩
        · simp at h
      · cases h
      · exact absurd rfl (hrun _ h).2
    · rintro ⟨hy, y, f, rest, e1, e2, e3⟩
      refine .inr (.inl ⟨hy, .inl ?_⟩)
      unfold monthsSaid
      rw [e1, e2]
      simp [e3]

/-- **C119, months.** However the run ends: files for the months are announced exactly if a usable single year is given, the first input is a folder, it has 12 files with the extension,
and each of their paths has a digit; these files are announced, in the order of the numbers made of the digits of their paths, and used in this very order. -/
theorem C119_months (w : World) (wk : ℕ → Workers) (a : CliArgs) (fs : Files) (rng : Rng) (hne : a.years ≠ some []) :
    ((∃ files, .monthFiles files ∈ visited (saysMain w wk a fs) rng) ↔ YearsUsable a ∧ ∃ y dir rest, a.years = some [y] ∧ a.fnames = some (dir :: rest) ∧ w.isDir dir = true ∧
      (folderFiles w dir a.extension).length = 12 ∧ ∀ f ∈ folderFiles w dir a.extension, digitsOf f ≠ []) ∧
    (∀ files, .monthFiles files ∈ visited (saysMain w wk a fs) rng → ∃ dir rest, a.fnames = some (dir :: rest) ∧ IsMonthFiles w dir a.extension files ∧
      ∀ y runs folder, planCli w a = .ok (.months y runs folder) → runs.map RunArgs.fname = files) := by
  have hrun : ∀ m ∈ runSaid w wk a fs rng, ∀ files, m ≠ .monthFiles files := by
    intro m hm files
    rcases runSaid_rank m hm with ⟨p, rfl⟩ | ⟨p, rfl⟩ <;> simp
  have hdat : ∀ m ∈ datesSaid a, ∀ files, m ≠ .monthFiles files := by
    intro m hm files
    obtain ⟨d, rfl | rfl⟩ := datesSaid_mem hm <;> simp
  have hmem : ∀ files, .monthFiles files ∈ visited (saysMain w wk a fs) rng ↔ YearsUsable a ∧ ∃ y dir rest, a.years = some [y] ∧ a.fnames = some (dir :: rest) ∧
      w.isDir dir = true ∧ monthFiles w dir a.extension = .ok files ∧ files.length = 12 := by
    intro files
    rw [mem_visited hne]
    constructor
    · rintro (h | ⟨hy, h | ⟨-, h⟩⟩ | h)
      · exact absurd rfl (hdat _ h files)
      · refine ⟨hy, ?_⟩
        unfold monthsSaid at h
        split at h
        · rename_i y f rest e1 e2
          split_ifs at h with hdir
          · split at h
            · rename_i fs' e3
              split_ifs at h with h12
              · simp only [List.mem_singleton, Said.monthFiles.injEq] at h
                subst h
                exact ⟨y, f, rest, e1, e2, hdir, e3, h12⟩
              · simp at h
            · simp at h
          · simp at h
        · simp at h
      · cases h
      · exact absurd rfl (hrun _ h files)
    · rintro ⟨hy, y, dir, rest, e1, e2, e3, e4, e5⟩
      refine .inr (.inl ⟨hy, .inl ?_⟩)
      unfold monthsSaid
      rw [e1, e2]
      simp [e3, e4, e5]
  refine ⟨⟨?_, ?_⟩, fun files h => ?_⟩
  · rintro ⟨files, h⟩
    obtain ⟨hy, y, dir, rest, e1, e2, e3, e4, e5⟩ := (hmem files).1 h
    obtain ⟨k1, k2, -⟩ := monthFiles_ok e4
    exact ⟨hy, y, dir, rest, e1, e2, e3, by rw [← k1.perm.length_eq]; exact e5, fun f hf => k2 f (k1.perm.mem_iff.2 hf)⟩
  · rintro ⟨hy, y, dir, rest, e1, e2, e3, e4, e5⟩
    have hok : ∃ files, monthFiles w dir a.extension = .ok files := by
      unfold monthFiles
      simp only
      rw [if_neg]
      · exact ⟨_, rfl⟩
      · simp only [List.any_eq_true, not_exists, not_and]
        intro f hf
        have := e5 f hf
        simpa [List.isEmpty_iff] using this
    obtain ⟨files, hok⟩ := hok
    exact ⟨files, (hmem files).2 ⟨hy, y, dir, rest, e1, e2, e3, hok, by rw [(monthFiles_ok hok).1.perm.length_eq]; exact e4⟩⟩
  · obtain ⟨hy, y, dir, rest, e1, e2, e3, e4, e5⟩ := (hmem files).1 h
    refine ⟨dir, rest, e2, (monthFiles_ok e4).1, fun y' runs folder hp => ?_⟩
    obtain ⟨p, hp'⟩ := (yearDates_ok_iff a hne).2 hy
    have hm : monthMode w a.years a.fnames a.extension = .ok (some (y, files)) := by
      unfold monthMode
      rw [e1, e2]
      simp [e3, e4, e5]
    rw [planCli_parts, hp', hm, e2] at hp
    simp only [planRuns] at hp
    split at hp
    · cases hp
    · rename_i ns hns
      cases hp
      have hlen : ns.length = files.length := by
        unfold spreadDays at hns
        split at hns
        · cases hns
          simp
        · split at hns
          · cases hns
          · rename_i l' hl'
            cases hns
            rw [List.length_map]
            unfold spread at hl'
            split at hl'
            · cases hl'; simp
            · split_ifs at hl' with hh
              cases hl'
              exact hh
      have key : ∀ (fs : List Text) (ns : List (Option ℤ)) (i : ℕ), ns.length = fs.length → (monthRuns y.toNat a.parallel i fs ns).map RunArgs.fname = fs := by
        intro fs
        induction fs with
        | nil => intro ns i _; cases ns <;> rfl
        | cons f fs ih =>
          intro ns i hn
          cases ns with
          | nil => simp at hn
          | cons n ns =>
            unfold monthRuns
            rw [List.map_cons, ih ns _ (by simpa using hn)]
            rfl
      exact key files ns 0 hlen

/-- **C119, results.** In a run of input files the paths announced are, in order, those of the results of the spreadsheets run so far; if the run returns, of all spreadsheets, there
are results at all of these paths, and nothing was written elsewhere. -/
theorem C119_writing (w : World) (wk : ℕ → Workers) (a : CliArgs) (fs : Files) (rng : Rng) (fnames : List Text) (hf : a.fnames = some fnames) (hm : ¬ MonthMode w a)
    (hy : YearsOk a) (hn : FitsFiles a.numDays fnames.length) (ho : FitsFiles a.ofnames fnames.length) : ∃ s e, UsesDates a s e ∧ ∃ paths,
      paths = ((fnames.mapIdx (fileRun a s e)).filter (fun r => endsWith ".xlsx".toList r.fname)).map (resultPath w.base) ∧
      pathsSaid (visited (saysMain w wk a fs) rng) <+: paths ∧
      ∀ fs' rng', mainCli w wk a fs rng = .ok (.files fs', rng') → pathsSaid (visited (saysMain w wk a fs) rng) = paths ∧
        ∀ p, (p ∈ paths → fs'.lookup p ≠ none) ∧ (p ∉ paths → fs'.lookup p = fs.lookup p) := by
  obtain ⟨s, e, hu, hp⟩ := C59_plan w a fnames hf hm hy hn ho
  refine ⟨s, e, hu, _, rfl, ?_⟩
  obtain ⟨ps, h1, h2, h3⟩ := saysFiles_visits w wk (fnames.mapIdx (fileRun a s e)) 0 fs rng
  have hplan : pathsSaid (planSaid w a) = [] := by
    unfold pathsSaid
    rw [List.filterMap_eq_nil_iff]
    intro m hm
    unfold planSaid at hm
    rw [List.mem_append] at hm
    rcases hm with hm | hm
    · obtain ⟨d, rfl | rfl⟩ := datesSaid_mem hm <;> rfl
    · split at hm
      · simp at hm
      · rw [List.mem_append] at hm
        rcases hm with hm | hm
        · rcases monthsSaid_mem hm with ⟨x, rfl⟩ | rfl <;> rfl
        · split_ifs at hm
          · rw [List.mem_singleton.1 hm]
          · simp at hm
  have hsaid : pathsSaid (visited (saysMain w wk a fs) rng) = ps := by
    rw [visited_main]
    unfold pathsSaid at hplan ⊢
    rw [List.filterMap_append, hplan, List.nil_append]
    unfold runSaid
    rw [hp]
    simp only
    rw [h1, List.filterMap_map]
    exact List.filterMap_some
  rw [hsaid]
  refine ⟨h2, fun fs' rng' h => ?_⟩
  unfold mainCli at h
  rw [hp] at h
  simp only at h
  cases hr : runFiles w wk 0 (fnames.mapIdx (fileRun a s e)) fs rng with
  | error e => rw [bind_error hr] at h; cases h
  | ok x =>
    obtain ⟨fs1, r1⟩ := x
    rw [bind_ok hr] at h
    cases h
    obtain ⟨k1, k2⟩ := h3 fs' rng' hr
    refine ⟨k1, ?_⟩
    rw [← k1]
    exact k2

/-- **C119, year.** The folder of the results of a year is announced exactly if the run returns the tables of the year in this folder. -/
theorem C119_year (w : World) (wk : ℕ → Workers) (a : CliArgs) (fs : Files) (rng : Rng) (hne : a.years ≠ some []) (folder : Text) :
    .resultsIn folder ∈ visited (saysMain w wk a fs) rng ↔ ∃ minutes hours rng', mainCli w wk a fs rng = .ok (.year folder minutes hours, rng') := by
  have hold : .resultsIn folder ∈ visited (saysMain w wk a fs) rng ↔ .resultsIn folder ∈ runSaid w wk a fs rng := by
    rw [mem_visited hne]
    refine ⟨?_, fun h => .inr (.inr h)⟩
    rintro (h | ⟨-, h | ⟨-, h⟩⟩ | h)
    · obtain ⟨d, h | h⟩ := datesSaid_mem h <;> cases h
    · rcases monthsSaid_mem h with ⟨x, h⟩ | h <;> cases h
    · cases h
    · exact h
  rw [hold]
  have hkey : ∀ y runs fo, planCli w a = .ok (.months y runs fo) → ∀ res rng', mainCli w wk a fs rng = .ok (res, rng') → ∃ m h, res = .year (fo.getD w.current) m h := by
    intro y runs fo hp res rng' hres
    unfold mainCli at hres
    rw [hp] at hres
    simp only at hres
    cases hl : runMonths w wk 0 runs rng with
    | error e => rw [bind_error hl] at hres; cases hres
    | ok x =>
      rw [bind_ok hl] at hres
      cases hf : yearFrame y x.1.flatten with
      | error e => rw [hf] at hres; cases hres
      | ok f =>
        rw [hf, sim_liftE_ok_bind] at hres
        cases hh : hourlyFrame f with
        | error e => rw [hh] at hres; cases hres
        | ok h =>
          rw [hh, sim_liftE_ok_bind] at hres
          cases hres
          exact ⟨f, h, rfl⟩
  unfold runSaid
  cases hp : planCli w a with
  | error e =>
    have : mainCli w wk a fs = raise e := by unfold mainCli; rw [hp]
    rw [this]
    refine ⟨fun h => by simp at h, ?_⟩
    rintro ⟨_, _, _, h⟩
    cases h
  | ok p =>
    cases p with
    | nothing =>
      have : mainCli w wk a fs = pure .nothing := by unfold mainCli; rw [hp]
      rw [this]
      refine ⟨fun h => by simp at h, ?_⟩
      rintro ⟨_, _, _, h⟩
      cases h
    | files runs =>
      obtain ⟨ps, h1, -, -⟩ := saysFiles_visits w wk runs 0 fs rng
      simp only
      rw [h1]
      refine ⟨fun h => by simp at h, ?_⟩
      rintro ⟨_, _, _, h⟩
      unfold mainCli at h
      rw [hp] at h
      simp only at h
      cases hr : runFiles w wk 0 runs fs rng with
      | error e => rw [bind_error hr] at h; cases h
      | ok x => rw [bind_ok hr] at h; cases h
    | months y runs fo =>
      simp only
      cases hres : mainCli w wk a fs rng with
      | error e =>
        refine ⟨fun h => by simp at h, ?_⟩
        rintro ⟨_, _, _, h⟩
        cases h
      | ok x =>
        obtain ⟨res, r1⟩ := x
        obtain ⟨m, h, rfl⟩ := hkey y runs fo hp res r1 hres
        simp only [List.mem_singleton, Said.resultsIn.injEq]
        refine ⟨fun e => ⟨m, h, r1, by rw [e]⟩, ?_⟩
        rintro ⟨_, _, _, e⟩
        cases e
        rfl

/-- **C119, order.** Lines about dates come first, then those about the input, then those about the results, the folder of a year last; only lines about results of files can be
printed several times; and a path is always known. -/
theorem C119_order (w : World) (wk : ℕ → Workers) (a : CliArgs) (fs : Files) (rng : Rng) :
    (visited (saysMain w wk a fs) rng).Pairwise (fun m m' => m.rank < m'.rank ∨ (∃ p p', m = .writing p ∧ m' = .writing p')) ∧
    .noPath ∉ visited (saysMain w wk a fs) rng := by
  have hd : (datesSaid a).Pairwise (fun m m' => m.rank < m'.rank ∨ (∃ p p', m = .writing p ∧ m' = .writing p')) := by
    rcases datesSaid_cases a with ⟨h, -⟩ | ⟨e, -, -, -, h⟩ | ⟨e, -, -, -, h⟩ <;> rw [h] <;> simp
  have hm : (monthsSaid w a).Pairwise (fun m m' => m.rank < m'.rank ∨ (∃ p p', m = .writing p ∧ m' = .writing p')) := by
    rcases monthsSaid_cases w a with h | ⟨e, h⟩ | h <;> rw [h] <;> simp
  have hrank0 : ∀ m ∈ datesSaid a, m.rank = 0 := fun m h => by obtain ⟨d, rfl | rfl⟩ := datesSaid_mem h <;> rfl
  have hrank1 : ∀ m ∈ monthsSaid w a, m.rank = 1 := fun m h => by rcases monthsSaid_mem h with ⟨x, rfl⟩ | rfl <;> rfl
  have hplan : (planSaid w a).Pairwise (fun m m' => m.rank < m'.rank ∨ (∃ p p', m = .writing p ∧ m' = .writing p')) ∧ ∀ m ∈ planSaid w a, m.rank ≤ 2 := by
    unfold planSaid
    split
    · rw [List.append_nil]
      exact ⟨hd, fun m h => by rw [hrank0 m h]; omega⟩
    · split_ifs
      · refine ⟨List.pairwise_append.2 ⟨hd, List.pairwise_append.2 ⟨hm, by simp, ?_⟩, ?_⟩, ?_⟩
        · intro m h m' h'
          rw [List.mem_singleton.1 h', hrank1 m h]
          exact .inl (by decide)
        · intro m h m' h'
          rw [hrank0 m h]
          rcases List.mem_append.1 h' with h' | h'
          · rw [hrank1 m' h']; exact .inl (by decide)
          · rw [List.mem_singleton.1 h']; exact .inl (by decide)
        · intro m h
          rcases List.mem_append.1 h with h | h
          · rw [hrank0 m h]; omega
          · rcases List.mem_append.1 h with h | h
            · rw [hrank1 m h]; omega
            · rw [List.mem_singleton.1 h]; decide
      · rw [List.append_nil]
        refine ⟨List.pairwise_append.2 ⟨hd, hm, ?_⟩, ?_⟩
        · intro m h m' h'
          rw [hrank0 m h, hrank1 m' h']
          exact .inl (by decide)
        · intro m h
          rcases List.mem_append.1 h with h | h
          · rw [hrank0 m h]; omega
          · rw [hrank1 m h]; omega
  have hrun : (runSaid w wk a fs rng).Pairwise (fun m m' => m.rank < m'.rank ∨ (∃ p p', m = .writing p ∧ m' = .writing p')) := by
    unfold runSaid
    cases planCli w a with
    | error e => simp
    | ok p => cases p with
      | nothing => simp
      | files runs =>
        obtain ⟨ps, h1, -, -⟩ := saysFiles_visits w wk runs 0 fs rng
        simp only
        rw [h1, List.pairwise_map]
        exact List.pairwise_of_forall (fun p p' => .inr ⟨p, p', rfl, rfl⟩)
      | months y runs fo =>
        simp only
        split <;> simp
  rw [visited_main]
  constructor
  · refine List.pairwise_append.2 ⟨hplan.1, hrun, fun m h m' h' => .inl ?_⟩
    have := hplan.2 m h
    rcases runSaid_rank m' h' with ⟨p, rfl⟩ | ⟨p, rfl⟩
    · exact lt_of_le_of_lt this (show 2 < 3 by decide)
    · exact lt_of_le_of_lt this (show 2 < 4 by decide)
  · rw [List.mem_append]
    rintro (h | h)
    · have := hplan.2 _ h
      simp [Said.rank] at this
    · rcases runSaid_rank _ h with ⟨p, h⟩ | ⟨p, h⟩ <;> cases h

/-! ## Cases -/

/-- Until 1 March 2020, without a start: 1 January 2020 is announced, whatever happens afterwards. -/
example (w : World) (wk : ℕ → Workers) (rng : Rng) :
    .startChosen ⟨2020, 1, 1⟩ ∈ visited (saysMain w wk { fnames := some ["1.xlsx".toList], dateEnd := some ⟨2020, 3, 1⟩ } []) rng :=
  (C119_dates w wk _ [] rng (by simp) _).1.2 ⟨rfl, rfl, _, rfl, rfl⟩

/-- A year with a file that is not a folder; and a year without input. -/
example (wk : ℕ → Workers) (rng : Rng) : .notFolder ∈ visited (saysMain lampWorld wk { fnames := some ["1.xlsx".toList], years := some [2020] } []) rng ∧
    .noInput ∈ visited (saysMain lampWorld wk { years := some [2020] } []) rng := by
  have h : ∀ f, YearsUsable { fnames := f, years := some [2020] } := by
    intro f ys hys
    cases hys
    exact ⟨rfl, rfl, by simp, by simp⟩
  exact ⟨(C119_input lampWorld wk _ [] rng (by simp)).2.2.2 ⟨h _, 2020, _, [], rfl, rfl, rfl⟩, (C119_input lampWorld wk _ [] rng (by simp)).1.2 ⟨h _, rfl⟩⟩

/-- A year with a folder of twelve files: they are announced, and the folder of the results too. -/
example : ∃ rng, (∃ files, .monthFiles files ∈ visited (saysMain yearWorld (fun _ => noWorkers) yearArgs []) rng) ∧
    .resultsIn "/home".toList ∈ visited (saysMain yearWorld (fun _ => noWorkers) yearArgs []) rng := by
  obtain ⟨f, h, ⟨rng, r1, hm⟩, -⟩ := yearWorld_year
  refine ⟨rng, (C119_months yearWorld (fun _ => noWorkers) yearArgs [] rng (by simp [yearArgs])).1.2 ⟨?_, 2020, _, [], rfl, rfl, rfl, by decide, by decide +kernel⟩,
    (C119_year yearWorld (fun _ => noWorkers) yearArgs [] rng (by simp [yearArgs]) _).2 ⟨f, h, r1, hm⟩⟩
  intro ys hys
  cases hys
  exact ⟨rfl, rfl, by simp, by simp⟩

/-- One spreadsheet: the path of its results is announced, and holds results. -/
example : ∃ rng fs' rng', mainCli lampWorld (fun _ => noWorkers) lampLine [] rng = .ok (.files fs', rng') ∧
    ∃ p, pathsSaid (visited (saysMain lampWorld (fun _ => noWorkers) lampLine []) rng) = [p] ∧ fs'.lookup p ≠ none := by
  obtain ⟨res, rng, r1, hm⟩ := lamp_main
  obtain ⟨s, e, hu, paths, hp, -, hall⟩ := C119_writing lampWorld (fun _ => noWorkers) lampLine [] rng ["1.xlsx".toList] rfl (by rintro ⟨y, f, rest, h, -⟩; cases h)
    (fun ys h => by cases h) (fun l h => by cases h; simp) (fun l h => by cases h)
  obtain ⟨s', e', -, hmain⟩ := C59_main lampWorld (fun _ => noWorkers) lampLine [] ["1.xlsx".toList] rfl (by rintro ⟨y, f, rest, h, -⟩; cases h) (fun ys h => by cases h)
    (fun l h => by cases h; simp) (fun l h => by cases h)
  obtain ⟨outs, -, -, rfl⟩ := (hmain res).1 ⟨rng, r1, hm⟩
  obtain ⟨k1, k2⟩ := hall _ _ hm
  have hx : endsWith ".xlsx".toList "1.xlsx".toList = true := by decide
  rw [List.mapIdx_cons, List.mapIdx_nil, List.filter_cons_of_pos (by exact hx), List.filter_nil, List.map_singleton] at hp
  exact ⟨rng, _, r1, hm, _, by rw [k1, hp], (k2 _).1 (by rw [hp]; exact List.mem_singleton.2 rfl)⟩

end Ramp
