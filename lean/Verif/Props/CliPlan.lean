import Verif.Props.Cli

/-! # C59–C61: which runs a command starts, and which results it leaves -/

set_option autoImplicit false

namespace Ramp

/-! ## The specification -/

/-- The value of an option for file number `k`: none without the option; one value serves all files. -/
def valueFor {α : Type} (opt : Option (List α)) (k : ℕ) : Option α := match opt with
  | none => none
  | some [x] => some x
  | some l => l[k]?

/-- The values of an option fit `n` files: one value, or one for each. -/
def FitsFiles {α : Type} (opt : Option (List α)) (n : ℕ) : Prop := ∀ l, opt = some l → l.length = 1 ∨ l.length = n

/-- "One input file per month": a single year, and the first input is a folder. -/
def MonthMode (w : World) (a : CliArgs) : Prop := ∃ y f rest, a.years = some [y] ∧ a.fnames = some (f :: rest) ∧ w.isDir f = true

/-- The dates that are used: those of `-y`; the given ones; without `-n` a missing start is 1 January of the year of the end, a missing end
31 December of the year of the start. -/
inductive UsesDates (a : CliArgs) : Option Date → Option Date → Prop
  | years (first last : ℤ) (hy : ∃ ys, a.years = some ys ∧ ys.head? = some first ∧ ys.getLast? = some last) :
      UsesDates a (some ⟨first.toNat, 1, 1⟩) (some ⟨last.toNat, 12, 31⟩)
  | given (hy : a.years = none) (h : a.numDays ≠ none ∨ (a.dateStart.isSome ↔ a.dateEnd.isSome)) : UsesDates a a.dateStart a.dateEnd
  | start (e : Date) (hy : a.years = none) (hn : a.numDays = none) (hs : a.dateStart = none) (he : a.dateEnd = some e) :
      UsesDates a (some ⟨e.year, 1, 1⟩) (some e)
  | stop (s : Date) (hy : a.years = none) (hn : a.numDays = none) (hs : a.dateStart = some s) (he : a.dateEnd = none) :
      UsesDates a (some s) (some ⟨s.year, 12, 31⟩)

/-- The options `-y` can be used: not together with a date, and for years that the calendar has. -/
def YearsOk (a : CliArgs) : Prop := ∀ ys, a.years = some ys → ys ≠ [] ∧ a.dateStart = none ∧ a.dateEnd = none ∧ ∀ y ∈ ys, 1 ≤ y ∧ y ≤ 9999

/-- The run of file number `k`. -/
def fileRun (a : CliArgs) (s e : Option Date) (k : ℕ) (f : Text) : RunArgs :=
  { fname := f, ofname := valueFor a.ofnames k, numDays := valueFor a.numDays k, dateStart := s.map Date.stamp, dateEnd := e.map Date.stamp,
    plot := true, parallel := a.parallel }

/-! ## The plan -/

theorem dates_of {a : CliArgs} (h : YearsOk a) : ∃ s e, yearDates a.years (completeDates a.numDays a.dateStart a.dateEnd).1
    (completeDates a.numDays a.dateStart a.dateEnd).2 = .ok (s, e) ∧ UsesDates a s e := by
  cases hy : a.years with
  | none =>
    refine ⟨_, _, rfl, ?_⟩
    unfold completeDates
    cases hn : a.numDays with
    | some n => exact .given hy (.inl (by rw [hn]; simp))
    | none =>
      cases hs : a.dateStart with
      | none => cases he : a.dateEnd with
        | none => 
          have := UsesDates.given hy (.inr (by rw [hs, he]))
          rwa [hs, he] at this
        | some e => exact .start e hy hn hs he
      | some s => cases he : a.dateEnd with
        | none => exact .stop s hy hn hs he
        | some e => 
          have := UsesDates.given hy (.inr (by rw [hs, he]; simp))
          rwa [hs, he] at this
  | some ys =>
    obtain ⟨hne, hs, he, hr⟩ := h ys hy
    have hc : completeDates a.numDays a.dateStart a.dateEnd = (none, none) := by
      rw [hs, he]
      unfold completeDates
      cases a.numDays <;> rfl
    obtain ⟨x, hx⟩ : ∃ x, ys.head? = some x := by
      cases ys with
      | nil => exact absurd rfl hne
      | cons x l => exact ⟨x, rfl⟩
    obtain ⟨z, hz⟩ : ∃ z, ys.getLast? = some z := ⟨_, List.getLast?_eq_some_getLast hne⟩
    have hx' := hr x (List.mem_of_head? hx)
    have hz' := hr z (List.mem_of_getLast? hz)
    refine ⟨_, _, ?_, .years x z ⟨ys, hy, hx, hz⟩⟩
    rw [hc]
    unfold yearDates
    simp only [hx, hz, yearDate, if_pos hx', if_pos hz']
    simp

theorem monthMode_no {w : World} {a : CliArgs} (h : ¬ MonthMode w a) : monthMode w a.years a.fnames a.extension = .ok none := by
  unfold monthMode
  split
  · rename_i y f rest hy hf
    split_ifs with hd
    · exact absurd ⟨y, f, rest, hy, hf, hd⟩ h
    · rfl
  · rfl

theorem spread_ok {α : Type} {l : List α} {n : ℕ} (h : l.length = 1 ∨ l.length = n) : ∃ l', spread l n = .ok l' ∧ l'.length = n ∧
    ∀ k, k < n → l'[k]? = valueFor (some l) k := by
  match l with
  | [] =>
    rcases h with h | h
    · simp at h
    · refine ⟨[], by simp [spread, ← h], by simpa using h, fun k hk => by simp [valueFor]⟩
  | [x] => exact ⟨List.replicate n x, rfl, by simp, fun k hk => by simp [valueFor, hk]⟩
  | x :: y :: l =>
    rcases h with h | h
    · simp at h
    · exact ⟨x :: y :: l, by simp only [spread]; rw [if_pos h], h, fun k hk => rfl⟩

theorem spread_error {α : Type} {l : List α} {n : ℕ} (h : ¬ (l.length = 1 ∨ l.length = n)) : spread l n = .error .valueError := by
  push Not at h
  unfold spread
  split
  · simp at h
  · rw [if_neg h.2]

theorem spreadDays_ok {o : Option (List ℤ)} {n : ℕ} (h : FitsFiles o n) : ∃ l, spreadDays o n = .ok l ∧ l.length = n ∧
    ∀ k, k < n → l[k]? = some (valueFor o k) := by
  cases o with
  | none => exact ⟨_, rfl, by simp, fun k hk => by simp [valueFor, hk]⟩
  | some l =>
    obtain ⟨l', h1, h2, h3⟩ := spread_ok (h l rfl)
    refine ⟨l'.map some, by simp only [spreadDays, h1], by simpa using h2, fun k hk => ?_⟩
    rw [List.getElem?_map, ← h3 k hk]
    have : l'[k]? = some (l'[k]'(by omega)) := List.getElem?_eq_getElem _
    rw [this]
    rfl

/-- The option `-o` as a list. -/
def outputs (o : Option (List Text)) : List (Option Text) := match o with
  | none => [none]
  | some l => l.map some

theorem outputs_ok {o : Option (List Text)} {n : ℕ} (h : FitsFiles o n) : ∃ l, spread (outputs o) n = .ok l ∧ l.length = n ∧
    ∀ k, k < n → l[k]? = some (valueFor o k) := by
  cases o with
  | none => exact ⟨_, rfl, by simp, fun k hk => by simp [valueFor, hk]⟩
  | some l =>
    obtain ⟨l', h1, h2, h3⟩ := spread_ok (l := l.map some) (n := n) (by simpa using h l rfl)
    refine ⟨l', h1, h2, fun k hk => ?_⟩
    rw [h3 k hk]
    match l with
    | [] => 
      have := h3 k hk
      rw [List.getElem?_eq_getElem (by omega)] at this
      simp [valueFor] at this
    | [x] => rfl
    | x :: y :: l =>
      have := h3 k hk
      rw [List.getElem?_eq_getElem (by omega)] at this
      simp only [valueFor, List.map_cons] at this ⊢
      rw [← this]
      have h4 := this
      rw [← List.map_cons, ← List.map_cons, List.getElem?_map] at h4
      cases hg : (x :: y :: l)[k]? with
      | none => rw [hg] at h4; cases h4
      | some z => rw [hg] at h4; simpa using h4

theorem planCli_eq (w : World) (a : CliArgs) (s e : Option Date) (hm : monthMode w a.years a.fnames a.extension = .ok none)
    (hd : yearDates a.years (completeDates a.numDays a.dateStart a.dateEnd).1 (completeDates a.numDays a.dateStart a.dateEnd).2 = .ok (s, e))
    (fnames : List Text) (hf : a.fnames = some fnames) : planCli w a = match spreadDays a.numDays fnames.length with
      | .error e => .error e
      | .ok ns => match spread (outputs a.ofnames) fnames.length with
        | .error e => .error e
        | .ok os => .ok (.files (fileRuns fnames os ns (s.map Date.stamp) (e.map Date.stamp) a.parallel)) := by
  unfold planCli
  rw [hf] at hm
  simp only [hd, hf, hm]
  rfl

/-- **C59.** Outside of month mode, if the lists of the options `-n` and `-o` have one entry or one for each input file, every input file
is run once, in the given order, with its own number of days and output path (one value serves all files) and the dates used for all. -/
theorem C59_plan (w : World) (a : CliArgs) (fnames : List Text) (hf : a.fnames = some fnames) (hm : ¬ MonthMode w a) (hy : YearsOk a)
    (hn : FitsFiles a.numDays fnames.length) (ho : FitsFiles a.ofnames fnames.length) : ∃ s e, UsesDates a s e ∧
      planCli w a = .ok (.files (fnames.mapIdx (fileRun a s e))) := by
  obtain ⟨s, e, hd, hu⟩ := dates_of hy
  refine ⟨s, e, hu, ?_⟩
  rw [planCli_eq w a s e (monthMode_no hm) hd fnames hf]
  obtain ⟨ns, h1, h2, h3⟩ := spreadDays_ok hn
  obtain ⟨os, h4, h5, h6⟩ := outputs_ok ho
  simp only [h1, h4, Except.ok.injEq, Plan.files.injEq]
  apply List.ext_getElem?
  intro k
  unfold fileRuns
  rw [List.getElem?_map, List.getElem?_mapIdx]
  by_cases hk : k < fnames.length
  · have hz : (fnames.zip (os.zip ns))[k]? = some (fnames[k], valueFor a.ofnames k, valueFor a.numDays k) :=
      List.getElem?_zip_eq_some.2 ⟨List.getElem?_eq_getElem hk, List.getElem?_zip_eq_some.2 ⟨h6 k hk, h3 k hk⟩⟩
    rw [hz, List.getElem?_eq_getElem hk]
    rfl
  · rw [List.getElem?_eq_none (l := fnames) (by omega), List.getElem?_eq_none (by simp; omega)]
    rfl

/-- **C59.** A list of another length raises `ValueError`. -/
theorem C59_lengths (w : World) (a : CliArgs) (fnames : List Text) (hf : a.fnames = some fnames) (hm : ¬ MonthMode w a) (hy : YearsOk a)
    (h : ¬ (FitsFiles a.numDays fnames.length ∧ FitsFiles a.ofnames fnames.length)) : planCli w a = .error .valueError := by
  obtain ⟨s, e, hd, hu⟩ := dates_of hy
  rw [planCli_eq w a s e (monthMode_no hm) hd fnames hf]
  by_cases hn : FitsFiles a.numDays fnames.length
  · obtain ⟨ns, h1, h2, h3⟩ := spreadDays_ok hn
    have ho : ¬ FitsFiles a.ofnames fnames.length := fun ho => h ⟨hn, ho⟩
    unfold FitsFiles at ho
    push Not at ho
    obtain ⟨l, hl, h4, h5⟩ := ho
    rw [hl]
    simp only [h1, outputs]
    rw [spread_error (by simp; exact ⟨h4, h5⟩)]
  · unfold FitsFiles at hn
    push Not at hn
    obtain ⟨l, hl, h4, h5⟩ := hn
    rw [hl]
    simp only [spreadDays]
    rw [spread_error (by push Not; exact ⟨h4, h5⟩)]

/-- **C59.** `-y` together with a date raises `ValueError`. -/
theorem C59_year_and_date (w : World) (a : CliArgs) (hy : a.years ≠ none) (hd : a.dateStart ≠ none ∨ a.dateEnd ≠ none) :
    planCli w a = .error .valueError := by
  obtain ⟨ys, hys⟩ := Option.ne_none_iff_exists'.1 hy
  have key : (completeDates a.numDays a.dateStart a.dateEnd).1.isSome = true ∨ (completeDates a.numDays a.dateStart a.dateEnd).2.isSome = true := by
    unfold completeDates
    cases a.numDays <;> cases hs : a.dateStart <;> cases he : a.dateEnd <;> simp [hs, he] at hd ⊢
  unfold planCli
  simp only [hys, yearDates]
  rw [if_pos key]

/-! ## Running the plan -/

/-- The files after the runs: the result of every spreadsheet is written to its path, one after the other. -/
def filesAfter (base : Text) : List RunArgs → List (Option (List Profile)) → Files → Files
  | r :: rs, some rows :: outs, fs => filesAfter base rs outs (exportSeries base fs (profileFormatting rows).2.2 none (some r.fname) r.ofname)
  | _ :: rs, none :: outs, fs => filesAfter base rs outs fs
  | _, _, fs => fs

theorem fin_runFiles (w : World) (wk : ℕ → Workers) : ∀ (rs : List RunArgs) (k : ℕ) (fs : Files), Finitary (runFiles w wk k rs fs)
  | [], _, _ => fin_pure _
  | r :: rs, k, fs => by
    unfold runFiles
    refine fin_bind (fin_runUseCase _ _ _) fun o => ?_
    cases o with
    | none => exact fin_runFiles w wk rs _ _
    | some rows => exact fin_runFiles w wk rs _ _

theorem returns_runFiles {w : World} {wk : ℕ → Workers} {fs' : Files} : ∀ {rs : List RunArgs} {k : ℕ} {fs : Files},
    Returns (runFiles w wk k rs fs) fs' ↔ ∃ outs : List (Option (List Profile)), outs.length = rs.length ∧
      (∀ i r o, rs[i]? = some r → outs[i]? = some o → Returns (runUseCase w (wk (k + i)) r) o) ∧ fs' = filesAfter w.base rs outs fs
  | [], k, fs => by
    unfold runFiles
    rw [returns_pure]
    constructor
    · rintro rfl
      exact ⟨[], rfl, by simp, rfl⟩
    · rintro ⟨outs, h1, h2, rfl⟩
      cases outs <;> rfl
  | r :: rs, k, fs => by
    unfold runFiles
    rw [returns_bind (fin_runUseCase _ _ _)]
    constructor
    · rintro ⟨o, h1, h2⟩
      cases o with
      | none =>
        obtain ⟨outs, h3, h4, h5⟩ := returns_runFiles.1 h2
        refine ⟨none :: outs, by simpa using h3, ?_, h5⟩
        intro i r' o' hr ho
        cases i with
        | zero =>
          simp only [List.getElem?_cons_zero, Option.some.injEq] at hr ho
          subst hr ho
          exact h1
        | succ i =>
          rw [List.getElem?_cons_succ] at hr ho
          have := h4 i r' o' hr ho
          rwa [show k + (i + 1) = k + 1 + i by ring]
      | some rows =>
        obtain ⟨outs, h3, h4, h5⟩ := returns_runFiles.1 h2
        refine ⟨some rows :: outs, by simpa using h3, ?_, h5⟩
        intro i r' o' hr ho
        cases i with
        | zero =>
          simp only [List.getElem?_cons_zero, Option.some.injEq] at hr ho
          subst hr ho
          exact h1
        | succ i =>
          rw [List.getElem?_cons_succ] at hr ho
          have := h4 i r' o' hr ho
          rwa [show k + (i + 1) = k + 1 + i by ring]
    · rintro ⟨outs, h1, h2, h3⟩
      cases outs with
      | nil => simp at h1
      | cons o outs =>
        have hrest : ∀ i r' o', rs[i]? = some r' → outs[i]? = some o' → Returns (runUseCase w (wk (k + 1 + i)) r') o' := by
          intro i r' o' hr ho
          have := h2 (i + 1) r' o' (by rwa [List.getElem?_cons_succ]) (by rwa [List.getElem?_cons_succ])
          rwa [show k + (i + 1) = k + 1 + i by ring] at this
        refine ⟨o, h2 0 r o rfl rfl, ?_⟩
        cases o with
        | none => exact returns_runFiles.2 ⟨outs, by simpa using h1, hrest, h3⟩
        | some rows => exact returns_runFiles.2 ⟨outs, by simpa using h1, hrest, h3⟩

/-- **C59.** What the command does with the files: it can end with `res` exactly if every input file, run with its own number of days and
output path, can give the profiles `outs k`, and `res` is what is left after the results were written in the order of the files. -/
theorem C59_main (w : World) (wk : ℕ → Workers) (a : CliArgs) (fs : Files) (fnames : List Text) (hf : a.fnames = some fnames)
    (hm : ¬ MonthMode w a) (hy : YearsOk a) (hn : FitsFiles a.numDays fnames.length) (ho : FitsFiles a.ofnames fnames.length) :
    ∃ s e, UsesDates a s e ∧ ∀ res, Returns (mainCli w wk a fs) res ↔ ∃ outs : List (Option (List Profile)), outs.length = fnames.length ∧
      (∀ k f o, fnames[k]? = some f → outs[k]? = some o → Returns (runUseCase w (wk k) (fileRun a s e k f)) o) ∧
      res = .files (filesAfter w.base (fnames.mapIdx (fileRun a s e)) outs fs) := by
  obtain ⟨s, e, hu, hp⟩ := C59_plan w a fnames hf hm hy hn ho
  refine ⟨s, e, hu, fun res => ?_⟩
  unfold mainCli
  simp only [hp]
  rw [returns_bind (fin_runFiles _ _ _ _ _)]
  constructor
  · rintro ⟨fs', h1, h2⟩
    obtain ⟨outs, h3, h4, rfl⟩ := returns_runFiles.1 h1
    refine ⟨outs, by simpa using h3, ?_, returns_pure.1 h2⟩
    intro k f o hk ho
    have := h4 k (fileRun a s e k f) o (by rw [List.getElem?_mapIdx, hk]; rfl) ho
    rwa [Nat.zero_add] at this
  · rintro ⟨outs, h1, h2, rfl⟩
    refine ⟨_, returns_runFiles.2 ⟨outs, by simpa using h1, ?_, rfl⟩, returns_pure.2 rfl⟩
    intro k r o hr ho
    rw [List.getElem?_mapIdx] at hr
    cases hk : fnames[k]? with
    | none => rw [hk] at hr; cases hr
    | some f =>
      rw [hk] at hr
      simp only [Option.map_some, Option.some.injEq] at hr
      subst hr
      rw [Nat.zero_add]
      exact h2 k f o hk ho

/-- Non-vacuity of C59: two files, one number of days for both, two output paths. -/
example : planCli lampWorld { fnames := some ["1.xlsx".toList, "2.xlsx".toList], numDays := some [3], ofnames := some ["a".toList, "b".toList] } =
    .ok (.files [{ fname := "1.xlsx".toList, ofname := some "a".toList, numDays := some 3 }, { fname := "2.xlsx".toList, ofname := some "b".toList, numDays := some 3 }]) :=
  rfl

/-! ## C60: open date ranges -/

theorem daysBeforeMonth_mono {y m n : ℕ} (h : m ≤ n) : daysBeforeMonth y m ≤ daysBeforeMonth y n := by
  induction n, h using Nat.le_induction with
  | base => exact le_rfl
  | succ n h ih =>
    by_cases hn : 1 ≤ n
    · rw [daysBeforeMonth_succ y n hn]; omega
    · have : n = 0 := by omega
      subst this
      have : m = 0 := by omega
      subst this
      exact le_of_eq rfl

theorem date_in_year {y m d : ℕ} (h : ValidDate y m d) : dateOrd y 1 1 ≤ dateOrd y m d ∧ dateOrd y m d ≤ dateOrd y 12 31 ∧
    dateOrd y 12 31 - dateOrd y 1 1 + 1 = (if isLeap y then 366 else 365 : ℕ) := by
  obtain ⟨_, h1, h2, h3, h4⟩ := h
  have e1 := daysBeforeMonth_succ y m h1
  have e2 := daysBeforeMonth_mono (y := y) (m := m + 1) (n := 13) (by omega)
  have e3 := yearLength y
  have e4 := daysBeforeMonth_succ y 12 (by omega)
  have e5 : daysInMonth y 12 = 31 := rfl
  have e6 : daysBeforeMonth y 1 = 0 := rfl
  rw [show 12 + 1 = 13 from rfl] at e4
  unfold dateOrd
  rw [← e3]
  refine ⟨?_, ?_, ?_⟩
  · rw [e6]; push_cast; omega
  · omega
  · rw [e6]; push_cast; omega

/-- **C60.** Without `-n` and `-y`, and with one of the dates, the other is completed inside the calendar year: the days of every run are
consecutive days from 1 January or the start date on, up to the end date or 31 December; at least one and at most a year; all in the calendar
year of the given date. -/
theorem C60_inside_year (w : World) (a : CliArgs) (fnames : List Text) (hf : a.fnames = some fnames) (hy : a.years = none) (hn : a.numDays = none)
    (ho : FitsFiles a.ofnames fnames.length) (d : Date) (hv : ValidDate d.year d.month d.day)
    (hd : (a.dateStart = some d ∧ a.dateEnd = none) ∨ (a.dateStart = none ∧ a.dateEnd = some d)) :
    ∃ runs, planCli w a = .ok (.files runs) ∧ runs.map (fun r => r.fname) = fnames ∧ ∀ r ∈ runs, ∃ first last : ℤ,
      first = (if a.dateStart = some d then dateOrd d.year d.month d.day else dateOrd d.year 1 1) ∧
      last = (if a.dateStart = some d then dateOrd d.year 12 31 else dateOrd d.year d.month d.day) ∧
      dateOrd d.year 1 1 ≤ first ∧ first ≤ last ∧ last ≤ dateOrd d.year 12 31 ∧
      last - first + 1 ≤ (if isLeap d.year then 366 else 365 : ℕ) ∧
      (∀ uc, Returns (prepareRun w r) uc → uc.days = some (daysFrom (1440 * first) (last - first + 1).toNat)) ∧
      ∀ wk rows, Returns (runUseCase w wk r) (some rows) → (rows.length : ℤ) = last - first + 1 := by
  have hm : ¬ MonthMode w a := by
    rintro ⟨y, f, rest, h, -⟩
    rw [hy] at h
    cases h
  obtain ⟨s, e, hu, hp⟩ := C59_plan w a fnames hf hm (fun ys h => by rw [hy] at h; cases h) (fun l h => by rw [hn] at h; cases h) ho
  obtain ⟨k1, k2, k3⟩ := date_in_year hv
  refine ⟨_, hp, ?_, ?_⟩
  · apply List.ext_getElem?
    intro k
    rw [List.getElem?_map, List.getElem?_mapIdx]
    cases fnames[k]? <;> rfl
  · intro r hr
    obtain ⟨k, hk, rfl⟩ := List.mem_mapIdx.1 hr
    have key : ∀ (x y : ℤ), x ≤ y → runDays w.env { fname := fnames[k], ofname := valueFor a.ofnames k, numDays := valueFor a.numDays k, dateStart := some (1440 * x), dateEnd := some (1440 * y), plot := true, parallel := a.parallel } = .ok (daysFrom (1440 * x) (y - x + 1).toNat) := by
      intro x y hxy
      unfold runDays
      simp only
      rw [if_neg (by omega)]
      congr 3
      omega
    have key2 : ∀ (x y : ℤ) (r : RunArgs), x ≤ y → runDays w.env r = .ok (daysFrom (1440 * x) (y - x + 1).toNat) →
        (∀ uc, Returns (prepareRun w r) uc → uc.days = some (daysFrom (1440 * x) (y - x + 1).toNat)) ∧
        ∀ wk rows, Returns (runUseCase w wk r) (some rows) → (rows.length : ℤ) = y - x + 1 := by
      intro x y r hxy hr
      constructor
      · intro uc h
        obtain ⟨ds, peak, h1, h2, -⟩ := prepareRun_fields h
        rw [hr] at h1
        cases h1
        exact h2.days
      · intro wk rows h
        obtain ⟨_, uc, h3, h4⟩ := returns_run h
        obtain ⟨ds, peak, h1, h2, -⟩ := prepareRun_fields h3
        rw [hr] at h1
        cases h1
        have := simulateRun_length h2 h4
        rw [daysFrom_length] at this
        omega
    rcases hd with ⟨h1, h2⟩ | ⟨h1, h2⟩
    · refine ⟨dateOrd d.year d.month d.day, dateOrd d.year 12 31, by rw [if_pos h1], by rw [if_pos h1], k1, k2, le_rfl, by omega, ?_⟩
      cases hu with
      | years first last hy' => obtain ⟨ys, h, -⟩ := hy'; rw [hy] at h; cases h
      | given _ h => rw [hn, h1, h2] at h; simp at h
      | start e' _ _ hs he => rw [h1] at hs; cases hs
      | stop s' _ _ hs he =>
        rw [h1] at hs
        cases hs
        exact key2 _ _ _ k2 (key _ _ k2)
    · have hne : a.dateStart ≠ some d := by rw [h1]; simp
      refine ⟨dateOrd d.year 1 1, dateOrd d.year d.month d.day, by rw [if_neg hne], by rw [if_neg hne], le_rfl, k1, k2, by omega, ?_⟩
      cases hu with
      | years first last hy' => obtain ⟨ys, h, -⟩ := hy'; rw [hy] at h; cases h
      | given _ h => rw [hn, h1, h2] at h; simp at h
      | stop s' _ _ hs he => rw [h1] at hs; cases hs
      | start e' _ _ hs he =>
        rw [h2] at he
        cases he
        exact key2 _ _ _ k1 (key _ _ k1)

/-- **C60.** With `-n`, or with both dates or none, the dates are used as given. -/
theorem C60_as_given (w : World) (a : CliArgs) (fnames : List Text) (hf : a.fnames = some fnames) (hy : a.years = none)
    (hd : a.numDays ≠ none ∨ (a.dateStart.isSome ↔ a.dateEnd.isSome))
    (hn : FitsFiles a.numDays fnames.length) (ho : FitsFiles a.ofnames fnames.length) :
    ∃ runs, planCli w a = .ok (.files runs) ∧ runs.map (fun r => r.fname) = fnames ∧
      ∀ r ∈ runs, r.dateStart = a.dateStart.map Date.stamp ∧ r.dateEnd = a.dateEnd.map Date.stamp := by
  have hm : ¬ MonthMode w a := by
    rintro ⟨y, f, rest, h, -⟩
    rw [hy] at h
    cases h
  obtain ⟨s, e, hu, hp⟩ := C59_plan w a fnames hf hm (fun ys h => by rw [hy] at h; cases h) hn ho
  refine ⟨_, hp, ?_, ?_⟩
  · apply List.ext_getElem?
    intro k
    rw [List.getElem?_map, List.getElem?_mapIdx]
    cases fnames[k]? <;> rfl
  · intro r hr
    obtain ⟨k, hk, rfl⟩ := List.mem_mapIdx.1 hr
    cases hu with
    | years first last hy' => obtain ⟨ys, h, -⟩ := hy'; rw [hy] at h; cases h
    | given _ h => exact ⟨rfl, rfl⟩
    | start e' _ hn' hs he => rw [hn', hs, he] at hd; simp at hd
    | stop e' _ hn' hs he => rw [hn', hs, he] at hd; simp at hd

/-- Non-vacuity of C60: from 29 February of a leap year on. -/
example : ValidDate 2020 2 29 ∧ ∃ runs, planCli lampWorld { fnames := some ["1.xlsx".toList], dateStart := some ⟨2020, 2, 29⟩ } = .ok (.files runs) ∧
    runs.map (fun r => (r.dateStart, r.dateEnd)) = [(some (1440 * dateOrd 2020 2 29), some (1440 * dateOrd 2020 12 31))] :=
  ⟨⟨by norm_num, by norm_num, by norm_num, by norm_num, by decide⟩, _, rfl, rfl⟩

end Ramp
