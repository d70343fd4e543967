import Verif.Props.CliPlan

/-! # C62: one input file per month -/

set_option autoImplicit false

namespace Ramp

/-! ## The plan -/

/-- The number of days of a year. -/
def yearDays (y : ℕ) : ℕ := if isLeap y then 366 else 365

/-- The run of month `i + 1`: from its first to its last day. -/
def monthArgs (a : CliArgs) (y : ℕ) (i : ℕ) (f : Text) : RunArgs :=
  { fname := f, numDays := valueFor a.numDays i, dateStart := some (1440 * dateOrd y (i + 1) 1),
    dateEnd := some (1440 * dateOrd y (i + 1) (daysInMonth y (i + 1))), plot := false, parallel := a.parallel }

theorem monthRuns_get {y : ℕ} {p : Bool} : ∀ {fs : List Text} {ns : List (Option ℤ)} {i k : ℕ}, fs.length = ns.length →
    (monthRuns y p i fs ns)[k]? = match fs[k]?, ns[k]? with
      | some f, some n => some (monthRun y p (i + k) f n)
      | _, _ => none
  | [], [], i, k, _ => by simp [monthRuns]
  | f :: fs, n :: ns, i, 0, h => by simp [monthRuns]
  | f :: fs, n :: ns, i, k + 1, h => by
    unfold monthRuns
    rw [List.getElem?_cons_succ, monthRuns_get (by simpa using h), List.getElem?_cons_succ, List.getElem?_cons_succ]
    rw [show i + 1 + k = i + (k + 1) by ring]

/-- The files of the folder with the extension. -/
def folderFiles (w : World) (dir ext : Text) : List Text := ((w.listDir dir).filter (endsWith ext)).map (joinPath dir)

/-- The files of the months: the files of the folder, by the number made of the digits of their paths. -/
structure IsMonthFiles (w : World) (dir ext : Text) (files : List Text) : Prop where
  perm : files.Perm (folderFiles w dir ext)
  sorted : files.Pairwise (fun f g => fileKey f ≤ fileKey g)

theorem monthFiles_ok {w : World} {dir ext : Text} {files : List Text} (h : monthFiles w dir ext = .ok files) : IsMonthFiles w dir ext files ∧
    (∀ f ∈ files, digitsOf f ≠ []) ∧ files = (folderFiles w dir ext).insertionSort (fun a b => fileKey a ≤ fileKey b) := by
  unfold monthFiles at h
  simp only at h
  split_ifs at h with hd
  cases h
  refine ⟨⟨List.perm_insertionSort _ _, ?_⟩, ?_, rfl⟩
  · have : Std.Total (fun a b : Text => fileKey a ≤ fileKey b) := ⟨fun a b => le_total _ _⟩
    have : IsTrans Text (fun a b : Text => fileKey a ≤ fileKey b) := ⟨fun a b c => le_trans⟩
    exact List.pairwise_insertionSort _ _
  · intro f hf
    have := (List.perm_insertionSort (fun a b : Text => fileKey a ≤ fileKey b) _).mem_iff.1 hf
    simp only [List.any_eq_true, not_exists, not_and] at hd
    have := hd f this
    simpa [List.isEmpty_iff] using this

/-- The command asks for one year with a folder of input files. -/
structure YearCommand (w : World) (a : CliArgs) (y : ℤ) (dir : Text) : Prop where
  years : a.years = some [y]
  inCalendar : 1 ≤ y ∧ y ≤ 9999
  noStart : a.dateStart = none
  noEnd : a.dateEnd = none
  input : ∃ rest, a.fnames = some (dir :: rest)
  folder : w.isDir dir = true

/-- The folder of the results: the single output path, else the current folder. -/
def resultFolder (w : World) (a : CliArgs) : Text := match a.ofnames with
  | some [o] => o
  | _ => w.current

theorem plan_year {w : World} {a : CliArgs} {y : ℤ} {dir : Text} (h : YearCommand w a y dir) : planCli w a = match monthFiles w dir a.extension with
    | .error e => .error e
    | .ok fs => if fs.length = 12 then match spreadDays a.numDays fs.length with
        | .error e => .error e
        | .ok ns => .ok (.months y.toNat (monthRuns y.toNat a.parallel 0 fs ns) (yearFolder (outputs a.ofnames)))
      else .error .valueError := by
  obtain ⟨h1, h2, h3, h4, ⟨rest, h5⟩, h6⟩ := h
  obtain ⟨s, e, hd, -⟩ := dates_of (a := a) (by
    intro ys hys
    rw [h1] at hys
    cases hys
    refine ⟨by simp, h3, h4, ?_⟩
    intro y' hy'
    rw [List.mem_singleton] at hy'
    subst hy'
    exact h2)
  unfold planCli
  rw [h1] at hd
  simp only [h1, hd, h5, monthMode, if_pos h6]
  cases monthFiles w dir a.extension with
  | error e => rfl
  | ok fs =>
    simp only
    split_ifs
    · rfl
    · rfl

/-- **C62.** If the folder has another number of files than 12, the command raises `ValueError`. -/
theorem C62_twelve_files (w : World) (a : CliArgs) (y : ℤ) (dir : Text) (h : YearCommand w a y dir)
    (hl : (folderFiles w dir a.extension).length ≠ 12) : planCli w a = .error .valueError := by
  rw [plan_year h]
  cases hm : monthFiles w dir a.extension with
  | error e =>
    unfold monthFiles at hm
    simp only at hm
    split_ifs at hm
    cases hm
    rfl
  | ok fs =>
    simp only
    rw [if_neg]
    rw [(monthFiles_ok hm).1.perm.length_eq]
    exact hl

/-! ## The runs -/

theorem fin_runMonths (w : World) (wk : ℕ → Workers) : ∀ (rs : List RunArgs) (k : ℕ), Finitary (runMonths w wk k rs)
  | [], _ => fin_pure _
  | r :: rs, k => by
    unfold runMonths
    refine fin_bind (fin_runUseCase _ _ _) fun o => ?_
    cases o with
    | none => exact fin_raise _
    | some rows => exact fin_bind (fin_runMonths w wk rs _) fun _ => fin_pure _

theorem returns_runMonths {w : World} {wk : ℕ → Workers} : ∀ {rs : List RunArgs} {k : ℕ} {l : List (List ℚ)},
    Returns (runMonths w wk k rs) l ↔ ∃ outs : List (List Profile), outs.length = rs.length ∧
      (∀ i r o, rs[i]? = some r → outs[i]? = some o → Returns (runUseCase w (wk (k + i)) r) (some o)) ∧ l = outs.map flatten
  | [], k, l => by
    unfold runMonths
    rw [returns_pure]
    constructor
    · rintro rfl
      exact ⟨[], rfl, by simp, rfl⟩
    · rintro ⟨outs, h1, h2, rfl⟩
      have : outs = [] := by simpa using h1
      subst this
      rfl
  | r :: rs, k, l => by
    unfold runMonths
    rw [returns_bind (fin_runUseCase _ _ _)]
    constructor
    · rintro ⟨o, h1, h2⟩
      cases o with
      | none => exact absurd h2 returns_raise
      | some rows =>
        obtain ⟨l', h3, h4⟩ := (returns_bind (fin_runMonths _ _ _ _)).1 h2
        obtain ⟨outs, h5, h6, rfl⟩ := returns_runMonths.1 h3
        refine ⟨rows :: outs, by simpa using h5, ?_, returns_pure.1 h4⟩
        intro i r' o' hr ho
        cases i with
        | zero =>
          simp only [List.getElem?_cons_zero, Option.some.injEq] at hr ho
          subst hr ho
          exact h1
        | succ i =>
          rw [List.getElem?_cons_succ] at hr ho
          have := h6 i r' o' hr ho
          rwa [show k + (i + 1) = k + 1 + i by ring]
    · rintro ⟨outs, h1, h2, rfl⟩
      cases outs with
      | nil => simp at h1
      | cons o outs =>
        refine ⟨some o, h2 0 r o rfl rfl, ?_⟩
        simp only
        rw [returns_bind (fin_runMonths _ _ _ _)]
        refine ⟨outs.map flatten, returns_runMonths.2 ⟨outs, by simpa using h1, ?_, rfl⟩, returns_pure.2 rfl⟩
        intro i r' o' hr ho
        have := h2 (i + 1) r' o' (by rwa [List.getElem?_cons_succ]) (by rwa [List.getElem?_cons_succ])
        rwa [show k + (i + 1) = k + 1 + i by ring] at this

/-! ## The frame of the year -/

/-- The minutes of the year with the profiles of the months one after the other. -/
def yearMinutes (y : ℕ) (outs : List (List Profile)) : Frame :=
  { index := (List.range (1440 * yearDays y)).map (fun (k : ℕ) => Label.stamp (1440 * dateOrd y 1 1 + (k : ℤ)))
    columns := [("0", (outs.flatMap profileSeries).map some)] }

theorem flatten_eq_series (rows : List Profile) : flatten rows = profileSeries rows := by
  unfold flatten profileSeries
  rw [List.flatMap_def]

theorem year_index (y : ℕ) : minuteRange (Date.stamp ⟨y, 1, 1⟩) (Date.stamp ⟨y, 12, 31⟩ + 23 * 60 + 59) =
    (List.range (1440 * yearDays y)).map (fun (k : ℕ) => 1440 * dateOrd y 1 1 + (k : ℤ)) := by
  have e3 := yearLength y
  have e4 := daysBeforeMonth_succ y 12 (by omega)
  have e5 : daysInMonth y 12 = 31 := rfl
  have e6 : daysBeforeMonth y 1 = 0 := rfl
  rw [show 12 + 1 = 13 from rfl] at e4
  have hd : dateOrd y 12 31 = dateOrd y 1 1 + (yearDays y : ℤ) - 1 := by
    unfold dateOrd yearDays
    rw [← e3, e6, e4, e5]
    push_cast
    ring
  unfold minuteRange Date.stamp
  simp only
  congr 2
  omega

theorem months_length {y : ℕ} : ∀ {n : ℕ} {outs : List (List Profile)}, outs.length = n →
    (∀ i o, outs[i]? = some o → o.length = daysInMonth y (i + 1)) → (outs.flatMap profileSeries).length = 1440 * daysBeforeMonth y (n + 1)
  | 0, outs, h, _ => by
    have : outs = [] := by simpa using h
    subst this
    rfl
  | n + 1, outs, h, ho => by
    obtain ⟨l, x, rfl⟩ : ∃ l x, outs = l ++ [x] := by
      have hne : outs ≠ [] := by rintro rfl; simp at h
      exact ⟨outs.dropLast, outs.getLast hne, (List.dropLast_append_getLast hne).symm⟩
    have hl : l.length = n := by simpa using h
    have hx := ho n x (by rw [List.getElem?_append_right (by omega), hl]; simp)
    rw [List.flatMap_append, List.length_append, months_length hl, daysBeforeMonth_succ y (n + 1) (by omega)]
    · simp only [List.flatMap_cons, List.flatMap_nil, List.append_nil, series_length, hx]
      ring
    · intro i o hi
      refine ho i o ?_
      rw [List.getElem?_append_left (List.getElem?_eq_some_iff.1 hi).1]
      exact hi

theorem monthDays {w : World} {wk : Workers} {a : CliArgs} {y i : ℕ} {f : Text} {rows : List Profile}
    (h : Returns (runUseCase w wk (monthArgs a y i f)) (some rows)) : rows.length = daysInMonth y (i + 1) := by
  obtain ⟨h1, h2⟩ := C63_both_dates_partial w wk _ _ _ rows rfl rfl h
  have hp : 1 ≤ daysInMonth y (i + 1) := by
    unfold daysInMonth
    split_ifs <;> norm_num
  have : dateOrd y (i + 1) (daysInMonth y (i + 1)) = dateOrd y (i + 1) 1 + (daysInMonth y (i + 1) : ℤ) - 1 := by
    unfold dateOrd
    push_cast
    ring
  rw [this] at h2
  omega

theorem hourly_ok (y : ℕ) (outs : List (List Profile)) : ∃ h, hourlyFrame (yearMinutes y outs) = .ok h := by
  have hs : stampsOf (yearMinutes y outs).index = some ((List.range (1440 * yearDays y)).map (fun (k : ℕ) => 1440 * dateOrd y 1 1 + (k : ℤ))) := by
    have key : ∀ l : List ℤ, stampsOf (l.map Label.stamp) = some l := by
      intro l
      induction l with
      | nil => rfl
      | cons t l ih => rw [List.map_cons, stampsOf, ih]; rfl
    rw [← key, List.map_map]
    rfl
  have hcol : ∀ rule name, ∃ x, hourlyColumn (yearMinutes y outs) rule name = .ok x := by
    intro rule name
    unfold hourlyColumn pandasResample
    rw [hs]
    generalize (List.range (1440 * yearDays y)).map (fun (k : ℕ) => 1440 * dateOrd y 1 1 + (k : ℤ)) = ts
    simp only
    cases ts.min? with
    | none => exact ⟨_, rfl⟩
    | some lo => cases ts.max? with
      | none => exact ⟨_, rfl⟩
      | some hi => exact ⟨_, rfl⟩
  obtain ⟨x1, h1⟩ := hcol .mean "mean"
  obtain ⟨x2, h2⟩ := hcol .max "max"
  obtain ⟨x3, h3⟩ := hcol .min "min"
  unfold hourlyFrame
  rw [h1, h2, h3]
  exact ⟨_, rfl⟩

/-- **C62.** A command for one year with a folder of 12 input files can end with `res` exactly if each of the 12 files, in the order of the
numbers made of the digits of their paths, can be run from the first to the last day of its month with the profiles `outs i`, and `res` is
the frame of the minutes of the year with these profiles one after the other, and its hourly resampling.  In particular the lengths
always agree, in leap years too. -/
theorem C62_year (w : World) (wk : ℕ → Workers) (a : CliArgs) (fs : Files) (y : ℤ) (dir : Text) (h : YearCommand w a y dir)
    (hl : (folderFiles w dir a.extension).length = 12) (hdig : ∀ f ∈ folderFiles w dir a.extension, digitsOf f ≠ [])
    (hn : FitsFiles a.numDays 12) : ∃ files, IsMonthFiles w dir a.extension files ∧ ∀ res, Returns (mainCli w wk a fs) res ↔
      ∃ outs : List (List Profile), outs.length = 12 ∧ (∀ i f o, files[i]? = some f → outs[i]? = some o → o.length = daysInMonth y.toNat (i + 1) ∧
        Returns (runUseCase w (wk i) (monthArgs a y.toNat i f)) (some o)) ∧
      ∃ hours, hourlyFrame (yearMinutes y.toNat outs) = .ok hours ∧ res = .year (resultFolder w a) (yearMinutes y.toNat outs) hours := by
  have hfiles : ∃ files, monthFiles w dir a.extension = .ok files := by
    unfold monthFiles
    simp only
    rw [if_neg]
    · exact ⟨_, rfl⟩
    · simp only [List.any_eq_true, not_exists, not_and]
      intro f hf
      have := hdig f hf
      simpa [List.isEmpty_iff] using this
  obtain ⟨files, hf⟩ := hfiles
  have hflen : files.length = 12 := by rw [(monthFiles_ok hf).1.perm.length_eq, hl]
  obtain ⟨ns, hns, hnl, hnv⟩ := spreadDays_ok hn
  refine ⟨files, (monthFiles_ok hf).1, fun res => ?_⟩
  have hplan := plan_year h
  rw [hf] at hplan
  simp only [hflen, if_true, hns] at hplan
  have hfold : (yearFolder (outputs a.ofnames)).getD w.current = resultFolder w a := by
    unfold yearFolder outputs resultFolder
    rcases a.ofnames with _ | (_ | ⟨o, _ | ⟨o', l⟩⟩) <;> rfl
  -- the runs
  have hget : ∀ i r, (monthRuns y.toNat a.parallel 0 files ns)[i]? = some r ↔ ∃ f, files[i]? = some f ∧ r = monthArgs a y.toNat i f := by
    intro i r
    rw [monthRuns_get (by omega), Nat.zero_add]
    by_cases hi : i < 12
    · rw [hnv i hi, List.getElem?_eq_getElem (by omega)]
      simp only [Option.some.injEq]
      constructor
      · rintro rfl
        exact ⟨_, rfl, rfl⟩
      · rintro ⟨f, rfl, rfl⟩
        rfl
    · rw [List.getElem?_eq_none (l := files) (by omega)]
      simp
  have hrl : (monthRuns y.toNat a.parallel 0 files ns).length = 12 := by
    apply le_antisymm
    · by_contra hc
      have := (hget 12 _).1 (List.getElem?_eq_getElem (by omega))
      obtain ⟨f, hf', -⟩ := this
      rw [List.getElem?_eq_none (by omega)] at hf'
      cases hf'
    · by_contra hc
      have := (hget 11 _).2 ⟨files[11]'(by omega), List.getElem?_eq_getElem (by omega), rfl⟩
      rw [List.getElem?_eq_none (by omega)] at this
      cases this
  -- the frame
  have hframe : ∀ outs : List (List Profile), outs.length = 12 → (∀ i o, outs[i]? = some o → o.length = daysInMonth y.toNat (i + 1)) →
      yearFrame y.toNat (outs.map flatten).flatten = .ok (yearMinutes y.toNat outs) := by
    intro outs ho hdays
    have hflat : (outs.map flatten).flatten = outs.flatMap profileSeries := by
      rw [List.flatMap_def]
      rw [List.map_congr_left (fun rows _ => flatten_eq_series rows)]
    unfold yearFrame
    simp only [year_index, hflat]
    rw [if_neg]
    · rw [List.map_map]
      rfl
    · rw [months_length ho hdays, yearLength, List.length_map, List.length_range, not_not]
      rfl
  unfold mainCli
  simp only [hplan]
  rw [returns_bind (fin_runMonths _ _ _ _)]
  constructor
  · rintro ⟨l, h1, h2⟩
    obtain ⟨outs, h3, h4, rfl⟩ := returns_runMonths.1 h1
    rw [hrl] at h3
    have hruns : ∀ i f o, files[i]? = some f → outs[i]? = some o → o.length = daysInMonth y.toNat (i + 1) ∧
        Returns (runUseCase w (wk i) (monthArgs a y.toNat i f)) (some o) := by
      intro i f o hf' ho'
      have := h4 i _ o ((hget i _).2 ⟨f, hf', rfl⟩) ho'
      rw [Nat.zero_add] at this
      exact ⟨monthDays this, this⟩
    refine ⟨outs, h3, hruns, ?_⟩
    have hdays : ∀ i o, outs[i]? = some o → o.length = daysInMonth y.toNat (i + 1) := by
      intro i o ho'
      have hi := (List.getElem?_eq_some_iff.1 ho').1
      exact (hruns i _ o (List.getElem?_eq_getElem (by omega)) ho').1
    obtain ⟨hours, hh⟩ := hourly_ok y.toNat outs
    refine ⟨hours, hh, ?_⟩
    rw [hframe outs h3 hdays, sim_liftE_ok_bind, hh, sim_liftE_ok_bind] at h2
    rw [returns_pure.1 h2, hfold]
  · rintro ⟨outs, h3, hruns, hours, hh, rfl⟩
    have hdays : ∀ i o, outs[i]? = some o → o.length = daysInMonth y.toNat (i + 1) := by
      intro i o ho'
      have hi := (List.getElem?_eq_some_iff.1 ho').1
      exact (hruns i _ o (List.getElem?_eq_getElem (by omega)) ho').1
    refine ⟨outs.map flatten, returns_runMonths.2 ⟨outs, by rw [hrl, h3], ?_, rfl⟩, ?_⟩
    · intro i r o hr ho'
      obtain ⟨f, hf', rfl⟩ := (hget i r).1 hr
      rw [Nat.zero_add]
      exact (hruns i f o hf' ho').2
    · rw [hframe outs h3 hdays, sim_liftE_ok_bind, hh, sim_liftE_ok_bind]
      rw [returns_pure, hfold]

/-! ## The values -/

theorem flatMap_entry : ∀ {y : ℕ} {n : ℕ} {outs : List (List Profile)} {i : ℕ} {rows : List Profile} {k : ℕ} {x : ℚ}, outs.length = n →
    (∀ j o, outs[j]? = some o → o.length = daysInMonth y (j + 1)) → outs[i]? = some rows → (profileSeries rows)[k]? = some x →
    (outs.flatMap profileSeries)[1440 * daysBeforeMonth y (i + 1) + k]? = some x := by
  intro y n
  induction n with
  | zero =>
    intro outs i rows k x h ho hi hk
    have : outs = [] := by simpa using h
    subst this
    simp at hi
  | succ n ih =>
    intro outs i rows k x h ho hi hk
    obtain ⟨l, z, rfl⟩ : ∃ l x, outs = l ++ [x] := by
      have hne : outs ≠ [] := by rintro rfl; simp at h
      exact ⟨outs.dropLast, outs.getLast hne, (List.dropLast_append_getLast hne).symm⟩
    have hl : l.length = n := by simpa using h
    have ho' : ∀ j o, l[j]? = some o → o.length = daysInMonth y (j + 1) := by
      intro j o hj
      refine ho j o ?_
      rw [List.getElem?_append_left (List.getElem?_eq_some_iff.1 hj).1]
      exact hj
    rw [List.flatMap_append]
    by_cases hi' : i < n
    · have hil : l[i]? = some rows := by rwa [List.getElem?_append_left (by omega)] at hi
      have := ih hl ho' hil hk
      rw [List.getElem?_append_left (List.getElem?_eq_some_iff.1 this).1]
      exact this
    · have hin : i = n := by
        have := (List.getElem?_eq_some_iff.1 hi).1
        simp at this
        omega
      subst hin
      rw [List.getElem?_append_right (by omega), hl] at hi
      simp only [Nat.sub_self, List.getElem?_cons_zero, Option.some.injEq] at hi
      subst hi
      rw [List.getElem?_append_right (by rw [months_length hl ho']; omega), months_length hl ho', Nat.add_sub_cancel_left]
      simpa using hk

/-- **C62.** The frame has exactly one row per minute of the year, leap years included, and the value at minute `t` of day `d` of month `m` is that
of the profile of day `d` of the results of month `m`. -/
theorem C62_every_minute (y : ℕ) (outs : List (List Profile)) (h12 : outs.length = 12)
    (hdays : ∀ i o, outs[i]? = some o → o.length = daysInMonth y (i + 1)) : ∃ values, (yearMinutes y outs).columns = [("0", values)] ∧
      values.length = 1440 * yearDays y ∧
      (yearMinutes y outs).index = (List.range (1440 * yearDays y)).map (fun (k : ℕ) => Label.stamp (1440 * dateOrd y 1 1 + (k : ℤ))) ∧
      ∀ (m d : ℕ) (t : Fin 1440), ValidDate y m d → ∃ (k : ℕ) (rows : List Profile) (p : Profile), outs[m - 1]? = some rows ∧ rows[d - 1]? = some p ∧
        (yearMinutes y outs).index[k]? = some (.stamp (1440 * dateOrd y m d + t.val)) ∧ values[k]? = some (some (p t)) := by
  refine ⟨_, rfl, ?_, rfl, ?_⟩
  · rw [List.length_map, months_length h12 hdays, yearLength]
    rfl
  · intro m d t hv
    obtain ⟨k1, k2, k3⟩ := date_in_year hv
    obtain ⟨_, h1, h2, h3, h4⟩ := hv
    obtain ⟨m, rfl⟩ : ∃ m', m = m' + 1 := ⟨m - 1, by omega⟩
    obtain ⟨d, rfl⟩ : ∃ d', d = d' + 1 := ⟨d - 1, by omega⟩
    simp only [Nat.add_sub_cancel]
    have hm : outs[m]? = some (outs[m]'(by omega)) := List.getElem?_eq_getElem _
    have hlen := hdays m _ hm
    have hd : (outs[m]'(by omega))[d]? = some ((outs[m]'(by omega))[d]'(by omega)) := List.getElem?_eq_getElem _
    have hval := flatMap_entry h12 hdays hm (series_entry _ d _ t hd)
    refine ⟨1440 * daysBeforeMonth y (m + 1) + (1440 * d + t.val), _, _, hm, hd, ?_, ?_⟩
    · have hb : 1440 * daysBeforeMonth y (m + 1) + (1440 * d + t.val) < 1440 * yearDays y := by
        have := (List.getElem?_eq_some_iff.1 hval).1
        rw [months_length h12 hdays, yearLength] at this
        exact this
      unfold yearMinutes
      simp only
      rw [List.getElem?_map, List.getElem?_range hb]
      simp only [Option.map_some, Option.some.injEq, Label.stamp.injEq]
      have e6 : daysBeforeMonth y 1 = 0 := rfl
      unfold dateOrd
      rw [e6]
      push_cast
      ring
    · rw [List.getElem?_map, hval]
      rfl

theorem divide_one (f : Frame) : divideFrame f 1 = f := by
  unfold divideFrame
  cases f with
  | mk index columns =>
    congr 1
    have : (fun c : String × List (Option ℚ) => (c.1, c.2.map (Option.map (fun x => x / 1)))) = id := by
      funext c
      obtain ⟨n, l⟩ := c
      simp
    rw [this, List.map_id]

/-- The values of an hour of the year. -/
def hourValues (values : List (Option ℚ)) (k : ℕ) : List ℚ := present ((values.drop (60 * k)).take 60)

theorem entriesFrom_cons (s : ℤ) (index : List Label) (x : Option ℚ) (l : List (Option ℚ)) (t m : ℤ) :
    entriesFrom (Label.stamp s :: index) (x :: l) t m = (if t ≤ s ∧ s < t + m then x.toList else []) ++ entriesFrom index l t m := by
  unfold entriesFrom present
  rw [List.zip_cons_cons]
  by_cases h : t ≤ s ∧ s < t + m
  · rw [List.filter_cons_of_pos (by simpa using h), if_pos h, List.map_cons, List.filterMap_cons]
    cases x <;> rfl
  · rw [List.filter_cons_of_neg (by simpa using h), if_neg h]
    rfl

theorem entriesFrom_congr {t m t' m' : ℤ} : ∀ {ts : List ℤ} {l : List (Option ℚ)}, (∀ s ∈ ts, (t ≤ s ∧ s < t + m) ↔ (t' ≤ s ∧ s < t' + m')) →
    entriesFrom (ts.map Label.stamp) l t m = entriesFrom (ts.map Label.stamp) l t' m'
  | [], l, h => rfl
  | s :: ts, [], h => by simp [entriesFrom]
  | s :: ts, x :: l, h => by
    rw [List.map_cons, entriesFrom_cons, entriesFrom_cons, entriesFrom_congr (fun s hs => h s (List.mem_cons_of_mem _ hs))]
    simp only [h s (by simp)]

theorem entries_of_range : ∀ (n : ℕ) (s : ℤ) (l : List (Option ℚ)) (a b : ℕ), l.length = n →
    entriesFrom (((List.range n).map (fun (k : ℕ) => s + (k : ℤ))).map Label.stamp) l (s + a) b = present ((l.drop a).take b)
  | 0, s, l, a, b, h => by
    have : l = [] := by simpa using h
    subst this
    simp [entriesFrom, present]
  | n + 1, s, [], a, b, h => by simp at h
  | n + 1, s, x :: l, a, b, h => by
    have hl : l.length = n := by simpa using h
    have hr : (List.range (n + 1)).map (fun (k : ℕ) => s + (k : ℤ)) = s :: (List.range n).map (fun (k : ℕ) => s + 1 + (k : ℤ)) := by
      rw [List.range_succ_eq_map, List.map_cons, List.map_map]
      congr 1
      · simp
      · apply List.map_congr_left
        intro k _
        simp only [Function.comp_apply]
        push_cast
        ring
    have hge : ∀ t ∈ (List.range n).map (fun (k : ℕ) => s + 1 + (k : ℤ)), s + 1 ≤ t := by
      intro t ht
      obtain ⟨k, _, rfl⟩ := List.mem_map.1 ht
      omega
    rw [hr, List.map_cons, entriesFrom_cons]
    cases a with
    | succ a =>
      rw [if_neg (by push_cast; omega), List.drop_succ_cons, List.nil_append, ← entries_of_range n (s + 1) l a b hl]
      congr 1
      push_cast
      ring
    | zero =>
      cases b with
      | zero =>
        rw [List.take_zero, if_neg (by simp), List.nil_append]
        have := entries_of_range n (s + 1) l 0 0 hl
        rw [List.take_zero] at this
        rw [← this]
        apply entriesFrom_congr
        intro t _
        push_cast
        constructor <;> intro h <;> omega
      | succ b =>
        rw [if_pos (by push_cast; omega), List.drop_zero, List.take_succ_cons]
        have := entries_of_range n (s + 1) l 0 b hl
        rw [List.drop_zero] at this
        have hc : entriesFrom (((List.range n).map (fun (k : ℕ) => s + 1 + (k : ℤ))).map Label.stamp) l (s + ((0 : ℕ) : ℤ)) ((b + 1 : ℕ) : ℤ) =
            entriesFrom (((List.range n).map (fun (k : ℕ) => s + 1 + (k : ℤ))).map Label.stamp) l (s + 1 + ((0 : ℕ) : ℤ)) (b : ℤ) := by
          apply entriesFrom_congr
          intro t ht
          have := hge t ht
          push_cast
          constructor <;> intro h <;> omega
        rw [hc, this]
        unfold present
        rw [List.filterMap_cons]
        cases x <;> rfl

/-- **C62.** The hourly file has one row per hour of the year, with the mean, the maximum and the minimum of the 60 values of the hour. -/
theorem C62_hours (y : ℕ) (outs : List (List Profile)) (h12 : outs.length = 12)
    (hdays : ∀ i o, outs[i]? = some o → o.length = daysInMonth y (i + 1)) (hours : Frame) (h : hourlyFrame (yearMinutes y outs) = .ok hours) :
    ∃ values means maxima minima, (yearMinutes y outs).columns = [("0", values)] ∧
      hours.index = (List.range (24 * yearDays y)).map (fun (k : ℕ) => Label.stamp (1440 * dateOrd y 1 1 + (k : ℤ) * 60)) ∧
      hours.columns = [("mean", means), ("max", maxima), ("min", minima)] ∧
      means.length = 24 * yearDays y ∧ maxima.length = 24 * yearDays y ∧ minima.length = 24 * yearDays y ∧
      ∀ k : ℕ, k < 24 * yearDays y → (hourValues values k).length = 60 ∧
        (∀ x, means[k]? = some x → IsAggregate .mean (hourValues values k) x) ∧
        (∀ x, maxima[k]? = some x → IsAggregate .max (hourValues values k) x) ∧
        (∀ x, minima[k]? = some x → IsAggregate .min (hourValues values k) x) := by
  have hlen : (outs.flatMap profileSeries).length = 1440 * yearDays y := by
    rw [months_length h12 hdays, yearLength]
    rfl
  have hypos : 1 ≤ yearDays y := by unfold yearDays; split_ifs <;> norm_num
  have hcol : ∀ rule name c, hourlyColumn (yearMinutes y outs) rule name = .ok c → ∃ l', c = ((List.range (24 * yearDays y)).map (fun (k : ℕ) => Label.stamp (1440 * dateOrd y 1 1 + (k : ℤ) * 60)), name, l') ∧
      l'.length = 24 * yearDays y ∧ ∀ (k : ℕ) x, l'[k]? = some x → IsAggregate rule (hourValues ((outs.flatMap profileSeries).map some) k) x := by
    intro rule name c hc
    unfold hourlyColumn at hc
    cases hg : pandasResample (yearMinutes y outs) 60 rule with
    | error e => rw [hg] at hc; cases hc
    | ok g =>
      rw [hg] at hc
      have hg' : resampleFrame (yearMinutes y outs) 60 rule 1 = .ok g := by
        unfold resampleFrame
        rw [divide_one, hg]
      have hne : (yearMinutes y outs).index ≠ [] := by
        intro h0
        have := congrArg List.length h0
        unfold yearMinutes at this
        rw [List.length_map, List.length_range] at this
        simp at this
        omega
      have hmem : ∀ t, Label.stamp t ∈ (yearMinutes y outs).index ↔ 1440 * dateOrd y 1 1 ≤ t ∧ t < 1440 * dateOrd y 1 1 + 1440 * (yearDays y : ℤ) := by
        intro t
        unfold yearMinutes
        simp only [List.mem_map, List.mem_range, Label.stamp.injEq]
        constructor
        · rintro ⟨k, hk, rfl⟩
          omega
        · rintro ⟨h1, h2⟩
          exact ⟨(t - 1440 * dateOrd y 1 1).toNat, by omega, by omega⟩
      obtain ⟨first, n, g1, ⟨day, g2, t, g3, g4, g5, g6, g7, g8⟩, ⟨t', g9, g10, g11⟩, -, g12⟩ := C67_bins _ g 60 rule 1 (by norm_num) hne hg'
      rw [hmem] at g3 g9
      have ht : t = 1440 * dateOrd y 1 1 := le_antisymm (g6 _ ((hmem _).2 ⟨le_rfl, by omega⟩)) g3.1
      have hday : day = dateOrd y 1 1 := by omega
      have hfirst : first = 1440 * dateOrd y 1 1 := by omega
      -- the last minute is in the last hour
      have hlast : (n : ℤ) = 24 * (yearDays y : ℤ) := by
        obtain ⟨-, g13⟩ := (⟨trivial, C67_bins _ g 60 rule 1 (by norm_num) hne hg'⟩ : True ∧ _)
        obtain ⟨first', n', e1, ⟨day', e2, s, e3, e4, e5, e6, e7, e8⟩, -, e9, -⟩ := g13
        have hn' : n' = n := by
          have := congrArg List.length (e1.symm.trans g1)
          simpa using this
        subst hn'
        rw [hmem] at e3
        have hs : s = 1440 * dateOrd y 1 1 := le_antisymm (e6 _ ((hmem _).2 ⟨le_rfl, by omega⟩)) e3.1
        have hf' : first' = 1440 * dateOrd y 1 1 := by omega
        obtain ⟨u, hu, k, ⟨hk1, hk2, hk3⟩, -⟩ := e9 (Label.stamp (1440 * dateOrd y 1 1 + 1440 * (yearDays y : ℤ) - 1)) ((hmem _).2 ⟨by omega, by omega⟩)
        cases hu
        omega
      have hn : n = 24 * yearDays y := by omega
      subst hn hfirst
      obtain ⟨l', e1, e2, e3⟩ := g12 "0" ((outs.flatMap profileSeries).map some) rfl
      obtain ⟨rest, hcols⟩ : ∃ rest, g.columns = ("0", l') :: rest := by
        unfold pandasResample at hg
        split at hg
        · cases hg
        · split at hg
          · cases hg
            simp only [yearMinutes, List.map_cons, List.lookup_cons, beq_self_eq_true, Option.some.injEq] at e1
            refine ⟨[], ?_⟩
            simp only [yearMinutes, List.map_cons, List.map_nil]
            rw [← e1]
          · cases hg
            simp only [yearMinutes, List.lookup_cons, beq_self_eq_true, Option.some.injEq] at e1
            refine ⟨[], ?_⟩
            simp only [yearMinutes]
            rw [← e1]
      simp only [hcols, Except.ok.injEq] at hc
      refine ⟨l', by rw [← hc, g1], e2, ?_⟩
      intro k x hx
      have := e3 k x hx
      have hmap : ∀ l : List ℚ, l.map (fun v => v / 1) = l := by intro l; simp
      rw [hmap] at this
      have he := entries_of_range (1440 * yearDays y) (1440 * dateOrd y 1 1) ((outs.flatMap profileSeries).map some) (60 * k) 60 (by rw [List.length_map, hlen])
      have harg : (1440 * dateOrd y 1 1 + ((60 * k : ℕ) : ℤ)) = 1440 * dateOrd y 1 1 + (k : ℤ) * 60 := by push_cast; ring
      rw [harg] at he
      have he' : entriesFrom (yearMinutes y outs).index ((outs.flatMap profileSeries).map some) (1440 * dateOrd y 1 1 + (k : ℤ) * 60) 60 =
          hourValues ((outs.flatMap profileSeries).map some) k := by
        rw [List.map_map] at he
        exact he
      rw [← he']
      exact this
  unfold hourlyFrame at h
  cases hm : hourlyColumn (yearMinutes y outs) .mean "mean" with
  | error e => rw [hm] at h; cases h
  | ok c1 =>
    cases hx : hourlyColumn (yearMinutes y outs) .max "max" with
    | error e => rw [hm, hx] at h; cases h
    | ok c2 =>
      cases hn : hourlyColumn (yearMinutes y outs) .min "min" with
      | error e => rw [hm, hx, hn] at h; cases h
      | ok c3 =>
        rw [hm, hx, hn] at h
        cases h
        obtain ⟨l1, rfl, p1, q1⟩ := hcol _ _ _ hm
        obtain ⟨l2, rfl, p2, q2⟩ := hcol _ _ _ hx
        obtain ⟨l3, rfl, p3, q3⟩ := hcol _ _ _ hn
        refine ⟨_, l1, l2, l3, rfl, rfl, rfl, p1, p2, p3, fun k hk => ⟨?_, q1 k, q2 k, q3 k⟩⟩
        unfold hourValues
        rw [← List.map_drop, ← List.map_take, present_map_some, List.length_take, List.length_drop, hlen]
        omega

end Ramp
