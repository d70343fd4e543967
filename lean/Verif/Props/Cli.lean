import Verif.Lemmas.CliFin
import Verif.Props.Parallel
import Verif.Props.Post

/-! # C59–C64: the command line -/

set_option autoImplicit false

namespace Ramp

/-! ## Runs -/

theorem loadRun_ok {w : World} {f : Text} {uc uc' : UseCase} (h : loadRun w f uc = .ok uc') : ∃ us apps,
    uc' = { uc with users := uc.users ++ us, appliances := apps } := by
  unfold loadRun at h
  cases hs : w.sheet f with
  | none => rw [hs] at h; cases h
  | some t =>
    rw [hs] at h
    simp only at h
    cases hl : loadUseCase w.strict uc t with
    | mk uc1 r1 =>
      rw [hl] at h
      cases r1 with
      | error e => cases h
      | ok u =>
        cases h
        obtain ⟨df, _, hdf⟩ := loadUseCase_ok hl
        unfold loadTable at hdf
        cases hu : loadUsers w.strict df (unique (df.map (fun r => rowGet r "user_name"))) uc with
        | mk uc2 r2 =>
          rw [hu] at hdf
          cases r2 with
          | error e => cases hdf
          | ok u =>
            obtain ⟨us, rfl, _, _⟩ := loadUsers_ok hu
            simp only [Prod.mk.injEq, and_true] at hdf
            exact ⟨us, _, hdf.symm⟩

/-- The use case that is simulated. -/
theorem returns_prepareRun {w : World} {r : RunArgs} {uc : UseCase} : Returns (prepareRun w r) uc ↔
    ∃ ds peak, runDays w.env r = .ok ds ∧ Returns (peakRest (15 / 100) 720 (1439 / 3)) peak ∧
      loadRun w r.fname (readyCase r ds peak) = .ok uc := by
  rw [prepareRun_eq, returns_bind (fin_startRun _ _)]
  constructor
  · rintro ⟨uc0, h1, h2⟩
    unfold startRun at h1
    rw [returns_bind (fin_liftE _)] at h1
    obtain ⟨ds, hds, h1⟩ := h1
    rw [returns_bind (fin_peakRest _ _ _)] at h1
    obtain ⟨peak, hp, h1⟩ := h1
    rw [returns_pure.1 h1] at h2
    exact ⟨ds, peak, returns_liftE.1 hds, hp, returns_liftE.1 h2⟩
  · rintro ⟨ds, peak, hds, hp, h⟩
    refine ⟨readyCase r ds peak, ?_, returns_liftE.2 h⟩
    unfold startRun
    rw [returns_bind (fin_liftE _)]
    refine ⟨ds, returns_liftE.2 hds, ?_⟩
    rw [returns_bind (fin_peakRest _ _ _)]
    exact ⟨peak, hp, returns_pure.2 rfl⟩

/-- The fields of the use case that is simulated. -/
theorem prepareRun_fields {w : World} {r : RunArgs} {uc : UseCase} (h : Returns (prepareRun w r) uc) : ∃ ds peak,
    runDays w.env r = .ok ds ∧ Ready uc ds peak ∧ uc.parallel = r.parallel ∧ Returns (peakRest (15 / 100) 720 (1439 / 3)) peak := by
  obtain ⟨ds, peak, hds, hp, hl⟩ := returns_prepareRun.1 h
  obtain ⟨us, apps, rfl⟩ := loadRun_ok hl
  obtain ⟨l, hr⟩ := readyCase_eq r ds peak (runDays_ne hds)
  refine ⟨ds, peak, hds, ?_, ?_, hp⟩
  · rw [hr]
    exact ⟨rfl, rfl, rfl⟩
  · rw [hr]
    rfl

theorem parallelRows_length {results : List (ℕ × Profile)} : ∀ {n k : ℕ} {rows : List Profile}, parallelRows results k n = .ok rows → rows.length = n
  | 0, k, rows, h => by cases h; rfl
  | n + 1, k, rows, h => by
    unfold parallelRows at h
    split at h
    · cases h
    · cases hr : parallelRows results (k + 1) n with
      | error e => rw [hr] at h; cases h
      | ok rest =>
        rw [hr] at h
        cases h
        simp [parallelRows_length hr]

theorem simulateRun_length {w : World} {wk : Workers} {uc : UseCase} {ds peak : List ℤ} {rows : List Profile} (hr : Ready uc ds peak)
    (h : Returns (simulateRun w wk uc) rows) : rows.length = ds.length := by
  unfold simulateRun at h
  split at h
  · have h := returns_liftE.1 h
    unfold generateParallel at h
    rw [hr.days, hr.numDays, hr.peak] at h
    simp only at h
    split at h
    · cases h
    · rw [if_neg (by omega), Int.toNat_natCast] at h
      exact parallelRows_length h
  · obtain ⟨⟨uc', rows'⟩, h1, h2⟩ := returns_of_bind h
    rw [returns_pure.1 h2]
    exact ((C45_superposition none hr rows').1 ⟨uc', h1⟩).1

theorem returns_run {w : World} {wk : Workers} {r : RunArgs} {rows : List Profile} (h : Returns (runUseCase w wk r) (some rows)) :
    endsWith ".xlsx".toList r.fname = true ∧ ∃ uc, Returns (prepareRun w r) uc ∧ Returns (simulateRun w wk uc) rows := by
  unfold runUseCase at h
  split at h
  · rename_i hx
    obtain ⟨uc, h1, h2⟩ := returns_of_bind h
    obtain ⟨rows', h3, h4⟩ := returns_of_bind h2
    have := returns_pure.1 h4
    cases this
    exact ⟨hx, uc, h1, h3⟩
  · split at h
    · split at h
      · have := returns_pure.1 h; cases this
      · exact absurd h returns_raise
    · exact absurd h returns_raise

/-! ## C63: the number of days -/

/-- The first simulated day when `n` days are asked for: the start date, or `n` days are simulated up to the end date, or from today on. -/
def firstSimulated (today : ℤ) (dateStart dateEnd : Option ℤ) (n : ℤ) : ℤ := match dateStart, dateEnd with
  | some s, _ => s
  | none, some e => e - 1440 * (n - 1)
  | none, none => today

/-- **C63, partial.** Unless both dates are given, `run_usecase(num_days=n)` simulates `n` days: from the start date on, up to the end
date, or from today on.  Missing: runs with both dates (`C63_both_dates_partial`). -/
theorem C63_n_days_partial (w : World) (wk : Workers) (r : RunArgs) (n : ℤ) (rows : List Profile) (hd : r.dateStart = none ∨ r.dateEnd = none)
    (hn : r.numDays = some n) (h : Returns (runUseCase w wk r) (some rows)) : (rows.length : ℤ) = n ∧
    ∃ uc, Returns (prepareRun w r) uc ∧ Returns (simulateRun w wk uc) rows ∧
      uc.days = some (daysFrom (firstSimulated w.env.today r.dateStart r.dateEnd n) n.toNat) := by
  obtain ⟨_, uc, h1, h2⟩ := returns_run h
  obtain ⟨ds, peak, hds, hr, _, _⟩ := prepareRun_fields h1
  have hlen := simulateRun_length hr h2
  have hds' : ds = daysFrom (firstSimulated w.env.today r.dateStart r.dateEnd n) n.toNat ∧ 1 ≤ n := by
    unfold runDays at hds
    split at hds
    · rename_i e1 e2
      rw [e1, e2] at hd
      rcases hd with hd | hd <;> cases hd
    · rw [hn] at hds
      rw [show (some n).or w.env.input = some n from rfl] at hds
      simp only at hds
      split_ifs at hds
      cases hds
      refine ⟨?_, by omega⟩
      unfold firstSimulated firstOf
      rfl
  obtain ⟨rfl, hn1⟩ := hds'
  rw [daysFrom_length] at hlen
  exact ⟨by omega, uc, h1, h2, hr.days⟩

/-- **C63 is false with both dates.** Then the number of days is ignored: every day from the start to the end is simulated, whatever `-n`
says. -/
theorem C63_both_dates_partial (w : World) (wk : Workers) (r : RunArgs) (s e : ℤ) (rows : List Profile) (hs : r.dateStart = some s)
    (he : r.dateEnd = some e) (h : Returns (runUseCase w wk r) (some rows)) : s ≤ e ∧ (rows.length : ℤ) = (e - s) / 1440 + 1 := by
  obtain ⟨_, uc, h1, h2⟩ := returns_run h
  obtain ⟨ds, peak, hds, hr, _, _⟩ := prepareRun_fields h1
  have hlen := simulateRun_length hr h2
  unfold runDays at hds
  rw [hs, he] at hds
  simp only at hds
  split_ifs at hds
  cases hds
  rw [daysFrom_length] at hlen
  omega

/-- A sheet with one lamp that is on all the time in its window. -/
def lampSheet (power : ℚ) (a b : ℚ) : Table :=
  [[("user_name", .text "a"), ("num_users", .num 1), ("user_preference", .num 0), ("name", .text "lamp"), ("power", .num power),
    ("num_windows", .num 1), ("func_time", .num 60), ("flat", .text "yes"), ("window_1_start", .num a), ("window_1_end", .num b)]]

/-- A computer with the spreadsheets `1.xlsx` and `2.xlsx` in any folder. -/
def lampWorld : World where
  env := ⟨7200, none⟩
  stream := fun _ => constantDraws 0
  depth := 1000
  strict := true
  base := "/ramp".toList
  current := "/home".toList
  isDir := fun t => !t.contains '.'
  listDir := fun _ => ["2.xlsx".toList, "1.xlsx".toList]
  pathExists := fun t => t.contains '.'
  sheet := fun t => if endsWith "1.xlsx".toList t then some (lampSheet 5 100 200) else if endsWith "2.xlsx".toList t then some (lampSheet 9 100 200) else none

/-- Workers that are not used. -/
def noWorkers : Workers := ⟨fun _ => constantDraws 0, []⟩

/-- The run of a spreadsheet, written without the peak of the empty use case. -/
def plainRun (w : World) (wk : Workers) (r : RunArgs) : Sim (List Profile) :=
  (startRun w.env r >>= fun uc => liftE (loadRun w r.fname uc)) >>= simulateRun w wk

theorem run_eq (w : World) (wk : Workers) (r : RunArgs) (hx : endsWith ".xlsx".toList r.fname = true) :
    runUseCase w wk r = plainRun w wk r >>= fun rows => pure (some rows) := by
  unfold runUseCase plainRun
  rw [if_pos hx, prepareRun_eq]
  exact (sim_bind_assoc _ _ _).symm

/-- What a run returns, in a form that the kernel can evaluate. -/
def valueOf {α : Type} (m : Sim α) (rng : Rng) : Option α := match m rng with
  | .ok (a, _) => some a
  | .error _ => none

theorem valueOf_map {α β : Type} {m : Sim α} {rng : Rng} {g : α → β} {b : β} (h : (valueOf m rng).map g = some b) : ∃ a, Returns m a ∧ g a = b := by
  unfold valueOf at h
  cases hm : m rng with
  | error e => rw [hm] at h; cases h
  | ok p =>
    obtain ⟨a, rng'⟩ := p
    rw [hm] at h
    exact ⟨a, ⟨rng, rng', hm⟩, by simpa using h⟩

theorem returns_runUseCase {w : World} {wk : Workers} {r : RunArgs} {rows : List Profile} (hx : endsWith ".xlsx".toList r.fname = true)
    (h : Returns (plainRun w wk r) rows) : Returns (runUseCase w wk r) (some rows) := by
  rw [run_eq w wk r hx]
  obtain ⟨rng, rng', h⟩ := h
  exact ⟨rng, rng', bind_ok h⟩

/-- Non-vacuity of C63_n_days_partial: two days from today on. -/
example : ∃ rows, Returns (runUseCase lampWorld noWorkers { fname := "1.xlsx".toList, numDays := some 2 }) (some rows) ∧ rows.length = 2 := by
  obtain ⟨rows, h1, h2⟩ := valueOf_map (m := plainRun lampWorld noWorkers { fname := "1.xlsx".toList, numDays := some 2 }) (rng := constantDraws 0)
    (g := fun rows => rows.map (fun p => (p 99, p 150))) (b := [(0, 5), (0, 5)]) (by decide +kernel)
  exact ⟨rows, returns_runUseCase (by decide) h1, by simpa using congrArg List.length h2⟩

/-- **C63 is false.** Five days are asked for and three are simulated. -/
theorem C63_ignored_partial : ∃ r : RunArgs, r.numDays = some 5 ∧ (∃ rows, Returns (runUseCase lampWorld noWorkers r) (some rows)) ∧
    ∀ w wk rows, Returns (runUseCase w wk r) (some rows) → rows.length = 3 := by
  refine ⟨{ fname := "1.xlsx".toList, numDays := some 5, dateStart := some 0, dateEnd := some 2880 }, rfl, ?_, ?_⟩
  · obtain ⟨rows, h1, h2⟩ := valueOf_map (m := plainRun lampWorld noWorkers { fname := "1.xlsx".toList, numDays := some 5, dateStart := some 0, dateEnd := some 2880 })
      (rng := constantDraws 0) (g := fun rows => rows.map (fun p => (p 99, p 150))) (b := [(0, 5), (0, 5), (0, 5)]) (by decide +kernel)
    exact ⟨rows, returns_runUseCase (by decide) h1⟩
  · intro w wk rows h
    have := (C63_both_dates_partial w wk _ 0 2880 rows rfl rfl h).2
    omega

/-! ## C64: the peak time range -/

/-- **C64 is false: the draws alone decide.** The peak time range of a run of the command line does not depend on the file: its centre is
minute 720 (noon) plus the first normal deviate times a third of a day, its half-length 15 % of the centre times the second deviate. -/
theorem C64_draws_partial (w : World) (r : RunArgs) (rng rng' : Rng) (uc : UseCase) (h : prepareRun w r rng = .ok (uc, rng')) :
    ∃ c e : ℤ, c = pyRound (720 + (rng 0).z * (1439 / 3)) ∧ e = max (pyRound |(rng 1).z * (15 / 100 * c)|) 1 ∧
      uc.peakTimeRange = some (minutesFrom (c - e) (2 * e).toNat) := by
  rw [prepareRun_eq] at h
  unfold startRun at h
  rw [sim_bind_assoc] at h
  cases hds : runDays w.env r with
  | error e => rw [hds, sim_liftE_error_bind] at h; cases h
  | ok ds =>
    rw [hds, sim_liftE_ok_bind, sim_bind_assoc] at h
    have hp : peakRest (15 / 100) 720 (1439 / 3) rng = .ok (arange (pyRound (720 + (rng 0).z * (1439 / 3)) -
        max (pyRound |((pyRound (720 + (rng 0).z * (1439 / 3)) : ℤ) : ℚ) - ((pyRound (720 + (rng 0).z * (1439 / 3)) : ℤ) +
          (rng 1).z * (15 / 100 * (pyRound (720 + (rng 0).z * (1439 / 3)) : ℤ)))|) 1) (pyRound (720 + (rng 0).z * (1439 / 3)) +
        max (pyRound |((pyRound (720 + (rng 0).z * (1439 / 3)) : ℤ) : ℚ) - ((pyRound (720 + (rng 0).z * (1439 / 3)) : ℤ) +
          (rng 1).z * (15 / 100 * (pyRound (720 + (rng 0).z * (1439 / 3)) : ℤ)))|) 1), fun n => rng (n + 2)) := rfl
    rw [bind_ok hp, sim_pure_bind] at h
    generalize pyRound (720 + (rng 0).z * (1439 / 3)) = c at h
    have habs : |((c : ℤ) : ℚ) - ((c : ℚ) + (rng 1).z * (15 / 100 * (c : ℚ)))| = |(rng 1).z * (15 / 100 * c)| := by
      rw [sub_add_cancel_left, abs_neg]
    rw [habs] at h
    refine ⟨c, _, rfl, rfl, ?_⟩
    have he : 1 ≤ max (pyRound |(rng 1).z * (15 / 100 * (c : ℚ))|) 1 := le_max_right _ _
    generalize max (pyRound |(rng 1).z * (15 / 100 * (c : ℚ))|) 1 = e at h he
    cases hl : loadRun w r.fname (readyCase r ds (arange (c - e) (c + e))) with
    | error e => rw [hl] at h; cases h
    | ok uc1 =>
      rw [hl] at h
      cases h
      obtain ⟨us, apps, rfl⟩ := loadRun_ok hl
      obtain ⟨l, hr⟩ := readyCase_eq r ds (arange (c - e) (c + e)) (runDays_ne hds)
      simp only [hr]
      rw [arange_sym c e he]

/-- **C64 is false: the same for every file.** With the same outcomes of the random module two files are simulated with the same peak time
range, whatever the users. -/
theorem C64_same_for_all_files_partial (w w' : World) (r r' : RunArgs) (rng rng1 rng2 : Rng) (uc uc' : UseCase)
    (h : prepareRun w r rng = .ok (uc, rng1)) (h' : prepareRun w' r' rng = .ok (uc', rng2)) : uc.peakTimeRange = uc'.peakTimeRange := by
  obtain ⟨c, e, rfl, rfl, h1⟩ := C64_draws_partial w r rng rng1 uc h
  obtain ⟨c', e', rfl, rfl, h2⟩ := C64_draws_partial w' r' rng rng2 uc' h'
  rw [h1, h2]

/-- A test of `2 ^ n` numbers from `k` on, by halves (the kernel cannot go through a list of 1440). -/
def testFrom (p : ℕ → Bool) : ℕ → ℕ → Bool
  | 0, k => p k
  | n + 1, k => testFrom p n k && testFrom p n (k + 2 ^ n)

theorem testFrom_iff {p : ℕ → Bool} : ∀ {n k : ℕ}, testFrom p n k = true → ∀ i, k ≤ i → i < k + 2 ^ n → p i = true
  | 0, k, h, i, h1, h2 => by
    have : i = k := by simp at h2; omega
    rw [this]
    exact h
  | n + 1, k, h, i, h1, h2 => by
    unfold testFrom at h
    rw [Bool.and_eq_true] at h
    rw [pow_succ] at h2
    by_cases hi : i < k + 2 ^ n
    · exact testFrom_iff h.1 i h1 hi
    · exact testFrom_iff h.2 i (by omega) (by omega)

/-- Outside of the minutes 100 to 199 the maximum load is lower than at minute 150. -/
def lowOutside (uc : UseCase) : Bool := testFrom (fun i =>
  if h : i < 1440 then (decide (100 ≤ i) && decide (i < 200)) || !decide (maximumLoad uc.users 150 ≤ maximumLoad uc.users ⟨i, h⟩) else true) 11 0

theorem lowOutside_iff {uc : UseCase} (h : lowOutside uc = true) (i : Fin 1440) (hi : IsPeak (maximumLoad uc.users) i) : 100 ≤ i.1 ∧ i.1 < 200 := by
  have := testFrom_iff h i.1 (Nat.zero_le _) (lt_trans i.2 (by norm_num))
  rw [dif_pos i.2, Bool.or_eq_true] at this
  rcases this with this | this
  · simpa using this
  · rw [Bool.not_eq_true', decide_eq_false_iff_not] at this
    exact absurd (hi 150) this

/-- The use case of `1.xlsx` for one day. -/
def lampRun : Sim UseCase := startRun lampWorld.env { fname := "1.xlsx".toList, numDays := some 1 } >>= fun uc => liftE (loadRun lampWorld "1.xlsx".toList uc)

theorem lampRun_eq : prepareRun lampWorld { fname := "1.xlsx".toList, numDays := some 1 } = lampRun := prepareRun_eq _ _

theorem lampRun_value : (valueOf lampRun (constantDraws 0)).map (fun uc => (uc.peakTimeRange, lowOutside uc)) = some (some [719, 720], true) := by
  decide +kernel

theorem valueOf_run {α β : Type} {m : Sim α} {rng : Rng} {g : α → β} {b : β} (h : (valueOf m rng).map g = some b) :
    ∃ a rng', m rng = .ok (a, rng') ∧ g a = b := by
  unfold valueOf at h
  cases hm : m rng with
  | error e => rw [hm] at h; cases h
  | ok p =>
    obtain ⟨a, rng'⟩ := p
    rw [hm] at h
    exact ⟨a, rng', rfl, by simpa using h⟩

/-- **C64 is false.** The users of the file have their peak between minutes 100 and 200, and with the most likely outcomes of the random
module the peak time range is `[719, 720]`. -/
theorem C64_at_noon_partial : ∃ uc rng, prepareRun lampWorld { fname := "1.xlsx".toList, numDays := some 1 } (constantDraws 0) = .ok (uc, rng) ∧
    uc.peakTimeRange = some [719, 720] ∧ ∀ i, IsPeak (maximumLoad uc.users) i → 100 ≤ i.1 ∧ i.1 < 200 := by
  obtain ⟨uc, rng, h1, h2⟩ := valueOf_run lampRun_value
  rw [lampRun_eq]
  simp only [Prod.mk.injEq] at h2
  exact ⟨uc, rng, h1, h2.1, lowOutside_iff h2.2⟩

end Ramp
