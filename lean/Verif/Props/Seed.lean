import Verif.Props.Days
import Verif.Props.Parallel

/-! # C50: the random seed

`stream s` is the state of Python's generator after `random.seed(s)`. -/

set_option autoImplicit false

namespace Ramp

/-- **C50 (partial).** A use case created with a seed other than 0 and without both dates: whatever is done with it afterwards, the
outcome does not depend on the random numbers drawn before (`rng` and `rng'` are two states of the generator before the
constructor is called).  Missing: seed 0 and both dates given, for which the statement is false. -/
theorem C50_reproducible_partial {α : Type} (env : Env) (stream : ℤ → Rng) (args : UseCaseArgs) {s : ℤ} (hs : args.randomSeed = some s) (h0 : s ≠ 0)
    (hd : ¬ (args.dateStart.isSome ∧ args.dateEnd.isSome)) (program : UseCase → Sim α) (rng rng' : Rng) :
    (do let uc ← mkUseCase env stream args; program uc) rng = (do let uc ← mkUseCase env stream args; program uc) rng' := by
  have key : mkUseCase env stream args rng = mkUseCase env stream args rng' := by
    unfold mkUseCase
    simp only
    have hf : ∀ uc : UseCase, addUsers { name := args.name, dateStart := args.dateStart, dateEnd := args.dateEnd, parallel := args.parallel, peakEnlarge := args.peakEnlarge } args.users
        = (uc, .ok ()) → ¬ ((collectAppliances uc).dateStart.isSome = true ∧ (collectAppliances uc).dateEnd.isSome = true) := by
      intro uc h
      have := addUser_fields_aux.2 args.users { name := args.name, dateStart := args.dateStart, dateEnd := args.dateEnd, parallel := args.parallel, peakEnlarge := args.peakEnlarge }
      rw [h] at this
      simp only at this
      rw [this]
      exact hd
    cases ha : addUsers { name := args.name, dateStart := args.dateStart, dateEnd := args.dateEnd, parallel := args.parallel, peakEnlarge := args.peakEnlarge } args.users with
    | mk uc r =>
      cases r with
      | error e => rfl
      | ok _ =>
        simp only [if_neg (hf uc ha)]
        rw [hs]
        simp only [if_neg h0]
  show (mkUseCase env stream args >>= program) rng = (mkUseCase env stream args >>= program) rng'
  cases h : mkUseCase env stream args rng with
  | error e => rw [bind_error h, bind_error (key ▸ h)]
  | ok p => rw [bind_ok h, bind_ok (key ▸ h)]

theorem initIndex_peak (uc : UseCase) (a b : List ℤ) : initIndex { uc with peakTimeRange := some b } =
    { initIndex { uc with peakTimeRange := some a } with peakTimeRange := (initIndex { uc with peakTimeRange := some b }).peakTimeRange } := by
  obtain ⟨n, s, e, p, pe, pr, d, nd, di, us, ap⟩ := uc
  rcases d with _ | _ | ⟨x, l⟩ <;> rfl

/-- **C50 (partial).** With both dates and a seed other than 0 the generator continues from the seed, and the two use cases differ at most in
their peak time range (computed in the constructor before the generator is seeded). -/
theorem C50_with_dates_partial (env : Env) (stream : ℤ → Rng) (args : UseCaseArgs) {s : ℤ} (hs : args.randomSeed = some s) (h0 : s ≠ 0)
    {rng rng' r r' : Rng} {uc uc' : UseCase} (h : mkUseCase env stream args rng = .ok (uc, r)) (h' : mkUseCase env stream args rng' = .ok (uc', r')) :
    r = stream s ∧ r' = stream s ∧ uc' = { uc with peakTimeRange := uc'.peakTimeRange } := by
  unfold mkUseCase at h h'
  simp only at h h'
  cases ha : addUsers { name := args.name, dateStart := args.dateStart, dateEnd := args.dateEnd, parallel := args.parallel, peakEnlarge := args.peakEnlarge } args.users with
  | mk ucx res =>
    rw [ha] at h h'
    cases res with
    | error e => cases h
    | ok _ =>
      simp only at h h'
      have hnotinit : (collectAppliances ucx).isInitialized = false := by
        have := addUser_fields_aux.2 args.users { name := args.name, dateStart := args.dateStart, dateEnd := args.dateEnd, parallel := args.parallel, peakEnlarge := args.peakEnlarge }
        rw [ha] at this
        simp only at this
        rw [this]
        rfl
      split_ifs at h with hd
      · rw [if_pos hd] at h'
        have step : ∀ (rng r : Rng) (uc : UseCase), (match initUseCase env (collectAppliances ucx) {} rng with
              | .error e => (.error e : Except Err (UseCase × Rng))
              | .ok ((_, .error e), _) => .error e
              | .ok ((uc, .ok ()), rng) => match args.randomSeed with
                | none => .ok (uc, rng)
                | some s => if s = 0 then .ok (uc, rng) else .ok (uc, stream s)) = .ok (uc, r) →
            r = stream s ∧ ∃ uc1 pr, initCalendar env (collectAppliances ucx) {} = (uc1, .ok ()) ∧ uc = initIndex { uc1 with peakTimeRange := some pr } := by
          intro rng r uc hh
          cases hi : initUseCase env (collectAppliances ucx) {} rng with
          | error e => rw [hi] at hh; cases hh
          | ok p =>
            obtain ⟨⟨uc2, res2⟩, r2⟩ := p
            rw [hi] at hh
            cases res2 with
            | error e => cases hh
            | ok _ =>
              simp only [hs, if_neg h0] at hh
              cases hh
              refine ⟨rfl, ?_⟩
              have hdone := returns_init_done (by rw [hnotinit]; simp) (⟨_, _, hi⟩ : Returns (initUseCase env (collectAppliances ucx) {}) (uc, .ok ()))
              obtain ⟨uc1, pe, pr, hcal, _, hpe, hfin⟩ := hdone
              have hreset : resetDays (collectAppliances ucx) {} = collectAppliances ucx := by
                unfold resetDays; rw [hnotinit]; simp
              rw [hreset] at hcal
              have hpe : pe = uc1.peakEnlarge := hpe
              subst hpe
              exact ⟨uc1, pr, hcal, hfin⟩
        obtain ⟨e1, uc1, pr, hcal, rfl⟩ := step _ _ _ h
        obtain ⟨e2, uc2, pr2, hcal2, rfl⟩ := step _ _ _ h'
        rw [hcal] at hcal2
        cases hcal2
        refine ⟨e1, e2, ?_⟩
        exact initIndex_peak uc1 pr pr2
      · rw [if_neg hd] at h'
        simp only [hs, if_neg h0] at h h'
        cases h
        cases h'
        exact ⟨rfl, rfl, rfl⟩

/-- **C50 (partial).** Seed 0 counts as no seed at all. -/
theorem C50_seed_zero_ignored_partial (env : Env) (stream : ℤ → Rng) (args : UseCaseArgs) :
    mkUseCase env stream { args with randomSeed := some 0 } = mkUseCase env stream { args with randomSeed := none } := by
  funext rng
  rfl

/-! ## The full statement is false -/

/-- Four 40 W appliances, used one minute a day at any time. -/
def fourArgs : AddArgs := { app := { power := .series [40], number := 4, funcTime := 1 }, windows := some { window1 := some (0, 1440) } }

/-- The arguments of the constructor: one user with the appliance, one day given by both dates, a seed. -/
def fourCase (app : Appliance) (s : ℤ) : UseCaseArgs :=
  { users := [.user { appList := [app] }], dateStart := some 0, dateEnd := some 0, randomSeed := some s }

/-- The program: create the use case and simulate it.  Minute `m` of every day. -/
def createAndSimulate (stream : ℤ → Rng) (app : Appliance) (s : ℤ) : Sim (UseCase × List Profile) := do
  let uc ← mkUseCase ⟨0, none⟩ stream (fourCase app s)
  generateDaily ⟨0, none⟩ 1000 uc none

/-- The use case before and after `initialize`. -/
def fourBefore (app : Appliance) : UseCase := { users := oneUser app, dateStart := some 0, dateEnd := some 0, appliances := [(0, app.oid)] }

def fourReady (app : Appliance) (r : List ℤ) : UseCase :=
  { fourBefore app with days := some [0], numDays := some 1, peakTimeRange := some r, datetimeindex := some (minuteRange 0 1439) }

theorem four_checked {app : Appliance} (hp : app.power = [40]) : initCalendar ⟨0, none⟩ (fourBefore app) {} =
    ({ fourBefore app with days := some [0], numDays := some 1 }, .ok ()) := by
  have h1 : initInput ⟨0, none⟩ (initDates (initNumDays (fourBefore app) none)) = ({ fourBefore app with days := some [0], numDays := some 1 }, .ok ()) := rfl
  unfold initCalendar
  rw [h1]
  have h2 : initDays ⟨0, none⟩ { fourBefore app with days := some [0], numDays := some 1 } = ({ fourBefore app with days := some [0], numDays := some 1 }, .ok ()) := rfl
  simp only [h2]
  show checkPowers 1 [(0, app.oid)] _ = _
  have h3 : checkPowerValues app 1 = .ok app := by
    unfold checkPowerValues
    rw [hp]
    simp
  unfold checkPowers
  rw [show UseCase.findApp { fourBefore app with days := some [0], numDays := some 1 } (0, app.oid) = some app by
    simp [UseCase.findApp, fourBefore, oneUser]]
  simp only [h3]
  unfold checkPowers
  simp [UseCase.updateApp, fourBefore, oneUser, User.sync]

theorem four_created {app : Appliance} (hp : app.power = [40]) (stream : ℤ → Rng) (s : ℤ) {rng rng' : Rng} {r : List ℤ}
    (h : peakTimeRangeOf (oneUser app) (15 / 100) rng = .ok (r, rng')) :
    mkUseCase ⟨0, none⟩ stream (fourCase app s) rng = .ok (fourReady app r, if s = 0 then rng' else stream s) := by
  have hinit : initUseCase ⟨0, none⟩ (fourBefore app) {} rng = .ok ((fourReady app r, .ok ()), rng') := by
    unfold initUseCase
    rw [if_neg (by simp [UseCase.isInitialized, fourBefore])]
    have hreset : (if (fourBefore app).isInitialized = true ∧ ({} : InitArgs).force = true then { fourBefore app with days := none } else fourBefore app) = fourBefore app := by
      rw [if_neg (by simp [UseCase.isInitialized, fourBefore])]
    simp only [hreset, four_checked hp]
    rw [bind_ok (show attempt (peakTimeRangeOf (fourBefore app).users (fourBefore app).peakEnlarge) rng = .ok (.ok r, rng') by
      unfold attempt
      rw [show peakTimeRangeOf (fourBefore app).users (fourBefore app).peakEnlarge rng = .ok (r, rng') from h])]
    rfl
  have hadd : addUsers ({ dateStart := some 0, dateEnd := some 0 } : UseCase) [.user { appList := [app] }] =
      ({ users := oneUser app, dateStart := some 0, dateEnd := some 0 }, .ok ()) := by
    unfold addUsers addUser addUsers
    rfl
  have hcoll : collectAppliances { users := oneUser app, dateStart := some 0, dateEnd := some 0 } = fourBefore app := by
    simp [collectAppliances, fourBefore, oneUser]
  unfold mkUseCase
  simp only [fourCase]
  rw [hadd]
  simp only [hcoll]
  rw [if_pos ⟨rfl, rfl⟩, hinit]
  simp only
  split_ifs <;> rfl

/-- What a simulation gives at the first two minutes. -/
def firstMinutes (m : Sim (UseCase × List Profile)) (r : Rng) : Option (List (ℚ × ℚ)) := match m r with
  | .ok ((_, rows), _) => some (rows.map (fun p => (p 0, p 1)))
  | .error _ => none

theorem four_built : ∃ app, BuiltAs fourArgs app ∧ app.power = [40] ∧ (¬ ∃! i, IsPeak (maximumLoad (oneUser app)) i) ∧
    firstMinutes (generateDaily ⟨0, none⟩ 1000 (fourReady app [719, 720]) none) (constantDraws 0) = some [(40, 1 / 1000)] ∧
    firstMinutes (generateDaily ⟨0, none⟩ 1000 (fourReady app [-1, 0]) none) (constantDraws 0) = some [(80, 1 / 1000)] ∧
    firstMinutes (generateDaily ⟨0, none⟩ 1000 (fourReady app [719, 720]) none) (fun _ => ⟨0, le_rfl, by norm_num, 1, 0⟩) = some [(1 / 1000, 40)] := by
  cases hb : builtBy fourArgs with
  | none => exact absurd hb (by decide +kernel)
  | some app =>
    have hp : (builtBy fourArgs).map (fun a => a.power) = some [40] := by decide +kernel
    have hu : ∀ i : Fin 1440, (builtBy fourArgs).map (fun a => (a.dailyUse i, a.number)) = some (1 / 1000, 4) := by decide +kernel
    have h1 : (builtBy fourArgs).bind (fun a => firstMinutes (generateDaily ⟨0, none⟩ 1000 (fourReady a [719, 720]) none) (constantDraws 0)) = some [(40, 1 / 1000)] := by
      decide +kernel
    have h2 : (builtBy fourArgs).bind (fun a => firstMinutes (generateDaily ⟨0, none⟩ 1000 (fourReady a [-1, 0]) none) (constantDraws 0)) = some [(80, 1 / 1000)] := by
      decide +kernel
    have h3 : (builtBy fourArgs).bind (fun a => firstMinutes (generateDaily ⟨0, none⟩ 1000 (fourReady a [719, 720]) none) (fun _ => ⟨0, le_rfl, by norm_num, 1, 0⟩)) =
        some [(1 / 1000, 40)] := by
      decide +kernel
    rw [hb] at hp h1 h2 h3
    simp only [Option.map_some, Option.some.injEq, Option.bind_some] at hp h1 h2 h3
    have hl : ∀ i, maximumLoad (oneUser app) i = 4 / 25 := by
      intro i
      have := hu i
      rw [hb] at this
      simp only [Option.map_some, Option.some.injEq, Prod.mk.injEq] at this
      rw [maximumLoad_one, this.1, this.2, hp]
      norm_num
    exact ⟨app, builtBy_some hb, hp, peak_of_two 0 1 (by decide) (fun j => by rw [hl, hl]) (fun j => by rw [hl, hl]), h1, h2, h3⟩

theorem firstMinutes_bind {app : Appliance} {stream : ℤ → Rng} {s : ℤ} {rng rng' : Rng} {uc : UseCase}
    (h : mkUseCase ⟨0, none⟩ stream (fourCase app s) rng = .ok (uc, rng')) :
    firstMinutes (createAndSimulate stream app s) rng = firstMinutes (generateDaily ⟨0, none⟩ 1000 uc none) rng' := by
  unfold firstMinutes createAndSimulate
  rw [bind_ok h]

/-- **C50 (partial).** Negation of the full statement for use cases created with both dates: with the same seed 1, 40 W or 80 W at minute
0 depending on what was drawn before the use case was created. -/
theorem C50_dates_before_seed_partial : ∃ app, BuiltAs fourArgs app ∧ ∃ (stream : ℤ → Rng) (rng rng' : Rng),
    firstMinutes (createAndSimulate stream app 1) rng = some [(40, 1 / 1000)] ∧ firstMinutes (createAndSimulate stream app 1) rng' = some [(80, 1 / 1000)] := by
  obtain ⟨app, hb, hp, hu, h1, h2, _⟩ := four_built
  obtain ⟨rng, r1, e1⟩ := (C40_possible_ranges (pe := 15 / 100) hu [719, 720]).2 ⟨720, 1, le_rfl, .inl rfl, rfl⟩
  obtain ⟨rng', r2, e2⟩ := (C40_possible_ranges (pe := 15 / 100) hu [-1, 0]).2 ⟨0, 1, le_rfl, .inl rfl, rfl⟩
  refine ⟨app, hb, fun _ => constantDraws 0, rng, rng', ?_, ?_⟩
  · rw [firstMinutes_bind (four_created hp _ 1 e1), if_neg (by decide)]
    exact h1
  · rw [firstMinutes_bind (four_created hp _ 1 e2), if_neg (by decide)]
    exact h2

theorem fin_peak {us : List User} {pe : ℚ} (hu : ¬ ∃! i, IsPeak (maximumLoad us) i) : Finitary (peakTimeRangeOf us pe) := by
  obtain ⟨mu, sigma, _, heq⟩ := peak_many (us := us) (pe := pe) (by rw [maximumLoad_eq]; exact hu)
  rw [heq]
  exact fin_bind (fin_gauss _ _) fun _ => fin_bind (fin_gauss _ _) fun _ => fin_pure _

/-- **C50 (partial).** Negation of the full statement for seed 0: the appliances run at minute 0 or at minute 1. -/
theorem C50_seed_zero_false_partial : ∃ app, BuiltAs fourArgs app ∧ ∀ (stream : ℤ → Rng), ∃ (rng rng' : Rng),
    firstMinutes (createAndSimulate stream app 0) rng = some [(40, 1 / 1000)] ∧ firstMinutes (createAndSimulate stream app 0) rng' = some [(1 / 1000, 40)] := by
  obtain ⟨app, hb, hp, hu, h1, _, h3⟩ := four_built
  obtain ⟨rng, r1, e1⟩ := (C40_possible_ranges (pe := 15 / 100) hu [719, 720]).2 ⟨720, 1, le_rfl, .inl rfl, rfl⟩
  obtain ⟨n, _, hn⟩ := (fin_peak hu rng).1 _ _ e1
  refine ⟨app, hb, fun stream => ⟨glue n rng (constantDraws 0), glue n rng (fun _ => ⟨0, le_rfl, by norm_num, 1, 0⟩), ?_, ?_⟩⟩
  · rw [firstMinutes_bind (four_created hp _ 0 (hn _ (glue_agree n rng _))), if_pos rfl, dropDraws_glue]
    exact h1
  · rw [firstMinutes_bind (four_created hp _ 0 (hn _ (glue_agree n rng _))), if_pos rfl, dropDraws_glue]
    exact h3

/-- A case for the first theorem: a seed and a start date only. -/
example (rng rng' : Rng) : (do let uc ← mkUseCase ⟨0, some 2⟩ (fun _ => constantDraws 0) { dateStart := some 0, randomSeed := some 7 }; initUseCase ⟨0, some 2⟩ uc {}) rng =
    (do let uc ← mkUseCase ⟨0, some 2⟩ (fun _ => constantDraws 0) { dateStart := some 0, randomSeed := some 7 }; initUseCase ⟨0, some 2⟩ uc {}) rng' :=
  C50_reproducible_partial _ _ _ rfl (by decide) (by simp) _ rng rng'

end Ramp
