import Verif.Model.Cli
import Verif.Props.Calendar
import Verif.Props.Days
import Verif.Props.SaveLoad
import Verif.Props.NotLoadable

/-! # Runs of the command line -/

set_option autoImplicit false

namespace Ramp

variable {α β : Type}

theorem sim_bind_assoc {γ : Type} (m : Sim α) (f : α → Sim β) (g : β → Sim γ) : (m >>= f) >>= g = m >>= fun a => f a >>= g := by
  funext r
  cases h : m r with
  | error e => rw [bind_error (bind_error h), bind_error h]
  | ok p =>
    obtain ⟨a, r1⟩ := p
    rw [bind_ok (f := fun a => f a >>= g) h]
    cases h2 : f a r1 with
    | error e => rw [bind_error (by rw [bind_ok h]; exact h2), bind_error h2]
    | ok q => rw [bind_ok (by rw [bind_ok h]; exact h2), bind_ok h2]

theorem sim_pure_bind (a : α) (f : α → Sim β) : (pure a : Sim α) >>= f = f a := by
  funext r
  rw [bind_ok (show (pure a : Sim α) r = .ok (a, r) from rfl)]

theorem sim_liftE_ok_bind (a : α) (f : α → Sim β) : liftE (.ok a) >>= f = f a := by
  funext r
  rw [bind_ok (show liftE (.ok a) r = .ok (a, r) from rfl)]

theorem sim_liftE_error_bind (e : Err) (f : α → Sim β) : liftE (.error e) >>= f = raise e := by
  funext r
  rw [bind_error (show liftE (.error e : Except Err α) r = .error e from rfl)]
  rfl

/-- The first of `n` days: from the start date on, up to the end date, or from today on. -/
def firstOf (env : Env) (s e : Option ℤ) (n : ℤ) : ℤ := match s, e with
  | some s, _ => s
  | none, some e => e - 1440 * (n - 1)
  | none, none => env.today

/-- The days of a run: with both dates those from the start to the end; otherwise as many as given with `-n`, or typed at the prompt, from
the start on, up to the end, or from today on. -/
def runDays (env : Env) (r : RunArgs) : Except Err (List ℤ) := match r.dateStart, r.dateEnd with
  | some s, some e => if e < s then .error .indexError else .ok (daysFrom s ((e - s) / 1440 + 1).toNat)
  | s, e => match r.numDays.or env.input with
    | none => .error .valueError
    | some n =>
      if n < 0 then .error .valueError
      else if n = 0 then .error .indexError
      else .ok (daysFrom (firstOf env s e n) n.toNat)

/-- The use case of a run before `initialize`. -/
def emptyCase (r : RunArgs) : UseCase := { dateStart := r.dateStart, dateEnd := r.dateEnd, parallel := r.parallel }

/-- The number of days that counts in `initialize`: with both dates the constructor initialises without one. -/
def countedDays (r : RunArgs) : Option ℤ := if r.dateStart.isSome ∧ r.dateEnd.isSome then none else r.numDays

theorem emptyCase_calendar (env : Env) (r : RunArgs) : match runDays env r with
    | .error e => (initCalendar env (emptyCase r) { numDays := countedDays r }).2 = .error e
    | .ok ds => ds ≠ [] ∧ initCalendar env (emptyCase r) { numDays := countedDays r } =
        ({ emptyCase r with days := some ds, numDays := some ds.length }, .ok ()) := by
  obtain ⟨f, o, n, s, e, pl, pa⟩ := r
  have hcons : ∀ (d : ℤ) (n : ℕ), n ≠ 0 → ∃ l, daysFrom d n = d :: l := by
    intro d n hn
    obtain ⟨k, rfl⟩ := Nat.exists_eq_succ_of_ne_zero hn
    exact ⟨_, rfl⟩
  -- a number of days
  have hnum : ∀ (s e : Option ℤ) (n n' : Option ℤ) (_ : ¬ (s.isSome ∧ e.isSome)) (m : ℤ) (_ : n.or env.input = some m)
      (_ : n' = n), match (if m < 0 then .error .valueError else if m = 0 then .error .indexError else .ok (daysFrom (firstOf env s e m) m.toNat) : Except Err (List ℤ)) with
      | .error e' => (initCalendar env { dateStart := s, dateEnd := e, parallel := pa } { numDays := n' }).2 = .error e'
      | .ok ds => ds ≠ [] ∧ initCalendar env { dateStart := s, dateEnd := e, parallel := pa } { numDays := n' } =
        ({ dateStart := s, dateEnd := e, parallel := pa, days := some ds, numDays := some ds.length }, .ok ()) := by
    rintro s e n n' hse m hm rfl
    have hd : initDates (initNumDays { dateStart := s, dateEnd := e, parallel := pa } n') = { dateStart := s, dateEnd := e, parallel := pa, numDays := n' } := by
      unfold initNumDays initDates
      cases n' <;> cases s <;> cases e <;> first | rfl | (exact absurd ⟨rfl, rfl⟩ hse)
    have hi : initInput env { dateStart := s, dateEnd := e, parallel := pa, numDays := n' } =
        ({ dateStart := s, dateEnd := e, parallel := pa, numDays := some m }, .ok ()) := by
      unfold initInput
      cases n' with
      | some k => 
        have hm : some k = some m := hm
        cases hm
        rfl
      | none =>
        simp only [Option.none_or] at hm
        simp only [hm]
    have hch : chooseDays env s e m = if m < 0 then .error .valueError else .ok (daysFrom (firstOf env s e m) m.toNat) := by
      unfold chooseDays
      cases s with
      | some s => exact dateRangeFrom_eq s m
      | none => cases e with
        | some e => exact dateRangeTo_eq e m
        | none => exact dateRangeFrom_eq _ m
    generalize firstOf env s e m = d0 at *
    unfold initCalendar
    rw [show ({ numDays := n' } : InitArgs).numDays = n' from rfl, hd, hi]
    simp only [initDays, Option.getD_some, hch]
    by_cases h1 : m < 0
    · rw [if_pos h1, if_pos h1]
    · rw [if_neg h1, if_neg h1]
      by_cases h2 : m = 0
      · subst h2
        rw [if_pos rfl]
        simp [showDays, daysFrom]
      · rw [if_neg h2]
        obtain ⟨l, hl⟩ := hcons d0 m.toNat (by omega)
        have hlen := daysFrom_length m.toNat d0
        simp only
        refine ⟨by rw [hl]; simp, ?_⟩
        rw [hlen, Int.toNat_of_nonneg (by omega)]
        simp only [showDays, hl, checkPowers]
  cases s with
  | some s =>
    cases e with
    | some e =>
      simp only [runDays, countedDays, emptyCase]
      by_cases h1 : e < s
      · rw [if_pos h1]
        have : ((e - s) / 1440 + 1).toNat = 0 := by omega
        simp [initCalendar, initNumDays, initDates, dateRange_eq, this, daysFrom, initInput, initDays, showDays]
      · rw [if_neg h1]
        have hne : ((e - s) / 1440 + 1).toNat ≠ 0 := by omega
        obtain ⟨l, hl⟩ := hcons s _ hne
        refine ⟨by rw [hl]; simp, ?_⟩
        simp [initCalendar, initNumDays, initDates, dateRange_eq, hl, initInput, initDays, showDays, checkPowers]
    | none =>
      simp only [runDays, countedDays, emptyCase]
      cases hm : n.or env.input with
      | none =>
        simp only
        rw [Option.or_eq_none_iff] at hm
        simp [initCalendar, initNumDays, initDates, initInput, hm]
      | some m => exact hnum (some s) none n _ (by simp) m hm (by simp)
  | none =>
    simp only [runDays, countedDays, emptyCase]
    cases hm : n.or env.input with
    | none =>
      simp only
      rw [Option.or_eq_none_iff] at hm
      simp [initCalendar, initNumDays, initDates, initInput, hm]
    | some m => exact hnum none e n _ (by simp) m hm (by simp)

theorem finRange_sum (n : ℕ) : ((List.finRange n).map (fun (i : Fin n) => ((i : ℕ) : ℤ))) = (List.range n).map (fun (k : ℕ) => (k : ℤ)) := by
  rw [← List.map_coe_finRange_eq_range, List.map_map]
  rfl

/-- Without users every minute is a peak. -/
theorem peakWindow_empty : peakWindow (totalMaximumProfile []) = (List.range 1440).map (fun (k : ℕ) => (k : ℤ)) := by
  unfold peakWindow
  rw [List.filter_eq_self.2, finRange_sum]
  intro i _
  rw [decide_eq_true_eq, eq_profileMax]
  intro j
  exact le_rfl

theorem range_two (n : ℕ) : (List.range (n + 2)).map (fun (k : ℕ) => (k : ℤ)) = 0 :: 1 :: (List.range n).map (fun (k : ℕ) => (k : ℤ) + 2) := by
  simp [List.range_succ_eq_map, Function.comp_def, add_assoc]

theorem range_two_last (n : ℕ) (h : (1 :: (List.range n).map (fun (k : ℕ) => (k : ℤ) + 2) : List ℤ) ≠ []) :
    (1 :: (List.range n).map (fun (k : ℕ) => (k : ℤ) + 2) : List ℤ).getLast h = n + 1 := by
  cases n with
  | zero => rfl
  | succ n =>
    rw [List.getLast_cons (by simp)]
    simp [List.range_succ]
    ring

theorem range_sum_two (n : ℕ) : ((List.range n).map (fun (k : ℕ) => (k : ℤ))).sum * 2 = n * (n - 1) := by
  induction n with
  | zero => rfl
  | succ n ih =>
    rw [List.range_succ, List.map_append, List.sum_append, add_mul, ih]
    simp
    ring

theorem average_range : average ((List.range 1440).map (fun (k : ℕ) => (k : ℤ))) = 1439 / 2 := by
  have h := range_sum_two 1440
  unfold average
  rw [List.length_map, List.length_range]
  generalize ((List.range 1440).map (fun (k : ℕ) => (k : ℤ))).sum = x at h
  have : x = 1036080 := by push_cast at h; omega
  rw [this]
  norm_num

theorem pyRound_noon : pyRound (1439 / 2) = 720 := by decide +kernel

theorem peak_of_window {us : List User} {a b : ℤ} {rest : List ℤ} (pe : ℚ) (h : peakWindow (totalMaximumProfile us) = a :: b :: rest) :
    peakTimeRangeOf us pe = peakRest pe (pyRound (average (a :: b :: rest))) (1 / 3 * (((b :: rest).getLast (by simp) - a : ℤ) : ℚ)) := by
  unfold peakTimeRangeOf
  simp only [h]
  rfl

/-- The peak time range without users: centred at noon, with the deviation of a whole day. -/
theorem peak_empty (pe : ℚ) : peakTimeRangeOf [] pe = peakRest pe 720 (1439 / 3) := by
  have hw := peakWindow_empty
  have ha : pyRound (average ((List.range 1440).map (fun (k : ℕ) => (k : ℤ)))) = 720 := by rw [average_range, pyRound_noon]
  have hc := range_two 1438
  have hl : (1 :: (List.range 1438).map (fun (k : ℕ) => (k : ℤ) + 2) : List ℤ).getLast (by simp) = 1439 := (range_two_last 1438 _).trans (by norm_num)
  rw [show (1438 + 2 : ℕ) = 1440 from rfl] at hc
  rw [hc] at hw ha
  generalize (List.range 1438).map (fun (k : ℕ) => (k : ℤ) + 2) = rest at *
  rw [peak_of_window pe hw, ha, hl]
  norm_num

theorem peakRest_ok (pe mu sigma : ℚ) (rng : Rng) : ∃ p, peakRest pe mu sigma rng = .ok p := ⟨_, rfl⟩

/-- The use case of a run once it has been initialised. -/
def readyCase (r : RunArgs) (ds peak : List ℤ) : UseCase :=
  initIndex { emptyCase r with days := some ds, numDays := some ds.length, peakTimeRange := some peak }

theorem initIndex_some {uc : UseCase} {ds : List ℤ} (h : uc.days = some ds) (hne : ds ≠ []) :
    ∃ l, initIndex uc = { uc with datetimeindex := some l } := by
  cases ds with
  | nil => exact absurd rfl hne
  | cons d ds => exact ⟨_, by unfold initIndex; simp only [h]; rfl⟩

theorem readyCase_eq (r : RunArgs) (ds peak : List ℤ) (hne : ds ≠ []) : ∃ l, readyCase r ds peak =
    { emptyCase r with days := some ds, numDays := some ds.length, peakTimeRange := some peak, datetimeindex := some l } := by
  obtain ⟨l, hl⟩ := initIndex_some (uc := { emptyCase r with days := some ds, numDays := some ds.length, peakTimeRange := some peak }) rfl hne
  exact ⟨l, hl⟩

theorem readyCase_init (r : RunArgs) (ds peak : List ℤ) (hne : ds ≠ []) : (readyCase r ds peak).isInitialized = true := by
  obtain ⟨l, hl⟩ := readyCase_eq r ds peak hne
  rw [hl]
  rfl

/-- `initialize` on the use case of a run. -/
def startRun (env : Env) (r : RunArgs) : Sim UseCase := do
  let ds ← liftE (runDays env r)
  let peak ← peakRest (15 / 100) 720 (1439 / 3)
  pure (readyCase r ds peak)

theorem runDays_ne {env : Env} {r : RunArgs} {ds : List ℤ} (h : runDays env r = .ok ds) : ds ≠ [] := by
  have := emptyCase_calendar env r
  rw [h] at this
  exact this.1

theorem init_of_calendar {env : Env} {uc uc1 : UseCase} {args : InitArgs} {P : Sim (List ℤ)} (hi : ¬ (uc.isInitialized = true ∧ args.force = false))
    (hp : args.peakEnlarge = none) (hc : initCalendar env (resetDays uc args) args = (uc1, .ok ()))
    (hP : peakTimeRangeOf uc1.users uc1.peakEnlarge = P) (hok : ∀ rng, ∃ p, P rng = .ok p) :
    initUseCase env uc args = P >>= fun r => pure (initIndex { uc1 with peakTimeRange := some r }, .ok ()) := by
  unfold initUseCase
  rw [if_neg hi]
  have hr' : (if uc.isInitialized = true ∧ args.force = true then { uc with days := none } else uc) = resetDays uc args := rfl
  simp only [hr', hc, hp, hP]
  funext rng
  obtain ⟨⟨peak, rng'⟩, hq⟩ := hok rng
  have h1 : attempt P rng = .ok (.ok peak, rng') := by
    unfold attempt
    rw [hq]
  rw [bind_ok h1, bind_ok hq]

theorem init_calendar_error {env : Env} {uc : UseCase} {args : InitArgs} {e : Err} (hi : ¬ (uc.isInitialized = true ∧ args.force = false))
    (hc : (initCalendar env (resetDays uc args) args).2 = .error e) : ∃ uc', initUseCase env uc args = pure (uc', .error e) := by
  unfold initUseCase
  rw [if_neg hi]
  have hr' : (if uc.isInitialized = true ∧ args.force = true then { uc with days := none } else uc) = resetDays uc args := rfl
  simp only [hr']
  cases h : initCalendar env (resetDays uc args) args with
  | mk uc1 r1 =>
    rw [h] at hc
    simp only at hc
    subst hc
    exact ⟨uc1, rfl⟩

theorem init_emptyCase (env : Env) (r : RunArgs) (f : UseCase × Except Err Unit → Sim α) (g : UseCase → Sim α)
    (hf : ∀ uc e, f (uc, .error e) = raise e) (hg : ∀ uc, uc.isInitialized = true → f (uc, .ok ()) = g uc) :
    (initUseCase env (emptyCase r) { numDays := countedDays r } >>= f) = (startRun env r >>= g) := by
  have hi : ¬ ((emptyCase r).isInitialized = true ∧ ({ numDays := countedDays r } : InitArgs).force = false) := by simp [emptyCase, UseCase.isInitialized]
  have hr : resetDays (emptyCase r) { numDays := countedDays r } = emptyCase r := if_neg (by simp)
  have hcal := emptyCase_calendar env r
  rw [← hr] at hcal
  unfold startRun
  cases hd : runDays env r with
  | error e =>
    rw [hd] at hcal
    simp only [hr] at hcal
    obtain ⟨uc', h⟩ := init_calendar_error hi (by rw [hr]; exact hcal)
    rw [h, sim_pure_bind, hf, sim_liftE_error_bind]
    rfl
  | ok ds =>
    rw [hd] at hcal
    obtain ⟨hne, hc⟩ := hcal
    generalize hu1 : ({ emptyCase r with days := some ds, numDays := some ds.length } : UseCase) = uc1
    have hP : peakTimeRangeOf uc1.users uc1.peakEnlarge = peakRest (15 / 100) 720 (1439 / 3) := by
      rw [show uc1.users = [] by rw [← hu1]; rfl, show uc1.peakEnlarge = 15 / 100 by rw [← hu1]; rfl]
      exact peak_empty _
    have hc' : initCalendar env (resetDays (emptyCase r) { numDays := countedDays r }) { numDays := countedDays r } = (uc1, .ok ()) := by
      rw [hc, ← hu1, hr]
    rw [init_of_calendar hi rfl hc' hP (peakRest_ok _ _ _), sim_liftE_ok_bind, sim_bind_assoc, sim_bind_assoc]
    congr 1
    funext peak
    rw [sim_pure_bind, sim_pure_bind]
    rw [← hu1]
    exact hg (readyCase r ds peak) (readyCase_init r ds peak hne)

/-- A run is prepared by choosing the days, drawing the peak time range of a use case without users, and loading the file. -/
theorem prepareRun_eq (w : World) (r : RunArgs) : prepareRun w r = startRun w.env r >>= fun uc => liftE (loadRun w r.fname uc) := by
  unfold prepareRun
  by_cases hb : r.dateStart.isSome ∧ r.dateEnd.isSome
  · have hcount : countedDays r = none := if_pos hb
    rw [← init_emptyCase w.env r (fun p => liftE p.2 >>= fun _ => liftE (loadRun w r.fname p.1)) _ (by intro uc e; rw [sim_liftE_error_bind])
      (by intro uc _; rw [sim_liftE_ok_bind]), hcount]
    funext rng
    have hc0 : collectAppliances { name := "", dateStart := r.dateStart, dateEnd := r.dateEnd, parallel := r.parallel, peakEnlarge := 15 / 100 } = emptyCase r := rfl
    have hcond : (emptyCase r).dateStart.isSome = true ∧ (emptyCase r).dateEnd.isSome = true := hb
    cases hinit : initUseCase w.env (emptyCase r) {} rng with
    | error e =>
      have hmk : mkUseCase w.env w.stream { dateStart := r.dateStart, dateEnd := r.dateEnd, parallel := r.parallel } rng = .error e := by
        unfold mkUseCase
        simp only [addUsers]
        rw [hc0, if_pos hcond, hinit]
      rw [bind_error hmk]
      exact (bind_error hinit).symm
    | ok p =>
      obtain ⟨⟨uc, res⟩, rng'⟩ := p
      rw [bind_ok (f := fun p : UseCase × Except Err Unit => liftE p.2 >>= fun _ => liftE (loadRun w r.fname p.1)) hinit]
      cases res with
      | error e =>
        have hmk : mkUseCase w.env w.stream { dateStart := r.dateStart, dateEnd := r.dateEnd, parallel := r.parallel } rng = .error e := by
          unfold mkUseCase
          simp only [addUsers]
          rw [hc0, if_pos hcond, hinit]
        rw [bind_error hmk]
        rfl
      | ok u =>
        have hmk : mkUseCase w.env w.stream { dateStart := r.dateStart, dateEnd := r.dateEnd, parallel := r.parallel } rng = .ok (uc, rng') := by
          unfold mkUseCase
          simp only [addUsers]
          rw [hc0, if_pos hcond, hinit]
        rw [bind_ok hmk]
        have hinited : uc.isInitialized = true := by
          rcases returns_init ⟨rng, rng', hinit⟩ with ⟨h, _, rfl⟩ | ⟨_, h⟩
          · exact h
          · exact h.fields.2.2.1
        have hsecond : initUseCase w.env uc { numDays := r.numDays } = pure (uc, .ok ()) := by
          unfold initUseCase
          rw [if_pos ⟨hinited, rfl⟩]
        rw [hsecond, sim_pure_bind]
  · have hcount : countedDays r = r.numDays := if_neg hb
    rw [← init_emptyCase w.env r (fun p => liftE p.2 >>= fun _ => liftE (loadRun w r.fname p.1)) _ (by intro uc e; rw [sim_liftE_error_bind])
      (by intro uc _; rw [sim_liftE_ok_bind]), hcount]
    have hmk : mkUseCase w.env w.stream { dateStart := r.dateStart, dateEnd := r.dateEnd, parallel := r.parallel } = pure (emptyCase r) := by
      funext rng
      unfold mkUseCase
      simp only [addUsers]
      have : collectAppliances { name := "", dateStart := r.dateStart, dateEnd := r.dateEnd, parallel := r.parallel, peakEnlarge := 15 / 100 } = emptyCase r := rfl
      rw [this, if_neg (show ¬ ((emptyCase r).dateStart.isSome = true ∧ (emptyCase r).dateEnd.isSome = true) from hb)]
      rfl
    rw [hmk, sim_pure_bind]

end Ramp
