import Verif.Props.Peak

/-! # C37-C39: the days of a use case -/

set_option autoImplicit false

namespace Ramp

/-! ## C38: which days -/

theorem resetDays_numDays (uc : UseCase) (args : InitArgs) : (resetDays uc args).numDays = uc.numDays ∧
    (resetDays uc args).dateStart = uc.dateStart ∧ (resetDays uc args).dateEnd = uc.dateEnd ∧ (resetDays uc args).appliances = uc.appliances ∧
    (resetDays uc args).users = uc.users := by
  unfold resetDays
  split_ifs <;> exact ⟨rfl, rfl, rfl, rfl, rfl⟩

/-- `initialize` takes the days (of nobody's choice so far, or forgotten with `force=True`). -/
def ChoosesDays (uc : UseCase) (args : InitArgs) : Prop :=
  (uc.isInitialized = false ∧ uc.days = none) ∨ (uc.isInitialized = true ∧ args.force = true)

theorem ChoosesDays.reset {uc : UseCase} {args : InitArgs} (h : ChoosesDays uc args) : (resetDays uc args).days = none := by
  unfold resetDays
  rcases h with ⟨h1, h2⟩ | h
  · rw [if_neg (by rw [h1]; simp)]; exact h2
  · rw [if_pos h]

theorem ChoosesDays.runs {uc : UseCase} {args : InitArgs} (h : ChoosesDays uc args) : ¬ (uc.isInitialized = true ∧ args.force = false) := by
  rcases h with ⟨h1, _⟩ | ⟨_, h2⟩
  · rw [h1]; simp
  · rw [h2]; simp

/-- An error of the calendar is the outcome of `initialize`. -/
theorem returns_init_error {env : Env} {uc uc' : UseCase} {args : InitArgs} {res : Except Err Unit} {e : Err}
    (hr : ¬ (uc.isInitialized = true ∧ args.force = false)) (he : (initCalendar env (resetDays uc args) args).2 = .error e)
    (h : Returns (initUseCase env uc args) (uc', res)) : res = .error e := by
  unfold initUseCase at h
  rw [if_neg hr] at h
  have hr' : (if uc.isInitialized = true ∧ args.force = true then { uc with days := none } else uc) = resetDays uc args := rfl
  simp only [hr'] at h
  cases hc : initCalendar env (resetDays uc args) args with
  | mk uc1 r1 =>
    rw [hc] at h he
    simp only at he
    subst he
    simp only at h
    have := returns_pure.1 h
    cases this
    rfl

theorem initIndex_days (uc : UseCase) : (initIndex uc).days = uc.days ∧ (initIndex uc).numDays = uc.numDays := by
  unfold initIndex
  split <;> exact ⟨rfl, rfl⟩

theorem InitDone.days {env : Env} {uc uc' : UseCase} {args : InitArgs} (h : InitDone env uc args uc') :
    ∃ uc1, initCalendar env (resetDays uc args) args = (uc1, .ok ()) ∧ uc'.days = uc1.days ∧ uc'.numDays = uc1.numDays := by
  obtain ⟨uc1, pe, r, hc, _, _, rfl⟩ := h
  exact ⟨uc1, hc, (initIndex_days _).1, (initIndex_days _).2⟩

theorem returns_init_done {env : Env} {uc uc' : UseCase} {args : InitArgs} (hr : ¬ (uc.isInitialized = true ∧ args.force = false))
    (h : Returns (initUseCase env uc args) (uc', .ok ())) : InitDone env uc args uc' := by
  rcases returns_init h with ⟨h1, h2, _⟩ | ⟨_, h⟩
  · exact absurd ⟨h1, h2⟩ hr
  · exact h

/-- **C38.** With `num_days = n` (also one stored by an earlier `initialize`, which `force=True` does not forget) the simulated days
are the `n` days from the start date on; without start date the `n` days up to the end date; without dates the `n` days from today
on.  `n = 0` raises `IndexError` and `n < 0` raises `ValueError`. -/
theorem C38_number_of_days {env : Env} {uc uc' : UseCase} {args : InitArgs} {n : ℤ} {res : Except Err Unit} (hc : ChoosesDays uc args)
    (hn : args.numDays = some n ∨ (args.numDays = none ∧ uc.numDays = some n)) (h : Returns (initUseCase env uc args) (uc', res)) :
    (1 ≤ n → res = .ok () → uc'.days = some (daysFrom (firstDay env uc n) n.toNat) ∧ uc'.numDays = some n) ∧
    (n = 0 → res = .error .indexError) ∧ (n < 0 → res = .error .valueError) := by
  obtain ⟨e1, e2, e3, _⟩ := resetDays_numDays uc args
  obtain ⟨k1, k2, k3⟩ := initCalendar_num (env := env) (uc := resetDays uc args) (args := args) (n := n) hc.reset
    (by rw [e1]; exact hn)
  have hf : firstDay env (resetDays uc args) n = firstDay env uc n := by unfold firstDay; rw [e2, e3]
  rw [hf] at k1
  refine ⟨fun h1 hres => ?_, fun h0 => returns_init_error hc.runs (k2 h0) h, fun h0 => returns_init_error hc.runs (k3 h0) h⟩
  subst hres
  obtain ⟨uc1, h2, h3, h4⟩ := (returns_init_done hc.runs h).days
  rw [h3, h4]
  exact k1 h1 uc1 h2

theorem checkPowers_fields (n : ℤ) (rs : List (ℕ × ℕ)) (v uc1 : UseCase) (h : checkPowers n rs v = (uc1, .ok ())) :
    uc1.days = v.days ∧ uc1.numDays = v.numDays := by
  have := checkPowers_same n rs v
  rw [h] at this
  simp only at this
  rw [this]
  exact ⟨rfl, rfl⟩

theorem initCalendar_dates {env : Env} {uc : UseCase} {args : InitArgs} {s e : ℤ} (hn : args.numDays = none) (hu : uc.numDays = none)
    (hs : uc.dateStart = some s) (he : uc.dateEnd = some e) :
    (s ≤ e → ∀ uc1, initCalendar env uc args = (uc1, .ok ()) → uc1.days = some (daysFrom s ((e - s) / 1440 + 1).toNat) ∧
      uc1.numDays = some ((e - s) / 1440 + 1)) ∧
    (e < s → (initCalendar env uc args).2 = .error .indexError) := by
  have h1 : initDates (initNumDays uc args.numDays) =
      { uc with days := some (daysFrom s ((e - s) / 1440 + 1).toNat), numDays := some (((e - s) / 1440 + 1).toNat : ℤ) } := by
    rw [hn]
    unfold initNumDays initDates
    rw [hs, he]
    simp only [hu, dateRange_eq, daysFrom_length]
  rw [initCalendar_eq, h1]
  obtain ⟨k1, k2, k3⟩ := calendarFrom_num (env := env)
    (v := { uc with days := some (daysFrom s ((e - s) / 1440 + 1).toNat), numDays := some (((e - s) / 1440 + 1).toNat : ℤ) })
    (n := (((e - s) / 1440 + 1).toNat : ℤ)) (d := s) rfl (.inr ⟨by omega, by rw [Int.toNat_natCast]⟩)
    (by simp only [hs]; exact dateRangeFrom_eq s _)
  refine ⟨fun hse uc1 huc => ?_, fun hse => k2 (by omega)⟩
  rw [k1 (by omega)] at huc
  obtain ⟨h2, h3⟩ := checkPowers_fields _ _ _ _ huc
  rw [h2, h3]
  refine ⟨by rw [Int.toNat_natCast], ?_⟩
  show some (((e - s) / 1440 + 1).toNat : ℤ) = some ((e - s) / 1440 + 1)
  congr 1
  omega

/-- **C38.** With both dates and no number of days, a successful `initialize` simulates exactly the days from start to end, in order:
the start date and every date a whole number of days later up to the end date.  An end before the start raises `IndexError`. -/
theorem C38_from_start_to_end {env : Env} {uc uc' : UseCase} {args : InitArgs} {s e : ℤ} {res : Except Err Unit}
    (hi : ¬ (uc.isInitialized = true ∧ args.force = false)) (hn : args.numDays = none) (hu : uc.numDays = none)
    (hs : uc.dateStart = some s) (he : uc.dateEnd = some e) (h : Returns (initUseCase env uc args) (uc', res)) :
    (s ≤ e → res = .ok () → ∃ ds, uc'.days = some ds ∧ uc'.numDays = some (ds.length : ℤ) ∧ ds.Pairwise (· < ·) ∧
      ∀ x, x ∈ ds ↔ s ≤ x ∧ x ≤ e ∧ 1440 ∣ x - s) ∧
    (e < s → res = .error .indexError) := by
  obtain ⟨e1, e2, e3, _⟩ := resetDays_numDays uc args
  obtain ⟨k1, k2⟩ := initCalendar_dates (env := env) (uc := resetDays uc args) hn (by rw [e1]; exact hu) (by rw [e2]; exact hs)
    (by rw [e3]; exact he)
  refine ⟨fun hse hres => ?_, fun hse => returns_init_error hi (k2 hse) h⟩
  subst hres
  obtain ⟨uc1, h2, h3, h4⟩ := (returns_init_done hi h).days
  obtain ⟨h5, h6⟩ := k1 hse uc1 h2
  refine ⟨_, h3.trans h5, ?_, ?_, ?_⟩
  · rw [h4, h6, daysFrom_length]
    congr 1
    omega
  · have hsort : ∀ (n : ℕ) (d : ℤ), (daysFrom d n).Pairwise (· < ·) := by
      intro n
      induction n with
      | zero => intro d; exact List.Pairwise.nil
      | succ n ih =>
        intro d
        refine List.pairwise_cons.2 ⟨fun x hx => ?_, ih _⟩
        obtain ⟨k, _, rfl⟩ := mem_daysFrom.1 hx
        omega
    exact hsort _ _
  · intro x
    rw [mem_daysFrom]
    constructor
    · rintro ⟨k, hk, rfl⟩
      refine ⟨by omega, by omega, ⟨k, by ring⟩⟩
    · rintro ⟨hx1, hx2, ⟨m, hm⟩⟩
      exact ⟨m.toNat, by omega, by omega⟩

/-- **C38.** Without a number of days and without both dates the number is asked at the prompt and then used in the same way; an
answer that is not an integer raises `ValueError`. -/
theorem C38_number_typed {env : Env} {uc uc' : UseCase} {args : InitArgs} {res : Except Err Unit} (hc : ChoosesDays uc args)
    (hn : args.numDays = none) (hu : uc.numDays = none) (hd : uc.dateStart = none ∨ uc.dateEnd = none)
    (h : Returns (initUseCase env uc args) (uc', res)) :
    (env.input = none → res = .error .valueError) ∧
    ∀ n, env.input = some n →
      (1 ≤ n → res = .ok () → uc'.days = some (daysFrom (firstDay env uc n) n.toNat) ∧ uc'.numDays = some n) ∧
      (n = 0 → res = .error .indexError) ∧ (n < 0 → res = .error .valueError) := by
  obtain ⟨e1, e2, e3, _⟩ := resetDays_numDays uc args
  have hf : ∀ n, firstDay env (resetDays uc args) n = firstDay env uc n := by intro n; unfold firstDay; rw [e2, e3]
  have hdd : initDates (initNumDays (resetDays uc args) args.numDays) = resetDays uc args := by
    rw [hn]
    unfold initNumDays initDates
    rw [e2, e3]
    rcases hd with hd | hd
    · rw [hd]
    · rw [hd]; cases uc.dateStart <;> rfl
  have hcal : initCalendar env (resetDays uc args) args = calendarFrom env (resetDays uc args) := by
    rw [initCalendar_eq, hdd]
  have hreset := hc.reset
  have hrun := hc.runs
  have hnum : (resetDays uc args).numDays = none := by rw [e1]; exact hu
  constructor
  · intro hin
    apply returns_init_error hrun _ h
    rw [hcal]
    unfold calendarFrom initInput
    rw [hnum, hin]
  · intro n hin
    have hcal2 : initCalendar env (resetDays uc args) args = calendarFrom env { resetDays uc args with numDays := some n } := by
      rw [hcal]
      unfold calendarFrom initInput
      rw [hnum, hin]
    obtain ⟨k1, k2, k3⟩ := calendarFrom_num (env := env) (v := { resetDays uc args with numDays := some n }) (n := n)
      (d := firstDay env uc n) rfl (.inl hreset) (by
        rw [← hf]
        exact chooseDays_first env (resetDays uc args) { resetDays uc args with numDays := some n } n rfl rfl)
    refine ⟨fun h1 hres => ?_, fun h0 => returns_init_error hrun (by rw [hcal2]; exact k2 h0) h,
      fun h0 => returns_init_error hrun (by rw [hcal2]; exact k3 h0) h⟩
    subst hres
    obtain ⟨uc1, h2, h3, h4⟩ := (returns_init_done hrun h).days
    rw [hcal2, k1 h1] at h2
    obtain ⟨h5, h6⟩ := checkPowers_fields _ _ _ _ h2
    rw [h3, h4, h5, h6]
    exact ⟨rfl, rfl⟩

/-! ## Successful runs exist -/

/-- Without appliances to check and with a computable peak, `initialize` succeeds on every sequence of draws once the days are
chosen. -/
theorem init_succeeds {env : Env} {uc uc1 : UseCase} {args : InitArgs} (hi : ¬ (uc.isInitialized = true ∧ args.force = false))
    (hp : args.peakEnlarge = none) (hc : initCalendar env (resetDays uc args) args = (uc1, .ok ()))
    (hu : ¬ ∃! i, IsPeak (maximumLoad uc1.users) i) : ∃ uc', Returns (initUseCase env uc args) (uc', .ok ()) := by
  cases hr : peakTimeRangeOf uc1.users uc1.peakEnlarge (constantDraws 0) with
  | error e => exact absurd ((raises_peak e).1 ⟨_, hr⟩).2 hu
  | ok p =>
    refine ⟨initIndex { uc1 with peakTimeRange := some p.1 }, constantDraws 0, p.2, ?_⟩
    unfold initUseCase
    rw [if_neg hi]
    have hr' : (if uc.isInitialized = true ∧ args.force = true then { uc with days := none } else uc) = resetDays uc args := rfl
    simp only [hr', hc, hp]
    rw [bind_ok (show attempt (peakTimeRangeOf uc1.users uc1.peakEnlarge) (constantDraws 0) = .ok (.ok p.1, p.2) by
      unfold attempt; rw [hr])]
    rfl

/-- A use case with a start date (6 January 2020 is minute 1062113760 of the model's clock, a Monday). -/
def datedCase : UseCase := { dateStart := some 1062113760 }

/-- A case for C38: seven days from Monday 6 January 2020 on. -/
example : ∃ uc', Returns (initUseCase ⟨0, none⟩ datedCase { numDays := some 7 }) (uc', .ok ()) ∧
    uc'.days = some (daysFrom 1062113760 7) := by
  obtain ⟨uc', h⟩ := init_succeeds (env := ⟨0, none⟩) (uc := datedCase) (args := { numDays := some 7 })
    (uc1 := { datedCase with numDays := some 7, days := some (daysFrom 1062113760 7) }) (by decide) rfl (by rfl) peak_no_users
  exact ⟨uc', h, ((C38_number_of_days (n := 7) (.inl ⟨by decide, rfl⟩) (.inl rfl) h).1 (by norm_num) rfl).1⟩

/-- A case for C38: both dates, five days. -/
def fiveDays : UseCase := { dateStart := some 1062113760, dateEnd := some (1062113760 + 1440 * 4) }

theorem fiveDays_init : ∃ uc', Returns (initUseCase ⟨0, none⟩ fiveDays {}) (uc', .ok ()) :=
  init_succeeds (uc1 := { fiveDays with numDays := some 5, days := some (daysFrom 1062113760 5) }) (by decide) rfl (by rfl) peak_no_users

example : ∃ uc' ds, Returns (initUseCase ⟨0, none⟩ fiveDays {}) (uc', .ok ()) ∧ uc'.days = some ds ∧
    ∀ x, x ∈ ds ↔ 1062113760 ≤ x ∧ x ≤ 1062113760 + 1440 * 4 ∧ (1440 : ℤ) ∣ x - 1062113760 := by
  obtain ⟨uc', h⟩ := fiveDays_init
  obtain ⟨ds, h1, _, _, h2⟩ := (C38_from_start_to_end (by decide) rfl rfl rfl rfl h).1 (by norm_num) rfl
  exact ⟨uc', ds, h, h1, h2⟩

/-- A case for C38: three days typed at the prompt. -/
example : ∃ uc', Returns (initUseCase ⟨1440, some 3⟩ {} {}) (uc', .ok ()) ∧ uc'.days = some [1440, 2880, 4320] := by
  obtain ⟨uc', h⟩ := init_succeeds (env := ⟨1440, some 3⟩) (uc := {}) (args := {})
    (uc1 := { numDays := some 3, days := some [1440, 2880, 4320] }) (by decide) rfl (by rfl) peak_no_users
  exact ⟨uc', h, (((C38_number_typed (.inl ⟨by decide, rfl⟩) rfl rfl (.inl rfl) h).2 3 rfl).1 (by norm_num) rfl).1⟩

/-! ## C37: a consistent calendar -/

/-- A call of the public interface of a use case, with the use case before and after it; today's date and the answers at the prompt are
arbitrary.  The calls of `add_user` and of the setter of `peak_enlarge` may raise, the others did not.
`generate` is `generate_daily_load_profiles()` without the argument `days`. -/
inductive Call : UseCase → UseCase → Prop
  | addUser {uc uc' : UseCase} (a : UserArg) (res : Except Err Unit) (h : addUser uc a = (uc', res)) : Call uc uc'
  | collect {uc : UseCase} : Call uc (collectAppliances uc)
  | dateStart {uc : UseCase} (d : Option ℤ) : Call uc { uc with dateStart := d }
  | dateEnd {uc : UseCase} (d : Option ℤ) : Call uc { uc with dateEnd := d }
  | peakEnlarge {uc uc' : UseCase} (x : PyNum) (res : Except Err Unit) (h : Returns (setPeakEnlarge uc x) (uc', res)) : Call uc uc'
  | init (env : Env) {uc uc' : UseCase} (args : InitArgs) (h : Returns (initUseCase env uc args) (uc', .ok ())) : Call uc uc'
  | numDays (env : Env) {uc uc' : UseCase} (n : ℤ) (h : Returns (numDaysProperty env uc) (uc', .ok n)) : Call uc uc'
  | datetimeindex (env : Env) {uc uc' : UseCase} (l : List ℤ) (h : Returns (datetimeindexProperty env uc) (uc', .ok l)) : Call uc uc'
  | generate (env : Env) (depth : ℕ) {uc uc' : UseCase} (rows : List Profile)
      (h : Returns (generateDaily env depth uc none) (uc', rows)) : Call uc uc'

/-- Any number of calls. -/
inductive Calls : UseCase → UseCase → Prop
  | refl (uc : UseCase) : Calls uc uc
  | step {a b c : UseCase} (h : Calls a b) (h' : Call b c) : Calls a c

/-- Either nothing is known of the days, or everything is consistent. -/
def CalendarInv (uc : UseCase) : Prop := Fresh uc ∨ (ConsistentCalendar uc ∧ uc.isInitialized = true)

theorem calendarInv_of_eq {uc uc' : UseCase} (h : CalendarInv uc) (h1 : uc'.days = uc.days) (h2 : uc'.numDays = uc.numDays)
    (h3 : uc'.datetimeindex = uc.datetimeindex) (h4 : uc.peakTimeRange.isSome → uc'.peakTimeRange.isSome) : CalendarInv uc' := by
  rcases h with ⟨a, b, c⟩ | ⟨⟨d, n, hn, a, b, c⟩, hi⟩
  · exact .inl ⟨h1.trans a, h2.trans b, h3.trans c⟩
  · refine .inr ⟨⟨d, n, hn, h1.trans a, h2.trans b, h3.trans c⟩, ?_⟩
    unfold UseCase.isInitialized at *
    rw [h2, h3]
    simp only [Bool.and_eq_true] at *
    exact ⟨hi.1, h4 hi.2⟩

theorem calendarInv_init {env : Env} {uc uc' : UseCase} {args : InitArgs} (hinv : CalendarInv uc)
    (h : Returns (initUseCase env uc args) (uc', .ok ())) : CalendarInv uc' ∧ ConsistentCalendar uc' := by
  rcases returns_init h with ⟨h1, h2, rfl⟩ | ⟨hr, h⟩
  · rcases hinv with hf | hc
    · unfold UseCase.isInitialized at h1
      rw [hf.2.1] at h1
      simp at h1
    · exact ⟨.inr hc, hc.1⟩
  · have hreset : (resetDays uc args).days = none := by
      rcases hinv with hf | hc
      · unfold resetDays
        split_ifs
        · rfl
        · exact hf.1
      · unfold resetDays
        rw [if_pos ⟨hc.2, by
          cases hf : args.force with
          | true => rfl
          | false => exact absurd ⟨hc.2, hf⟩ hr⟩]
    have hcons := h.consistent (.inl hreset)
    exact ⟨.inr ⟨hcons, h.fields.2.2.1⟩, hcons⟩

theorem addUser_fields_aux : (∀ (a : UserArg) (uc : UseCase), (addUser uc a).1 = { uc with users := (addUser uc a).1.users }) ∧
    (∀ (l : List UserArg) (uc : UseCase), (addUsers uc l).1 = { uc with users := (addUsers uc l).1.users }) := by
  have key : ∀ (a : UserArg), ∀ uc : UseCase, (addUser uc a).1 = { uc with users := (addUser uc a).1.users } := by
    intro a
    apply UserArg.rec (motive_1 := fun a => ∀ uc : UseCase, (addUser uc a).1 = { uc with users := (addUser uc a).1.users })
      (motive_2 := fun l => ∀ uc : UseCase, (addUsers uc l).1 = { uc with users := (addUsers uc l).1.users })
    · intro u uc; unfold addUser; rfl
    · intro l ih uc; unfold addUser; exact ih uc
    · intro uc; unfold addUser; rfl
    · intro uc; unfold addUsers; rfl
    · intro a l ha hl uc
      unfold addUsers
      have h1 := ha uc
      cases hh : addUser uc a with
      | mk uc1 r =>
        rw [hh] at h1
        simp only at h1
        cases r with
        | error e => exact h1
        | ok _ =>
          simp only
          have h2 := hl uc1
          rw [h2, h1]
  refine ⟨key, ?_⟩
  intro l
  induction l with
  | nil => intro uc; unfold addUsers; rfl
  | cons a l ih =>
    intro uc
    unfold addUsers
    have h1 := key a uc
    cases hh : addUser uc a with
    | mk uc1 r =>
      rw [hh] at h1
      simp only at h1
      cases r with
      | error e => exact h1
      | ok _ =>
        simp only
        have h2 := ih uc1
        rw [h2, h1]

theorem calendarInv_numDays {env : Env} {uc uc' : UseCase} {n : ℤ} (hinv : CalendarInv uc)
    (h : Returns (numDaysProperty env uc) (uc', .ok n)) : CalendarInv uc' := by
  unfold numDaysProperty at h
  split at h
  · have := returns_pure.1 h
    cases this
    exact hinv
  · obtain ⟨⟨uc1, r⟩, h1, h2⟩ := returns_of_bind h
    cases r with
    | error e => have := returns_pure.1 h2; cases this
    | ok _ => have := returns_pure.1 h2; cases this; exact (calendarInv_init hinv h1).1

/-- `generate_daily_load_profiles()` may initialise the use case and then only changes its users. -/
theorem returns_generateDaily {env : Env} {depth : ℕ} {uc uc' : UseCase} {days : Option (List ℤ)} {rows : List Profile}
    (h : Returns (generateDaily env depth uc days) (uc', rows)) :
    ∃ uc0 uc1 n us rows0, resolveDays uc days = (uc0, .ok ()) ∧ Returns (numDaysProperty env uc0) (uc1, .ok n) ∧ emptyRows n = .ok rows0 ∧
      Returns (daysLoop depth (uc1.peakTimeRange.getD []) 0 (uc1.days.getD []) uc1.users rows0) (us, rows) ∧ uc' = { uc1 with users := us } := by
  unfold generateDaily at h
  cases hr : resolveDays uc days with
  | mk uc0 r =>
    rw [hr] at h
    cases r with
    | error e => exact absurd h returns_raise
    | ok _ =>
      simp only at h
      obtain ⟨⟨uc1, rn⟩, h1, h2⟩ := returns_of_bind h
      cases rn with
      | error e => exact absurd h2 returns_raise
      | ok n =>
        simp only at h2
        obtain ⟨rows0, h3, h4⟩ := returns_of_bind h2
        obtain ⟨⟨us, rows'⟩, h5, h6⟩ := returns_of_bind h4
        have := returns_pure.1 h6
        cases this
        exact ⟨uc0, uc1, n, us, rows0, rfl, h1, returns_liftE.1 h3, h5, rfl⟩

theorem calendarInv_call {uc uc' : UseCase} (hinv : CalendarInv uc) (h : Call uc uc') : CalendarInv uc' := by
  cases h with
  | addUser a res h =>
    have := addUser_fields_aux.1 a uc
    rw [h] at this
    simp only at this
    rw [this]
    exact calendarInv_of_eq hinv rfl rfl rfl id
  | collect => exact calendarInv_of_eq hinv rfl rfl rfl id
  | dateStart d => exact calendarInv_of_eq hinv rfl rfl rfl id
  | dateEnd d => exact calendarInv_of_eq hinv rfl rfl rfl id
  | peakEnlarge x res h =>
    rcases returns_setPeak h with ⟨q, r, rfl, hq, hret, rfl, rfl⟩ | ⟨q, e, rfl, hq, hret, rfl, rfl⟩ | ⟨q, rfl, hq, rfl, rfl⟩ | ⟨rfl, rfl, rfl⟩
    · exact calendarInv_of_eq hinv rfl rfl rfl fun _ => rfl
    · exact calendarInv_of_eq hinv rfl rfl rfl id
    · exact hinv
    · exact hinv
  | init env args h => exact (calendarInv_init hinv h).1
  | numDays env n h => exact calendarInv_numDays hinv h
  | datetimeindex env l h =>
    unfold datetimeindexProperty at h
    split at h
    · have := returns_pure.1 h; cases this; exact hinv
    · obtain ⟨⟨uc1, r⟩, h1, h2⟩ := returns_of_bind h
      cases r with
      | error e => have := returns_pure.1 h2; cases this
      | ok _ => have := returns_pure.1 h2; cases this; exact (calendarInv_init hinv h1).1
  | generate env depth rows h =>
    obtain ⟨uc0, uc1, n, us, rows0, h1, h2, _, _, rfl⟩ := returns_generateDaily h
    have h0 : uc0 = uc := by
      unfold resolveDays at h1
      split at h1
      · cases h1; rfl
      · cases h1
    subst h0
    exact calendarInv_of_eq (calendarInv_numDays hinv h2) rfl rfl rfl id

theorem calendarInv_calls {uc uc' : UseCase} (hinv : CalendarInv uc) (h : Calls uc uc') : CalendarInv uc' := by
  induction h with
  | refl => exact hinv
  | step _ h' ih => exact calendarInv_call ih h'

theorem calendarInv_mk {env : Env} {stream : ℤ → Rng} {a : UseCaseArgs} {uc : UseCase} (h : Returns (mkUseCase env stream a) uc) :
    CalendarInv uc := by
  obtain ⟨r, r', h⟩ := h
  unfold mkUseCase at h
  simp only at h
  cases hu : addUsers { name := a.name, dateStart := a.dateStart, dateEnd := a.dateEnd, parallel := a.parallel, peakEnlarge := a.peakEnlarge } a.users with
  | mk uc1 ru =>
    have hf := addUser_fields_aux.2 a.users { name := a.name, dateStart := a.dateStart, dateEnd := a.dateEnd, parallel := a.parallel, peakEnlarge := a.peakEnlarge }
    rw [hu] at hf h
    simp only at hf h
    cases ru with
    | error e => cases h
    | ok _ =>
      simp only at h
      have hfresh : CalendarInv (collectAppliances uc1) := by
        left
        rw [hf]
        exact ⟨rfl, rfl, rfl⟩
      have hdone : ∀ p : (UseCase × Except Err Unit) × Rng, (if (collectAppliances uc1).dateStart.isSome ∧ (collectAppliances uc1).dateEnd.isSome
          then initUseCase env (collectAppliances uc1) {} r else .ok ((collectAppliances uc1, .ok ()), r)) = .ok p → p.1.2 = .ok () →
          CalendarInv p.1.1 := by
        intro p hp hok
        split_ifs at hp
        · obtain ⟨⟨uc2, r2⟩, rng2⟩ := p
          simp only at hok
          subst hok
          exact (calendarInv_init hfresh ⟨r, rng2, hp⟩).1
        · cases hp
          exact hfresh
      cases hp : (if (collectAppliances uc1).dateStart.isSome ∧ (collectAppliances uc1).dateEnd.isSome
          then initUseCase env (collectAppliances uc1) {} r else .ok ((collectAppliances uc1, .ok ()), r)
          : Except Err ((UseCase × Except Err Unit) × Rng)) with
      | error e => simp only [hp] at h; cases h
      | ok p =>
        simp only [hp] at h
        obtain ⟨⟨uc2, r2⟩, rng2⟩ := p
        cases r2 with
        | error e => cases h
        | ok _ =>
          simp only at h
          have := hdone _ hp rfl
          split at h
          · cases h; exact this
          · split_ifs at h
            · cases h; exact this
            · cases h; exact this

/-- **C37 (partial).** For a use case made by `UseCase(...)`, after any sequence of calls that return normally (date changes, new users,
peak settings, forced re-initialisations, reads of the properties, simulations), a successful `initialize` leaves `num_days ≥ 1`
consecutive days and an index of exactly their minutes, 1440 per day from the first day on.  Missing: sequences in which an exception
of `initialize` is caught (see the next theorem), and `generate_daily_load_profiles(days=...)` on a use case without days. -/
theorem C37_consistent_partial {env env' : Env} {stream : ℤ → Rng} {a : UseCaseArgs} {uc uc1 uc2 : UseCase} {args : InitArgs}
    (hmk : Returns (mkUseCase env stream a) uc) (hcalls : Calls uc uc1) (h : Returns (initUseCase env' uc1 args) (uc2, .ok ())) :
    ConsistentCalendar uc2 :=
  (calendarInv_init (calendarInv_calls (calendarInv_mk hmk) hcalls) h).2

/-- **C37 (partial).** At every moment of such a program the calendar is consistent or nothing of it is set. -/
theorem C37_always_partial {env : Env} {stream : ℤ → Rng} {a : UseCaseArgs} {uc uc1 : UseCase}
    (hmk : Returns (mkUseCase env stream a) uc) (hcalls : Calls uc uc1) : ConsistentCalendar uc1 ∨ Fresh uc1 := by
  rcases calendarInv_calls (calendarInv_mk hmk) hcalls with h | h
  · exact .inr h
  · exact .inl h.1

/-- **C37 (partial).** The negation of the full statement: a first `initialize(num_days=5, peak_enlarge=1)` raises `TypeError` (1 is
not a float); the program catches it and calls `initialize(num_days=3)`, answering 3 at the prompt; the second call succeeds and
leaves five days with `num_days == 3`. -/
theorem C37_full_statement_is_false_partial : ∃ (env : Env) (uc1 uc2 : UseCase),
    Returns (initUseCase env {} { numDays := some 5, peakEnlarge := some .other }) (uc1, .error .typeError) ∧
    Returns (initUseCase env uc1 { numDays := some 3 }) (uc2, .ok ()) ∧ uc2.numDays = some 3 ∧ uc2.days = some (daysFrom 0 5) := by
  refine ⟨⟨0, some 3⟩, { numDays := some 5, days := some (daysFrom 0 5) }, ?_⟩
  have hcal : initCalendar ⟨0, some 3⟩ (resetDays { numDays := some 5, days := some (daysFrom 0 5) } { numDays := some 3 }) { numDays := some 3 } =
    ({ numDays := some 3, days := some (daysFrom 0 5) }, .ok ()) := rfl
  have hrun : ¬ (({ numDays := some 5, days := some (daysFrom 0 5) } : UseCase).isInitialized = true ∧
    ({ numDays := some 3 } : InitArgs).force = false) := by decide
  obtain ⟨uc2, h⟩ := init_succeeds hrun rfl hcal peak_no_users
  refine ⟨uc2, ⟨constantDraws 0, constantDraws 0, rfl⟩, h, ?_⟩
  obtain ⟨uc1, h2, h3, h4⟩ := (returns_init_done hrun h).days
  rw [hcal] at h2
  cases h2
  exact ⟨h4, h3⟩

/-- A case for C37: a use case with a start date, a forced re-initialisation after the dates have changed. -/
example : ∃ uc uc1 uc2 uc3, Returns (mkUseCase ⟨0, none⟩ (fun _ => constantDraws 0) { dateStart := some 1062113760 }) uc ∧
    Calls uc uc2 ∧ Returns (initUseCase ⟨0, none⟩ uc { numDays := some 7 }) (uc1, .ok ()) ∧ uc2 = { uc1 with dateStart := some 1062115200 } ∧
    Returns (initUseCase ⟨0, none⟩ uc2 { force := true }) (uc3, .ok ()) ∧ uc3.days = some (daysFrom 1062115200 7) := by
  have hmk : Returns (mkUseCase ⟨0, none⟩ (fun _ => constantDraws 0) { dateStart := some 1062113760 }) datedCase :=
    ⟨constantDraws 0, constantDraws 0, rfl⟩
  obtain ⟨uc1, h⟩ := init_succeeds (env := ⟨0, none⟩) (uc := datedCase) (args := { numDays := some 7 })
    (uc1 := { datedCase with numDays := some 7, days := some (daysFrom 1062113760 7) }) (by decide) rfl (by rfl) peak_no_users
  have hd := returns_init_done (by decide) h
  obtain ⟨_, hn⟩ := (C38_number_of_days (.inl ⟨by decide, rfl⟩) (.inl rfl) h).1 (by norm_num) rfl
  have hi := hd.fields.2.2.1
  obtain ⟨ucx, pe, rr, hcal, hpk, hpe, hfin⟩ := hd
  have hx : ucx = { datedCase with numDays := some 7, days := some (daysFrom 1062113760 7) } := by
    have h0 : initCalendar ⟨0, none⟩ (resetDays datedCase { numDays := some 7 }) { numDays := some 7 } =
      ({ datedCase with numDays := some 7, days := some (daysFrom 1062113760 7) }, .ok ()) := rfl
    rw [h0] at hcal
    cases hcal
    rfl
  have hus : uc1.users = [] ∧ uc1.appliances = [] ∧ uc1.dateEnd = none := by
    rw [hfin, hx]
    unfold initIndex
    exact ⟨rfl, rfl, rfl⟩
  have hci : ({ uc1 with dateStart := some 1062115200 } : UseCase).isInitialized = true := hi
  have hrun : ¬ (({ uc1 with dateStart := some 1062115200 } : UseCase).isInitialized = true ∧ ({ force := true } : InitArgs).force = false) := by
    simp
  have hcal2 : initCalendar ⟨0, none⟩ (resetDays { uc1 with dateStart := some 1062115200 } { force := true }) { force := true } =
      ({ uc1 with dateStart := some 1062115200, days := some (daysFrom 1062115200 7) }, .ok ()) := by
    unfold resetDays
    rw [if_pos ⟨hci, rfl⟩]
    unfold initCalendar initNumDays initDates initInput initDays chooseDays
    simp only [hn, hus, checkPowers, dateRangeFrom_eq, Option.getD_some]
    rfl
  obtain ⟨uc3, h3⟩ := init_succeeds hrun rfl hcal2 (by simp only [hus]; exact peak_no_users)
  refine ⟨datedCase, uc1, _, uc3, hmk, ?_, h, rfl, h3, ?_⟩
  · exact .step (.step (.refl _) (.init _ _ h)) (.dateStart _)
  · exact ((C38_number_of_days (.inr ⟨hci, rfl⟩) (.inr ⟨rfl, hn⟩) h3).1 (by norm_num) rfl).1

/-! ## C39: re-initialisation -/

/-- **C39 (partial).** `initialize` without `force` does not change an initialised use case, whatever the arguments. -/
theorem C39_without_force_partial {env : Env} {uc uc' : UseCase} {args : InitArgs} {res : Except Err Unit} (hi : uc.isInitialized = true)
    (hf : args.force = false) (h : Returns (initUseCase env uc args) (uc', res)) : uc' = uc ∧ res = .ok () := by
  unfold initUseCase at h
  rw [if_pos ⟨hi, hf⟩] at h
  have := returns_pure.1 h
  cases this
  exact ⟨rfl, rfl⟩

/-- **C39 (partial).** With `force=True` and a number of days, the days are chosen from the current dates as for a new use case.
Missing: without `num_days` the old number of days is kept. -/
theorem C39_with_force_partial {env : Env} {uc uc' : UseCase} {args : InitArgs} {n : ℤ} (hi : uc.isInitialized = true)
    (hf : args.force = true) (hn : args.numDays = some n) (h1 : 1 ≤ n) (h : Returns (initUseCase env uc args) (uc', .ok ())) :
    uc'.days = some (daysFrom (firstDay env uc n) n.toNat) ∧ uc'.numDays = some n :=
  (C38_number_of_days (.inr ⟨hi, hf⟩) (.inl hn) h).1 h1 rfl

/-- **C39 (partial).** With `force=True` and no number of days, the old number of days is kept: the first day follows the current dates,
the end date does not count when there is a start date. -/
theorem C39_old_number_partial {env : Env} {uc uc' : UseCase} {args : InitArgs} {n : ℤ} (hi : uc.isInitialized = true)
    (hf : args.force = true) (hn : args.numDays = none) (hu : uc.numDays = some n) (h1 : 1 ≤ n)
    (h : Returns (initUseCase env uc args) (uc', .ok ())) :
    uc'.days = some (daysFrom (firstDay env uc n) n.toNat) ∧ uc'.numDays = some n :=
  (C38_number_of_days (.inr ⟨hi, hf⟩) (.inr ⟨hn, hu⟩) h).1 h1 rfl

/-- **C39 (partial).** The negation of the full statement: a use case from 6 to 10 January whose end date is moved to 15 January still
simulates five days after `initialize(force=True)`. -/
theorem C39_full_statement_is_false_partial : ∃ uc1 uc2, Returns (initUseCase ⟨0, none⟩ fiveDays {}) (uc1, .ok ()) ∧
    Returns (initUseCase ⟨0, none⟩ { uc1 with dateEnd := some (1062113760 + 1440 * 9) } { force := true }) (uc2, .ok ()) ∧
    uc2.days = some (daysFrom 1062113760 5) ∧ uc2.numDays = some 5 := by
  obtain ⟨uc1, h⟩ := fiveDays_init
  have hd := returns_init_done (by decide) h
  have hi := hd.fields.2.2.1
  obtain ⟨ucx, pe, rr, hcal, hpk, hpe, hfin⟩ := hd
  have hx : ucx = { fiveDays with numDays := some 5, days := some (daysFrom 1062113760 5) } := by
    have h0 : initCalendar ⟨0, none⟩ (resetDays fiveDays {}) {} =
      ({ fiveDays with numDays := some 5, days := some (daysFrom 1062113760 5) }, .ok ()) := rfl
    rw [h0] at hcal
    cases hcal
    rfl
  have hus : uc1.users = [] ∧ uc1.appliances = [] ∧ uc1.dateStart = some 1062113760 ∧ uc1.numDays = some 5 := by
    rw [hfin, hx]
    unfold initIndex
    exact ⟨rfl, rfl, rfl, rfl⟩
  obtain ⟨hu1, hu2, hu3, hu4⟩ := hus
  have hci : ({ uc1 with dateEnd := some (1062113760 + 1440 * 9) } : UseCase).isInitialized = true := hi
  have hrun : ¬ (({ uc1 with dateEnd := some (1062113760 + 1440 * 9) } : UseCase).isInitialized = true ∧ ({ force := true } : InitArgs).force = false) := by
    simp
  have hcal2 : initCalendar ⟨0, none⟩ (resetDays { uc1 with dateEnd := some (1062113760 + 1440 * 9) } { force := true }) { force := true } =
      ({ uc1 with dateEnd := some (1062113760 + 1440 * 9), days := some (daysFrom 1062113760 5) }, .ok ()) := by
    unfold resetDays
    rw [if_pos ⟨hci, rfl⟩]
    unfold initCalendar initNumDays initDates
    simp only [hu3, hu4]
    rw [if_pos (by decide)]
    unfold initInput initDays chooseDays
    simp only [hu4, hu3, hu2, checkPowers, dateRangeFrom_eq, Option.getD_some]
    rfl
  obtain ⟨uc3, h3⟩ := init_succeeds hrun rfl hcal2 (by simp only [hu1]; exact peak_no_users)
  refine ⟨uc1, uc3, h, h3, ?_⟩
  have := (C38_number_of_days (.inr ⟨hci, rfl⟩) (.inr ⟨rfl, hu4⟩) h3).1 (by norm_num) rfl
  unfold firstDay at this
  simp only [hu3] at this
  exact this

/-- A case for the theorems above: an initialised use case. -/
example : ∃ uc1, Returns (initUseCase ⟨0, none⟩ fiveDays {}) (uc1, .ok ()) ∧ uc1.isInitialized = true := by
  obtain ⟨uc1, h⟩ := fiveDays_init
  exact ⟨uc1, h, (returns_init_done (by decide) h).fields.2.2.1⟩

end Ramp
