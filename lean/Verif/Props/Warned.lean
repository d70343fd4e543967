import Verif.Lemmas.Warnings
import Verif.Props.CyclesExact
import Verif.Props.Examples

/-! # Property C115: the messages of a simulation -/

set_option autoImplicit false

namespace Ramp

/-! ## A prepared use case -/

theorem told_pure_bind {α β : Type} (a : α) (f : α → Traced Message β) : (pure a >>= f) = f a := by
  funext r
  rw [told_bind]
  rfl

theorem told_ready {env : Env} {depth : ℕ} {uc : UseCase} {ds peak : List ℤ} (days : Option (List ℤ)) (verbose : Bool) (hr : Ready uc ds peak) :
    toldDaily env depth uc days verbose = (toldDaysLoop depth peak verbose ds.length 0 ds uc.users (List.replicate ds.length zeros) >>= fun x =>
      pure ({ uc with users := x.1 }, x.2)) := by
  have e0 : resolveDays uc days = (uc, .ok ()) := by unfold resolveDays; rw [hr.days]
  have e1 : toldNumDaysProperty env uc = pure (uc, .ok (ds.length : ℤ)) := by unfold toldNumDaysProperty; rw [hr.numDays]
  have e2 : emptyRows (ds.length : ℤ) = .ok (List.replicate ds.length zeros) := by
    unfold emptyRows; rw [if_neg (by omega)]; simp
  unfold toldDaily
  rw [e0]
  simp only
  rw [e1, told_pure_bind]
  dsimp only
  rw [e2, show (quiet (liftE (.ok (List.replicate ds.length zeros))) : Traced Message (List Profile)) = pure (List.replicate ds.length zeros) from rfl, told_pure_bind,
    hr.peak, hr.days]
  rfl

theorem visited_ready {env : Env} {depth : ℕ} {uc : UseCase} {ds peak : List ℤ} (days : Option (List ℤ)) (verbose : Bool) (hr : Ready uc ds peak) (r : Rng) :
    visited (toldDaily env depth uc days verbose) r = (toldDaysLoop depth peak verbose ds.length 0 ds uc.users (List.replicate ds.length zeros) r).1 := by
  unfold visited
  rw [told_ready days verbose hr, told_bind]
  rcases toldDaysLoop depth peak verbose ds.length 0 ds uc.users (List.replicate ds.length zeros) r with ⟨l, _ | ⟨a, r'⟩⟩
  · rfl
  · exact List.append_nil l

/-! ## The progress -/

theorem reports_append (l l' : List Message) : reports (l ++ l') = reports l ++ reports l' := List.filter_append _ _

theorem reports_warns {us : List User} {l : List Message} (h : ∀ m ∈ l, WarnsOfUsers us m) : reports l = [] := by
  unfold reports
  rw [List.filter_eq_nil_iff]
  intro m hm
  obtain ⟨u, _, a, _, name, number, s, e, ws, rfl, _⟩ := h m hm
  simp

theorem reports_loop (depth : ℕ) (peak : List ℤ) (verbose : Bool) (n : ℤ) : ∀ (ds : List ℤ) (k : ℕ) (us : List User) (rows : List Profile), rows.length = k + ds.length → ∀ r,
    ∃ j ≤ ds.length, reports (toldDaysLoop depth peak verbose n k ds us rows r).1 =
        (if verbose then (List.range j).map (fun (i : ℕ) => Message.dayCompleted ((k + i : ℕ) + 1) n) else []) ∧
      (j = ds.length ↔ ∃ x, (toldDaysLoop depth peak verbose n k ds us rows r).2 = .ok x) := by
  intro ds
  induction ds with
  | nil =>
    intro k us rows _ r
    refine ⟨0, le_rfl, ?_, ?_⟩
    · cases verbose <;> rfl
    · exact ⟨fun _ => ⟨_, rfl⟩, fun _ => rfl⟩
  | cons d ds ih =>
    intro k us rows hl r
    rw [List.length_cons] at hl
    unfold toldDaysLoop
    rw [told_bind]
    have h1 := (warns_users depth k peak (getDayType (dayOf d)) us us zeros (List.forall₂_same.2 fun u _ => SameUser.refl u) r).1
    revert h1
    rcases toldUsers depth k peak (getDayType (dayOf d)) us zeros r with ⟨l, e | ⟨⟨vs, load⟩, r'⟩⟩
    · intro h1
      refine ⟨0, Nat.zero_le _, ?_, ?_⟩
      · show reports l = _
        rw [reports_warns h1]
        cases verbose <;> rfl
      · simp
    · intro h1
      obtain ⟨j, hj, h2, h3⟩ := ih (k + 1) vs (rows.set k load) (by rw [List.length_set]; omega) r'
      refine ⟨j + 1, by simpa using hj, ?_, ?_⟩
      · dsimp only
        rw [reports_append, reports_warns h1, List.nil_append, if_pos (by omega)]
        cases verbose with
        | false => simpa using h2
        | true =>
          simp only [if_true]
          rw [told_bind]
          show reports ([Message.dayCompleted (k + 1) n] ++ (toldDaysLoop depth peak true n (k + 1) ds vs (rows.set k load) r').1) = _
          rw [reports_append, h2, if_pos rfl, List.range_succ_eq_map, List.map_cons, List.map_map]
          show [Message.dayCompleted (k + 1) n] ++ _ = _
          simp only [List.singleton_append]
          congr 1
          apply List.map_congr_left
          intro i _
          show _ = Message.dayCompleted (((k + (i + 1) : ℕ) : ℤ) + 1) n
          congr 2
          push_cast
          ring
      · dsimp only
        rw [List.length_cons, Nat.add_right_cancel_iff, h3, if_pos (by omega)]
        cases verbose with
        | false => exact Iff.rfl
        | true =>
          simp only [if_true]
          rw [told_bind]
          exact Iff.rfl

/-- **C115, progress.** With `verbose=True` the messages "Day 1 / n completed", "Day 2 / n completed", ... are printed in this order, one for every
simulated day and no other, all `n` of them exactly when the simulation returns; without it none of them. -/
theorem C115_progress {env : Env} {depth : ℕ} {uc : UseCase} {ds peak : List ℤ} (days : Option (List ℤ)) (verbose : Bool) (hr : Ready uc ds peak) (rng : Rng) :
    ∃ k ≤ ds.length, reports (visited (toldDaily env depth uc days verbose) rng) = (if verbose then daysReported k ds.length else []) ∧
      (k = ds.length ↔ ∃ x, generateDaily env depth uc days rng = .ok x) := by
  obtain ⟨j, hj, h1, h2⟩ := reports_loop depth peak verbose ds.length ds 0 uc.users (List.replicate ds.length zeros) (by simp) rng
  refine ⟨j, hj, ?_, ?_⟩
  · rw [visited_ready days verbose hr, h1]
    unfold daysReported
    simp only [Nat.zero_add]
  · rw [h2, ← outcome_toldDaily env depth uc days verbose]
    unfold outcome
    rw [told_ready days verbose hr, told_bind]
    rcases toldDaysLoop depth peak verbose ds.length 0 ds uc.users (List.replicate ds.length zeros) rng with ⟨l, e | ⟨a, r'⟩⟩
    · simp
    · exact ⟨fun _ => ⟨_, rfl⟩, fun _ => ⟨_, rfl⟩⟩

/-! ## The warnings -/

/-- **C115, the messages are true.** Every message of a simulation is a warning about an event of an appliance of one of the users, and what it says
of the appliance is true: the event is at least `func_cycle` long and none of its minutes is in a duty cycle window.  The only other message is the
progress, with `verbose=True`.  In particular the message of `update_daily_use` about a missing cycle is never printed. -/
theorem C115_true_warnings {env : Env} {depth : ℕ} {uc : UseCase} {ds peak : List ℤ} (days : Option (List ℤ)) (verbose : Bool) (hr : Ready uc ds peak) (rng : Rng) :
    ∀ m ∈ visited (toldDaily env depth uc days verbose) rng,
      (∃ u ∈ uc.users, ∃ a ∈ u.appList, ∃ name number s e ws, m = .outsideCycles name number s e ws ∧ OutsideEvent a name number s e ws) ∨
      (verbose = true ∧ ∃ k, m = .dayCompleted k ds.length) := by
  intro m hm
  rw [visited_ready days verbose hr] at hm
  exact (warns_days depth peak verbose ds.length ds 0 (List.replicate ds.length zeros) (List.forall₂_same.2 fun u _ => SameUser.refl u) rng).1 m hm

theorem outside_iff {m : Message} : m.isOutside = true ↔ IsCycleWarning m := by
  unfold IsCycleWarning
  cases m <;> simp [Message.isOutside]

theorem agrees_ready {env : Env} {depth : ℕ} {uc : UseCase} {ds peak : List ℤ} (days : Option (List ℤ)) (verbose : Bool) (hr : Ready uc ds peak) :
    Agrees (toldDaily env (depth + 1) uc days verbose) (generateDaily env 1 uc days) := by
  have h : generateDaily env 1 uc days = (daysLoop 1 peak 0 ds uc.users (List.replicate ds.length zeros) >>= fun x => pure ({ uc with users := x.1 }, x.2)) := by
    rw [← outcome_toldDaily env 1 uc days false, told_ready days false hr, outcome_bind, outcome_toldDaysLoop]
    rfl
  rw [h, told_ready days verbose hr]
  exact agrees_bind (agrees_days _ _ _ _ _ _ _ _) fun _ => agrees_pure _

/-- **C115, no warning means no search.** With the same random numbers: without a warning the simulation ends as it does with no room for recursion
at all, with the same rows or the same exception; and after a warning there is not enough room. -/
theorem C115_recursion_limit {env : Env} {depth : ℕ} {uc : UseCase} {ds peak : List ℤ} (days : Option (List ℤ)) (verbose : Bool) (hr : Ready uc ds peak) (rng : Rng) :
    ((∀ m ∈ visited (toldDaily env (depth + 1) uc days verbose) rng, ¬ IsCycleWarning m) → generateDaily env 1 uc days rng = generateDaily env (depth + 1) uc days rng) ∧
    ((∃ m ∈ visited (toldDaily env (depth + 1) uc days verbose) rng, IsCycleWarning m) → generateDaily env 1 uc days rng = .error .recursionError) := by
  have h2 : (toldDaily env (depth + 1) uc days verbose rng).2 = generateDaily env (depth + 1) uc days rng := congrFun (outcome_toldDaily env (depth + 1) uc days verbose) rng
  rcases agrees_ready (env := env) (depth := depth) days verbose hr rng with ⟨h1, h3⟩ | ⟨⟨w, hw, hw'⟩, h3⟩
  · refine ⟨fun _ => h3.trans h2, ?_⟩
    rintro ⟨m, hm, hm'⟩
    have := h1 m hm
    rw [outside_iff.2 hm'] at this
    cases this
  · exact ⟨fun h => absurd (outside_iff.1 hw') (h w hw), fun _ => h3⟩

/-- **C115, no exception without warnings.** A simulation that ends with `RecursionError` has issued at least as many warnings as there was room for
recursion. -/
theorem C115_warned_before {env : Env} {depth : ℕ} {uc : UseCase} {ds peak : List ℤ} (days : Option (List ℤ)) (verbose : Bool) (hr : Ready uc ds peak) (rng : Rng)
    (h : generateDaily env depth uc days rng = .error .recursionError) : depth ≤ (cycleWarnings (visited (toldDaily env depth uc days verbose) rng)).length := by
  rw [visited_ready days verbose hr]
  refine counts_days peak verbose ds.length ds 0 uc.users (List.replicate ds.length zeros) rng ?_
  have h2 : (toldDaily env depth uc days verbose rng).2 = .error .recursionError := (congrFun (outcome_toldDaily env depth uc days verbose) rng).trans h
  rw [told_ready days verbose hr, told_bind] at h2
  revert h2
  rcases toldDaysLoop depth peak verbose ds.length 0 ds uc.users (List.replicate ds.length zeros) rng with ⟨l, e | ⟨a, r'⟩⟩
  · intro h2
    have h3 : (Except.error e : Except Err ((UseCase × List Profile) × Rng)) = .error .recursionError := h2
    cases h3
    rfl
  · intro h2
    cases h2

theorem never_warned {env : Env} {depth : ℕ} {uc : UseCase} {ds peak : List ℤ} (days : Option (List ℤ)) (verbose : Bool) (hr : Ready uc ds peak) (rng : Rng) :
    (∃ m ∈ visited (toldDaily env (depth + 1) uc days verbose) rng, IsCycleWarning m) ↔ generateDaily env 1 uc days rng = .error .recursionError := by
  obtain ⟨h1, h2⟩ := C115_recursion_limit (env := env) (depth := depth) days verbose hr rng
  refine ⟨h2, fun h => ?_⟩
  by_contra hc
  push Not at hc
  have h3 := C115_warned_before days verbose hr rng ((h1 hc).symm.trans h)
  have h4 : cycleWarnings (visited (toldDaily env (depth + 1) uc days verbose) rng) = [] := by
    unfold cycleWarnings
    rw [List.filter_eq_nil_iff]
    intro m hm
    have := hc m hm
    unfold IsCycleWarning at this
    cases m <;> simp_all
  rw [h4] at h3
  simp at h3

/-- **C115, sensible users are not warned.** A use case of sensible users is simulated without a single warning, whatever the random numbers. -/
theorem C115_sensible_silent {env : Env} {depth : ℕ} {uc : UseCase} {ds peak : List ℤ} (days : Option (List ℤ)) (hr : Ready uc ds peak)
    (hp : peak ≠ []) (hs : ∀ u ∈ uc.users, SensibleUser u) (hl : ∀ u ∈ uc.users, ∀ a ∈ u.appList, ds.length ≤ a.power.length) (rng : Rng) :
    visited (toldDaily env (depth + 1) uc days false) rng = [] := by
  rw [List.eq_nil_iff_forall_not_mem]
  intro m hm
  rcases C115_true_warnings days false hr rng m hm with ⟨_, _, _, _, name, number, s, e, ws, rfl, _⟩ | ⟨h, _⟩
  · have h1 := (never_warned days false hr rng).1 ⟨_, hm, _, _, _, _, _, rfl⟩
    exact C82_sensible_never_fails (depth := 0) days hr hp hs hl _ ⟨rng, h1⟩
  · cases h

theorem used_of_raises {a : Appliance} {depth : ℕ} {pref : ℤ} {k : ℕ} {peak : List ℤ} {dt : ℤ} {p : ℚ} {e : Err} (hs : SafeConfig a)
    (h : Raises (generateLoadProfile a depth pref k peak dt p) e) : ¬ SkippedForSure a pref dt ∧ 0 ≤ a.occasionalUse := by
  have h' := raises_generate_iff.1 h
  refine ⟨((sat_generateInfo a depth pref k peak dt p hs.windows hs.fc).err h').1, ?_⟩
  by_contra hc
  push Not at hc
  have key : Sat (generateLoadProfileInfo a depth pref k peak dt p) (fun _ => True) (fun _ => False) := by
    unfold generateLoadProfileInfo
    refine sat_bind (sat_uniform fun u hu0 hu1 => ?_)
    rw [if_pos (Or.inl (show a.occasionalUse < 0 + (1 - 0) * u by linarith))]
    exact sat_pure trivial
  exact key.err h'

/-- **C115, when a warning is possible.** When every appliance has a safe configuration and power values, some random numbers lead to a warning exactly
when on some day some member of some user may use an appliance with duty cycles of which some possible event overlaps no duty cycle window. -/
theorem C115_possible_iff {env : Env} {depth : ℕ} {uc : UseCase} {ds peak : List ℤ} (days : Option (List ℤ)) (verbose : Bool) (hr : Ready uc ds peak)
    (hp : peak ≠ []) (hpref : ∀ u ∈ uc.users, 0 ≤ u.userPreference) (hs : ∀ u ∈ uc.users, ∀ a ∈ u.appList, SafeConfig a ∧ OrderedCycleWindows a ∧
      (0 < a.fixedCycle → a.continuousDutyCycle ≠ 0) ∧ ds.length ≤ a.power.length) :
    (∃ rng, ∃ m ∈ visited (toldDaily env (depth + 1) uc days verbose) rng, IsCycleWarning m) ↔
      ∃ (k : ℕ) (d : ℤ), ds[k]? = some d ∧ ∃ u ∈ uc.users, 0 < u.numUsers ∧ ∃ pref, PreferenceOf u pref ∧ ∃ a ∈ u.appList,
        0 < a.fixedCycle ∧ a.flat ≠ "yes" ∧ ¬ SkippedForSure a pref (typeOfDay d) ∧ 0 ≤ a.occasionalUse ∧ UncoveredEvent a := by
  have e1 : (∃ rng, ∃ m ∈ visited (toldDaily env (depth + 1) uc days verbose) rng, IsCycleWarning m) ↔ Raises (generateDaily env 1 uc days) .recursionError :=
    exists_congr fun rng => never_warned days verbose hr rng
  rw [e1]
  constructor
  · intro h
    obtain ⟨k, d, hd, u, hu, hn, ⟨h1, _⟩ | ⟨pref, hpr, a, ha, ⟨h1, h2⟩ | ⟨p, h1, h2⟩⟩⟩ := C87_source days hr h
    · have := hpref u hu
      omega
    · cases h2
    · obtain ⟨h3, h4, h5, h6⟩ := hs u hu a ha
      have hk := (List.getElem?_eq_some_iff.1 h1).1
      obtain ⟨g1, g2⟩ := used_of_raises h3 h2
      obtain ⟨he, hfl, h7 | ⟨hfix, w, s, dd, hm, hs1, hs2, hs3, n1, n2, n3⟩⟩ := raises_safe h3 hp (fun _ => hk) h5 h4 (raises_generate_iff.1 h2)
      · omega
      · have hmono := overlaps_mono (app := a) (a := s) hs3
        exact ⟨k, d, hd, u, hu, hn, pref, hpr, a, ha, hfix, hfl, g1, g2, w, s, hm, hs1, by omega, fun h => n1 (hmono.1 h), fun h => n2 (hmono.2.1 h), fun h => n3 (hmono.2.2 h)⟩
  · rintro ⟨k, d, hd, u, hu, hn, pref, hpr, a, ha, hfix, hfl, g1, g2, hun⟩
    obtain ⟨h3, h4, h5, h6⟩ := hs u hu a ha
    have hk : k < ds.length := (List.getElem?_eq_some_iff.1 hd).1
    have hnot : ¬ NeverRaises (generateDaily env 1 uc days) := by
      intro h
      obtain ⟨p, _, h8⟩ := ((C82_cannot_fail_iff days hr).1 h k d hd u hu hn).2 pref hpr a ha
      exact h8 .recursionError (raises_generate_iff.2 (raises_uncovered h3 h4 hfix hfl g1 g2 hun))
    unfold NeverRaises at hnot
    push Not at hnot
    obtain ⟨e, he⟩ := hnot
    have := (C87_only_recursion (depth := 0) days hr hp hpref hs he).1
    rw [← this]
    exact he

/-! ## A case: a refrigerator with a gap after its duty cycle window -/

/-- One duty cycle, for the events that touch the minutes 0 to 6; events may begin until minute 9. -/
def smallFridge : Appliance where
  name := "fridge"
  power := [100]
  funcTime := 10
  funcCycle := 5
  fixedCycle := 1
  window1 := (0, 14)
  p11 := 100
  t11 := 2
  p12 := 10
  t12 := 3
  cw11 := (0, 6)

/-- One member, one day, and as peak time range the hour from minute 1000. -/
def warnedCase : UseCase where
  users := [{ userName := "u", appList := [smallFridge] }]
  days := some [5760]
  numDays := some 1
  peakTimeRange := some (minutesFrom 1000 60)

theorem warnedCase_ready : Ready warnedCase [5760] (minutesFrom 1000 60) := ⟨rfl, rfl, rfl⟩

/-- The first event begins at minute 8, the next ones as early as possible. -/
def lateFirst : Rng := fun i => ⟨0, le_rfl, by norm_num, if i ≤ 14 then 8 else 0, 0⟩

/-- One warning, then the day is completed. -/
theorem warnedCase_once : visited (toldDaily ⟨0, none⟩ 5 warnedCase none true) lateFirst =
    [.outsideCycles "fridge" 1 8 13 [(0, 6), (0, 0), (0, 0), (0, 0), (0, 0), (0, 0)], .dayCompleted 1 1] := by decide +kernel

/-- With room for five calls and the same start drawn again and again: five warnings, then `RecursionError`. -/
theorem warnedCase_fails : visited (toldDaily ⟨0, none⟩ 5 warnedCase none true) (constantDraws 8) =
    List.replicate 5 (.outsideCycles "fridge" 1 8 13 [(0, 6), (0, 0), (0, 0), (0, 0), (0, 0), (0, 0)]) := by decide +kernel

/-- The bound of `C115_warned_before` is reached. -/
example : generateDaily ⟨0, none⟩ 5 warnedCase none (constantDraws 8) = .error .recursionError ∧
    (cycleWarnings (visited (toldDaily ⟨0, none⟩ 5 warnedCase none false) (constantDraws 8))).length = 5 := by
  refine ⟨?_, by decide +kernel⟩
  have h : (match generateDaily ⟨0, none⟩ 5 warnedCase none (constantDraws 8) with | .error e => some e | .ok _ => none) = some Err.recursionError := by decide +kernel
  revert h
  cases generateDaily ⟨0, none⟩ 5 warnedCase none (constantDraws 8) with
  | error e => intro h; cases h; rfl
  | ok x => intro h; cases h

/-- The hypotheses of `C115_possible_iff`, and a warning is possible. -/
example : ∃ rng, ∃ m ∈ visited (toldDaily ⟨0, none⟩ 1000 warnedCase none false) rng, IsCycleWarning m := by
  obtain ⟨h1, h2⟩ := configB_sound (show configB smallFridge = true by decide +kernel)
  refine (C115_possible_iff (depth := 999) none false warnedCase_ready (by simp [minutesFrom]) ?_ ?_).2 ?_
  · intro u hu
    simp only [warnedCase, List.mem_singleton] at hu
    subst hu
    decide
  · intro u hu a ha
    simp only [warnedCase, List.mem_singleton] at hu
    subst hu
    simp only [List.mem_singleton] at ha
    subst ha
    exact ⟨h1, h2, fun _ => by decide, by decide⟩
  · refine ⟨0, 5760, rfl, _, List.mem_singleton.2 rfl, by decide, 0, by simp [PreferenceOf], smallFridge, by simp, by decide, by decide, by simp [SkippedForSure, smallFridge], by decide +kernel,
      (0, 14), 8, .inl ⟨0, 14, by decide, by decide, by decide⟩, by decide, by decide, ?_, ?_, ?_⟩ <;> rintro (⟨m, h1, h2⟩ | ⟨m, h1, h2⟩) <;>
      simp only [smallFridge] at h1 h2 <;> omega

/-- With a duty cycle window for the whole window of use the refrigerator is sensible, and there is no warning. -/
example (rng : Rng) : visited (toldDaily ⟨0, none⟩ 1000 { warnedCase with users := [{ userName := "u", appList := [{ smallFridge with cw11 := (0, 13) }] }] } none false) rng = [] := by
  refine C115_sensible_silent (depth := 999) none (ds := [5760]) (peak := minutesFrom 1000 60) ⟨rfl, rfl, rfl⟩ (by simp [minutesFrom]) ?_ ?_ rng
  · intro u hu
    obtain rfl := List.mem_singleton.1 hu
    refine ⟨by decide, fun a ha => ?_⟩
    obtain rfl := List.mem_singleton.1 ha
    exact sensible_of_check (by decide +kernel) (by decide +kernel)
  · intro u hu a ha
    obtain rfl := List.mem_singleton.1 hu
    obtain rfl := List.mem_singleton.1 ha
    decide

/-- A simulation of two days that fails on the second: the first is reported. -/
example : reports (visited (toldDaily ⟨0, none⟩ 1000 failingCase none true) (constantDraws 5)) = daysReported 1 2 := by decide +kernel

end Ramp
