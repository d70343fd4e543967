import Verif.Spec2

/-!
# Vocabulary for the exact set of possible days of an appliance

A day is described by its switch-on events.  Nothing here mentions how RAMP draws them.
-/

set_option autoImplicit false

namespace Ramp

/-- One switch-on event: `number` appliances are on together from minute `start` on, during `minutes` minutes.  The event was
placed in a run of `reserved` minutes.  `values` are the powers of the successive minutes, repeated when the event is longer. -/
structure SwitchEvent where
  start : ℤ
  reserved : ℤ
  minutes : ℤ
  number : ℤ
  values : List ℚ

/-- The event uses minute `m`. -/
def SwitchEvent.On (e : SwitchEvent) (m : ℤ) : Prop := e.start ≤ m ∧ m < e.start + e.minutes

instance (e : SwitchEvent) (m : ℤ) : Decidable (e.On m) := by unfold SwitchEvent.On; infer_instance

/-- The power of the event in minute `m`. -/
def SwitchEvent.valueAt (e : SwitchEvent) (m : ℤ) : ℚ := e.values.getD ((m - e.start).toNat % e.values.length) 0

/-- Number of minutes used by some events. -/
def minutesOn (es : List SwitchEvent) : ℤ := (es.map SwitchEvent.minutes).sum

/-- The `n` minutes from `a` on lie inside one of the windows and no event uses any of them. -/
def FreeRun (ws : List (ℤ × ℤ)) (es : List SwitchEvent) (a n : ℤ) : Prop :=
  (∃ w ∈ ws, w.1 ≤ a ∧ a + n ≤ w.2) ∧ ∀ m, a ≤ m → m < a + n → ∀ e ∈ es, ¬ e.On m

/-- How many appliances may be on together. -/
def NumberOn (app : Appliance) (c : ℤ) : Prop := if app.fixed = "no" then 1 ≤ c ∧ c ≤ app.number else c = app.number

/-- The power profile of a day with these events in these windows: the power of the event in its minutes, the marker `1/1000` in
the other minutes of the windows, zero outside. -/
def DayProfile (ws : List (ℤ × ℤ)) (es : List SwitchEvent) (p : Profile) : Prop :=
  ∀ i : Fin 1440,
    (∀ e ∈ es, e.On i → e.values ≠ [] → p i = e.valueAt i) ∧
    ((∀ e ∈ es, e.On i → e.values = []) → (∃ w ∈ ws, InWindow w i) → p i = 1 / 1000) ∧
    ((∀ e ∈ es, e.On i → e.values = []) → (¬ ∃ w ∈ ws, InWindow w i) → p i = 0)

/-- `e` is an event of the kind the appliance makes, and such an event lasts `n` minutes unless the time of use runs out: without
duty cycles the whole run, at constant power within the variability; with duty cycles, the samples of the cycle whose windows the
run meets, and in single-shot mode no longer than this cycle. -/
def EventKind (app : Appliance) (power : ℚ) (e : SwitchEvent) (n : ℤ) : Prop :=
  (app.fixedCycle ≤ 0 ∧ n = e.reserved ∧ ∃ f, |f - 1| ≤ |app.thermalPVar| ∧ e.values = [e.number * power * f]) ∨
  (0 < app.fixedCycle ∧ ∃ i, ChosenCycle app e.start (e.start + e.reserved - 1) i ∧
    e.values = (dutyCycleOf app i).map (· * (e.number : ℚ)) ∧
    n = if app.continuousDutyCycle = 0 then min e.reserved (dutyCycleOf app i).length else e.reserved)

/-- An event that may come after the events `es`. -/
structure EventAllowed (app : Appliance) (ws : List (ℤ × ℤ)) (time : ℤ) (es : List SwitchEvent) (e : SwitchEvent) : Prop where
  free : FreeRun ws es e.start e.reserved
  shortest : app.funcCycle ≤ e.reserved
  longest : e.reserved ≤ time
  number : NumberOn app e.number

/-- The events of a day, in the order in which they were drawn, for the windows `ws` and the time of use `time`. -/
structure DaySchedule (app : Appliance) (power : ℚ) (ws : List (ℤ × ℤ)) (time : ℤ) (es : List SwitchEvent) : Prop where
  /-- every event fits into the time left free by the earlier ones -/
  allowed : ∀ l e r, es = l ++ e :: r → EventAllowed app ws time l e
  /-- every event has its normal length, except that the last one may be cut short by the end of the time of use -/
  length : ∀ l e r, es = l ++ e :: r → ∃ n, EventKind app power e n ∧ 1 ≤ e.minutes ∧
    (e.minutes = n ∨ (r = [] ∧ e.minutes < n ∧ minutesOn es = time))
  /-- the time of use is not exceeded -/
  total : minutesOn es ≤ time
  /-- the day ends with a cut event, or when no run of `func_cycle` minutes is free, or when the time of use is reached (with duty
  cycles only if one more event could still be drawn, otherwise the program is caught in a recursion) -/
  stop : (∃ l e n, es = l ++ [e] ∧ EventKind app power e n ∧ e.minutes < n) ∨ (∀ a, ¬ FreeRun ws es a app.funcCycle) ∨
    (minutesOn es = time ∧ ∃ e n, EventAllowed app ws time es e ∧ EventKind app power e n ∧ 1 ≤ n)

/-- The same for an appliance without duty cycles, in simpler terms: each event lasts at least `func_cycle` minutes, except that the
last one may be shorter when the time of use is used up; even then a run of `func_cycle` minutes must have been free for it. -/
structure PlainDay (app : Appliance) (power : ℚ) (ws : List (ℤ × ℤ)) (time : ℤ) (es : List SwitchEvent) : Prop where
  free : ∀ l e r, es = l ++ e :: r → FreeRun ws l e.start (max e.minutes app.funcCycle)
  minutes : ∀ e ∈ es, 1 ≤ e.minutes
  number : ∀ e ∈ es, NumberOn app e.number
  power : ∀ e ∈ es, ∃ f, |f - 1| ≤ |app.thermalPVar| ∧ e.values = [e.number * power * f]
  total : minutesOn es ≤ time
  short : ∀ l e r, es = l ++ e :: r → e.minutes < app.funcCycle → r = [] ∧ minutesOn es = time
  stop : minutesOn es = time ∨ ∀ a, ¬ FreeRun ws es a app.funcCycle

/-! ## A day of an appliance -/

/-- Lengths a part of a duty cycle of nominal length `t` can take under variability `var`. -/
def PartLength (var : ℚ) (t : ℤ) (k : ℕ) : Prop :=
  ⌊(t : ℚ) * (1 - var)⌋ ≤ (k : ℤ) ∧ (k : ℤ) ≤ ⌊(t : ℚ) * (1 + var)⌋

/-- A two-part cycle: the first part has power `p1` and the second `p2`, each varied by at most the fraction `tv`, and each part
has a length within the fraction `rc` of its nominal length. -/
def TwoPart (rc : ℚ) (t1 : ℤ) (p1 : ℚ) (t2 : ℤ) (p2 : ℚ) (tv : ℚ) (l : List ℚ) : Prop :=
  ∃ (k1 k2 : ℕ) (f1 f2 : ℚ), PartLength rc t1 k1 ∧ PartLength rc t2 k2 ∧ |f1 - 1| ≤ tv ∧ |f2 - 1| ≤ tv ∧
    l = List.replicate k1 (p1 * f1) ++ List.replicate k2 (p2 * f2)

/-- A two-part cycle with the parts in either order. -/
def TwoPartEither (rc : ℚ) (t1 : ℤ) (p1 : ℚ) (t2 : ℤ) (p2 : ℚ) (tv : ℚ) (l : List ℚ) : Prop :=
  TwoPart rc t1 p1 t2 p2 tv l ∨ TwoPart rc t2 p2 t1 p1 tv l

/-- Durations and variabilities of the duty cycles are sensible. -/
structure ValidCycles (app : Appliance) : Prop where
  tv : 0 ≤ app.thermalPVar
  t11 : 0 ≤ app.t11
  t12 : 0 ≤ app.t12
  t21 : 0 ≤ app.t21
  t22 : 0 ≤ app.t22
  t31 : 0 ≤ app.t31
  t32 : 0 ≤ app.t32
  rc1 : 0 ≤ app.rc1 ∧ app.rc1 ≤ 1
  rc2 : 0 ≤ app.rc2 ∧ app.rc2 ≤ 1
  rc3 : 0 ≤ app.rc3 ∧ app.rc3 ≤ 1

/-- The three duty cycles of a day: with one cycle, three copies of it; with two, the third is a copy of the first; with three, each
one with its parts in either order. -/
def CyclesOfDay (app : Appliance) (c1 c2 c3 : List ℚ) : Prop :=
  (app.fixedCycle ≤ 0 → c1 = app.randomCycle1 ∧ c2 = app.randomCycle2 ∧ c3 = app.randomCycle3) ∧
  (app.fixedCycle = 1 → TwoPart app.rc1 app.t11 app.p11 app.t12 app.p12 app.thermalPVar c1 ∧ c2 = c1 ∧ c3 = c1) ∧
  (app.fixedCycle = 2 → TwoPart app.rc1 app.t11 app.p11 app.t12 app.p12 app.thermalPVar c1 ∧
    TwoPart app.rc2 app.t21 app.p21 app.t22 app.p22 app.thermalPVar c2 ∧ c3 = c1) ∧
  (3 ≤ app.fixedCycle → TwoPartEither app.rc1 app.t11 app.p11 app.t12 app.p12 app.thermalPVar c1 ∧
    TwoPartEither app.rc2 app.t21 app.p21 app.t22 app.p22 app.thermalPVar c2 ∧
    TwoPartEither app.rc3 app.t31 app.p31 app.t32 app.p32 app.thermalPVar c3)

/-- The time of use that a day with the windows `w1`, `w2`, `w3` can have. -/
def TimeOfUse (app : Appliance) (w1 w2 w3 : ℤ × ℤ) (t : ℤ) : Prop :=
  app.funcCycle ≤ ⌊(99 / 100 : ℚ) * totalTime w1 w2 w3⌋ ∧
  ∃ n : ℤ, ⌊(app.funcTime : ℚ) * (1 - app.timeFractionRandomVariability)⌋ ≤ n ∧
    n ≤ ⌊(app.funcTime : ℚ) * (1 + app.timeFractionRandomVariability)⌋ ∧
    t = min (max n app.funcCycle) ⌊(99 / 100 : ℚ) * totalTime w1 w2 w3⌋

/-- An appliance whose parameters are sensible and whose windows of use never touch each other, wherever the day moves them. -/
structure WellSeparated (app : Appliance) : Prop where
  windows : ValidWindows app
  apart : ∀ w1 w2 w3, MovedWindow app.window1 app.randomVar1 w1 → MovedWindow app.window2 app.randomVar2 w2 →
    MovedWindow app.window3 app.randomVar3 w3 → WindowsApart w1 w2 w3
  cycles : ValidCycles app
  cycleWindows : 0 < app.fixedCycle → OrderedCycleWindows app
  shortest : 1 ≤ app.funcCycle
  time : 0 ≤ app.funcTime
  variability : 0 ≤ app.timeFractionRandomVariability ∧ app.timeFractionRandomVariability ≤ 1
  number : 1 ≤ app.number

/-- A day on which the appliance is used: its windows have moved, its time of use and its duty cycles are drawn, its events form a
schedule, and `p` is the profile of these events. -/
def UsedDay (app : Appliance) (power : ℚ) (p : Profile) : Prop :=
  ∃ w1 w2 w3 time c1 c2 c3 es,
    MovedWindow app.window1 app.randomVar1 w1 ∧ MovedWindow app.window2 app.randomVar2 w2 ∧ MovedWindow app.window3 app.randomVar3 w3 ∧
    DayWindow w1 ∧ DayWindow w2 ∧ DayWindow w3 ∧ TimeOfUse app w1 w2 w3 time ∧ CyclesOfDay app c1 c2 c3 ∧
    DaySchedule { app with randomCycle1 := c1, randomCycle2 := c2, randomCycle3 := c3 } power [w1, w2, w3] time es ∧
    DayProfile [w1, w2, w3] es p

/-- A day on which a flat appliance is used: constant power in all of its windows, which have moved. -/
def FlatDay (app : Appliance) (power : ℚ) (p : Profile) : Prop :=
  ∃ w1 w2 w3, MovedWindow app.window1 app.randomVar1 w1 ∧ MovedWindow app.window2 app.randomVar2 w2 ∧
    MovedWindow app.window3 app.randomVar3 w3 ∧ DayWindow w1 ∧ DayWindow w2 ∧ DayWindow w3 ∧
    app.funcCycle ≤ ⌊(99 / 100 : ℚ) * totalTime w1 w2 w3⌋ ∧ p = windowProfile w1 w2 w3 (power * app.number)

/-! ## A day of a use case -/

/-- The profiles of an appliance on day number `k`, when its owner has the preference `pref`: nothing, if it may stay off; a day with
events or a flat day, if it may be used. -/
def PossibleApplianceDay (k : ℕ) (dayType pref : ℤ) (a : Appliance) (p : Profile) : Prop :=
  ∃ power, a.power[k]? = some power ∧
    ((p = zeros ∧ (SkippedForSure a pref dayType ∨ a.occasionalUse < 1)) ∨
      (¬ SkippedForSure a pref dayType ∧ 0 ≤ a.occasionalUse ∧ if a.flat = "yes" then FlatDay a power p else UsedDay a power p))

/-- The load of one member of a user category: one preference, one day of each appliance. -/
def PossibleMemberDay (k : ℕ) (dayType : ℤ) (u : User) (p : Profile) : Prop :=
  ∃ pref ps, PreferenceOf u pref ∧ List.Forall₂ (PossibleApplianceDay k dayType pref) u.appList ps ∧ p = total ps

/-- The load of a user category: `num_users` members, each on its own. -/
def PossibleUserDay (k : ℕ) (dayType : ℤ) (u : User) (p : Profile) : Prop :=
  ∃ ps : List Profile, ps.length = u.numUsers.toNat ∧ (∀ q ∈ ps, PossibleMemberDay k dayType u q) ∧ p = total ps

/-- The load of some users together. -/
def PossibleDay (k : ℕ) (dayType : ℤ) (us : List User) (p : Profile) : Prop :=
  ∃ ps, List.Forall₂ (PossibleUserDay k dayType) us ps ∧ p = total ps

end Ramp
