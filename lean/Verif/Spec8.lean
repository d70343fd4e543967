import Verif.Model.UseCase
import Verif.Spec2
import Mathlib.Probability.ProductMeasure

/-! # Probabilities

The random numbers of a program are independent and each is distributed according to a measure `μ` on single draws.  `Chance` is the
probability that a computation ends in a certain way, `Mean` the expected value of a quantity of its outcome. -/

set_option autoImplicit false

open MeasureTheory ENNReal

namespace Ramp

/-- Every set of draws is an event. -/
instance : MeasurableSpace Draw := ⊤

/-- The draws to come: independent, each with the distribution `μ`. -/
noncomputable def stream (μ : Measure Draw) : Measure Rng := Measure.infinitePi (fun _ => μ)

/-- How a computation with the random numbers `r` ends: a value or an exception. -/
def endOf {α : Type} (m : Sim α) (r : Rng) : Except Err α := (m r).map Prod.fst

/-- The probability that the computation ends in a way that satisfies `φ`. -/
noncomputable def Chance (μ : Measure Draw) {α : Type} (m : Sim α) (φ : Except Err α → Prop) : ℝ≥0∞ := stream μ {r | φ (endOf m r)}

/-- The expected value of `g` of the way the computation ends. -/
noncomputable def Mean (μ : Measure Draw) {α : Type} (m : Sim α) (g : Except Err α → ℝ≥0∞) : ℝ≥0∞ := ∫⁻ r, g (endOf m r) ∂(stream μ)

/-- The expected value of `g` of the returned value; runs that raise count 0. -/
noncomputable def MeanOf (μ : Measure Draw) {α : Type} (m : Sim α) (g : α → ℝ≥0∞) : ℝ≥0∞ :=
  Mean μ m (fun e => match e with
    | .ok a => g a
    | .error _ => 0)

/-- The probability that the computation returns a value that satisfies `φ`. -/
noncomputable def ChanceOf (μ : Measure Draw) {α : Type} (m : Sim α) (φ : α → Prop) : ℝ≥0∞ := Chance μ m (fun e => ∃ a, e = .ok a ∧ φ a)

/-- Two computations return each value with the same probability: no quantity of the result has different expected values. -/
def SameLaw (μ : Measure Draw) {α : Type} (m n : Sim α) : Prop := ∀ g, MeanOf μ m g = MeanOf μ n g

/-! ## The load as a sum of independent runs -/

/-- Run the computations one after the other, each with fresh random numbers, and add up the profiles. -/
def sumRuns : List (Sim Profile) → Sim Profile
  | [] => pure (fun _ => 0)
  | m :: ms => do
    let p ← m
    let q ← sumRuns ms
    pure (fun i => p i + q i)

/-- The profile of an appliance on the day number `k`, for a member with the preference `pref`. -/
def applianceRun (depth k : ℕ) (peak : List ℤ) (dayType pref : ℤ) (a : Appliance) : Sim Profile :=
  match a.power[k]? with
  | none => raise .indexError
  | some p => do
    let a' ← generateLoadProfile a depth pref k peak dayType p
    pure a'.dailyUse

/-- The load of one member of a user category: a preference, then every appliance. -/
def memberRun (depth k : ℕ) (peak : List ℤ) (dayType : ℤ) (u : User) : Sim Profile := do
  let pref ← drawPreference u.userPreference
  sumRuns (u.appList.map (applianceRun depth k peak dayType pref))

/-- The load of a user category: its members one after the other. -/
def userRun (depth k : ℕ) (peak : List ℤ) (dayType : ℤ) (u : User) : Sim Profile :=
  sumRuns (List.replicate u.numUsers.toNat (memberRun depth k peak dayType u))

/-- The load of all users on the day number `k`. -/
def caseRun (depth k : ℕ) (peak : List ℤ) (dayType : ℤ) (us : List User) : Sim Profile := sumRuns (us.map (userRun depth k peak dayType))

/-- The days one after the other, each with the users as they were defined. -/
def rowsRun (depth : ℕ) (peak : List ℤ) (us : List User) : ℕ → List ℤ → Sim (List Profile)
  | _, [] => pure []
  | k, d :: ds => do
    let p ← caseRun depth k peak (typeOfDay d) us
    let ps ← rowsRun depth peak us (k + 1) ds
    pure (p :: ps)

/-- The rows returned by `generate_daily_load_profiles`. -/
def dailyRows (env : Env) (depth : ℕ) (uc : UseCase) (days : Option (List ℤ)) : Sim (List Profile) := do
  let x ← generateDaily env depth uc days
  pure x.2

/-! ## Frequencies -/

/-- The number of days with a load. -/
def daysWithLoad (rows : List Profile) : ℕ := (rows.filter (fun p => decide (p ≠ zeros))).length

/-- The probability of `j` successes in `n` independent trials, each a failure with probability `q` and a success with probability `p`. -/
noncomputable def binomial (n j : ℕ) (p q : ℝ≥0∞) : ℝ≥0∞ := (n.choose j : ℝ≥0∞) * p ^ j * q ^ (n - j)

/-- The probability that a number drawn by `random.uniform(0, 1)` is greater than `q`. -/
noncomputable def chanceAbove (μ : Measure Draw) (q : ℚ) : ℝ≥0∞ := μ {d | q < d.u}

/-- The probability that nothing is used on a day: each appliance of each member stays off, independently, when the number drawn is greater than its
frequency of use. -/
noncomputable def chanceOff (μ : Measure Draw) (us : List User) : ℝ≥0∞ :=
  (us.map (fun u => (u.appList.map (fun a => chanceAbove μ a.occasionalUse)).prod ^ u.numUsers.toNat)).prod

/-- The distribution of Python's `random.random()`: one of the numbers `k / 2^53` with `0 ≤ k < 2^53`, all equally likely; and integers drawn from up
to `N` values are equally likely. -/
structure PythonRandom (N : ℕ) (μ : Measure Draw) : Prop where
  probability : IsProbabilityMeasure μ
  uniform : ∀ k : ℕ, k < 2 ^ 53 → μ {d | d.u = (k : ℚ) / 2 ^ 53} = (2 ^ 53)⁻¹
  integers : ∀ n : ℕ, 1 ≤ n → n ≤ N → ∀ j < n, μ {d | d.k % n = j} = (n : ℝ≥0∞)⁻¹

/-! ## Expected values -/

/-- A quantity of a profile that adds up when loads are added up, such as the load of a minute or the energy of the day. -/
structure AddsUp (g : Profile → ℝ≥0∞) : Prop where
  nothing : g zeros = 0
  sum : ∀ p q : Profile, (∀ i, 0 ≤ p i) → (∀ i, 0 ≤ q i) → g (fun i => p i + q i) = g p + g q

/-- The load of minute `i`. -/
noncomputable def loadAt (i : Fin 1440) (p : Profile) : ℝ≥0∞ := ENNReal.ofReal (p i)

/-- The energy of the day, in watt minutes. -/
noncomputable def energyOf (p : Profile) : ℝ≥0∞ := ENNReal.ofReal ((∑ i, p i : ℚ) : ℝ)

/-- The probability that a member of the user category uses the appliance on a day of type `dayType`: never on the other type of day or without time of
use, else with the probability that its preference of the day is that of the appliance (if it has one) and that the number drawn is at most its
frequency of use. -/
noncomputable def chanceOfUse (μ : Measure Draw) (dayType : ℤ) (u : User) (a : Appliance) : ℝ≥0∞ :=
  if (a.wdWeType ≠ dayType ∧ a.wdWeType ≠ 2) ∨ a.funcTime = 0 then 0
  else ChanceOf μ (drawPreference u.userPreference) (fun pref => a.prefIndex = 0 ∨ pref = a.prefIndex) * μ {d | d.u ≤ a.occasionalUse}

/-- One member of the user category with a single appliance. -/
def onlyOne (u : User) (a : Appliance) : User := { u with numUsers := 1, appList := [a] }

/-- Only whether the appliance is used on a day, and when, is left to chance: no duty cycles, all appliances on together, no variability of power, windows and
time of use, switched on and off by the minute. -/
structure SteadyUse (a : Appliance) : Prop where
  noCycles : a.fixedCycle ≤ 0
  notFlat : a.flat ≠ "yes"
  together : a.fixed ≠ "no"
  power : a.thermalPVar = 0
  time : a.timeFractionRandomVariability = 0
  windows : a.randomVar1 = 0 ∧ a.randomVar2 = 0 ∧ a.randomVar3 = 0
  minutes : a.funcCycle = 1

/-- The minutes of the windows of the appliance. -/
def windowMinutes (a : Appliance) : ℤ := (a.window1.2 - a.window1.1) + (a.window2.2 - a.window2.1) + (a.window3.2 - a.window3.1)

/-- The minutes of use of such an appliance on a day: `func_time`, at most 99 % of its windows. -/
def minutesOfUse (a : Appliance) : ℤ := min a.funcTime ⌊(99 / 100 : ℚ) * windowMinutes a⌋

/-- The energy of such an appliance on the day number `k`, if it is used, in watt minutes: all of them on for the minutes of use, the marker of 0.001 for the other
minutes of the windows. -/
def energyOfUse (k : ℕ) (a : Appliance) : ℚ := minutesOfUse a * (a.number * a.power.getD k 0) + 1 / 1000 * (windowMinutes a - minutesOfUse a)

/-! ## Parallel mode -/

/-- The random numbers of the workers: each chunk of tasks has its own, independent of the others. -/
noncomputable def workers (μ : Measure Draw) : Measure (ℕ → Rng) := Measure.infinitePi (fun _ => stream μ)

/-- The expected value of `g` of the rows computed in parallel mode when the chunks arrive in the order `order`; runs that raise count 0. -/
noncomputable def ParallelMean (μ : Measure Draw) (depth : ℕ) (uc : UseCase) (order : List ℕ) (g : List Profile → ℝ≥0∞) : ℝ≥0∞ :=
  ∫⁻ rngs, (match generateParallel depth uc rngs order with
    | .ok rows => g rows
    | .error _ => 0) ∂(workers μ)

/-- The probability that parallel mode returns rows that satisfy `φ`. -/
noncomputable def ParallelChance (μ : Measure Draw) (depth : ℕ) (uc : UseCase) (order : List ℕ) (φ : List Profile → Prop) : ℝ≥0∞ :=
  workers μ {rngs | ∃ rows, generateParallel depth uc rngs order = .ok rows ∧ φ rows}

/-- The same users without preferences. -/
def noPreferences (us : List User) : List User := us.map (fun u => { u with userPreference := 0 })

/-! ## Single draws -/

/-- The minutes at which an event of at least `n` minutes can start in the free ranges. -/
def possibleStarts (spots : List Spot) (n : ℤ) : Set ℤ := {m | ∃ s ∈ spots, s.start ≤ m ∧ m + n ≤ s.stop}

/-- No minute belongs to two of the ranges. -/
def SpotsDisjoint (spots : List Spot) : Prop := spots.Pairwise (fun s t => s.stop ≤ t.start ∨ t.stop ≤ s.start)

/-- The probability `p` is `q`, up to the resolution of Python's random numbers. -/
def Nearly (p : ℝ≥0∞) (q : ℚ) : Prop := |p.toReal - q| ≤ 1 / 2 ^ 53

/-- The method returned an event that satisfies `ψ`. -/
def Switched (ψ : List ℤ → Prop) (x : Appliance × Option SwitchOn) : Prop := ∃ event, x.2 = some event ∧ ψ event.indexes

end Ramp
