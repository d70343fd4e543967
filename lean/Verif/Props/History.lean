import Verif.Lemmas.Api
import Verif.Props.Cycles

/-! # C31, C73: programs that build a user category -/

set_option autoImplicit false

namespace Ramp

/-- **C31.** Whatever the calls of the construction API - also calls that raise and are caught - the list of appliances holds no
object twice, every appliance in it has a name, and the list only grows at its end. -/
theorem C31_histories (strict : Bool) (ops : List ApiOp) (op : ApiOp) :
    let before := (apiRun strict {} ops).user.appList
    let after := (apiRun strict {} (ops ++ [op])).user.appList
    (after.map Appliance.oid).Nodup ∧ (∀ a ∈ after, a.name ≠ "") ∧ before.map Appliance.oid <+: after.map Appliance.oid := by
  have hsplit : ∀ (l : List ApiOp) (s : ApiState), apiRun strict s (l ++ [op]) = (apiStep strict (apiRun strict s l) op).1 := by
    intro l
    induction l with
    | nil => intro s; rfl
    | cons o l ih => intro s; exact ih _
  have h1 := (apiRun_inv strict ops {} apiInv_start).1
  obtain ⟨h2, h3⟩ := apiStep_inv strict _ h1 op
  simp only [hsplit]
  exact ⟨h2.user.1, h2.user.2, h3⟩

/-- Windows given to `windows()` lie in the day and the variability is a fraction. -/
def WindowsInDay (w : WindowsArgs) : Prop :=
  (∀ v, w.window1 = some v → 0 ≤ v.1 ∧ v.2 ≤ 1440) ∧ (∀ v, w.window2 = some v → 0 ≤ v.1 ∧ v.2 ≤ 1440) ∧
  (∀ v, w.window3 = some v → 0 ≤ v.1 ∧ v.2 ≤ 1440) ∧ 0 ≤ w.randomVarW ∧ w.randomVarW ≤ 1

/-- The variability of a duty cycle is a fraction, and its windows do not end before they start. -/
def SensibleCycle (c : CycleArgs) : Prop :=
  (0 ≤ c.rc ∧ c.rc ≤ 1) ∧ (∀ v, c.cwa = some v → v.1 ≤ v.2) ∧ ∀ v, c.cwb = some v → v.1 ≤ v.2

/-- Calls with sensible arguments. -/
def SensibleOp : ApiOp → Prop
  | .construct _ a => 0 ≤ a.thermalPVar
  | .windows _ w => WindowsInDay w
  | .cycle _ _ c => SensibleCycle c
  | .behaviour _ c1 c2 c3 c4 c5 c6 => c1.1 ≤ c1.2 ∧ c2.1 ≤ c2.2 ∧ c3.1 ≤ c3.2 ∧ c4.1 ≤ c4.2 ∧ c5.1 ≤ c5.2 ∧ c6.1 ≤ c6.2
  | .addObjects _ => True
  | .add _ a => 0 ≤ a.app.thermalPVar ∧ (∀ w, a.windows = some w → WindowsInDay w) ∧ ∀ p ∈ a.cycles, SensibleCycle p.2
  | .legacy _ a => 0 ≤ a.thermalPVar

/-- What the simulation needs of an appliance. -/
structure Simulable (app : Appliance) : Prop where
  windows : ValidWindows app
  cycles : ValidCycles app
  cycleWindows : OrderedCycleWindows app

/-- The appliance made by the constructor, given its powers. -/
def newAppliance (oid : ℕ) (a : AppArgs) (p : List ℚ) (c : Bool) : Appliance where
  oid := oid
  name := a.name
  number := a.number
  numWindows := a.numWindows
  funcTime := a.funcTime
  timeFractionRandomVariability := a.timeFractionRandomVariability
  funcCycle := a.funcCycle
  fixed := a.fixed
  fixedCycle := a.fixedCycle
  continuousDutyCycle := a.continuousDutyCycle
  occasionalUse := a.occasionalUse
  flat := a.flat
  thermalPVar := a.thermalPVar
  prefIndex := a.prefIndex
  wdWeType := a.wdWeType
  power := p
  constantPower := c

theorem mkAppliance_fields {oid : ℕ} {nd : ℤ} {a : AppArgs} {app : Appliance} (h : mkAppliance oid nd a = .ok app) :
    ∃ p c, app = newAppliance oid a p c := by
  unfold mkAppliance at h
  simp only at h
  split at h
  · cases h; exact ⟨_, _, rfl⟩
  · split at h
    · cases h; exact ⟨_, _, rfl⟩
    · cases h
  · cases h

theorem simulable_made {nd : ℤ} {a : AppArgs} (h : 0 ≤ a.thermalPVar) : MadeBy Simulable nd a := by
  intro oid app hm
  obtain ⟨p, c, rfl⟩ := mkAppliance_fields hm
  constructor <;> constructor <;> simp [newAppliance, DayWindow, h]

theorem simulable_windows {w : WindowsArgs} (h : WindowsInDay w) : KeptByWindows Simulable w := by
  intro a a' ha hb
  have hord : Writable (windowsAfter a w).1 ∧ Writable (windowsAfter a w).2.1 ∧ Writable (windowsAfter a w).2.2 := by
    have := windowsBody_outcome a w
    rw [hb] at this
    by_contra hc
    rw [if_neg hc] at this
    split_ifs at this
  obtain ⟨d, rfl, _⟩ := windowsBody_ok hb
  obtain ⟨h1, h2, h3, h4, h5⟩ := h
  have d1 : DayWindow (windowsAfter a w).1 := by
    have := hord.1.1
    unfold windowsAfter at *
    simp only at *
    cases hw : w.window1 with
    | none => simp [DayWindow]
    | some v =>
      rw [hw] at this
      have := h1 v hw
      simp only [Option.getD_some] at *
      exact ⟨by omega, by omega, by omega⟩
  have d2 : DayWindow (windowsAfter a w).2.1 := by
    have := hord.2.1.1
    unfold windowsAfter at *
    simp only at *
    cases hw : w.window2 with
    | none => exact ha.windows.w2
    | some v =>
      rw [hw] at this
      have := h2 v hw
      simp only [Option.getD_some] at *
      exact ⟨by omega, by omega, by omega⟩
  have d3 : DayWindow (windowsAfter a w).2.2 := by
    have := hord.2.2.1
    unfold windowsAfter at *
    simp only at *
    cases hw : w.window3 with
    | none => exact ha.windows.w3
    | some v =>
      rw [hw] at this
      have := h3 v hw
      simp only [Option.getD_some] at *
      exact ⟨by omega, by omega, by omega⟩
  refine ⟨⟨d1, d2, d3, ?_, ?_, ?_⟩, ?_, ?_⟩
  · exact pyInt_var d1.2.1 h4 h5
  · exact pyInt_var d2.2.1 h4 h5
  · exact pyInt_var d3.2.1 h4 h5
  · obtain ⟨c1, c2, c3, c4, c5, c6, c7, c8, c9, c10⟩ := ha.cycles
    exact ⟨c1, c2, c3, c4, c5, c6, c7, c8, c9, c10⟩
  · obtain ⟨c1, c2, c3, c4, c5, c6⟩ := ha.cycleWindows
    exact ⟨c1, c2, c3, c4, c5, c6⟩

theorem onesTimes_ok {n : ℤ} {x : ℚ} {l : List ℚ} (h : onesTimes n x = .ok l) : 0 ≤ n := by
  unfold onesTimes at h
  split_ifs at h
  omega

theorem fixedCycleCheck_ok {c : CycleArgs} (h : fixedCycleCheck c = .ok ()) : 0 ≤ c.t1 ∧ 0 ≤ c.t2 := by
  unfold fixedCycleCheck at h
  split at h
  · cases h
  rename_i h1
  split at h
  · cases h
  rename_i h2
  exact ⟨onesTimes_ok h1, onesTimes_ok h2⟩

theorem getD_ordered {o : Option (ℤ × ℤ)} {d : ℤ × ℤ} (h : ∀ v, o = some v → v.1 ≤ v.2) (hd : d.1 ≤ d.2) : (o.getD d).1 ≤ (o.getD d).2 := by
  cases o with
  | none => exact hd
  | some v => exact h v rfl

theorem simulable_cycle {n : ℤ} {c : CycleArgs} (h : SensibleCycle c) : KeptByCycle Simulable n c := by
  intro a ha hr
  obtain ⟨hw, ⟨c1, c2, c3, c4, c5, c6, c7, c8, c9, c10⟩, ⟨o1, o2, o3, o4, o5, o6⟩⟩ := ha
  obtain ⟨hrc, ha, hb⟩ := h
  unfold specificCycle at hr ⊢
  split_ifs at hr ⊢ with i1 i2 i3
  · obtain ⟨t1, t2⟩ := fixedCycleCheck_ok (c := c) hr
    exact ⟨⟨hw.w1, hw.w2, hw.w3, hw.r1, hw.r2, hw.r3⟩, ⟨c1, t1, t2, c4, c5, c6, c7, hrc, c9, c10⟩,
      ⟨getD_ordered ha o1, getD_ordered hb o2, o3, o4, o5, o6⟩⟩
  · obtain ⟨t1, t2⟩ := fixedCycleCheck_ok (c := c) hr
    exact ⟨⟨hw.w1, hw.w2, hw.w3, hw.r1, hw.r2, hw.r3⟩, ⟨c1, c2, c3, t1, t2, c6, c7, c8, hrc, c10⟩,
      ⟨o1, o2, getD_ordered ha o3, getD_ordered hb o4, o5, o6⟩⟩
  · obtain ⟨t1, t2⟩ := fixedCycleCheck_ok (c := c) hr
    exact ⟨⟨hw.w1, hw.w2, hw.w3, hw.r1, hw.r2, hw.r3⟩, ⟨c1, c2, c3, c4, c5, t1, t2, c8, c9, hrc⟩,
      ⟨o1, o2, o3, o4, getD_ordered ha o5, getD_ordered hb o6⟩⟩
  · exact ⟨⟨hw.w1, hw.w2, hw.w3, hw.r1, hw.r2, hw.r3⟩, ⟨c1, c2, c3, c4, c5, c6, c7, c8, c9, c10⟩, ⟨o1, o2, o3, o4, o5, o6⟩⟩

theorem simulable_kept : Kept Simulable where
  rename := by
    rintro a n ⟨hw, ⟨c1, c2, c3, c4, c5, c6, c7, c8, c9, c10⟩, ⟨o1, o2, o3, o4, o5, o6⟩⟩
    exact ⟨⟨hw.w1, hw.w2, hw.w3, hw.r1, hw.r2, hw.r3⟩, ⟨c1, c2, c3, c4, c5, c6, c7, c8, c9, c10⟩, ⟨o1, o2, o3, o4, o5, o6⟩⟩
  tail := by
    rintro a ⟨hw, ⟨c1, c2, c3, c4, c5, c6, c7, c8, c9, c10⟩, ⟨o1, o2, o3, o4, o5, o6⟩⟩
    unfold windowsTail
    split_ifs
    · exact ⟨⟨hw.w1, hw.w2, hw.w3, hw.r1, hw.r2, hw.r3⟩, ⟨c1, c2, c3, c4, c5, c6, c7, c8, c9, c10⟩,
        ⟨hw.w1.2.1, hw.w2.2.1, o3, o4, o5, o6⟩⟩
    · exact ⟨hw, ⟨c1, c2, c3, c4, c5, c6, c7, c8, c9, c10⟩, ⟨o1, o2, o3, o4, o5, o6⟩⟩

theorem simulable_op {op : ApiOp} (h : SensibleOp op) : KeptByOp Simulable op := by
  cases op with
  | construct nd a => exact simulable_made h
  | windows o w => exact simulable_windows h
  | cycle o n c => exact simulable_cycle h
  | behaviour o c1 c2 c3 c4 c5 c6 =>
    obtain ⟨o1, o2, o3, o4, o5, o6⟩ := h
    rintro a ⟨hw, ⟨c1, c2, c3, c4, c5, c6, c7, c8, c9, c10⟩, _⟩
    exact ⟨⟨hw.w1, hw.w2, hw.w3, hw.r1, hw.r2, hw.r3⟩, ⟨c1, c2, c3, c4, c5, c6, c7, c8, c9, c10⟩, ⟨o1, o2, o3, o4, o5, o6⟩⟩
  | addObjects os => trivial
  | add nd a => exact ⟨simulable_made h.1, fun w hw => simulable_windows (h.2.1 w hw), fun p hp => simulable_cycle (h.2.2 p hp)⟩
  | legacy nd a => exact simulable_made (a := a.toAppArgs) h

/-- **C73.** A program of calls of the construction API, in any number and order, that raises no exception and whose arguments are
sensible leaves only appliances with windows in the day that move by at most their own length, duty cycles of non-negative
duration and ordered duty cycle windows: what the simulation relies on. -/
theorem C73_built_appliances_are_simulable (strict : Bool) (ops : List ApiOp) (s : ApiState) (hops : ∀ op ∈ ops, SensibleOp op)
    (h : apiRunUncaught strict {} ops = (s, .ok ())) (app : Appliance) (ha : app ∈ s.user.appList) :
    ValidWindows app ∧ ValidCycles app ∧ OrderedCycleWindows app := by
  obtain ⟨hw, hc, ho⟩ := (apiRun_kept simulable_kept strict ops {} s (fun op hop => simulable_op (hops op hop)) (by simp [AllApps])
    (by simp) h).1 app ha
  exact ⟨hw, hc, ho⟩

/-- **C73.** With it, the profile of a day of such an appliance is zero outside its windows widened by their variability, whatever
the program that built it. -/
theorem C73_profile_zero_outside_windows (strict : Bool) (ops : List ApiOp) (s : ApiState) (hops : ∀ op ∈ ops, SensibleOp op)
    (h : apiRunUncaught strict {} ops = (s, .ok ())) (app : Appliance) (ha : app ∈ s.user.appList) (hfc : 1 ≤ app.funcCycle)
    {depth : ℕ} {pref : ℤ} {profI : ℕ} {peak : List ℤ} {dayType : ℤ} {power : ℚ} {app' : Appliance}
    (hr : Returns (generateLoadProfile app depth pref profI peak dayType power) app') (i : Fin 1440)
    (h1 : ¬ InWindow (app.window1.1 - app.randomVar1, app.window1.2 + app.randomVar1) i)
    (h2 : ¬ InWindow (app.window2.1 - app.randomVar2, app.window2.2 + app.randomVar2) i)
    (h3 : ¬ InWindow (app.window3.1 - app.randomVar3, app.window3.2 + app.randomVar3) i) : app'.dailyUse i = 0 :=
  C18_zero_outside_windows (C73_built_appliances_are_simulable strict ops s hops h app ha).1 hfc hr i h1 h2 h3

/-- A case for C73: an appliance built step by step and one built at once. -/
def caseOps : List ApiOp :=
  [.construct 366 { power := .number 100, funcTime := 60, funcCycle := 5, fixedCycle := 2 },
   .windows 0 { window1 := some (0, 700), randomVarW := 1 / 10 },
   .cycle 0 1 { p1 := 100, t1 := 10, cwa := some (0, 300) },
   .cycle 0 2 { p1 := 50, t1 := 20, cwa := some (301, 700) },
   .add 366 lampArgs, .addObjects [0, 1]]

example : (∀ op ∈ caseOps, SensibleOp op) ∧ (apiRunUncaught true {} caseOps).2 = .ok () ∧
    (apiRunUncaught true {} caseOps).1.user.appList.length = 2 := by
  refine ⟨?_, by decide +kernel, by decide +kernel⟩
  intro op hop
  simp only [caseOps, List.mem_cons, List.not_mem_nil, or_false] at hop
  rcases hop with rfl | rfl | rfl | rfl | rfl | rfl
  · show (0 : ℚ) ≤ 0; norm_num
  · refine ⟨by simp, by simp, by simp, by norm_num, by norm_num⟩
  · refine ⟨by norm_num, by simp, by simp⟩
  · refine ⟨by norm_num, by simp, by simp⟩
  · refine ⟨by show (0 : ℚ) ≤ 0; norm_num, ?_, ?_⟩
    · intro w hw
      simp only [lampArgs, Option.some.injEq] at hw
      subst hw
      refine ⟨by simp, by simp, by simp, by norm_num, by norm_num⟩
    · simp [lampArgs, AddArgs.cycles]
  · trivial

end Ramp
