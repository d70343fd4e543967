import Verif.Props.Build
import Verif.Props.Profile

/-! # C06: the windows of a day of an appliance whose windows were set with `windows()` -/

set_option autoImplicit false

namespace Ramp

/-- The variability stored by a successful `windows()` is the whole part of `random_var_w` times the length, window by window. -/
theorem windows_vars {strict : Bool} {u : User} {app : Appliance} {w : WindowsArgs} (h : (windows strict u app w).2.2 = .ok ()) :
    (windows strict u app w).2.1.randomVar1 = pyInt (w.randomVarW * winLen (windowsAfter app w).1) ∧
    (windows strict u app w).2.1.randomVar2 = pyInt (w.randomVarW * winLen (windowsAfter app w).2.1) ∧
    (windows strict u app w).2.1.randomVar3 = pyInt (w.randomVarW * winLen (windowsAfter app w).2.2) ∧
    (windows strict u app w).2.1.funcCycle = app.funcCycle := by
  obtain ⟨app1, hb, u2, app2, ha, hw⟩ := windows_ok h
  obtain ⟨d, rfl, hd⟩ := windowsBody_ok hb
  rw [hw]
  rcases addInstance_cases ha with ⟨_, rfl, _⟩ | ⟨_, rfl, _⟩ <;> unfold windowsTail <;> split_ifs <;> exact ⟨rfl, rfl, rfl, rfl⟩

theorem pyInt_floor {rv : ℚ} {w : ℤ × ℤ} (hw : w.1 ≤ w.2) (h0 : 0 ≤ rv) : pyInt (rv * winLen w) = ⌊rv * (w.2 - w.1)⌋ := by
  have hl : (0 : ℚ) ≤ (w.2 - w.1 : ℤ) := by exact_mod_cast (by omega : 0 ≤ w.2 - w.1)
  unfold winLen
  rw [pyInt_of_nonneg (mul_nonneg h0 hl)]; push_cast; rfl

/-- **C06.** After a successful `windows()` with windows in the day and `0 ≤ random_var_w ≤ 1`, on every day the appliance is used each
of its three windows is the window given for it, moved by at most `int(random_var_w * length)` of that same window and inside the day;
whatever the random draws. -/
theorem C06_windows_of_the_day (strict : Bool) (u : User) (app : Appliance) (w : WindowsArgs)
    (h : (windows strict u app w).2.2 = .ok ())
    (hday : (0 ≤ (windowsAfter app w).1.1 ∧ (windowsAfter app w).1.2 ≤ 1440) ∧
      (0 ≤ (windowsAfter app w).2.1.1 ∧ (windowsAfter app w).2.1.2 ≤ 1440) ∧
      (0 ≤ (windowsAfter app w).2.2.1 ∧ (windowsAfter app w).2.2.2 ≤ 1440))
    (hrv : 0 ≤ w.randomVarW ∧ w.randomVarW ≤ 1) (hfc : 1 ≤ app.funcCycle)
    {depth : ℕ} {pref : ℤ} {profI : ℕ} {peak : List ℤ} {dayType : ℤ} {power : ℚ} {app' : Appliance} {info : RunInfo}
    (hr : Returns (generateLoadProfileInfo (windows strict u app w).2.1 depth pref profI peak dayType power) (app', some info)) :
    (MovedWindow (windowsAfter app w).1 ⌊w.randomVarW * ((windowsAfter app w).1.2 - (windowsAfter app w).1.1)⌋ info.w1 ∧ DayWindow info.w1) ∧
    (MovedWindow (windowsAfter app w).2.1 ⌊w.randomVarW * ((windowsAfter app w).2.1.2 - (windowsAfter app w).2.1.1)⌋ info.w2 ∧ DayWindow info.w2) ∧
    (MovedWindow (windowsAfter app w).2.2 ⌊w.randomVarW * ((windowsAfter app w).2.2.2 - (windowsAfter app w).2.2.1)⌋ info.w3 ∧ DayWindow info.w3) := by
  obtain ⟨o1, o2, o3⟩ := C29_ordered strict u app w h
  obtain ⟨hv, hw, _⟩ := C29_windows_establish strict u app w h hday hrv
  obtain ⟨v1, v2, v3, hf⟩ := windows_vars h
  have hok := runOK_of_returns hv (by rw [hf]; exact hfc) hr
  have m1 : MovedWindow (windows strict u app w).2.1.window1 (windows strict u app w).2.1.randomVar1 info.w1 := hok.m1
  have m2 : MovedWindow (windows strict u app w).2.1.window2 (windows strict u app w).2.1.randomVar2 info.w2 := hok.m2
  have m3 : MovedWindow (windows strict u app w).2.1.window3 (windows strict u app w).2.1.randomVar3 info.w3 := hok.m3
  have e1 : (windows strict u app w).2.1.window1 = (windowsAfter app w).1 := congrArg Prod.fst hw
  have e2 : (windows strict u app w).2.1.window2 = (windowsAfter app w).2.1 := congrArg (fun x => x.2.1) hw
  have e3 : (windows strict u app w).2.1.window3 = (windowsAfter app w).2.2 := congrArg (fun x => x.2.2) hw
  rw [e1, v1, pyInt_floor o1 hrv.1] at m1
  rw [e2, v2, pyInt_floor o2 hrv.1] at m2
  rw [e3, v3, pyInt_floor o3 hrv.1] at m3
  exact ⟨⟨m1, hok.d1⟩, ⟨m2, hok.d2⟩, ⟨m3, hok.d3⟩⟩

/-- A case for C06: two windows with a variability of a tenth; on a day with a certain sequence of draws they are moved. -/
example : (windows true {} { numWindows := 2, funcTime := 120, funcCycle := 30, power := [7] } ⟨some (1170, 1440), some (30, 130), 1 / 10, none⟩).2.2
      = .ok () ∧
    ∃ app' info, Returns (generateLoadProfileInfo
      (windows true {} { numWindows := 2, funcTime := 120, funcCycle := 30, power := [7] } ⟨some (1170, 1440), some (30, 130), 1 / 10, none⟩).2.1
      1000 0 0 (minutesFrom 0 60) 0 100) (app', some info) := by
  refine ⟨?_, ?_⟩
  · rw [C29_accepts_iff _ _ _ _ (by simp) (comparable_self _ _)]
    decide
  · cases hm : runOf (generateLoadProfileInfo
      (windows true {} { numWindows := 2, funcTime := 120, funcCycle := 30, power := [7] } ⟨some (1170, 1440), some (30, 130), 1 / 10, none⟩).2.1
      1000 0 0 (minutesFrom 0 60) 0 100) (constantDraws 5) with
    | none => exact absurd hm (by decide +kernel)
    | some l =>
      obtain ⟨app', info, h, _⟩ := runOf_some hm
      exact ⟨app', info, h⟩

end Ramp
