import Verif.Lemmas.Build
import Verif.Lemmas.Witness

/-! # Properties C29-C36 and C58: building users and appliances -/

set_option autoImplicit false

namespace Ramp

/-! ## C29: `windows()` -/

/-- The outcome of `windows()` before the appliance is registered decides its outcome, up to the comparison of the appliance with
those of the list (`ValueError` of numpy for power series of different lengths). -/
theorem windows_outcome (strict : Bool) (u : User) (app : Appliance) (w : WindowsArgs) :
    (windows strict u app w).2.2 = (windowsBody app w).2 ∨
    ((windowsBody app w).2 = .ok () ∧ (windows strict u app w).2.2 = .error .valueError ∧
      ∃ a ∈ (u.sync (windowsBody app w).1).appList, ¬ Comparable strict app.power a.power) := by
  unfold windows
  have hch := windowsBody_changed app w
  cases hb : windowsBody app w with
  | mk app1 r =>
    rw [hb] at hch
    cases r with
    | error e => left; rfl
    | ok x =>
      cases x
      simp only
      cases ha : addInstance strict (u.sync app1) app1 with
      | error e =>
        right
        obtain ⟨h1, h2⟩ := addInstance_error ha
        rw [hch.power] at h2
        exact ⟨trivial, by rw [h1], h2⟩
      | ok p => left; rfl

/-- **C29.** `windows()` raises `InvalidWindow` exactly when a declared window is not given, or (with at most three declared
windows) the declared windows together are shorter than `func_time`. -/
theorem C29_invalid_window_iff (strict : Bool) (u : User) (app : Appliance) (w : WindowsArgs) :
    (windows strict u app w).2.2 = .error .invalidWindow ↔
      (MissingWindow app w ∨ (app.numWindows ≤ 3 ∧
        declaredTime app.numWindows (windowsAfter app w).1 (windowsAfter app w).2.1 (windowsAfter app w).2.2 < app.funcTime)) := by
  have hbody : (windowsBody app w).2 = .error .invalidWindow ↔ (MissingWindow app w ∨ (app.numWindows ≤ 3 ∧
      declaredTime app.numWindows (windowsAfter app w).1 (windowsAfter app w).2.1 (windowsAfter app w).2.2 < app.funcTime)) := by
    rw [windowsBody_outcome]
    by_cases hm : MissingWindow app w
    · simp [hm]
    · rw [if_neg hm]
      by_cases hn : 3 < app.numWindows
      · rw [if_pos hn]
        constructor
        · intro h; cases h
        · rintro (h | ⟨h, _⟩)
          · exact absurd h hm
          · omega
      · rw [if_neg hn]
        by_cases ht : declaredTime app.numWindows (windowsAfter app w).1 (windowsAfter app w).2.1 (windowsAfter app w).2.2 < app.funcTime
        · rw [if_pos ht]; simp only [true_iff]; exact .inr ⟨by omega, ht⟩
        · rw [if_neg ht]
          constructor
          · intro h; split_ifs at h; cases h
          · rintro (h | ⟨_, h⟩)
            · exact absurd h hm
            · exact absurd h ht
  rcases windows_outcome strict u app w with h | ⟨h1, h2, _⟩
  · rw [h]; exact hbody
  · rw [h2]
    constructor
    · intro h; cases h
    · intro h; have := hbody.2 h; rw [h1] at this; cases this

/-- **C29.** For a user that can compare the appliance with those of its list, `windows()` succeeds exactly when every declared
window is given, at most three are declared, the declared windows together last at least `func_time`, and numpy can write each of
the three windows into an array of 1440 values. -/
theorem C29_accepts_iff (strict : Bool) (u : User) (app : Appliance) (w : WindowsArgs)
    (hcmp : ∀ a ∈ u.appList, Comparable strict app.power a.power) (hself : Comparable strict app.power app.power) :
    (windows strict u app w).2.2 = .ok () ↔
      ¬ MissingWindow app w ∧ app.numWindows ≤ 3 ∧
      app.funcTime ≤ declaredTime app.numWindows (windowsAfter app w).1 (windowsAfter app w).2.1 (windowsAfter app w).2.2 ∧
      Writable (windowsAfter app w).1 ∧ Writable (windowsAfter app w).2.1 ∧ Writable (windowsAfter app w).2.2 := by
  have hbody : (windowsBody app w).2 = .ok () ↔ ¬ MissingWindow app w ∧ app.numWindows ≤ 3 ∧
      app.funcTime ≤ declaredTime app.numWindows (windowsAfter app w).1 (windowsAfter app w).2.1 (windowsAfter app w).2.2 ∧
      Writable (windowsAfter app w).1 ∧ Writable (windowsAfter app w).2.1 ∧ Writable (windowsAfter app w).2.2 := by
    rw [windowsBody_outcome]
    constructor
    · intro h
      split_ifs at h with h1 h2 h3 h4
      exact ⟨h1, by omega, by omega, h4⟩
    · rintro ⟨h1, h2, h3, h4⟩
      rw [if_neg h1, if_neg (by omega), if_neg (by omega), if_pos h4]
  rcases windows_outcome strict u app w with h | ⟨_, _, a, ha, hn⟩
  · rw [h]; exact hbody
  · exfalso
    rcases mem_sync ha with ⟨h, _⟩ | ⟨rfl, _⟩
    · exact hn (hcmp a h)
    · rw [(windowsBody_changed app w).power] at hn; exact hn hself

theorem comparable_self (strict : Bool) (p : List ℚ) : Comparable strict p p := ⟨_, if_pos rfl⟩

/-- **C29.** A successful `windows()` leaves three windows of non-negative length. -/
theorem C29_ordered (strict : Bool) (u : User) (app : Appliance) (w : WindowsArgs) (h : (windows strict u app w).2.2 = .ok ()) :
    (windowsAfter app w).1.1 ≤ (windowsAfter app w).1.2 ∧ (windowsAfter app w).2.1.1 ≤ (windowsAfter app w).2.1.2 ∧
      (windowsAfter app w).2.2.1 ≤ (windowsAfter app w).2.2.2 := by
  have hb : (windowsBody app w).2 = .ok () := by
    rcases windows_outcome strict u app w with h' | ⟨h1, _, _⟩
    · rw [← h']; exact h
    · exact h1
  rw [windowsBody_outcome] at hb
  split_ifs at hb with h1 h2 h3 h4
  exact ⟨h4.1.1, h4.2.1.1, h4.2.2.1⟩

theorem windows_ok {strict : Bool} {u : User} {app : Appliance} {w : WindowsArgs} (h : (windows strict u app w).2.2 = .ok ()) :
    ∃ app1, windowsBody app w = (app1, .ok ()) ∧ ∃ u2 app2, addInstance strict (u.sync app1) app1 = .ok (u2, app2) ∧
      windows strict u app w = (u2.sync (windowsTail app2), windowsTail app2, .ok ()) := by
  unfold windows at h ⊢
  cases hb : windowsBody app w with
  | mk app1 r =>
    rw [hb] at h
    cases r with
    | error e => simp at h
    | ok x =>
      cases x
      simp only at h ⊢
      refine ⟨app1, rfl, ?_⟩
      cases ha : addInstance strict (u.sync app1) app1 with
      | error e => rw [ha] at h; simp at h
      | ok p => exact ⟨p.1, p.2, rfl, rfl⟩

theorem pyInt_var {rv : ℚ} {w : ℤ × ℤ} (hw : w.1 ≤ w.2) (h0 : 0 ≤ rv) (h1 : rv ≤ 1) :
    0 ≤ pyInt (rv * winLen w) ∧ pyInt (rv * winLen w) ≤ w.2 - w.1 := by
  have hl : (0 : ℚ) ≤ (winLen w : ℤ) := by exact_mod_cast (by unfold winLen; omega : (0 : ℤ) ≤ winLen w)
  refine ⟨pyInt_nonneg (mul_nonneg h0 hl), pyInt_le ?_⟩
  have : rv * (winLen w : ℤ) ≤ 1 * (winLen w : ℤ) := mul_le_mul_of_nonneg_right h1 hl
  rw [one_mul] at this
  exact this

/-- **C29.** What a successful call leaves behind: for windows inside the day and a variability between 0 and 1 the appliance has
valid windows - the hypothesis of the properties of the generation - the stored windows are the given ones, and the marker profile
is 0.001 in the windows and 0 elsewhere. -/
theorem C29_windows_establish (strict : Bool) (u : User) (app : Appliance) (w : WindowsArgs)
    (h : (windows strict u app w).2.2 = .ok ())
    (hday : (0 ≤ (windowsAfter app w).1.1 ∧ (windowsAfter app w).1.2 ≤ 1440) ∧
      (0 ≤ (windowsAfter app w).2.1.1 ∧ (windowsAfter app w).2.1.2 ≤ 1440) ∧
      (0 ≤ (windowsAfter app w).2.2.1 ∧ (windowsAfter app w).2.2.2 ≤ 1440))
    (hrv : 0 ≤ w.randomVarW ∧ w.randomVarW ≤ 1) :
    let app' := (windows strict u app w).2.1
    ValidWindows app' ∧ (app'.window1, app'.window2, app'.window3) = windowsAfter app w ∧ app'.randomVarW = w.randomVarW ∧
      app'.dailyUse = windowProfile app'.window1 app'.window2 app'.window3 (1 / 1000) := by
  obtain ⟨o1, o2, o3⟩ := C29_ordered strict u app w h
  obtain ⟨app1, hb, u2, app2, ha, hw⟩ := windows_ok h
  obtain ⟨d, rfl, hd⟩ := windowsBody_ok hb
  have d1 : DayWindow (windowsAfter app w).1 := ⟨hday.1.1, o1, hday.1.2⟩
  have d2 : DayWindow (windowsAfter app w).2.1 := ⟨hday.2.1.1, o2, hday.2.1.2⟩
  have d3 : DayWindow (windowsAfter app w).2.2 := ⟨hday.2.2.1, o3, hday.2.2.2⟩
  rw [fillWindows_ok _ d1 d2 d3] at hd
  cases hd
  have key : ∃ n c1 c2, windowsTail app2 = { app with
      window1 := (windowsAfter app w).1, window2 := (windowsAfter app w).2.1, window3 := (windowsAfter app w).2.2
      randomVarW := w.randomVarW
      randomVar1 := pyInt (w.randomVarW * winLen (windowsAfter app w).1)
      randomVar2 := pyInt (w.randomVarW * winLen (windowsAfter app w).2.1)
      randomVar3 := pyInt (w.randomVarW * winLen (windowsAfter app w).2.2)
      dailyUse := windowProfile (windowsAfter app w).1 (windowsAfter app w).2.1 (windowsAfter app w).2.2 (1 / 1000)
      name := n, cw11 := c1, cw12 := c2 } := by
    rcases addInstance_cases ha with ⟨_, rfl, _⟩ | ⟨_, rfl, _⟩ <;> unfold windowsTail <;> split_ifs <;> exact ⟨_, _, _, rfl⟩
  obtain ⟨n, c1, c2, hk⟩ := key
  simp only [hw, hk]
  exact ⟨⟨d1, d2, d3, pyInt_var o1 hrv.1 hrv.2, pyInt_var o2 hrv.1 hrv.2, pyInt_var o3 hrv.1 hrv.2⟩, by trivial, by trivial, by trivial⟩

/-- A case for C29: two windows of a lamp. -/
example : (windows true {} { numWindows := 2, funcTime := 120, power := [7] } ⟨some (1170, 1440), some (0, 30), 35 / 100, none⟩).2.2
    = .ok () := by
  rw [C29_accepts_iff _ _ _ _ (by simp) (comparable_self _ _)]
  decide

/-- **C29 is false for windows outside the day.** `windows()` accepts a window before the day (numpy counts it from the end of the
day) and a one-minute window after the day (broadcast to nothing). -/
theorem C29_outside_day_accepted (u : User) (hu : u.appList = []) :
    (windows true u { funcTime := 60, power := [7] } { window1 := some (-100, -10) }).2.2 = .ok () ∧
    (windows true u { funcTime := 1, power := [7] } { window1 := some (1440, 1441) }).2.2 = .ok () := by
  constructor
  · rw [C29_accepts_iff _ _ _ _ (by simp [hu]) (comparable_self _ _)]; decide
  · rw [C29_accepts_iff _ _ _ _ (by simp [hu]) (comparable_self _ _)]; decide

/-- **C29, partial.** For windows that start in the day (`0 ≤ start < 1440`), success does imply that they end in the day, except
for a single minute.  Missing: negative starts and starts after the day (`C29_outside_day_accepted`). -/
theorem C29_fits_in_day_partial (strict : Bool) (u : User) (app : Appliance) (w : WindowsArgs)
    (h : (windows strict u app w).2.2 = .ok ())
    (hs : (0 ≤ (windowsAfter app w).1.1 ∧ (windowsAfter app w).1.1 < 1440) ∧
      (0 ≤ (windowsAfter app w).2.1.1 ∧ (windowsAfter app w).2.1.1 < 1440) ∧
      (0 ≤ (windowsAfter app w).2.2.1 ∧ (windowsAfter app w).2.2.1 < 1440)) :
    DayWindow (windowsAfter app w).1 ∧ DayWindow (windowsAfter app w).2.1 ∧ DayWindow (windowsAfter app w).2.2 := by
  have hb : (windowsBody app w).2 = .ok () := by
    rcases windows_outcome strict u app w with h' | ⟨h1, _, _⟩
    · rw [← h']; exact h
    · exact h1
  rw [windowsBody_outcome] at hb
  split_ifs at hb with h1 h2 h3 h4
  unfold Writable at h4
  unfold DayWindow
  omega

/-! ## C30: a rejected appliance is not registered -/

theorem mkAppliance_oid {oid : ℕ} {nd : ℤ} {a : AppArgs} {app : Appliance} (h : mkAppliance oid nd a = .ok app) : app.oid = oid := by
  unfold mkAppliance at h
  simp only at h
  split at h
  · cases h; rfl
  · split at h
    · cases h; rfl
    · cases h
  · cases h

theorem mkAppliance_name {oid : ℕ} {nd : ℤ} {a : AppArgs} {app : Appliance} (h : mkAppliance oid nd a = .ok app) : app.name = a.name := by
  unfold mkAppliance at h
  simp only at h
  split at h
  · cases h; rfl
  · split at h
    · cases h; rfl
    · cases h
  · cases h

/-- `windows()` of a new appliance: either nothing is registered, or the appliance is registered at the end of the list. -/
theorem windows_new {strict : Bool} {u u' : User} {app app' : Appliance} {w : WindowsArgs} {r : Except Err Unit}
    (hf : ∀ a ∈ u.appList, a.oid ≠ app.oid) (h : windows strict u app w = (u', app', r)) :
    app'.oid = app.oid ∧ app'.power = app.power ∧ (app.name ≠ "" → app'.name = app.name) ∧
    ((u' = u ∧ (r = .ok () → app'.name = app.name ∧ ∃ a ∈ u.appList, ∃ app1, WindowsChanged app app1 ∧ appEq strict app1 a = .ok true)) ∨
      (r = .ok () ∧ u' = { u with appList := u.appList ++ [app'] } ∧ app'.name ≠ "" ∧
        ∀ a ∈ u.appList, Comparable strict app.power a.power)) := by
  have hch := windowsBody_changed app w
  unfold windows at h
  cases hb : windowsBody app w with
  | mk app1 r1 =>
    rw [hb] at h hch
    have hfr : ∀ a ∈ u.appList, a.oid ≠ app1.oid := by rw [hch.oid]; exact hf
    have hs := sync_of_fresh hfr
    cases r1 with
    | error e =>
      simp only [Prod.mk.injEq, hs] at h
      obtain ⟨rfl, rfl, rfl⟩ := h
      exact ⟨hch.oid, hch.power, fun _ => hch.name, .inl ⟨rfl, fun h => by cases h⟩⟩
    | ok x =>
      cases x
      simp only [hs] at h
      cases ha : addInstance strict u app1 with
      | error e =>
        rw [ha] at h
        simp only [Prod.mk.injEq] at h
        obtain ⟨rfl, rfl, rfl⟩ := h
        exact ⟨hch.oid, hch.power, fun _ => hch.name, .inl ⟨rfl, fun h => by cases h⟩⟩
      | ok p =>
        obtain ⟨u2, app2⟩ := p
        rw [ha] at h
        simp only [Prod.mk.injEq] at h
        obtain ⟨rfl, rfl, rfl⟩ := h
        rcases addInstance_cases ha with ⟨rfl, rfl, a, hma, hq⟩ | ⟨hu2, happ2, hn⟩
        · refine ⟨by rw [windowsTail_oid, hch.oid], by rw [windowsTail_power, hch.power],
            fun _ => by rw [windowsTail_name, hch.name], .inl ⟨?_, fun _ => ⟨by rw [windowsTail_name, hch.name], a, hma, app2, hch, ?_⟩⟩⟩
          · rw [sync_of_fresh]; rw [windowsTail_oid]; exact hfr
          · rcases hq with hq | hq
            · exact absurd hq (hfr a hma)
            · exact hq
        · have ho : app2.oid = app1.oid := by rw [happ2]
          have hp : app2.power = app1.power := by rw [happ2]
          have hnm : app2.name ≠ "" := by
            rw [happ2]
            simp only
            split_ifs with hc
            · exact appliance_name_ne _
            · exact hc
          refine ⟨by rw [windowsTail_oid, ho, hch.oid], by rw [windowsTail_power, hp, hch.power], ?_, .inr ⟨rfl, ?_, ?_, ?_⟩⟩
          · intro hne
            rw [windowsTail_name, happ2]
            have hnn : app1.name = app.name := hch.name
            simp only [hnn]
            rw [if_neg hne]
          · rw [hu2]
            unfold User.sync
            have := sync_append (u := u) (app := windowsTail app2) (app' := app2) (l := u.appList)
              (by rw [windowsTail_oid, ho]; exact hfr) (by rw [windowsTail_oid])
            unfold User.sync at this
            simp only at this
            simp only [this]
          · rw [windowsTail_name]; exact hnm
          · intro a hma
            rw [← hch.power]
            exact comparable_of_appEq (hn a hma).2

/-- The duty cycle calls of `add_appliance`: nothing changes for an appliance outside the list, and only the appliance itself for
the last appliance of the list. -/
theorem addCycles_spec : ∀ (l : List (ℤ × CycleArgs)) (u u' : User) (app app' : Appliance) (r : Except Err Unit),
    addCycles u app l = (u', app', r) →
      app'.oid = app.oid ∧ app'.power = app.power ∧ app'.name = app.name ∧
      ((∀ a ∈ u.appList, a.oid ≠ app.oid) → u' = u) ∧
      (∀ l0, u.appList = l0 ++ [app] → (∀ a ∈ l0, a.oid ≠ app.oid) → u' = { u with appList := l0 ++ [app'] }) ∧
      (∀ e, r = .error e → e = .valueError ∧ ∃ p ∈ l, p.2.t1 < 0 ∨ p.2.t2 < 0)
  | [], u, u', app, app', r, h => by
    simp only [addCycles, Prod.mk.injEq] at h
    obtain ⟨rfl, rfl, rfl⟩ := h
    refine ⟨rfl, rfl, rfl, fun _ => rfl, ?_, fun e h => by cases h⟩
    intro l0 hl _
    rw [← hl]
  | (i, c) :: l, u, u', app, app', r, h => by
    unfold addCycles userCycle at h
    cases hc : specificCycle app i c with
    | mk app1 r1 =>
      have ho : app1.oid = app.oid := by have := specificCycle_oid app i c; rw [hc] at this; exact this
      have hn : app1.name = app.name := by have := specificCycle_name app i c; rw [hc] at this; exact this
      have hp : app1.power = app.power := by have := specificCycle_power app i c; rw [hc] at this; exact this
      rw [hc] at h
      simp only at h
      have hsync : ∀ l0, u.appList = l0 ++ [app] → (∀ a ∈ l0, a.oid ≠ app.oid) →
          u.sync app1 = { u with appList := l0 ++ [app1] } := by
        intro l0 hl hf
        have := sync_append (u := u) (app := app1) (app' := app) (l := l0) (by rw [ho]; exact hf) ho.symm
        unfold User.sync at this ⊢
        simp only at this
        rw [hl, this]
      cases r1 with
      | error e =>
        simp only [Prod.mk.injEq] at h
        obtain ⟨rfl, rfl, rfl⟩ := h
        refine ⟨ho, hp, hn, fun hf => sync_of_fresh (by rw [ho]; exact hf), ?_, ?_⟩
        · intro l0 hl hf
          exact hsync l0 hl hf
        · intro e' he
          cases he
          have hr : fixedCycleCheck c = .error e := by
            have h2 := congrArg Prod.snd hc
            unfold specificCycle at h2
            split_ifs at h2
            · exact h2
            · exact h2
            · exact h2
          unfold fixedCycleCheck onesTimes at hr
          by_cases h1 : c.t1 < 0
          · rw [if_pos h1] at hr
            cases hr
            exact ⟨rfl, (i, c), by simp, .inl h1⟩
          · rw [if_neg h1] at hr
            by_cases h2 : c.t2 < 0
            · rw [if_pos h2] at hr
              cases hr
              exact ⟨rfl, (i, c), by simp, .inr h2⟩
            · rw [if_neg h2] at hr; cases hr
      | ok x =>
        cases x
        simp only at h
        obtain ⟨k1, k2, k3, k4, k5, k6⟩ := addCycles_spec l _ _ _ _ _ h
        refine ⟨by rw [k1, ho], by rw [k2, hp], by rw [k3, hn], ?_, ?_, ?_⟩
        · intro hf
          have hs : u.sync app1 = u := sync_of_fresh (by rw [ho]; exact hf)
          rw [hs] at k4
          exact k4 (by rw [ho]; exact hf)
        · intro l0 hl hf
          rw [hsync l0 hl hf] at k5
          exact k5 l0 rfl (by rw [ho]; exact hf)
        · intro e he
          obtain ⟨q1, p, hpl, q2⟩ := k6 e he
          exact ⟨q1, p, by simp [hpl], q2⟩

/-- Every way `add_appliance` can end, for a new object. -/
theorem addAppliance_cases {strict : Bool} {oid : ℕ} {nd : ℤ} {u u' : User} {a : AddArgs} {r : Except Err Appliance}
    (hf : ∀ b ∈ u.appList, b.oid ≠ oid) (h : addAppliance strict oid nd u a = (u', r)) :
    (u' = u ∧ ∀ app, r = .ok app → app.oid = oid ∧ app.name = a.app.name ∧
      ∃ b ∈ u.appList, appEq strict app b = .ok true) ∨
    (∃ app, r = .ok app ∧ app.oid = oid ∧ app.name ≠ "" ∧ (a.app.name ≠ "" → app.name = a.app.name) ∧
      u' = { u with appList := u.appList ++ [app] }) ∨
    (∃ app, r = .error .valueError ∧ app.oid = oid ∧ app.name ≠ "" ∧ a.windows ≠ none ∧
      u' = { u with appList := u.appList ++ [app] } ∧ ∃ p ∈ a.cycles, p.2.t1 < 0 ∨ p.2.t2 < 0) := by
  unfold addAppliance at h
  cases hm : mkAppliance oid nd a.app with
  | error e =>
    rw [hm] at h
    simp only [Prod.mk.injEq] at h
    obtain ⟨rfl, rfl⟩ := h
    exact .inl ⟨rfl, fun app h => by cases h⟩
  | ok app =>
    have ho := mkAppliance_oid hm
    have hnm := mkAppliance_name hm
    rw [hm] at h
    simp only at h
    -- the state before the duty cycles
    have tail : ∀ (u1 : User) (app1 : Appliance), app1.oid = oid → (a.app.name ≠ "" → app1.name = a.app.name) →
        ((u1 = u ∧ app1.name = a.app.name) ∨
          (a.windows ≠ none ∧ u1 = { u with appList := u.appList ++ [app1] } ∧ app1.name ≠ "" ∧
            ∀ b ∈ u.appList, Comparable strict app1.power b.power)) →
        (match addCycles u1 app1 a.cycles with
          | (u, _, .error e) => (u, .error e)
          | (u, app, .ok ()) =>
            match addInstance strict u app with
            | .error e => (u, .error e)
            | .ok (u, app) => (u, .ok app) : User × Except Err Appliance) = (u', r) →
        (u' = u ∧ ∀ app, r = .ok app → app.oid = oid ∧ app.name = a.app.name ∧
          ∃ b ∈ u.appList, appEq strict app b = .ok true) ∨
        (∃ app, r = .ok app ∧ app.oid = oid ∧ app.name ≠ "" ∧ (a.app.name ≠ "" → app.name = a.app.name) ∧
          u' = { u with appList := u.appList ++ [app] }) ∨
        (∃ app, r = .error .valueError ∧ app.oid = oid ∧ app.name ≠ "" ∧ a.windows ≠ none ∧
          u' = { u with appList := u.appList ++ [app] } ∧ ∃ p ∈ a.cycles, p.2.t1 < 0 ∨ p.2.t2 < 0) := by
      intro u1 app1 ho1 hn1 hst h5
      cases hc : addCycles u1 app1 a.cycles with
      | mk u2 q =>
        obtain ⟨app2, r2⟩ := q
        obtain ⟨c1, c2, c3, c4, c5, c6⟩ := addCycles_spec _ _ _ _ _ _ hc
        rw [hc] at h5
        cases r2 with
        | error e =>
          simp only [Prod.mk.injEq] at h5
          obtain ⟨rfl, rfl⟩ := h5
          obtain ⟨rfl, hex⟩ := c6 e rfl
          rcases hst with ⟨rfl, _⟩ | ⟨hw, rfl, hne, _⟩
          · left
            exact ⟨c4 (by rw [ho1]; exact hf), fun app h => by cases h⟩
          · right; right
            refine ⟨app2, rfl, by rw [c1, ho1], by rw [c3]; exact hne, hw, ?_, hex⟩
            exact c5 u.appList rfl (by rw [ho1]; exact hf)
        | ok x =>
          cases x
          simp only at h5
          rcases hst with ⟨rfl, hn1'⟩ | ⟨hw, rfl, hne, hcmp⟩
          · have hu2 := c4 (by rw [ho1]; exact hf)
            subst hu2
            cases ha : addInstance strict u2 app2 with
            | error e =>
              rw [ha] at h5
              simp only [Prod.mk.injEq] at h5
              obtain ⟨rfl, rfl⟩ := h5
              exact .inl ⟨rfl, fun app h => by cases h⟩
            | ok p =>
              obtain ⟨u3, app3⟩ := p
              rw [ha] at h5
              simp only [Prod.mk.injEq] at h5
              obtain ⟨rfl, rfl⟩ := h5
              rcases addInstance_cases ha with ⟨rfl, rfl, b, hb, hq⟩ | ⟨hu3, happ3, hn⟩
              · left
                refine ⟨rfl, ?_⟩
                intro app h
                cases h
                refine ⟨by rw [c1, ho1], by rw [c3, hn1'], b, hb, ?_⟩
                rcases hq with hq | hq
                · exact absurd hq (by rw [c1, ho1]; exact hf b hb)
                · exact hq
              · right; left
                refine ⟨app3, rfl, by rw [happ3]; exact c1.trans ho1, ?_, ?_, hu3⟩
                · rw [happ3]; simp only
                  split_ifs with hc
                  · exact appliance_name_ne _
                  · exact hc
                · intro hne
                  have hn2 : app2.name = a.app.name := by rw [c3]; exact hn1 hne
                  rw [happ3]; simp only [hn2]
                  rw [if_neg hne]
          · have hu2 := c5 u.appList rfl (by rw [ho1]; exact hf)
            simp only at hu2
            subst hu2
            have hcmp2 : ∀ b ∈ u.appList ++ [app2], Comparable strict app2.power b.power := by
              intro b hb
              rcases List.mem_append.1 hb with hb | hb
              · rw [c2]; exact hcmp b hb
              · simp only [List.mem_singleton] at hb
                subst hb; exact comparable_self _ _
            cases ha : addInstance strict { u with appList := u.appList ++ [app2] } app2 with
            | error e =>
              exfalso
              obtain ⟨_, b, hb, hb2⟩ := addInstance_error ha
              exact hb2 (hcmp2 b hb)
            | ok p =>
              obtain ⟨u3, app3⟩ := p
              rw [ha] at h5
              simp only [Prod.mk.injEq] at h5
              obtain ⟨rfl, rfl⟩ := h5
              rcases addInstance_cases ha with ⟨rfl, rfl, b, hb, hq⟩ | ⟨hu3, happ3, hn⟩
              · right; left
                exact ⟨app3, rfl, by rw [c1, ho1], by rw [c3]; exact hne, fun hne' => by rw [c3]; exact hn1 hne', rfl⟩
              · exact absurd rfl (hn app2 (by simp)).1
    cases hw : a.windows with
    | none =>
      rw [hw] at h
      have := tail u app ho (fun _ => hnm) (.inl ⟨rfl, hnm⟩) h
      rw [hw] at this
      exact this
    | some w =>
      rw [hw] at h
      simp only at h
      cases hwin : windows strict u app w with
      | mk u1 q =>
        obtain ⟨app1, r1⟩ := q
        obtain ⟨w1, w2, w3, w4⟩ := windows_new (by rw [ho]; exact hf) hwin
        rw [hwin] at h
        cases r1 with
        | error e =>
          simp only [Prod.mk.injEq] at h
          obtain ⟨rfl, rfl⟩ := h
          rcases w4 with ⟨rfl, _⟩ | ⟨h, _⟩
          · exact .inl ⟨rfl, fun app h => by cases h⟩
          · cases h
        | ok x =>
          cases x
          simp only at h
          have := tail u1 app1 (by rw [w1, ho]) (fun hne => by rw [w3 (by rw [hnm]; exact hne), hnm]) (by
            rcases w4 with ⟨rfl, hq⟩ | ⟨_, rfl, hne, hcmp⟩
            · left; exact ⟨rfl, by rw [(hq rfl).1, hnm]⟩
            · right; exact ⟨by rw [hw]; simp, rfl, hne, by rw [w2]; exact hcmp⟩) h
          rw [hw] at this
          exact this

/-- **C30, partial.** If `add_appliance` raises, the user is unchanged, provided the durations of the duty cycles given are not
negative.  Missing: a negative duration, for which the appliance stays registered (`C30_left_behind`). -/
theorem C30_rejected_unchanged_partial {strict : Bool} {oid : ℕ} {nd : ℤ} {u u' : User} {a : AddArgs} {e : Err}
    (hf : ∀ b ∈ u.appList, b.oid ≠ oid) (h : addAppliance strict oid nd u a = (u', .error e))
    (hc : ∀ p ∈ a.cycles, 0 ≤ p.2.t1 ∧ 0 ≤ p.2.t2) : u' = u := by
  rcases addAppliance_cases hf h with ⟨h, _⟩ | ⟨app, h, _⟩ | ⟨app, _, _, _, _, _, p, hp, hneg⟩
  · exact h
  · cases h
  · have := hc p hp; omega

/-- **C30, partial.** In particular whenever `add_appliance` raises anything but `ValueError` - such as `InvalidWindow` - the user
is unchanged. -/
theorem C30_invalid_window_partial {strict : Bool} {oid : ℕ} {nd : ℤ} {u u' : User} {a : AddArgs} {e : Err}
    (hf : ∀ b ∈ u.appList, b.oid ≠ oid) (h : addAppliance strict oid nd u a = (u', .error e)) (he : e ≠ .valueError) : u' = u := by
  rcases addAppliance_cases hf h with ⟨h, _⟩ | ⟨app, h, _⟩ | ⟨app, h, _⟩
  · exact h
  · cases h
  · injection h with h; exact absurd h he

/-- **C30, partial.** All that can happen when `add_appliance` raises: the user is unchanged, or windows were given, a duty cycle has a negative
duration, the exception is `ValueError` and exactly one appliance, the rejected one, was appended. -/
theorem C30_outcomes_partial {strict : Bool} {oid : ℕ} {nd : ℤ} {u u' : User} {a : AddArgs} {e : Err}
    (hf : ∀ b ∈ u.appList, b.oid ≠ oid) (h : addAppliance strict oid nd u a = (u', .error e)) :
    u' = u ∨ (e = .valueError ∧ a.windows ≠ none ∧ (∃ p ∈ a.cycles, p.2.t1 < 0 ∨ p.2.t2 < 0) ∧
      ∃ app, app.oid = oid ∧ u' = { u with appList := u.appList ++ [app] }) := by
  rcases addAppliance_cases hf h with ⟨h, _⟩ | ⟨app, h, _⟩ | ⟨app, h1, h2, _, h3, h4, h5⟩
  · exact .inl h
  · cases h
  · injection h1 with h1
    exact .inr ⟨h1, h3, h5, app, h2, h4⟩

/-- A case for C30: two windows are declared and one is given. -/
def missingArgs : AddArgs :=
  { app := { power := .number 7, numWindows := 2, funcTime := 10 }, windows := some { window1 := some (0, 100) } }

example : (addAppliance true 1 366 {} missingArgs).2 = .error .invalidWindow := by rfl

/-- A duty cycle with a negative duration. -/
def negativeArgs : AddArgs :=
  { app := { power := .number 7, funcTime := 10, fixedCycle := 1 }, windows := some { window1 := some (0, 100) },
    cycle1 := some { p1 := 100, t1 := -5 } }

/-- **C30 is false in general.** A negative duration of a duty cycle makes `add_appliance` raise `ValueError` after the appliance
was registered by `windows()`. -/
theorem C30_left_behind : (addAppliance true 1 366 {} negativeArgs).2 = .error .valueError ∧
    (addAppliance true 1 366 {} negativeArgs).1.appList.length = 1 := by
  constructor
  · rfl
  · decide +kernel

/-! ## C31 -/

/-- **C31.** Adding an object that is already in the list changes nothing, whatever the list. -/
theorem C31_idempotent (strict : Bool) (u : User) (app : Appliance) (h : ∃ l1 l2 b, u.appList = l1 ++ b :: l2 ∧ b.oid = app.oid ∧
    ∀ a ∈ l1, ∃ x, appEq strict app a = .ok x) : addInstance strict u app = .ok (u, app) := by
  have : memApps strict app u.appList = .ok true := by
    obtain ⟨l1, l2, b, hl, ho, hc⟩ := h
    rw [hl]
    clear hl
    induction l1 with
    | nil => simp [memApps, ho]
    | cons a l1 ih =>
      show memApps strict app (a :: (l1 ++ b :: l2)) = _
      unfold memApps
      split_ifs
      · rfl
      · obtain ⟨x, hx⟩ := hc a (by simp)
        rw [hx]
        cases x
        · exact ih (fun c hcm => hc c (by simp [hcm]))
        · rfl
  unfold addInstance
  rw [this]

/-- **C31.** Adding appliance objects only ever extends the list at its end, object by object, and adds no object twice. -/
theorem C31_extends (strict : Bool) : ∀ (args : List InstArg) (u : User), (u.appList.map Appliance.oid).Nodup →
    ∃ l, (addInstances strict u args).1 = { u with appList := u.appList ++ l } ∧
      (((addInstances strict u args).1).appList.map Appliance.oid).Nodup ∧
      (∀ b ∈ l, b.name ≠ "" ∧ ∃ a, InstArg.app a ∈ args ∧ b.oid = a.oid ∧ (a.name ≠ "" → b = a)) ∧
      ((addInstances strict u args).2 = .ok () → ∀ x ∈ args, ∃ a, x = InstArg.app a)
  | [], u, h => ⟨[], by simp [addInstances], by simpa [addInstances] using h, by simp, by simp⟩
  | .other :: args, u, h => ⟨[], by simp [addInstances], by simpa [addInstances] using h, by simp, by simp [addInstances]⟩
  | .app a :: args, u, h => by
    unfold addInstances
    cases ha : addInstance strict u a with
    | error e => exact ⟨[], by simp, by simpa using h, by simp, by simp⟩
    | ok p =>
      obtain ⟨u', a'⟩ := p
      simp only
      rcases addInstance_cases ha with ⟨rfl, rfl, _⟩ | ⟨rfl, rfl, hn⟩
      · obtain ⟨l, h1, h2, h3, h4⟩ := C31_extends strict args u' h
        refine ⟨l, h1, h2, ?_, ?_⟩
        · intro b hb
          obtain ⟨g1, c, hc, g2⟩ := h3 b hb
          exact ⟨g1, c, by simp [hc], g2⟩
        · intro hok x hx
          rcases List.mem_cons.1 hx with rfl | hx
          · exact ⟨_, rfl⟩
          · exact h4 hok x hx
      · obtain ⟨l, h1, h2, h3, h4⟩ := C31_extends strict args { u with appList := u.appList ++
            [{ a with name := if a.name = "" then s!"appliance_{u.appList.length + 1}" else a.name }] } (by
          simp only [List.map_append, List.map_cons, List.map_nil]
          rw [List.nodup_append]
          refine ⟨h, by simp, ?_⟩
          intro o ho
          simp only [List.mem_map] at ho
          obtain ⟨b, hb, rfl⟩ := ho
          simp only [List.mem_singleton, forall_eq]
          exact (hn b hb).1)
        refine ⟨{ a with name := if a.name = "" then s!"appliance_{u.appList.length + 1}" else a.name } :: l, ?_, h2, ?_, ?_⟩
        · rw [h1]; simp
        · intro b hb
          rcases List.mem_cons.1 hb with rfl | hb
          · refine ⟨?_, a, by simp, rfl, ?_⟩
            · simp only
              split_ifs with hc
              · exact appliance_name_ne _
              · exact hc
            · intro hc
              rw [if_neg hc]
          · obtain ⟨g1, c, hc, g2⟩ := h3 b hb
            exact ⟨g1, c, by simp [hc], g2⟩
        · intro hok x hx
          rcases List.mem_cons.1 hx with rfl | hx
          · exact ⟨_, rfl⟩
          · exact h4 hok x hx

/-! ## C33: equality of appliances -/

/-- The saved attributes of an appliance (`constants.py:65-106`), except its power. -/
structure SavedAttributes where
  strings : List String
  integers : List ℤ
  numbers : List ℚ
  ranges : List (ℤ × ℤ)
  deriving DecidableEq

/-- The saved attributes, grouped by type. -/
def savedAttributes (a : Appliance) : SavedAttributes where
  strings := [a.name, a.fixed, a.flat]
  integers := [a.number, a.numWindows, a.funcTime, a.funcCycle, a.fixedCycle, a.continuousDutyCycle, a.prefIndex, a.wdWeType,
    a.t11, a.t12, a.t21, a.t22, a.t31, a.t32]
  numbers := [a.timeFractionRandomVariability, a.occasionalUse, a.thermalPVar, a.p11, a.p12, a.rc1, a.p21, a.p22, a.rc2, a.p31, a.p32,
    a.rc3, a.randomVarW]
  ranges := [a.cw11, a.cw12, a.cw21, a.cw22, a.cw31, a.cw32, a.window1, a.window2, a.window3]

theorem attrEq_iff (a b : Appliance) : attrEq a b = true ↔ savedAttributes a = savedAttributes b := by
  unfold attrEq savedAttributes
  simp only [Bool.and_eq_true, beq_iff_eq, SavedAttributes.mk.injEq, List.cons.injEq, and_true]
  tauto

/-- **C33.** For power series of the same length, `==` holds exactly when all saved attributes and the powers agree. -/
theorem C33_equality_iff (strict : Bool) (a b : Appliance) (hl : a.power.length = b.power.length) :
    appEq strict a b = .ok (decide (savedAttributes a = savedAttributes b ∧ a.power = b.power)) := by
  unfold appEq powerEq
  rw [if_pos hl]
  simp only
  congr 1
  rw [Bool.eq_iff_iff, Bool.and_eq_true, attrEq_iff, beq_iff_eq, decide_eq_true_iff]

/-- **C33.** Equality is reflexive. -/
theorem C33_reflexive (strict : Bool) (a : Appliance) : appEq strict a a = .ok true := by
  rw [C33_equality_iff strict a a rfl]; simp

/-- **C33.** Equality is symmetric, exceptions included, for power series of any lengths. -/
theorem C33_symmetric (strict : Bool) (a b : Appliance) : appEq strict a b = appEq strict b a := by
  have hp : powerEq strict a.power b.power = powerEq strict b.power a.power := by
    unfold powerEq
    by_cases h : a.power.length = b.power.length
    · rw [if_pos h, if_pos h.symm]
      congr 1
      rw [Bool.eq_iff_iff, beq_iff_eq, beq_iff_eq]; exact eq_comm
    · have h' : ¬ b.power.length = a.power.length := fun hh => h hh.symm
      by_cases h1 : a.power.length = 1 <;> by_cases h2 : b.power.length = 1
      · exact absurd (h1.trans h2.symm) h
      all_goals (rw [if_neg h, if_neg h'] ; simp only [h1, h2, if_true, if_false])
  have ha : attrEq a b = attrEq b a := by
    rw [Bool.eq_iff_iff, attrEq_iff, attrEq_iff]; exact eq_comm
  unfold appEq
  rw [hp, ha]

/-- **C33.** Equality is transitive for power series of the same length. -/
theorem C33_transitive (strict : Bool) (a b c : Appliance) (h1 : a.power.length = b.power.length)
    (h2 : b.power.length = c.power.length) (hab : appEq strict a b = .ok true) (hbc : appEq strict b c = .ok true) :
    appEq strict a c = .ok true := by
  rw [C33_equality_iff _ _ _ h1] at hab
  rw [C33_equality_iff _ _ _ h2] at hbc
  rw [C33_equality_iff _ _ _ (h1.trans h2)]
  simp only [Except.ok.injEq, decide_eq_true_eq] at *
  exact ⟨hab.1.trans hbc.1, hab.2.trans hbc.2⟩

/-- Without the hypothesis on the lengths transitivity fails: numpy repeats a power series of one value. -/
theorem C33_broadcast_breaks_transitivity : ∃ a b c : Appliance, appEq false a b = .ok true ∧ appEq false b c = .ok true ∧
    appEq false a c = .ok false :=
  ⟨{ power := [5, 5] }, { power := [5] }, { power := [5, 5, 5] }, by decide +kernel, by decide +kernel, by decide +kernel⟩

/-- With numpy 1.25 or later, comparing appliances with power series of different lengths (neither of one value) raises
`ValueError`. -/
theorem C33_raises_iff (a b : Appliance) (e : Err) : appEq true a b = .error e ↔
    e = .valueError ∧ a.power.length ≠ b.power.length ∧ a.power.length ≠ 1 ∧ b.power.length ≠ 1 := by
  constructor
  · intro h
    refine ⟨(appEq_error h).1, ?_⟩
    unfold appEq powerEq at h
    split_ifs at h <;> simp_all
  · rintro ⟨rfl, h1, h2, h3⟩
    unfold appEq powerEq
    rw [if_neg h1, if_neg h2, if_neg h3, if_pos rfl]

/-! ## C32: every added appliance is counted -/

theorem appEq_true_name {strict : Bool} {a b : Appliance} (h : appEq strict a b = .ok true) : a.name = b.name := by
  unfold appEq at h
  split at h
  · cases h
  · injection h with h
    have hs := (attrEq_iff a b).1 (Bool.and_eq_true_iff.1 h).1
    have := congrArg SavedAttributes.strings hs
    simp [savedAttributes] at this
    exact this.1

/-- **C32, partial.** An `add_appliance` call that returns an appliance whose name is not used by an appliance of the list - in
particular an unnamed one, in a list where every appliance has a name - adds exactly that appliance at the end of the list.
Missing: an appliance equal to one of the list is silently dropped (`C32_equal_appliance_dropped`). -/
theorem C32_counted_partial {strict : Bool} {oid : ℕ} {nd : ℤ} {u u' : User} {a : AddArgs} {app : Appliance}
    (hf : ∀ b ∈ u.appList, b.oid ≠ oid) (hn : ∀ b ∈ u.appList, b.name ≠ a.app.name)
    (h : addAppliance strict oid nd u a = (u', .ok app)) : u' = { u with appList := u.appList ++ [app] } := by
  rcases addAppliance_cases hf h with ⟨_, h2⟩ | ⟨app', h1, _, _, _, h2⟩ | ⟨app', h1, _⟩
  · exfalso
    obtain ⟨_, hnm, b, hb, h4⟩ := h2 app rfl
    exact hn b hb (by rw [← hnm, appEq_true_name h4])
  · injection h1 with h1
    subst h1; exact h2
  · cases h1

/-- **C32, partial.** More generally: an `add_appliance` call that returns an appliance adds exactly that appliance at the end of the list, or
the returned appliance is `==` to one of the list and the list is unchanged. -/
theorem C32_counted_or_equal_partial {strict : Bool} {oid : ℕ} {nd : ℤ} {u u' : User} {a : AddArgs} {app : Appliance}
    (hf : ∀ b ∈ u.appList, b.oid ≠ oid) (h : addAppliance strict oid nd u a = (u', .ok app)) :
    u' = { u with appList := u.appList ++ [app] } ∨ (u' = u ∧ ∃ b ∈ u.appList, appEq strict app b = .ok true) := by
  rcases addAppliance_cases hf h with ⟨h1, h2⟩ | ⟨app', h1, _, _, _, h2⟩ | ⟨app', h1, _⟩
  · exact .inr ⟨h1, (h2 app rfl).2.2⟩
  · injection h1 with h1
    subst h1; exact .inl h2
  · cases h1

/-- The lamp of the counterexample below. -/
def lampArgs : AddArgs :=
  { app := { name := "Lamp", power := .number 7, funcTime := 120 }, windows := some { window1 := some (1170, 1440) } }

/-- **C32 is false in general.** Adding two lamps with the same name and attributes returns an appliance each time, but the user
owns one. -/
theorem C32_equal_appliance_dropped :
    let first := addAppliance true 1 366 {} lampArgs
    let second := addAppliance true 2 366 first.1 lampArgs
    first.2.isOk ∧ second.2.isOk ∧ first.1.appList.length = 1 ∧ second.1.appList.length = 1 := by
  decide +kernel

/-- A case for C32: adding a lamp to a user without appliance. -/
example : ∃ app, addAppliance true 1 366 {} lampArgs = ({ appList := [app] }, .ok app) := by
  cases h : addAppliance true 1 366 {} lampArgs with
  | mk u' r =>
    cases r with
    | error e =>
      have hk : ((addAppliance true 1 366 {} lampArgs).2.isOk) = true := by decide +kernel
      rw [h] at hk; cases hk
    | ok app =>
      have := C32_counted_partial (u := {}) (by simp) (by simp) h
      rw [this]
      exact ⟨app, rfl⟩

/-! ## C34: equality of users -/

/-- **C34 is false.** Any two users are equal, whatever their names, numbers, preferences and appliances: the results of the
comparisons are dropped and the test `answer is True` fails for a numpy truth value. -/
theorem C34_always_equal (strict : Bool) (u v : User) : userEq strict u v = .ok true := rfl

/-- **C34, partial.** Only the converse direction holds: users with the same attributes and appliances are equal. -/
theorem C34_equal_users_partial (strict : Bool) (u v : User) (_ : u.userName = v.userName) (_ : u.numUsers = v.numUsers)
    (_ : u.userPreference = v.userPreference) (_ : u.appList = v.appList) : userEq strict u v = .ok true :=
  C34_always_equal strict u v

/-- Two users that agree on nothing are equal. -/
example : userEq true { userName := "a", numUsers := 1 } { userName := "b", numUsers := 2, appList := [{}] } = .ok true := rfl

/-! ## C35: maximum profile -/

/-- **C35, partial.** Right after a successful `windows()` with windows in the day, the maximum profile of the appliance is
0.001 * mean(power) * number in the windows and 0 elsewhere.  Missing: independence of what was simulated before
(`C35_history_dependent`). -/
theorem C35_fresh_profile_partial (strict : Bool) (u : User) (app : Appliance) (w : WindowsArgs)
    (h : (windows strict u app w).2.2 = .ok ())
    (hday : (0 ≤ (windowsAfter app w).1.1 ∧ (windowsAfter app w).1.2 ≤ 1440) ∧
      (0 ≤ (windowsAfter app w).2.1.1 ∧ (windowsAfter app w).2.1.2 ≤ 1440) ∧
      (0 ≤ (windowsAfter app w).2.2.1 ∧ (windowsAfter app w).2.2.2 ≤ 1440))
    (hrv : 0 ≤ w.randomVarW ∧ w.randomVarW ≤ 1) (m : Fin 1440) :
    (windows strict u app w).2.1.maximumProfile m =
      if InWindow (windowsAfter app w).1 m ∨ InWindow (windowsAfter app w).2.1 m ∨ InWindow (windowsAfter app w).2.2 m then
        1 / 1000 * (app.power.sum / app.power.length) * app.number
      else 0 := by
  obtain ⟨_, hw, _, hd⟩ := C29_windows_establish strict u app w h hday hrv
  obtain ⟨app1, hb, u2, app2, ha, hww⟩ := windows_ok h
  simp only [Prod.ext_iff] at hw
  obtain ⟨w1, w2, w3⟩ := hw
  have hpn : (windows strict u app w).2.1.power = app.power ∧ (windows strict u app w).2.1.number = app.number := by
    rw [hww]
    obtain ⟨_, _, _, _, _, _, _, _, hc⟩ := windowsBody_changed app w
    rw [hb] at hc
    simp only at hc
    subst hc
    rcases addInstance_cases ha with ⟨_, rfl, _⟩ | ⟨_, rfl, _⟩ <;> unfold windowsTail <;> split_ifs <;> exact ⟨rfl, rfl⟩
  unfold Appliance.maximumProfile mean
  rw [hd, hpn.1, hpn.2]
  unfold windowProfile InWindow
  simp only [w1, w2, w3, Prod.ext_iff] at *
  split_ifs <;> simp

/-- **C35.** The maximum profile of a user is the number of users times the sum of the maximum profiles of its appliances. -/
theorem C35_user_profile (u : User) (m : Fin 1440) :
    u.maximumProfile m = u.numUsers * (u.appList.map (fun a => a.maximumProfile m)).sum := by
  unfold User.maximumProfile; ring

/-- **C35 is false after a simulation.** The maximum profile is computed from the last generated profile: for a lamp of 7 W in use
60 minutes of its window, a run changes the profile at minute 0 from 0.007 to 49. -/
theorem C35_history_dependent : ∃ app app' info, BuiltAs
    { app := { power := .number 7, funcTime := 60, funcCycle := 60 }, windows := some { window1 := some (0, 100) } } app ∧
    Returns (generateLoadProfileInfo app 1000 0 0 (minutesFrom 0 60) 0 7) (app', some info) ∧
    app.maximumProfile 0 = 7 / 1000 ∧ app'.maximumProfile 0 = 49 := by
  let args : AddArgs := { app := { power := .number 7, funcTime := 60, funcCycle := 60 }, windows := some { window1 := some (0, 100) } }
  have key : (builtBy args).bind (fun app => match generateLoadProfileInfo app 1000 0 0 (minutesFrom 0 60) 0 7 (constantDraws 0) with
      | .ok ((app', some _), _) => some (app.maximumProfile 0, app'.maximumProfile 0)
      | _ => none) = some (7 / 1000, 49) := by decide +kernel
  cases hb : builtBy args with
  | none => rw [hb] at key; simp at key
  | some app =>
    rw [hb] at key
    simp only [Option.bind_some] at key
    cases hr : generateLoadProfileInfo app 1000 0 0 (minutesFrom 0 60) 0 7 (constantDraws 0) with
    | error e => rw [hr] at key; simp at key
    | ok p =>
      obtain ⟨⟨app', o⟩, rng⟩ := p
      rw [hr] at key
      cases o with
      | none => simp at key
      | some info =>
        simp only [Option.some.injEq, Prod.mk.injEq] at key
        exact ⟨app, app', info, builtBy_some hb, ⟨_, _, hr⟩, key⟩

/-! ## C58: the legacy constructor -/

/-- **C58.** The legacy `User.Appliance(...)` with a constant power, for a name not yet used: it registers at the end of the list the
appliance with the given attributes, without windows or duty cycles, which runs its duty cycles continuously. -/
theorem C58_legacy_constructor (strict : Bool) (oid : ℕ) (nd : ℤ) (u : User) (a : LegacyArgs) (p : ℚ) (hp : a.power = .number p)
    (hnd : 0 ≤ nd) (hf : ∀ b ∈ u.appList, b.oid ≠ oid) (hn : ∀ b ∈ u.appList, b.name ≠ a.name)
    (hcmp : ∀ b ∈ u.appList, Comparable strict (List.replicate (nd + 1).toNat p) b.power) :
    legacyAppliance strict oid nd u a =
      let app : Appliance :=
        { oid := oid, name := if a.name = "" then s!"appliance_{u.appList.length + 1}" else a.name, number := a.number,
          power := List.replicate (nd + 1).toNat p, constantPower := true, numWindows := a.numWindows, funcTime := a.funcTime,
          timeFractionRandomVariability := a.timeFractionRandomVariability, funcCycle := a.funcCycle, fixed := a.fixed,
          fixedCycle := a.fixedCycle, continuousDutyCycle := 1, occasionalUse := a.occasionalUse, flat := a.flat,
          thermalPVar := a.thermalPVar, prefIndex := a.prefIndex, wdWeType := a.wdWeType }
      ({ u with appList := u.appList ++ [app] }, .ok app) := by
  unfold legacyAppliance addAppliance mkAppliance
  simp only [hp]
  unfold onesTimes
  rw [if_neg (by omega)]
  simp only [AddArgs.cycles, List.nil_append, addCycles]
  unfold addInstance
  have hmem : ∀ (app : Appliance) (l : List Appliance), app.oid = oid → app.name = a.name → app.power = List.replicate (nd + 1).toNat p →
      (∀ b ∈ l, b.oid ≠ oid) → (∀ b ∈ l, b.name ≠ a.name) →
      (∀ b ∈ l, Comparable strict (List.replicate (nd + 1).toNat p) b.power) → memApps strict app l = .ok false := by
    intro app l ho hna hpo
    induction l with
    | nil => intros; rfl
    | cons b l ih =>
      intro h1 h2 h3
      unfold memApps
      rw [if_neg (by rw [ho]; exact h1 b (by simp))]
      obtain ⟨x, hx⟩ := h3 b (by simp)
      have hq : appEq strict app b = .ok false := by
        cases hq : appEq strict app b with
        | error e =>
          have hne := (appEq_error hq).2
          rw [hpo] at hne
          exact absurd ⟨x, hx⟩ hne
        | ok y =>
          cases y with
          | false => rfl
          | true => exact absurd (by rw [← hna, appEq_true_name hq]) (h2 b (by simp))
      rw [hq]
      exact ih (fun c hc => h1 c (by simp [hc])) (fun c hc => h2 c (by simp [hc])) (fun c hc => h3 c (by simp [hc]))
  rw [hmem _ u.appList rfl rfl rfl hf hn hcmp]
  simp only
  split_ifs with hc
  · rfl
  · rfl

/-- **C58.** The legacy constructor does what `add_appliance` does with the same attributes, exceptions and the user included. -/
theorem C58_same_as_add_appliance (strict : Bool) (oid : ℕ) (nd : ℤ) (u : User) (a : LegacyArgs) (b : AddArgs)
    (hs : [b.app.name, b.app.fixed, b.app.flat] = [a.name, a.fixed, a.flat])
    (hi : [b.app.number, b.app.numWindows, b.app.funcTime, b.app.funcCycle, b.app.fixedCycle, b.app.prefIndex, b.app.wdWeType] =
      [a.number, a.numWindows, a.funcTime, a.funcCycle, a.fixedCycle, a.prefIndex, a.wdWeType])
    (hq : [b.app.timeFractionRandomVariability, b.app.occasionalUse, b.app.thermalPVar] =
      [a.timeFractionRandomVariability, a.occasionalUse, a.thermalPVar])
    (hp : b.app.power = a.power) (hc : b.app.continuousDutyCycle = 1) (hw : b.windows = none)
    (h1 : b.cycle1 = none) (h2 : b.cycle2 = none) (h3 : b.cycle3 = none) :
    legacyAppliance strict oid nd u a = addAppliance strict oid nd u b := by
  obtain ⟨⟨⟩, w, c1, c2, c3⟩ := b
  simp only [List.cons.injEq, and_true] at hs hi hq
  simp only at hp hc hw h1 h2 h3
  subst hw h1 h2 h3
  obtain ⟨rfl, rfl, rfl⟩ := hs
  obtain ⟨rfl, rfl, rfl, rfl, rfl, rfl, rfl⟩ := hi
  obtain ⟨rfl, rfl, rfl⟩ := hq
  subst hp hc
  rfl

/-- A case for C58. -/
example : (legacyAppliance true 1 366 {} { number := 2, power := .number 7, funcTime := 120 }).2.isOk := by decide +kernel

end Ramp
