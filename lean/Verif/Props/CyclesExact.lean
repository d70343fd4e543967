import Verif.Props.Cycles
import Verif.Lemmas.Finitary

/-! # C28 and C72, exactly: when a duty-cycle appliance can fail -/

set_option autoImplicit false

namespace Ramp

theorem overlaps_mono {app : Appliance} {a d e : ℤ} (h : e ≤ d) :
    (Overlaps1 app a (a + e - 1) → Overlaps1 app a (a + d - 1)) ∧ (Overlaps2 app a (a + e - 1) → Overlaps2 app a (a + d - 1)) ∧
    (Overlaps3 app a (a + e - 1) → Overlaps3 app a (a + d - 1)) := by
  unfold Overlaps1 Overlaps2 Overlaps3 ShareMinute
  refine ⟨?_, ?_, ?_⟩
  all_goals
    rintro (⟨m, h1, h2⟩ | ⟨m, h1, h2⟩)
    · exact .inl ⟨m, by omega, h2⟩
    · exact .inr ⟨m, by omega, h2⟩

/-- The shortest event at minute `a`, when it overlaps no duty cycle window, can be drawn again and again until the recursion limit is
reached, whatever the other free ranges. -/
theorem reachErr_shortest (depth : ℕ) (app : Appliance) (randTime a : ℤ) (h1 : 1 ≤ app.funcCycle) (hrt : app.funcCycle ≤ randTime)
    (hfix : 0 < app.fixedCycle) {s : Spot} (hs : s ∈ app.freeSpots) (ha : s.start ≤ a) (had : a + app.funcCycle ≤ s.stop)
    (hsel : selectDutyCycle app a (a + app.funcCycle - 1) = none) :
    ReachErr (randSwitchOnWindow depth app randTime) .recursionError := by
  have hmem : a ∈ switchOnChoices app.freeSpots app.funcCycle :=
    mem_switchOnChoices.2 ⟨s, hs, ha, by omega, by omega⟩
  obtain ⟨k, hk, hka⟩ := List.mem_iff_getElem.1 hmem
  obtain ⟨s', hf, hs', hp⟩ := find?_exists
    (p := fun fs : Spot => decide (fs.start ≤ a) && decide (a ≤ fs.stop - app.funcCycle)) hs (by simp; omega)
  simp only [Bool.and_eq_true, decide_eq_true_eq] at hp
  induction depth with
  | zero => exact reachErr_raise _
  | succ depth ih =>
    rw [randSwitchOnWindow_succ, if_pos (by omega)]
    refine reachErr_bind (reach_randint (k := (k : ℤ)) (by omega) (by omega)) ?_
    rw [Int.toNat_natCast, List.getElem?_eq_getElem hk, hka]
    simp only
    rw [hf]
    simp only
    unfold afterStart
    refine reachErr_bind (reach_duration (d := app.funcCycle) h1 le_rfl (by omega)) ?_
    rw [if_pos hfix, head?_arange (by omega), getLast?_arange (by omega)]
    simp only [hsel]
    exact ih

theorem moved_self {w : ℤ × ℤ} {r : ℤ} (hw : DayWindow w) (hr : 0 ≤ r) : MovedWindow w r w := by
  refine ⟨w.1, w.2, by omega, by omega, ?_⟩
  unfold DayWindow at hw
  ext <;> simp <;> omega

/-- Some minutes of one possible window of the day, as long as the shortest event, that overlap no duty cycle window. -/
def UncoveredEvent (app : Appliance) : Prop :=
  ∃ w a, (MovedWindow app.window1 app.randomVar1 w ∨ MovedWindow app.window2 app.randomVar2 w ∨ MovedWindow app.window3 app.randomVar3 w) ∧
    w.1 ≤ a ∧ a + app.funcCycle ≤ w.2 ∧ ¬ Overlaps1 app a (a + app.funcCycle - 1) ∧ ¬ Overlaps2 app a (a + app.funcCycle - 1) ∧
    ¬ Overlaps3 app a (a + app.funcCycle - 1)

theorem raises_uncovered {app : Appliance} {depth : ℕ} {pref : ℤ} {profI : ℕ} {peak : List ℤ} {dayType : ℤ} {power : ℚ}
    (hs : SafeConfig app) (hc : OrderedCycleWindows app) (hfix : 0 < app.fixedCycle) (hfl : app.flat ≠ "yes")
    (hskip : ¬ SkippedForSure app pref dayType) (hocc : 0 ≤ app.occasionalUse) (h : UncoveredEvent app) :
    Raises (generateLoadProfileInfo app (depth + 1) pref profI peak dayType power) .recursionError := by
  obtain ⟨w, a, hm, ha, had, n1, n2, n3⟩ := h
  have hw := hs.windows
  -- the windows of that day
  obtain ⟨w1, w2, w3, m1, m2, m3, hmem⟩ : ∃ w1 w2 w3, MovedWindow app.window1 app.randomVar1 w1 ∧ MovedWindow app.window2 app.randomVar2 w2 ∧
      MovedWindow app.window3 app.randomVar3 w3 ∧ (w = w1 ∨ w = w2 ∨ w = w3) := by
    rcases hm with m | m | m
    · exact ⟨w, app.window2, app.window3, m, moved_self hw.w2 hw.r2.1, moved_self hw.w3 hw.r3.1, .inl rfl⟩
    · exact ⟨app.window1, w, app.window3, moved_self hw.w1 hw.r1.1, m, moved_self hw.w3 hw.r3.1, .inr (.inl rfl)⟩
    · exact ⟨app.window1, app.window2, w, moved_self hw.w1 hw.r1.1, moved_self hw.w2 hw.r2.1, m, .inr (.inr rfl)⟩
  have shrink : ∀ {w v : ℤ × ℤ} {r : ℤ}, DayWindow w → 0 ≤ r → MovedWindow w r v → w.2 - w.1 - 2 * r ≤ v.2 - v.1 := by
    rintro w v r hd hr ⟨a, b, ha, hb, rfl⟩
    unfold DayWindow at hd
    simp only
    omega
  have s1 := shrink hw.w1 hw.r1.1 m1
  have s2 := shrink hw.w2 hw.r2.1 m2
  have s3 := shrink hw.w3 hw.r3.1 m3
  have hh1 := hs.half1
  have hh2 := hs.half2
  have hh3 := hs.half3
  have hfc := hs.fc
  have b1 := m1.bounds hw.w1 hw.r1
  have b2 := m2.bounds hw.w2 hw.r2
  have b3 := m3.bounds hw.w3 hw.r3
  -- the time of use can be drawn
  have hge : totalTime app.window1 app.window2 app.window3 - 2 * (app.randomVar1 + app.randomVar2 + app.randomVar3)
      ≤ totalTime w1 w2 w3 := by
    unfold totalTime
    omega
  have hpos : 0 ≤ totalTime w1 w2 w3 := by
    refine le_trans ?_ hge
    unfold totalTime
    omega
  obtain ⟨rt, hrt⟩ : ∃ rt, Returns (randTotalTimeOfUse { app with dailyUse := zeros } w1 w2 w3) rt := by
    cases hr : randTotalTimeOfUse { app with dailyUse := zeros } w1 w2 w3 (fun _ => draw0) with
    | ok p => exact ⟨p.1, _, p.2, hr⟩
    | error e =>
      exfalso
      have hE := (C08_failure_iff { app with dailyUse := zeros } w1 w2 w3 hs.ft hs.var.1 hs.var.2 hpos (fun _ => draw0))
      have hv := hE.2 _ hr
      subst hv
      have hlt := hE.1.1 hr
      have hroom := hs.room
      have : ((totalTime app.window1 app.window2 app.window3 - 2 * (app.randomVar1 + app.randomVar2 + app.randomVar3) : ℤ) : ℚ)
          ≤ (totalTime w1 w2 w3 : ℤ) := by exact_mod_cast hge
      simp only at hlt
      linarith
  have hrtge : app.funcCycle ≤ rt := (sat_randTime_ge _ _ _ _).ret hrt
  have hfill : fillWindows w1 w2 w3 (1 / 1000) = .ok (windowProfile w1 w2 w3 (1 / 1000)) := by
    rcases fillWindows_cases (w1 := w1) (w2 := w2) (w3 := w3) (1 / 1000) ⟨b1.1, b1.2.2.2.1⟩ ⟨b2.1, b2.2.2.2.1⟩
        ⟨b3.1, b3.2.2.2.1⟩ with ⟨_, _, _, hf⟩ | ⟨hr, hf⟩
    · exact hf
    · omega
  -- the duty cycles can be drawn
  obtain ⟨app0, h0⟩ : ∃ app0, Returns (assignRandomCycles { { app with dailyUse := zeros } with dailyUse := windowProfile w1 w2 w3 (1 / 1000) }) app0 := by
    have hvc := hs.cycles
    have hn := (C71_cycles_of_the_day { { app with dailyUse := zeros } with dailyUse := windowProfile w1 w2 w3 (1 / 1000) }
      ⟨hvc.tv, hvc.t11, hvc.t12, hvc.t21, hvc.t22, hvc.t31, hvc.t32, hvc.rc1, hvc.rc2, hvc.rc3⟩).1
    obtain ⟨x, r, hx⟩ := hn.total (fun _ => draw0)
    exact ⟨x, _, r, hx⟩
  obtain ⟨c1, c2, c3, hset⟩ := (sat_assignRandomCycles_cfg _).ret h0
  unfold generateLoadProfileInfo
  refine (raises_bind (fin_uniform _ _)).2 (.inr ⟨0, (reach_uniform_of_mem le_rfl (by norm_num)).returns, ?_⟩)
  rw [if_neg]
  rotate_left
  · unfold SkippedForSure at hskip
    simp only
    push Not at hskip ⊢
    refine ⟨by linarith, hskip.1, ?_, hskip.2.2⟩
    by_contra hcon
    push Not at hcon
    exact hcon.2 (hskip.2.1 hcon.1)
  refine (raises_bind (fin_calcRandWindow _ _)).2 (.inr ⟨w1, (reach_calcRandWindow m1).returns, ?_⟩)
  refine (raises_bind (fin_calcRandWindow _ _)).2 (.inr ⟨w2, (reach_calcRandWindow m2).returns, ?_⟩)
  refine (raises_bind (fin_calcRandWindow _ _)).2 (.inr ⟨w3, (reach_calcRandWindow m3).returns, ?_⟩)
  refine (raises_bind (fin_randTotalTimeOfUse _ _ _ _)).2 (.inr ⟨rt, hrt, ?_⟩)
  rw [if_neg hfl]
  refine (raises_bind (fin_liftE _)).2 (.inr ⟨_, (reach_liftE hfill).returns, ?_⟩)
  refine (raises_bind (fin_assignRandomCycles _)).2 (.inr ⟨app0, h0, ?_⟩)
  refine (raises_bind (fin_switchOnLoop _ _ _ _ _ _ _ _)).2 (.inl ?_)
  unfold switchOnLoop
  rw [if_pos ⟨by omega, by omega⟩]
  refine (raises_bind (fin_randSwitchOnWindow _ _ _)).2 (.inl ?_)
  have hfc0 : app0.funcCycle = app.funcCycle := by rw [hset]
  have hc0 : OrderedCycleWindows { app0 with freeSpots := initialSpots [w1, w2, w3] } := by
    rw [hset]; exact ⟨hc.c11, hc.c12, hc.c21, hc.c22, hc.c31, hc.c32⟩
  refine (reachErr_shortest _ _ rt a (by simp only [hfc0]; exact hfc) (by simp only [hfc0]; exact hrtge) (by rw [hset]; exact hfix)
    (s := ⟨w.1, w.2⟩) ?_ ha (by simp only [hfc0]; exact had) ?_).raises
  · simp only [initialSpots, List.mem_map, List.mem_filter]
    refine ⟨w, ⟨?_, ?_⟩, rfl⟩
    · rcases hmem with rfl | rfl | rfl <;> simp
    · simp only [ne_eq, decide_not, Bool.not_eq_eq_eq_not, Bool.not_true, decide_eq_false_iff_not]
      omega
  · rw [selectDutyCycle_none_iff hc0 (by simp only [hfc0]; omega)]
    simp only [hfc0]
    rw [hset]
    exact ⟨n1, n2, n3⟩

/-- **C28, C72 exactly.** A safe configuration with duty cycles that can be used on that day fails for some random outcome exactly when some
possible event of minimal length overlaps no duty cycle window; the exception is then `RecursionError`. -/
theorem C28_exact {app : Appliance} {depth : ℕ} {pref : ℤ} {profI : ℕ} {peak : List ℤ} {dayType : ℤ} {power : ℚ}
    (hs : SafeConfig app) (hp : peak ≠ []) (hc : OrderedCycleWindows app) (hfix : 0 < app.fixedCycle) (hcont : app.continuousDutyCycle ≠ 0)
    (hfl : app.flat ≠ "yes") (hskip : ¬ SkippedForSure app pref dayType) (hocc : 0 ≤ app.occasionalUse) (e : Err) :
    Raises (generateLoadProfile app (depth + 1) pref profI peak dayType power) e ↔ e = .recursionError ∧ UncoveredEvent app := by
  rw [raises_generate_iff]
  constructor
  · intro he
    obtain ⟨rfl, _, h | ⟨_, w, a, d, hm, ha, had, hd, n1, n2, n3⟩⟩ := raises_safe hs hp (fun h => absurd h hfl) (fun _ => hcont) hc he
    · omega
    · have := overlaps_mono (app := app) (a := a) hd
      exact ⟨rfl, w, a, hm, ha, by omega, fun h => n1 (this.1 h), fun h => n2 (this.2.1 h), fun h => n3 (this.2.2 h)⟩
  · rintro ⟨rfl, h⟩
    exact raises_uncovered hs hc hfix hfl hskip hocc h

/-- A case for C28_exact: the appliance with one duty cycle and three windows of use. -/
example : ∃ app, BuiltAs threeWindowsArgs app ∧ ∀ e, Raises (generateLoadProfile app 1000 0 0 (minutesFrom 1000 60) 0 100) e ↔ e = .recursionError := by
  have hb : ∃ app, builtBy threeWindowsArgs = some app := ⟨_, rfl⟩
  obtain ⟨app, hb⟩ := hb
  have h1 : ((builtBy threeWindowsArgs).map fun a => [a.window1, a.window2, a.window3, a.cw11, a.cw12, a.cw21, a.cw22, a.cw31,
      a.cw32]) = some [(0, 10), (20, 30), (100, 1000), (0, 10), (20, 30), (0, 0), (0, 0), (0, 0), (0, 0)] := by decide +kernel
  have h2 : ((builtBy threeWindowsArgs).map fun a => [a.randomVar1, a.randomVar2, a.randomVar3, a.funcCycle, a.funcTime, a.number,
      a.t11, a.t12, a.t21, a.t22, a.t31, a.t32, a.fixedCycle, a.continuousDutyCycle, a.prefIndex, a.wdWeType]) =
      some [0, 0, 0, 20, 500, 1, 10, 10, 0, 0, 0, 0, 1, 1, 0, 2] := by decide +kernel
  have h3 : ((builtBy threeWindowsArgs).map fun a => [a.timeFractionRandomVariability, a.thermalPVar, a.rc1, a.rc2, a.rc3,
      a.occasionalUse]) = some [0, 0, 0, 0, 0, 1] := by decide +kernel
  have h4 : ((builtBy threeWindowsArgs).map fun a => a.flat) = some "no" := by decide +kernel
  rw [hb] at h1 h2 h3 h4
  simp only [Option.map_some, Option.some.injEq, List.cons.injEq, and_true] at h1 h2 h3 h4
  obtain ⟨e1, e2, e3, c1, c2, c3, c4, c5, c6⟩ := h1
  obtain ⟨r1, r2, r3, hfc, hft, hn, h11, h12, h21, h22, h31, h32, hfix, hcd, hpi, hwd⟩ := h2
  obtain ⟨hv, htv, hrc1, hrc2, hrc3, hocc⟩ := h3
  have hfl := h4
  have hs : SafeConfig app := by
    refine ⟨⟨?_, ?_, ?_, ?_, ?_, ?_⟩, ?_, ?_, ?_, ?_, ?_, ?_, ?_, ?_, ⟨?_, ?_, ?_, ?_, ?_, ?_, ?_, ?_, ?_, ?_⟩⟩
    all_goals simp only [DayWindow, e1, e2, e3, r1, r2, r3, hfc, hft, hv, hn, htv, hrc1, hrc2, hrc3, h11, h12, h21, h22, h31, h32,
      totalTime]
    all_goals norm_num
  have hc : OrderedCycleWindows app := by
    refine ⟨?_, ?_, ?_, ?_, ?_, ?_⟩
    all_goals simp only [c1, c2, c3, c4, c5, c6]
    all_goals norm_num
  refine ⟨app, builtBy_some hb, fun e => ?_⟩
  rw [C28_exact (depth := 999) hs (by simp [minutesFrom]) hc (by omega) (by rw [hcd]; simp) (by rw [hfl]; simp) ?_ (by rw [hocc]; norm_num) e]
  · refine and_iff_left ⟨(100, 1000), 100, .inr (.inr ?_), by simp, by rw [hfc]; simp, ?_, ?_, ?_⟩
    · rw [e3, r3]; exact ⟨100, 1000, by omega, by omega, rfl⟩
    all_goals
      simp only [Overlaps1, Overlaps2, Overlaps3, ShareMinute, c1, c2, c3, c4, c5, c6, hfc]
      rintro (⟨m, h1, h2⟩ | ⟨m, h1, h2⟩) <;> omega
  · unfold SkippedForSure
    rw [hpi, hwd, hft]
    simp

end Ramp
