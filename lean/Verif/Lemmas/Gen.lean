import Verif.Lemmas.Loop

/-! # `generate_load_profile` as a whole -/

set_option autoImplicit false

namespace Ramp

theorem sat_calcRandWindow {w : ℤ × ℤ} {r : ℤ} (hr : 0 ≤ r) {E : Err → Prop} :
    Sat (calcRandWindow w r) (fun v => MovedWindow w r v) E := by
  unfold calcRandWindow
  refine sat_bind (sat_randint (fun a ha1 ha2 => ?_) (fun h => by omega))
  refine sat_bind (sat_randint (fun b hb1 hb2 => sat_pure ⟨a, b, ⟨ha1, ha2⟩, ⟨hb1, hb2⟩, ?_⟩) (fun h => by omega))
  simp only [Prod.mk.injEq]
  constructor <;> split_ifs <;> omega

theorem reach_calcRandWindow {w v : ℤ × ℤ} {r : ℤ} (h : MovedWindow w r v) : Reach (calcRandWindow w r) v := by
  obtain ⟨a, b, ⟨ha1, ha2⟩, ⟨hb1, hb2⟩, rfl⟩ := h
  refine reach_bind (reach_randint ha1 ha2) (reach_bind (reach_randint hb1 hb2) (reach_pure' ?_))
  simp only [Prod.mk.injEq]
  constructor <;> split_ifs <;> omega

theorem MovedWindow.bounds {w v : ℤ × ℤ} {r : ℤ} (h : MovedWindow w r v) (hw : DayWindow w) (hr : 0 ≤ r ∧ r ≤ w.2 - w.1) :
    0 ≤ v.1 ∧ v.1 ≤ 1440 ∧ 0 ≤ v.2 ∧ v.2 ≤ 1440 ∧ w.1 - r ≤ v.1 ∧ v.1 ≤ w.1 + r ∧ w.2 - r ≤ v.2 ∧ v.2 ≤ w.2 + r := by
  obtain ⟨a, b, ha, hb, rfl⟩ := h
  unfold DayWindow at hw
  simp only
  omega

theorem fillSlice_day (p : Profile) (lo hi : ℤ) (v : ℚ) (h0 : 0 ≤ lo) (h1 : lo ≤ hi) (h2 : hi ≤ 1440) :
    fillSlice p lo hi (hi - lo) v = .ok (fun i => if lo ≤ (i : ℤ) ∧ (i : ℤ) < hi then v else p i) := by
  unfold fillSlice
  rw [if_neg (by omega)]
  have e1 : sliceBound lo = lo := by unfold sliceBound; rw [if_neg (by omega)]; omega
  have e2 : sliceBound hi = hi := by unfold sliceBound; rw [if_neg (by omega)]; omega
  simp only [e1, e2]
  rw [if_pos (by omega)]

theorem fillSlice_reversed (p : Profile) (lo hi : ℤ) (v : ℚ) (h : hi < lo) :
    fillSlice p lo hi (hi - lo) v = .error .valueError := by
  unfold fillSlice
  rw [if_pos (by omega)]

theorem windowProfile_def (w1 w2 w3 : ℤ × ℤ) (v : ℚ) (i : Fin 1440) :
    windowProfile w1 w2 w3 v i = if InWindow w1 i ∨ InWindow w2 i ∨ InWindow w3 i then v else 0 := by
  rfl

theorem fillWindows_ok {w1 w2 w3 : ℤ × ℤ} (v : ℚ) (h1 : DayWindow w1) (h2 : DayWindow w2) (h3 : DayWindow w3) :
    fillWindows w1 w2 w3 v = .ok (windowProfile w1 w2 w3 v) := by
  unfold fillWindows
  rw [fillSlice_day _ _ _ _ h1.1 h1.2.1 h1.2.2]
  show (fillSlice _ w2.1 w2.2 (w2.2 - w2.1) v >>= _) = _
  rw [fillSlice_day _ _ _ _ h2.1 h2.2.1 h2.2.2]
  show fillSlice _ w3.1 w3.2 (w3.2 - w3.1) v = _
  rw [fillSlice_day _ _ _ _ h3.1 h3.2.1 h3.2.2]
  congr 1; funext i
  rw [windowProfile_def]
  unfold InWindow zeros
  split_ifs <;> first | rfl | (exfalso; omega)

theorem fillWindows_cases {w1 w2 w3 : ℤ × ℤ} (v : ℚ) (b1 : 0 ≤ w1.1 ∧ w1.2 ≤ 1440) (b2 : 0 ≤ w2.1 ∧ w2.2 ≤ 1440)
    (b3 : 0 ≤ w3.1 ∧ w3.2 ≤ 1440) :
    (DayWindow w1 ∧ DayWindow w2 ∧ DayWindow w3 ∧ fillWindows w1 w2 w3 v = .ok (windowProfile w1 w2 w3 v)) ∨
    ((w1.2 < w1.1 ∨ w2.2 < w2.1 ∨ w3.2 < w3.1) ∧ fillWindows w1 w2 w3 v = .error .valueError) := by
  by_cases h1 : w1.2 < w1.1
  · right
    refine ⟨.inl h1, ?_⟩
    unfold fillWindows
    rw [fillSlice_reversed _ _ _ _ h1]; rfl
  by_cases h2 : w2.2 < w2.1
  · right
    refine ⟨.inr (.inl h2), ?_⟩
    unfold fillWindows
    rw [fillSlice_day _ _ _ _ b1.1 (by omega) b1.2]
    show (fillSlice _ w2.1 w2.2 (w2.2 - w2.1) v >>= _) = _
    rw [fillSlice_reversed _ _ _ _ h2]; rfl
  by_cases h3 : w3.2 < w3.1
  · right
    refine ⟨.inr (.inr h3), ?_⟩
    unfold fillWindows
    rw [fillSlice_day _ _ _ _ b1.1 (by omega) b1.2]
    show (fillSlice _ w2.1 w2.2 (w2.2 - w2.1) v >>= _) = _
    rw [fillSlice_day _ _ _ _ b2.1 (by omega) b2.2]
    show fillSlice _ w3.1 w3.2 (w3.2 - w3.1) v = _
    rw [fillSlice_reversed _ _ _ _ h3]
  · left
    have d1 : DayWindow w1 := ⟨b1.1, by omega, b1.2⟩
    have d2 : DayWindow w2 := ⟨b2.1, by omega, b2.2⟩
    have d3 : DayWindow w3 := ⟨b3.1, by omega, b3.2⟩
    exact ⟨d1, d2, d3, fillWindows_ok v d1 d2 d3⟩

/-- Only the three duty cycles change. -/
def CyclesSet (app app0 : Appliance) : Prop :=
  ∃ c1 c2 c3, app0 = { app with randomCycle1 := c1, randomCycle2 := c2, randomCycle3 := c3 }

theorem sat_assignRandomCycles_cfg (app : Appliance) : Sat (assignRandomCycles app) (CyclesSet app) (fun _ => True) := by
  unfold assignRandomCycles
  refine sat_ite (fun _ => ?_) (fun _ => sat_pure ⟨_, _, _, rfl⟩)
  refine sat_bind' sat_true fun p11 _ => ?_
  refine sat_bind' sat_true fun p12 _ => ?_
  refine sat_bind' sat_true fun c1 _ => ?_
  refine sat_ite (fun _ => ?_) (fun _ => sat_pure ⟨_, _, _, rfl⟩)
  refine sat_bind' sat_true fun p21 _ => ?_
  refine sat_bind' sat_true fun p22 _ => ?_
  refine sat_bind' sat_true fun c2 _ => ?_
  refine sat_ite (fun _ => ?_) (fun _ => sat_pure ⟨_, _, _, rfl⟩)
  refine sat_bind' sat_true fun p31 _ => ?_
  refine sat_bind' sat_true fun p32 _ => ?_
  refine sat_bind' sat_true fun d1 _ => ?_
  refine sat_bind' sat_true fun d2 _ => ?_
  refine sat_bind' sat_true fun d3 _ => ?_
  exact sat_pure ⟨_, _, _, rfl⟩

theorem sat_randTime_ge (app : Appliance) (w1 w2 w3 : ℤ × ℤ) :
    Sat (randTotalTimeOfUse app w1 w2 w3) (fun t => app.funcCycle ≤ t) (fun e => e = .valueError) := by
  unfold randTotalTimeOfUse
  refine sat_bind' (P := fun _ => True) (sat_bind (sat_uniform fun u _ _ => sat_pure trivial)) fun rv _ => ?_
  refine sat_bind (sat_uniform fun u _ _ => ?_)
  exact sat_ite (fun _ => sat_raise rfl) (fun h => sat_pure (by omega))

/-- What a successful run that is not skipped looks like. -/
structure RunOK (app : Appliance) (profI : ℕ) (peak : List ℤ) (power : ℚ) (app' : Appliance) (info : RunInfo) : Prop where
  m1 : MovedWindow app.window1 app.randomVar1 info.w1
  m2 : MovedWindow app.window2 app.randomVar2 info.w2
  m3 : MovedWindow app.window3 app.randomVar3 info.w3
  d1 : DayWindow info.w1
  d2 : DayWindow info.w2
  d3 : DayWindow info.w3
  time : Returns (randTotalTimeOfUse app info.w1 info.w2 info.w3) info.randTime
  run : (app.flat = "yes" ∧ info.bookings = [] ∧ ∃ pw, app.power[profI]? = some pw ∧
      app' = { app with dailyUse := windowProfile info.w1 info.w2 info.w3 (pw * app.number) }) ∨
    (app.flat ≠ "yes" ∧ ∃ base app0,
      base = windowProfile info.w1 info.w2 info.w3 (1 / 1000) ∧
      Returns (assignRandomCycles { app with dailyUse := base }) app0 ∧ CyclesSet { app with dailyUse := base } app0 ∧
      LoopPost ⟨app0, [info.w1, info.w2, info.w3].filter (fun w => w.1 ≠ w.2), info.randTime, peak, power, base⟩ app'
        info.bookings.reverse)

theorem loop_start (app0 : Appliance) (w1 w2 w3 : ℤ × ℤ) (rt : ℤ) (peak : List ℤ) (power : ℚ) (base : Profile)
    (d1 : DayWindow w1) (d2 : DayWindow w2) (d3 : DayWindow w3) (hbase : app0.dailyUse = base) :
    LoopInv ⟨app0, [w1, w2, w3].filter (fun w => w.1 ≠ w.2), rt, peak, power, base⟩
      { app0 with freeSpots := initialSpots [w1, w2, w3] } [] := by
  refine ⟨⟨app0.dailyUse, _, app0.currentDutyCycleId, rfl⟩, ?_, by simp, ?_, ?_⟩
  · intro s hs
    simp only [initialSpots, List.mem_map] at hs
    obtain ⟨w, hw, rfl⟩ := hs
    refine ⟨?_, w, hw, le_rfl, le_rfl⟩
    have hm := List.mem_of_mem_filter hw
    simp only [List.mem_cons, List.not_mem_nil, or_false] at hm
    rcases hm with rfl | rfl | rfl
    · exact d1.2.1
    · exact d2.2.1
    · exact d3.2.1
  · rw [show ({ app0 with freeSpots := initialSpots [w1, w2, w3] } : Appliance).dailyUse = base from hbase]
    exact Painted.nil
  · intro hap
    simp only at hap ⊢
    refine ⟨⟨?_, ?_⟩, ?_, List.Pairwise.nil⟩
    · intro s hs
      simp only [initialSpots, List.mem_map] at hs
      obtain ⟨w, hw, rfl⟩ := hs
      have hm := List.mem_of_mem_filter hw
      simp only [List.mem_cons, List.not_mem_nil, or_false] at hm
      rcases hm with rfl | rfl | rfl
      · exact d1.2.1
      · exact d2.2.1
      · exact d3.2.1
    · unfold initialSpots
      rw [List.pairwise_map]
      exact hap
    · intro m
      simp only [List.not_mem_nil, false_imp_iff, implies_true, and_true, Avail, initialSpots, List.mem_map, InWindow]
      constructor
      · rintro ⟨s, ⟨w, hw, rfl⟩, h⟩; exact ⟨w, hw, h⟩
      · rintro ⟨w, hw, h⟩; exact ⟨⟨w.1, w.2⟩, ⟨w, hw, rfl⟩, h⟩

/-- Exceptions of a run, one clause per cause. -/
inductive GenErr (app : Appliance) (depth profI : ℕ) (peak : List ℤ) : Err → Prop
  /-- a randomised window came out reversed -/
  | reversed {w1 w2 w3} : MovedWindow app.window1 app.randomVar1 w1 → MovedWindow app.window2 app.randomVar2 w2 →
      MovedWindow app.window3 app.randomVar3 w3 → (w1.2 < w1.1 ∨ w2.2 < w2.1 ∨ w3.2 < w3.1) →
      GenErr app depth profI peak .valueError
  /-- the time of use could not be drawn -/
  | time {w1 w2 w3 e} : MovedWindow app.window1 app.randomVar1 w1 → MovedWindow app.window2 app.randomVar2 w2 →
      MovedWindow app.window3 app.randomVar3 w3 → Raises (randTotalTimeOfUse app w1 w2 w3) e → GenErr app depth profI peak e
  /-- no power value for the day (flat appliances) -/
  | power : app.flat = "yes" → app.power[profI]? = none → GenErr app depth profI peak .indexError
  /-- the duty cycles could not be drawn -/
  | cycles {d e} : app.flat ≠ "yes" → Raises (assignRandomCycles { app with dailyUse := d }) e → GenErr app depth profI peak e
  /-- an exception of the switch-on loop -/
  | loop {d app0 w1 w2 w3 rt power base e} : app.flat ≠ "yes" → MovedWindow app.window1 app.randomVar1 w1 →
      MovedWindow app.window2 app.randomVar2 w2 → MovedWindow app.window3 app.randomVar3 w3 →
      Returns (assignRandomCycles { app with dailyUse := d }) app0 → CyclesSet { app with dailyUse := d } app0 →
      LoopErr ⟨app0, [w1, w2, w3].filter (fun w => w.1 ≠ w.2), rt, peak, power, base⟩ depth e →
      GenErr app depth profI peak e

theorem sat_generateInfo (app : Appliance) (depth : ℕ) (pref : ℤ) (profI : ℕ) (peak : List ℤ) (dayType : ℤ) (power : ℚ)
    (hw : ValidWindows app) (hfc : 1 ≤ app.funcCycle) :
    Sat (generateLoadProfileInfo app depth pref profI peak dayType power)
      (fun r => (r.2 = none ∧ r.1 = { app with dailyUse := zeros } ∧
          (SkippedForSure app pref dayType ∨ app.occasionalUse < 1)) ∨
        ∃ info, r.2 = some info ∧ ¬ SkippedForSure app pref dayType ∧ 0 ≤ app.occasionalUse ∧
          RunOK { app with dailyUse := zeros } profI peak power r.1 info)
      (fun e => ¬ SkippedForSure app pref dayType ∧ GenErr { app with dailyUse := zeros } depth profI peak e) := by
  unfold generateLoadProfileInfo
  refine sat_bind (sat_uniform fun u hu0 hu1 => ?_)
  refine sat_ite (fun hskip => ?_) (fun hno => ?_)
  · refine sat_pure (.inl ⟨rfl, rfl, ?_⟩)
    simp only at hskip
    unfold SkippedForSure
    rcases hskip with h | h | h | h
    · right
      have : (0:ℚ) + (1 - 0) * u ≤ 1 := by linarith
      linarith
    · exact .inl (.inl h)
    · left; right; left
      push Not at h; exact h
    · left; right; right; exact h
  have hns : ¬ SkippedForSure app pref dayType := by
    intro h
    apply hno
    rcases h with h | h | h
    · exact .inr (.inl h)
    · right; right; left
      push Not; exact h
    · exact .inr (.inr (.inr h))
  have hocc : 0 ≤ app.occasionalUse := by
    by_contra hc
    apply hno
    left
    simp only
    push Not at hc
    have : (0:ℚ) ≤ 0 + (1 - 0) * u := by linarith
    linarith
  clear hno
  -- from here on the appliance runs
  suffices H : Sat _ (fun r : Appliance × Option RunInfo => ∃ info, r.2 = some info ∧
      RunOK { app with dailyUse := zeros } profI peak power r.1 info)
      (GenErr { app with dailyUse := zeros } depth profI peak) by
    refine H.mono ?_ (fun e he => ⟨hns, he⟩)
    rintro r ⟨info, h1, h2⟩
    exact .inr ⟨info, h1, hns, hocc, h2⟩
  generalize happ : ({ app with dailyUse := zeros } : Appliance) = app1
  have hw1 : ValidWindows app1 := by rw [← happ]; exact ⟨hw.w1, hw.w2, hw.w3, hw.r1, hw.r2, hw.r3⟩
  have hfc1 : 1 ≤ app1.funcCycle := by rw [← happ]; exact hfc
  have hflat : app1.flat = app.flat := by rw [← happ]
  refine sat_bind' (sat_calcRandWindow hw1.r1.1) fun w1 m1 => ?_
  refine sat_bind' (sat_calcRandWindow hw1.r2.1) fun w2 m2 => ?_
  refine sat_bind' (sat_calcRandWindow hw1.r3.1) fun w3 m3 => ?_
  have b1 := m1.bounds hw1.w1 hw1.r1
  have b2 := m2.bounds hw1.w2 hw1.r2
  have b3 := m3.bounds hw1.w3 hw1.r3
  have ht : Sat (randTotalTimeOfUse app1 w1 w2 w3)
      (fun t => app1.funcCycle ≤ t ∧ Returns (randTotalTimeOfUse app1 w1 w2 w3) t)
      (GenErr app1 depth profI peak) := by
    rw [sat_iff]
    exact ⟨fun t h => ⟨(sat_randTime_ge app1 w1 w2 w3).ret h, h⟩, fun e he => .time m1 m2 m3 he⟩
  refine sat_bind' ht fun rt hrt => ?_
  refine sat_ite (fun hfl => ?_) (fun hfl => ?_)
  · cases hp : app1.power[profI]? with
    | none => exact sat_raise (.power hfl hp)
    | some pw =>
      simp only
      rcases fillWindows_cases (w1 := w1) (w2 := w2) (w3 := w3) (pw * app1.number) ⟨b1.1, b1.2.2.2.1⟩ ⟨b2.1, b2.2.2.2.1⟩
        ⟨b3.1, b3.2.2.2.1⟩ with ⟨d1, d2, d3, hf⟩ | ⟨hr, hf⟩
      · refine sat_bind (sat_liftE (fun d hd => ?_) (fun e he => by rw [hf] at he; cases he))
        rw [hf] at hd
        cases hd
        exact sat_pure ⟨_, rfl, m1, m2, m3, d1, d2, d3, hrt.2, .inl ⟨hfl, rfl, pw, hp, rfl⟩⟩
      · refine sat_bind (sat_liftE (fun d hd => by rw [hf] at hd; cases hd) (fun e he => ?_))
        rw [hf] at he
        cases he
        exact .reversed m1 m2 m3 hr
  · rcases fillWindows_cases (w1 := w1) (w2 := w2) (w3 := w3) (1 / 1000) ⟨b1.1, b1.2.2.2.1⟩ ⟨b2.1, b2.2.2.2.1⟩
        ⟨b3.1, b3.2.2.2.1⟩ with ⟨d1, d2, d3, hf⟩ | ⟨hr, hf⟩
    · refine sat_bind (sat_liftE (fun d hd => ?_) (fun e he => by rw [hf] at he; cases he))
      rw [hf] at hd
      cases hd
      simp only
      generalize hbase : windowProfile w1 w2 w3 (1 / 1000) = base
      have hc : Sat (assignRandomCycles { app1 with dailyUse := base })
          (fun a => CyclesSet { app1 with dailyUse := base } a ∧ Returns (assignRandomCycles { app1 with dailyUse := base }) a)
          (GenErr app1 depth profI peak) := by
        rw [sat_iff]
        exact ⟨fun t h => ⟨(sat_assignRandomCycles_cfg _).ret h, h⟩, fun e he => .cycles hfl he⟩
      refine sat_bind' hc fun app0 h0 => ?_
      obtain ⟨⟨c1, c2, c3, hset⟩, hret⟩ := h0
      have hdu : app0.dailyUse = base := by rw [hset]
      have hfc0 : app0.funcCycle = app1.funcCycle := by rw [hset]
      have hloop := sat_switchOnLoop ⟨app0, [w1, w2, w3].filter (fun w => w.1 ≠ w.2), rt, peak, power, base⟩
        (by
          intro w hw
          have hm := List.mem_of_mem_filter hw
          simp only [List.mem_cons, List.not_mem_nil, or_false] at hm
          rcases hm with rfl | rfl | rfl
          · exact ⟨d1.1, d1.2.2⟩
          · exact ⟨d2.1, d2.2.2⟩
          · exact ⟨d3.1, d3.2.2⟩)
        (by simp only; omega) (by simp only; omega) depth (rt.toNat + 2)
        { app0 with freeSpots := initialSpots [w1, w2, w3] } 0 []
        (loop_start app0 w1 w2 w3 rt peak power base d1 d2 d3 hdu) (by simp [bookedTime]) (by simp only; omega) (by simp)
        (by simp only; push_cast; omega)
      refine sat_bind' (hloop.mono (fun _ h => h) (fun e he => GenErr.loop hfl m1 m2 m3 hret ⟨c1, c2, c3, hset⟩ he)) ?_
      rintro ⟨app', log⟩ hpost
      refine sat_pure ⟨_, rfl, m1, m2, m3, d1, d2, d3, hrt.2, .inr ⟨hfl, base, app0, hbase.symm, hret, ⟨c1, c2, c3, hset⟩, ?_⟩⟩
      simp only [List.reverse_reverse]
      exact hpost
    · refine sat_bind (sat_liftE (fun d hd => by rw [hf] at hd; cases hd) (fun e he => ?_))
      rw [hf] at he
      cases he
      exact .reversed m1 m2 m3 hr

end Ramp
