import Verif.Lemmas.Retry
import Verif.Lemmas.CliFin
import Verif.Props.Independent
import Verif.Props.Failures
import Verif.Props.PossibleCases
import Verif.Props.Examples

/-! # C117: the risk of `RecursionError` -/

set_option autoImplicit false

open MeasureTheory ENNReal

namespace Ramp

variable {μ : Measure Draw}

/-- **C117.** When `rand_switch_on_window` may call itself `depth` times, it fails with the probability of a single failure to the power of `depth`; and it returns each
event with the probability that a single try returns it, times the same factor for all events: trying again favours no event. -/
theorem C117_retries [IsProbabilityMeasure μ] (a : Appliance) (rt : ℤ) (depth : ℕ) :
    Crash μ (randSwitchOnWindow depth a rt) = Crash μ (randSwitchOnWindow 1 a rt) ^ depth ∧
    (∀ φ, ChanceOf μ (randSwitchOnWindow depth a rt) φ =
      (∑ i ∈ Finset.range depth, Crash μ (randSwitchOnWindow 1 a rt) ^ i) * ChanceOf μ (randSwitchOnWindow 1 a rt) φ) ∧
    ∀ g, MeanOf μ (randSwitchOnWindow depth a rt) g =
      (∑ i ∈ Finset.range depth, Crash μ (randSwitchOnWindow 1 a rt) ^ i) * MeanOf μ (randSwitchOnWindow 1 a rt) g := by
  have h1 : Crash μ (randSwitchOnWindow 1 a rt) = missing μ a rt := by rw [crash_rand, pow_one]
  have h2 : ∀ g, MeanOf μ (randSwitchOnWindow depth a rt) g =
      (∑ i ∈ Finset.range depth, Crash μ (randSwitchOnWindow 1 a rt) ^ i) * MeanOf μ (randSwitchOnWindow 1 a rt) g := by
    intro g
    rw [meanOf_rand, meanOf_rand a rt g 1, h1]
    simp
  refine ⟨?_, fun φ => ?_, h2⟩
  · rw [crash_rand, h1]
  · rw [chanceOf_eq (fin_randSwitchOnWindow _ _ _), chanceOf_eq (fin_randSwitchOnWindow _ _ _)]
    exact h2 _

/-! ## A run of an appliance -/

theorem spotsDisjoint_of_apart {spots : List Spot} (h : SpotsApart spots) : SpotsDisjoint spots :=
  h.2.imp fun {s t} h => by
    unfold Apart at h
    simp only at h
    omega

theorem crash_loop {N T : ℕ} (h : PythonRandom N μ) (hN : 1440 ≤ N) (cx : LoopCtx) (hws : ∀ w ∈ cx.ws, 0 ≤ w.1 ∧ w.2 ≤ 1440) (hfc : 1 ≤ cx.app0.funcCycle)
    (hrt : cx.app0.funcCycle ≤ cx.randTime) (hap : cx.ws.Pairwise Apart) (hT : ({m | ∃ w ∈ cx.ws, InWindow w m}).ncard ≤ T) (hcont : cx.app0.continuousDutyCycle ≠ 0)
    (ho : OrderedCycleWindows cx.app0) {c : ℕ} (hcov : c + 2 * cx.randTime + cx.ws.length * cx.app0.funcCycle ≤ ({m | (∃ w ∈ cx.ws, InWindow w m) ∧ Covered cx.app0 m}).ncard)
    (depth : ℕ) : ∀ (fuel : ℕ) (app : Appliance) (tot : ℤ) (log : List Booking), LoopInv cx app log → tot = bookedTime log → tot ≤ cx.randTime →
      (∀ b ∈ log, (b.indexes.length : ℤ) = fullLen cx.app0 b) →
      Crash μ (switchOnLoop depth cx.peak cx.power cx.randTime fuel app tot log) ≤ fuel * (1 - c / T) ^ depth
  | 0, _, _, _, _, _, _, _ => by
    have := h.probability
    rw [show ∀ x y z, switchOnLoop depth cx.peak cx.power cx.randTime 0 x y z = raise .diverge from fun _ _ _ => rfl, crash_calm (calm_raise (by decide))]
    exact zero_le
  | fuel + 1, app, tot, log, hinv, htot, hle, hfull => by
    have := h.probability
    obtain ⟨dd, ff, cc, happ⟩ := hinv.cfg
    have e1 : app.funcCycle = cx.app0.funcCycle := by rw [happ]
    obtain ⟨s1, s2, _⟩ := hinv.sep hap
    -- one try
    have hone : Crash μ (randSwitchOnWindow 1 app cx.randTime) ≤ 1 - c / T := by
      refine crash_one h hN (by rw [e1]; exact hfc) (by rw [e1]; exact hrt) (spotsDisjoint_of_apart s1) ?_ (W := {m | ∃ w ∈ cx.ws, InWindow w m}) ?_ ?_ hT (by rw [happ]; exact ⟨ho.c11, ho.c12, ho.c21, ho.c22, ho.c31, ho.c32⟩) ?_
      · intro s hs
        obtain ⟨_, w, hw, h1, h2⟩ := hinv.spots s hs
        have := hws w hw
        omega
      · refine (Set.finite_Icc (0 : ℤ) 1440).subset ?_
        rintro m ⟨w, hw, h1, h2⟩
        have := hws w hw
        exact ⟨by omega, by omega⟩
      · intro s hs m h1 h2
        obtain ⟨_, w, hw, h3, h4⟩ := hinv.spots s hs
        exact ⟨w, hw, by omega, by omega⟩
      · have hlog : ∀ b ∈ log, ∃ a n : ℤ, b.indexes = arange a (a + n) ∧ cx.app0.funcCycle ≤ n := by
          intro b hb
          obtain ⟨w, _, a, d, n, h1, h2, _, _, h5, _, h7, h8, _⟩ := (hinv.ok b hb).window
          have h9 := hfull b hb
          unfold fullLen at h9
          rw [if_neg fun h => hcont h.2, h1, h2, length_arange, length_arange] at h9
          exact ⟨a, n, h2, by omega⟩
        have hfin : ({m | (∃ w ∈ cx.ws, InWindow w m) ∧ Covered cx.app0 m}).Finite := by
          refine (Set.finite_Icc (0 : ℤ) 1440).subset ?_
          rintro m ⟨⟨w, hw, h1, h2⟩, _⟩
          have := hws w hw
          exact ⟨by omega, by omega⟩
        have hleft := starts_left hfc s1 s2 hlog hfin fun m hm => hm.1
        have hsub : {m | m ∈ possibleStarts app.freeSpots cx.app0.funcCycle ∧ m ∈ {m | (∃ w ∈ cx.ws, InWindow w m) ∧ Covered cx.app0 m}} ⊆
            {m | m ∈ possibleStarts app.freeSpots app.funcCycle ∧ Covered app m} := by
          rintro m ⟨h1, _, h2⟩
          refine ⟨by rw [e1]; exact h1, ?_⟩
          rw [happ]
          exact h2
        have hfin2 : ({m | m ∈ possibleStarts app.freeSpots app.funcCycle ∧ Covered app m}).Finite := by
          refine (Set.finite_Icc (0 : ℤ) 1440).subset ?_
          rintro m ⟨⟨s, hs, h1, h2⟩, _⟩
          obtain ⟨_, w, hw, h3, h4⟩ := hinv.spots s hs
          have := hws w hw
          exact ⟨by omega, by omega⟩
        have h1 := Set.ncard_le_ncard hsub hfin2
        omega
    have hrand : Crash μ (randSwitchOnWindow depth app cx.randTime) ≤ (1 - c / T) ^ depth := by
      rw [(C117_retries app cx.randTime depth).1]
      exact pow_le_pow_left' hone depth
    rw [switchOnLoop]
    by_cases hgo : tot ≤ cx.randTime ∧ cx.randTime ≠ 0
    swap
    · rw [if_neg hgo, crash_calm (calm_pure _)]
      exact zero_le
    rw [if_pos hgo]
    have key : Crash μ (randSwitchOnWindow depth app cx.randTime >>= fun x => match x with
      | (app, event) => match event with
        | none => (pure (app, log) : Sim (Appliance × List Booking))
        | some ⟨drawn, indexes⟩ =>
          let totTime := tot + indexes.length
          if totTime > cx.randTime then
            let adj := indexes.take (indexes.length - (totTime - cx.randTime).toNat)
            if adj.length > 0 then do
              let (app, c) ← bookEvent app cx.peak cx.power adj
              pure (app, ⟨drawn, adj, c, app.currentDutyCycleId⟩ :: log)
            else pure (app, log)
          else do
            let (app, c) ← bookEvent app cx.peak cx.power indexes
            switchOnLoop depth cx.peak cx.power cx.randTime fuel app totTime (⟨drawn, indexes, c, app.currentDutyCycleId⟩ :: log)) ≤
        (1 - c / T) ^ depth + fuel * (1 - c / T) ^ depth := by
      refine crash_bind (fin_randSwitchOnWindow _ _ _) ?_ hrand ?_
      · rintro ⟨app', event⟩
        cases event with
        | none => exact fin_pure _
        | some ev =>
          obtain ⟨drawn, indexes⟩ := ev
          simp only
          refine fin_ite (fin_ite (fin_bind (fin_bookEvent _ _ _ _) fun _ => fin_pure _) (fin_pure _)) (fin_bind (fin_bookEvent _ _ _ _) fun _ => fin_switchOnLoop _ _ _ _ _ _ _ _)
      · rintro ⟨app', event⟩ hret
        have hr := (sat_randSwitchOnWindow depth app cx.randTime (by omega) (by omega)).ret hret
        cases event with
        | none =>
          simp only
          rw [crash_calm (calm_pure _)]
          exact zero_le
        | some ev =>
          obtain ⟨drawn, indexes⟩ := ev
          simp only at hr ⊢
          rcases hr with ⟨h1, _⟩ | ⟨ev, h1, hev⟩
          · cases h1
          cases h1
          by_cases hgt : tot + indexes.length > cx.randTime
          · rw [if_pos hgt]
            refine le_trans (le_of_eq (crash_calm ?_)) zero_le
            exact calm_ite (calm_bind (calm_bookEvent _ _ _ _) fun _ => calm_pure _) (calm_pure _)
          · rw [if_neg hgt]
            refine crash_after (fin_bookEvent _ _ _ _) (calm_bookEvent _ _ _ _) (fun _ => fin_switchOnLoop _ _ _ _ _ _ _ _) ?_
            rintro ⟨app'', k⟩ hb
            have hne : indexes ≠ [] := by
              intro he
              obtain ⟨s, hs, a, d, hdr, ha, had, hd1, hd2, hcase⟩ := hev
              simp only at hdr hcase
              rcases hcase with ⟨_, _, g⟩ | ⟨_, i, _, _, g⟩
              · rw [he, hdr] at g
                have := congrArg List.length g
                simp at this
                omega
              · rw [he, if_neg (by rw [happ]; exact hcont)] at g
                have := congrArg List.length g
                simp at this
                omega
            have hpost := (sat_bookEvent cx hws app app' log ⟨drawn, indexes⟩ depth indexes indexes.length (le_refl _) (by simp) (fun h => absurd h hne) hfc hinv hev).ret hb
            simp only at hpost
            obtain ⟨p1, _, p3, _⟩ := hpost
            refine crash_loop h hN cx hws hfc hrt hap hT hcont ho hcov depth fuel app'' _ _ p1 ?_ (by omega) ?_
            · rw [bookedTime_cons, htot]
              ring
            · intro b hb'
              rcases List.mem_cons.1 hb' with rfl | hb'
              · exact p3
              · exact hfull b hb'
    refine le_trans key (le_of_eq ?_)
    push_cast
    ring

theorem covered_windows {a app0 : Appliance} (hset : ∃ d c1 c2 c3, app0 = { a with dailyUse := d, randomCycle1 := c1, randomCycle2 := c2, randomCycle3 := c3 }) (w1 w2 w3 : ℤ × ℤ) :
    coveredMinutes a w1 w2 w3 = {m | (∃ w ∈ [w1, w2, w3].filter (fun w => w.1 ≠ w.2), InWindow w m) ∧ Covered app0 m} := by
  obtain ⟨d, c1, c2, c3, rfl⟩ := hset
  ext m
  have : (∃ w ∈ [w1, w2, w3].filter (fun w => w.1 ≠ w.2), InWindow w m) ↔ InWindow w1 m ∨ InWindow w2 m ∨ InWindow w3 m := by
    constructor
    · rintro ⟨w, hw, h⟩
      have hm := List.mem_of_mem_filter hw
      simp only [List.mem_cons, List.not_mem_nil, or_false] at hm
      rcases hm with rfl | rfl | rfl
      · exact .inl h
      · exact .inr (.inl h)
      · exact .inr (.inr h)
    · have hne : ∀ w : ℤ × ℤ, InWindow w m → decide (w.1 ≠ w.2) = true := by
        intro w hw
        unfold InWindow at hw
        simp only [ne_eq, decide_not, Bool.not_eq_eq_eq_not, Bool.not_true, decide_eq_false_iff_not]
        omega
      rintro (h | h | h)
      · exact ⟨w1, List.mem_filter.2 ⟨by simp, hne _ h⟩, h⟩
      · exact ⟨w2, List.mem_filter.2 ⟨by simp, hne _ h⟩, h⟩
      · exact ⟨w3, List.mem_filter.2 ⟨by simp, hne _ h⟩, h⟩
  show _ ↔ _ ∧ _
  rw [this]
  exact Iff.rfl

theorem minutes_le {w1 w2 w3 : ℤ × ℤ} (d1 : DayWindow w1) (d2 : DayWindow w2) (d3 : DayWindow w3) :
    ({m | ∃ w ∈ [w1, w2, w3].filter (fun w => w.1 ≠ w.2), InWindow w m}).Finite ∧
    ({m | ∃ w ∈ [w1, w2, w3].filter (fun w => w.1 ≠ w.2), InWindow w m}).ncard ≤ (totalTime w1 w2 w3).toNat := by
  have hsub : {m | ∃ w ∈ [w1, w2, w3].filter (fun w => w.1 ≠ w.2), InWindow w m} ⊆ ((Finset.Ico w1.1 w1.2 ∪ (Finset.Ico w2.1 w2.2 ∪ Finset.Ico w3.1 w3.2) : Finset ℤ) : Set ℤ) := by
    rintro m ⟨w, hw, h1, h2⟩
    have hm := List.mem_of_mem_filter hw
    simp only [List.mem_cons, List.not_mem_nil, or_false] at hm
    simp only [Finset.coe_union, Finset.coe_Ico, Set.mem_union, Set.mem_Ico]
    rcases hm with rfl | rfl | rfl
    · exact .inl ⟨h1, h2⟩
    · exact .inr (.inl ⟨h1, h2⟩)
    · exact .inr (.inr ⟨h1, h2⟩)
  refine ⟨(Finset.finite_toSet _).subset hsub, ?_⟩
  have h1 := Set.ncard_le_ncard hsub (Finset.finite_toSet _)
  rw [Set.ncard_coe_finset] at h1
  have h2 := Finset.card_union_le (Finset.Ico w1.1 w1.2) (Finset.Ico w2.1 w2.2 ∪ Finset.Ico w3.1 w3.2)
  have h3 := Finset.card_union_le (Finset.Ico w2.1 w2.2) (Finset.Ico w3.1 w3.2)
  simp only [Int.card_Ico] at h2 h3
  unfold totalTime
  unfold DayWindow at d1 d2 d3
  omega

theorem crash_info {N : ℕ} (h : PythonRandom N μ) (hN : 1440 ≤ N) {app : Appliance} (hs : WellSeparated app) (hfix : 0 < app.fixedCycle) (hcont : app.continuousDutyCycle ≠ 0)
    {c T : ℕ} (hcov : WellCovered c T app) (depth : ℕ) (pref : ℤ) (profI : ℕ) (peak : List ℤ) (dayType : ℤ) (power : ℚ) :
    Crash μ (generateLoadProfileInfo app depth pref profI peak dayType power) ≤ T * (1 - c / T) ^ depth := by
  have := h.probability
  have hzero : ∀ {α : Type} {m : Sim α}, Calm m → Crash μ m ≤ T * (1 - c / T) ^ depth := fun hm => le_of_eq_of_le (crash_calm hm) zero_le
  have hw := hs.windows
  unfold generateLoadProfileInfo
  simp only
  have hfin2 : ∀ (a : Appliance) (w1 w2 w3 : ℤ × ℤ) (rt : ℤ), Finitary (do
      let d ← liftE (fillWindows w1 w2 w3 (1 / 1000))
      let app := { a with dailyUse := d }
      let app ← assignRandomCycles app
      let app := { app with freeSpots := initialSpots [w1, w2, w3] }
      let (app, log) ← switchOnLoop depth peak power rt (rt.toNat + 2) app 0 []
      pure (app, some (⟨w1, w2, w3, rt, log.reverse⟩ : RunInfo)) : Sim (Appliance × Option RunInfo)) := fun a w1 w2 w3 rt =>
    fin_bind (fin_liftE _) fun d => fin_bind (fin_assignRandomCycles _) fun a' => fin_bind (fin_switchOnLoop _ _ _ _ _ _ _ _) fun _ => fin_pure _
  have hfin1 : ∀ (a : Appliance) (w1 w2 w3 : ℤ × ℤ) (rt : ℤ), Finitary (if a.flat = "yes" then
      match a.power[profI]? with
      | none => raise .indexError
      | some pw => do
        let d ← liftE (fillWindows w1 w2 w3 (pw * a.number))
        pure ({ a with dailyUse := d }, some (⟨w1, w2, w3, rt, []⟩ : RunInfo))
    else do
      let d ← liftE (fillWindows w1 w2 w3 (1 / 1000))
      let app := { a with dailyUse := d }
      let app ← assignRandomCycles app
      let app := { app with freeSpots := initialSpots [w1, w2, w3] }
      let (app, log) ← switchOnLoop depth peak power rt (rt.toNat + 2) app 0 []
      pure (app, some (⟨w1, w2, w3, rt, log.reverse⟩ : RunInfo)) : Sim (Appliance × Option RunInfo)) := by
    intro a w1 w2 w3 rt
    refine fin_ite ?_ (hfin2 a w1 w2 w3 rt)
    cases a.power[profI]? with
    | none => exact fin_raise _
    | some pw => exact fin_bind (fin_liftE _) fun _ => fin_pure _
  refine crash_after (fin_uniform _ _) (calm_uniform _ _) (fun x => fin_ite (fin_pure _) (fin_bind (fin_calcRandWindow _ _) fun w1 => fin_bind (fin_calcRandWindow _ _) fun w2 =>
    fin_bind (fin_calcRandWindow _ _) fun w3 => fin_bind (fin_randTotalTimeOfUse _ _ _ _) fun rt => hfin1 { app with dailyUse := zeros } w1 w2 w3 rt)) fun x _ => ?_
  by_cases hskip : x > app.occasionalUse ∨ (app.prefIndex ≠ 0 ∧ pref ≠ app.prefIndex) ∨ ¬ (app.wdWeType = dayType ∨ app.wdWeType = 2) ∨ app.funcTime = 0
  · rw [if_pos hskip]
    exact hzero (calm_pure _)
  rw [if_neg hskip]
  refine crash_after (fin_calcRandWindow _ _) (calm_window _ _) (fun w1 => fin_bind (fin_calcRandWindow _ _) fun w2 =>
    fin_bind (fin_calcRandWindow _ _) fun w3 => fin_bind (fin_randTotalTimeOfUse _ _ _ _) fun rt => hfin1 { app with dailyUse := zeros } w1 w2 w3 rt) fun w1 m1 => ?_
  refine crash_after (fin_calcRandWindow _ _) (calm_window _ _) (fun w2 =>
    fin_bind (fin_calcRandWindow _ _) fun w3 => fin_bind (fin_randTotalTimeOfUse _ _ _ _) fun rt => hfin1 { app with dailyUse := zeros } w1 w2 w3 rt) fun w2 m2 => ?_
  refine crash_after (fin_calcRandWindow _ _) (calm_window _ _) (fun w3 => fin_bind (fin_randTotalTimeOfUse _ _ _ _) fun rt => hfin1 { app with dailyUse := zeros } w1 w2 w3 rt) fun w3 m3 => ?_
  refine crash_after (fin_randTotalTimeOfUse _ _ _ _) (calm_time _ _ _ _) (fun rt => hfin1 { app with dailyUse := zeros } w1 w2 w3 rt) fun rt hrt => ?_
  replace m1 := (sat_calcRandWindow (E := fun _ => True) hw.r1.1).ret m1
  replace m2 := (sat_calcRandWindow (E := fun _ => True) hw.r2.1).ret m2
  replace m3 := (sat_calcRandWindow (E := fun _ => True) hw.r3.1).ret m3
  have hge := (sat_randTime_ge _ w1 w2 w3).ret hrt
  by_cases hfl : app.flat = "yes"
  · rw [if_pos hfl]
    refine hzero ?_
    cases app.power[profI]? with
    | none => exact calm_raise (by decide)
    | some pw => exact calm_bind (calm_liftE windows_calm) fun _ => calm_pure _
  rw [if_neg hfl]
  refine crash_after (fin_liftE _) (calm_liftE windows_calm) (fun d => fin_bind (fin_assignRandomCycles _) fun a' => fin_bind (fin_switchOnLoop _ _ _ _ _ _ _ _) fun _ => fin_pure _) fun d hd => ?_
  have b1 := m1.bounds hw.w1 hw.r1
  have b2 := m2.bounds hw.w2 hw.r2
  have b3 := m3.bounds hw.w3 hw.r3
  rcases fillWindows_cases (w1 := w1) (w2 := w2) (w3 := w3) (1 / 1000) ⟨b1.1, b1.2.2.2.1⟩ ⟨b2.1, b2.2.2.2.1⟩ ⟨b3.1, b3.2.2.2.1⟩ with ⟨d1, d2, d3, hf⟩ | ⟨_, hf⟩
  swap
  · obtain ⟨r, r', hr⟩ := hd
    rw [hf] at hr
    cases hr
  have htime : TimeOfUse app w1 w2 w3 rt := by
    refine (C07_time_of_use_exact { app with dailyUse := zeros } w1 w2 w3 rt hs.time hs.variability.1 hs.variability.2 ?_).1 hrt
    unfold DayWindow at d1 d2 d3
    unfold totalTime
    omega
  obtain ⟨hT, hc⟩ := hcov w1 w2 w3 rt m1 m2 m3 htime
  have htot : (totalTime w1 w2 w3).toNat ≤ T := by omega
  refine crash_after (fin_assignRandomCycles _) (calm_cycles _) (fun a' => fin_bind (fin_switchOnLoop _ _ _ _ _ _ _ _) fun _ => fin_pure _) fun app0 h0 => ?_
  obtain ⟨c1, c2, c3, hset⟩ := (sat_assignRandomCycles_cfg _).ret h0
  have hfc0 : app0.funcCycle = app.funcCycle := by rw [hset]
  have hdu : app0.dailyUse = d := by rw [hset]
  have hloop := crash_loop h hN ⟨app0, [w1, w2, w3].filter (fun w => w.1 ≠ w.2), rt, peak, power, d⟩
    (by
      intro w hw
      have hm := List.mem_of_mem_filter hw
      simp only [List.mem_cons, List.not_mem_nil, or_false] at hm
      rcases hm with rfl | rfl | rfl
      · exact ⟨d1.1, d1.2.2⟩
      · exact ⟨d2.1, d2.2.2⟩
      · exact ⟨d3.1, d3.2.2⟩)
    (by simp only [hfc0]; exact hs.shortest) (by simp only [hfc0]; exact hge)
    (windowsApart_pairwise (hs.apart w1 w2 w3 m1 m2 m3)) (le_trans (minutes_le d1 d2 d3).2 htot) (by simp only [hset]; exact hcont)
    (by
      have ho := hs.cycleWindows hfix
      simp only [hset]
      exact ⟨ho.c11, ho.c12, ho.c21, ho.c22, ho.c31, ho.c32⟩) (c := c)
    (by
      simp only [hfc0]
      rw [← covered_windows (a := app) ⟨d, c1, c2, c3, hset⟩]
      exact hc) depth (rt.toNat + 2)
    { app0 with freeSpots := initialSpots [w1, w2, w3] } 0 []
    (loop_start app0 w1 w2 w3 rt peak power d d1 d2 d3 hdu) (by simp [bookedTime]) (by simp only; have := hs.shortest; simp only at hge; omega) (by simp)
  have hsh := hs.shortest
  have hnum : rt.toNat + 2 ≤ T := by
    have hsub : coveredMinutes app w1 w2 w3 ⊆ {m | ∃ w ∈ [w1, w2, w3].filter (fun w => w.1 ≠ w.2), InWindow w m} := by
      rw [covered_windows (a := app) ⟨d, c1, c2, c3, hset⟩]
      exact fun m hm => hm.1
    obtain ⟨f1, f2⟩ := minutes_le d1 d2 d3
    have h3 := Set.ncard_le_ncard hsub f1
    have hlen : 1 ≤ ([w1, w2, w3].filter (fun w => w.1 ≠ w.2)).length := by
      rcases Nat.eq_zero_or_pos ([w1, w2, w3].filter (fun w => w.1 ≠ w.2)).length with h0 | h0
      · exfalso
        rw [List.length_eq_zero_iff.1 h0] at hsub hc
        have : coveredMinutes app w1 w2 w3 = ∅ := Set.eq_empty_iff_forall_notMem.2 fun m hm => by
          obtain ⟨w, hw, _⟩ := hsub hm
          cases hw
        rw [this, Set.ncard_empty] at hc
        simp only [List.length_nil] at hc
        simp only at hge
        omega
      · exact h0
    have h4 : (1 : ℤ) * 1 ≤ ([w1, w2, w3].filter (fun w => w.1 ≠ w.2)).length * app.funcCycle := mul_le_mul (by exact_mod_cast hlen) hsh (by norm_num) (by omega)
    simp only at hge
    omega
  have h720 : ((rt.toNat + 2 : ℕ) : ℝ≥0∞) ≤ T := by exact_mod_cast hnum
  have h2 := crash_bind (μ := μ) (fin_switchOnLoop depth peak power rt (rt.toNat + 2) { app0 with freeSpots := initialSpots [w1, w2, w3] } 0 [])
    (f := fun x => (pure (x.1, some (⟨w1, w2, w3, rt, x.2.reverse⟩ : RunInfo)) : Sim (Appliance × Option RunInfo))) (fun _ => fin_pure _) hloop
    (fun x _ => le_of_eq (crash_calm (calm_pure _)))
  refine le_trans h2 ?_
  rw [add_zero]
  exact mul_le_mul' h720 (le_refl _)

theorem crash_zero {α : Type} {m : Sim α} (h : ¬ Raises m .recursionError) : Crash μ m = 0 := by
  unfold Crash Chance
  rw [show {r | endOf m r = .error .recursionError} = ∅ from ?_]
  · exact measure_empty
  · refine Set.eq_empty_iff_forall_notMem.2 fun r hr => h ?_
    have hr' : endOf m r = .error .recursionError := hr
    unfold endOf at hr'
    cases hm : m r with
    | ok x => rw [hm] at hr'; cases hr'
    | error e => rw [hm] at hr'; cases hr'; exact ⟨r, hm⟩

theorem endOf_map {α β : Type} (m : Sim α) (f : α → β) (r : Rng) : endOf (m >>= fun x => pure (f x)) r = (endOf m r).map f := by
  unfold endOf
  show Except.map Prod.fst (match m r with
    | .ok (a, r') => (.ok (f a, r') : Except Err (β × Rng))
    | .error e => .error e) = _
  cases m r with
  | ok x => rfl
  | error e => rfl

theorem returned_map {α β : Type} (m : Sim α) (f : α → β) : ChanceOf μ (m >>= fun x => pure (f x)) (fun _ => True) = ChanceOf μ m (fun _ => True) := by
  unfold ChanceOf Chance
  congr 1
  ext r
  show (∃ a, endOf (m >>= fun x => pure (f x)) r = .ok a ∧ True) ↔ ∃ a, endOf m r = .ok a ∧ True
  rw [endOf_map]
  cases endOf m r with
  | ok x => exact ⟨fun _ => ⟨x, rfl, trivial⟩, fun _ => ⟨f x, rfl, trivial⟩⟩
  | error e => exact ⟨(fun ⟨a, h, _⟩ => by cases h), (fun ⟨a, h, _⟩ => by cases h)⟩

theorem crash_map {α β : Type} (m : Sim α) (f : α → β) : Crash μ (m >>= fun x => pure (f x)) = Crash μ m := by
  unfold Crash Chance
  congr 1
  ext r
  show endOf (m >>= fun x => pure (f x)) r = .error .recursionError ↔ endOf m r = .error .recursionError
  rw [endOf_map]
  cases endOf m r with
  | ok x => exact ⟨(fun h => by cases h), (fun h => by cases h)⟩
  | error e => exact ⟨(fun h => by cases h; rfl), (fun h => by cases h; rfl)⟩

/-- **C117.** A day of an appliance with duty cycles fails with a probability of at most `T (1 - c / T) ^ depth`, if the duty cycle windows contain `c` of the at
most `T` minutes of its windows more than twice its time of use and a shortest event for each window. -/
theorem C117_rare_on_a_day {N : ℕ} (h : PythonRandom N μ) (hN : 1440 ≤ N) {app : Appliance} (hs : WellSeparated app) (hfix : 0 < app.fixedCycle)
    (hcont : app.continuousDutyCycle ≠ 0) {c T : ℕ} (hcov : WellCovered c T app) (depth : ℕ) (pref : ℤ) (profI : ℕ) (peak : List ℤ) (dayType : ℤ) (power : ℚ) :
    Crash μ (generateLoadProfile app depth pref profI peak dayType power) ≤ T * (1 - c / T) ^ depth :=
  le_of_eq_of_le (crash_map _ _) (crash_info h hN hs hfix hcont hcov depth pref profI peak dayType power)

/-! ## A simulation -/

theorem crash_sumRuns [IsProbabilityMeasure μ] : ∀ {ms : List (Sim Profile)} {x : ℝ≥0∞}, (∀ m ∈ ms, Finitary m ∧ Crash μ m ≤ x) → Crash μ (sumRuns ms) ≤ ms.length * x
  | [], x, _ => le_of_eq_of_le (crash_calm (calm_pure _)) zero_le
  | m :: ms, x, h => by
    have h1 := h m List.mem_cons_self
    have h2 : Crash μ (sumRuns ms) ≤ ms.length * x := crash_sumRuns fun n hn => h n (List.mem_cons_of_mem _ hn)
    have hfin : Finitary (sumRuns ms) := fin_sumRuns fun n hn => (h n (List.mem_cons_of_mem _ hn)).1
    have h3 := crash_bind (μ := μ) h1.1 (f := fun p => sumRuns ms >>= fun q => pure (fun i => p i + q i)) (fun _ => fin_bind hfin fun _ => fin_pure _) h1.2
      (fun p _ => le_of_eq_of_le (crash_map _ _) h2)
    refine le_trans h3 (le_of_eq ?_)
    rw [List.length_cons]
    push_cast
    ring

theorem crash_sum_users [IsProbabilityMeasure μ] {x : ℝ≥0∞} (depth k : ℕ) (peak : List ℤ) (dt : ℤ) : ∀ {us : List User},
    (∀ u ∈ us, ∀ pref, ∀ a ∈ u.appList, Crash μ (applianceRun depth k peak dt pref a) ≤ x) →
    Crash μ (caseRun depth k peak dt us) ≤ ((us.map (fun u => u.numUsers.toNat * u.appList.length)).sum : ℕ) * x
  | [], _ => le_of_eq_of_le (crash_calm (calm_pure _)) zero_le
  | u :: us, h => by
    have h2 : Crash μ (caseRun depth k peak dt us) ≤ ((us.map (fun u => u.numUsers.toNat * u.appList.length)).sum : ℕ) * x :=
      crash_sum_users depth k peak dt fun v hv => h v (List.mem_cons_of_mem _ hv)
    have h1 : Crash μ (userRun depth k peak dt u) ≤ (u.numUsers.toNat : ℕ) * (u.appList.length * x) := by
      have hm : Crash μ (memberRun depth k peak dt u) ≤ u.appList.length * x := by
        refine crash_after (fin_drawPreference _) (calm_preference _) (fun pref => fin_sumRuns fun m hm => ?_) fun pref _ => ?_
        · obtain ⟨a, _, rfl⟩ := List.mem_map.1 hm
          exact fin_applianceRun _ _ _ _ _ _
        · have := crash_sumRuns (μ := μ) (ms := u.appList.map (applianceRun depth k peak dt pref)) (x := x) ?_
          · rwa [List.length_map] at this
          · intro m hm
            obtain ⟨a, ha, rfl⟩ := List.mem_map.1 hm
            exact ⟨fin_applianceRun _ _ _ _ _ _, h u List.mem_cons_self pref a ha⟩
      have := crash_sumRuns (μ := μ) (ms := List.replicate u.numUsers.toNat (memberRun depth k peak dt u)) (x := u.appList.length * x) ?_
      · rwa [List.length_replicate] at this
      · intro m hm'
        rw [List.eq_of_mem_replicate hm']
        exact ⟨fin_memberRun _ _ _ _ _, hm⟩
    have h3 := crash_bind (μ := μ) (fin_userRun depth k peak dt u) (f := fun p => caseRun depth k peak dt us >>= fun q => pure (fun i => p i + q i))
      (fun _ => fin_bind (fin_caseRun _ _ _ _ _) fun _ => fin_pure _) h1 (fun p _ => le_of_eq_of_le (crash_map _ _) h2)
    refine le_trans h3 (le_of_eq ?_)
    rw [List.map_cons, List.sum_cons]
    push_cast
    ring

theorem crash_rows [IsProbabilityMeasure μ] {x : ℝ≥0∞} (depth : ℕ) (peak : List ℤ) {us : List User} : ∀ {ds : List ℤ} {k : ℕ},
    (∀ j < ds.length, ∀ dt, ∀ u ∈ us, ∀ pref, ∀ a ∈ u.appList, Crash μ (applianceRun depth (k + j) peak dt pref a) ≤ x) →
    Crash μ (rowsRun depth peak us k ds) ≤ numRuns ds.length us * x
  | [], _, _ => le_of_eq_of_le (crash_calm (calm_pure _)) zero_le
  | d :: ds, k, h => by
    have h1 := crash_sum_users (μ := μ) (x := x) depth k peak (typeOfDay d) (us := us) fun u hu pref a ha => h 0 (by simp) _ u hu pref a ha
    have h2 : Crash μ (rowsRun depth peak us (k + 1) ds) ≤ numRuns ds.length us * x := crash_rows depth peak fun j hj dt u hu pref a ha => by
      have := h (j + 1) (by simpa using hj) dt u hu pref a ha
      rwa [show k + (j + 1) = k + 1 + j by omega] at this
    have h3 := crash_bind (μ := μ) (fin_caseRun depth k peak (typeOfDay d) us) (f := fun p => rowsRun depth peak us (k + 1) ds >>= fun ps => pure (p :: ps))
      (fun _ => fin_bind (fin_rowsRun _ _ _ _ _) fun _ => fin_pure _) h1 (fun p _ => le_of_eq_of_le (crash_map _ _) h2)
    refine le_trans h3 (le_of_eq ?_)
    unfold numRuns runsPerDay
    rw [List.length_cons]
    push_cast
    ring

/-- **C117.** If for each appliance of which some possible event meets no duty cycle window these windows contain `c` of the at most `T` minutes of its windows more than twice its
time of use and a shortest event for each window, then a simulation ends without an exception but for a probability of at most `T (1 - c / T) ^ depth` for each day of each appliance of each member. -/
theorem C117_rare {N : ℕ} (h : PythonRandom N μ) (hN : 1440 ≤ N) {env : Env} {depth : ℕ} {uc : UseCase} {ds peak : List ℤ} (days : Option (List ℤ)) (hr : Ready uc ds peak)
    (hp : peak ≠ []) (hpref : ∀ u ∈ uc.users, 0 ≤ u.userPreference) (hs : ∀ u ∈ uc.users, ∀ a ∈ u.appList, SafeConfig a ∧ OrderedCycleWindows a ∧
      (0 < a.fixedCycle → a.continuousDutyCycle ≠ 0) ∧ ds.length ≤ a.power.length) {c T : ℕ}
    (hc : ∀ u ∈ uc.users, ∀ a ∈ u.appList, 0 < a.fixedCycle → a.flat ≠ "yes" → UncoveredEvent a → WellSeparated a ∧ WellCovered c T a) :
    Crash μ (generateDaily env (depth + 1) uc days) ≤ numRuns ds.length uc.users * (T * (1 - c / T) ^ (depth + 1)) ∧
    1 - numRuns ds.length uc.users * (T * (1 - c / T) ^ (depth + 1)) ≤ ChanceOf μ (generateDaily env (depth + 1) uc days) (fun _ => True) := by
  have := h.probability
  have h1 : Crash μ (generateDaily env (depth + 1) uc days) ≤ numRuns ds.length uc.users * (T * (1 - c / T) ^ (depth + 1)) := by
    have e1 : Crash μ (dailyRows env (depth + 1) uc days) = Crash μ (generateDaily env (depth + 1) uc days) := crash_map _ _
    rw [← e1, dailyRows_eq days hr]
    refine crash_rows (depth + 1) peak fun j hj dt u hu pref a ha => ?_
    obtain ⟨g1, g2, g3, g4⟩ := hs u hu a ha
    unfold applianceRun
    cases hpw : a.power[0 + j]? with
    | none =>
      rw [List.getElem?_eq_none_iff] at hpw
      omega
    | some p =>
      simp only
      refine le_of_eq_of_le (crash_map _ _) ?_
      by_cases hfix : 0 < a.fixedCycle ∧ a.flat ≠ "yes" ∧ UncoveredEvent a
      · obtain ⟨k1, k2⟩ := hc u hu a ha hfix.1 hfix.2.1 hfix.2.2
        exact C117_rare_on_a_day h hN k1 hfix.1 (g3 hfix.1) k2 (depth + 1) pref (0 + j) peak dt p
      · refine le_of_eq_of_le (crash_zero ?_) zero_le
        intro he
        obtain ⟨_, k1, k2 | ⟨k2, w, s, dd, hm, hs1, hs2, hs3, n1, n2, n3⟩⟩ := raises_safe g1 hp (fun _ => by omega) g3 g2 (raises_generate_iff.1 he)
        · omega
        · have hmono := overlaps_mono (app := a) (a := s) hs3
          exact hfix ⟨k2, k1, w, s, hm, hs1, by omega, fun h => n1 (hmono.1 h), fun h => n2 (hmono.2.1 h), fun h => n3 (hmono.2.2 h)⟩
  refine ⟨h1, ?_⟩
  rw [tsub_le_iff_right]
  refine le_trans ?_ (add_le_add_right h1 _)
  unfold ChanceOf Crash Chance
  refine le_trans (le_of_eq (measure_univ (μ := stream μ)).symm) (le_trans (measure_mono ?_) (measure_union_le _ _))
  intro r _
  cases hr' : generateDaily env (depth + 1) uc days r with
  | ok x =>
    left
    exact ⟨x.1, by unfold endOf; rw [hr']; rfl, trivial⟩
  | error e =>
    right
    obtain ⟨he, _⟩ := C87_only_recursion days hr hp hpref hs ⟨r, hr'⟩
    show endOf _ r = _
    unfold endOf
    rw [hr', he]
    rfl

/-! ## A case: a cooler with a window of use without duty cycles -/

/-- An hour of use in events of at least ten minutes; the events in the third window have no duty cycle. -/
def gapCooler : Appliance where
  name := "cooler"
  power := [100]
  funcTime := 60
  funcCycle := 10
  fixedCycle := 1
  window1 := (0, 400)
  window2 := (500, 900)
  window3 := (1000, 1100)
  p11 := 100
  t11 := 2
  p12 := 10
  t12 := 3
  cw11 := (0, 400)
  cw12 := (500, 900)

theorem gapCooler_config : SafeConfig gapCooler ∧ OrderedCycleWindows gapCooler := configB_sound (by decide +kernel)

theorem gapCooler_moved {w1 w2 w3 : ℤ × ℤ} (m1 : MovedWindow gapCooler.window1 gapCooler.randomVar1 w1) (m2 : MovedWindow gapCooler.window2 gapCooler.randomVar2 w2)
    (m3 : MovedWindow gapCooler.window3 gapCooler.randomVar3 w3) : w1 = (0, 400) ∧ w2 = (500, 900) ∧ w3 = (1000, 1100) :=
  ⟨moved_zero (w := (0, 400)) (by unfold DayWindow; norm_num) m1, moved_zero (w := (500, 900)) (by unfold DayWindow; norm_num) m2,
    moved_zero (w := (1000, 1100)) (by unfold DayWindow; norm_num) m3⟩

theorem gapCooler_separated : WellSeparated gapCooler := by
  obtain ⟨h1, h2⟩ := gapCooler_config
  refine ⟨h1.windows, fun w1 w2 w3 m1 m2 m3 => ?_, h1.cycles, fun _ => h2, by decide, by decide, ?_, by decide⟩
  · obtain ⟨rfl, rfl, rfl⟩ := gapCooler_moved m1 m2 m3
    unfold WindowsApart Apart
    norm_num
  · simp [gapCooler]

/-- 800 of the 900 minutes of the windows have a duty cycle; twice the hour of use and three shortest events are 150 minutes. -/
theorem gapCooler_covered : WellCovered 650 900 gapCooler := by
  intro w1 w2 w3 t m1 m2 m3 ht
  obtain ⟨rfl, rfl, rfl⟩ := gapCooler_moved m1 m2 m3
  obtain ⟨_, n, _, hn, rfl⟩ := ht
  have hn' : n ≤ 60 := by
    refine le_trans hn (le_of_eq ?_)
    rw [show gapCooler.funcTime = 60 from rfl, show gapCooler.timeFractionRandomVariability = 0 from rfl]
    norm_num
  have hsub : ((Finset.Ico (0 : ℤ) 400 ∪ Finset.Ico 500 900 : Finset ℤ) : Set ℤ) ⊆ coveredMinutes gapCooler (0, 400) (500, 900) (1000, 1100) := by
    intro m hm
    simp only [Finset.coe_union, Finset.coe_Ico, Set.mem_union, Set.mem_Ico] at hm
    rcases hm with hm | hm
    · exact ⟨.inl hm, .inl hm⟩
    · exact ⟨.inr (.inl hm), .inr (.inl hm)⟩
  have hfin : (coveredMinutes gapCooler (0, 400) (500, 900) (1000, 1100)).Finite := by
    refine (Set.finite_Ico (0 : ℤ) 1440).subset ?_
    rintro m ⟨h1, _⟩
    simp only [InWindow] at h1
    rw [Set.mem_Ico]
    omega
  have h1 := Set.ncard_le_ncard hsub hfin
  rw [Set.ncard_coe_finset, show (Finset.Ico (0 : ℤ) 400 ∪ Finset.Ico 500 900).card = 800 by
    rw [Finset.card_union_of_disjoint (by
      rw [Finset.disjoint_left]
      intro m h1 h2
      simp only [Finset.mem_Ico] at h1 h2
      omega)]
    simp] at h1
  rw [show gapCooler.funcCycle = 10 from rfl]
  refine ⟨by decide, ?_⟩
  rw [show (List.filter (fun w : ℤ × ℤ => decide (w.1 ≠ w.2)) [(0, 400), (500, 900), (1000, 1100)]).length = 3 from rfl]
  have h2 := min_le_left (max n 10) ⌊(99 / 100 : ℚ) * totalTime (0, 400) (500, 900) (1000, 1100)⌋
  omega

/-- One member, one day. -/
def coolerCase : UseCase where
  users := [{ userName := "u", appList := [gapCooler] }]
  days := some [5760]
  numDays := some 1
  peakTimeRange := some (minutesFrom 1000 60)

theorem coolerCase_ready : Ready coolerCase [5760] (minutesFrom 1000 60) := ⟨rfl, rfl, rfl⟩

theorem coolerCase_safe : ∀ u ∈ coolerCase.users, ∀ a ∈ u.appList, SafeConfig a ∧ OrderedCycleWindows a ∧ (0 < a.fixedCycle → a.continuousDutyCycle ≠ 0) ∧
    [(5760 : ℤ)].length ≤ a.power.length := by
  intro u hu a ha
  obtain rfl := List.mem_singleton.1 hu
  obtain rfl := List.mem_singleton.1 ha
  exact ⟨gapCooler_config.1, gapCooler_config.2, fun _ => by decide, by decide⟩

/-- With the 1000 calls that Python allows, the simulation of the cooler fails with a probability below `10 ^ (-250)`. -/
theorem coolerCase_rare {N : ℕ} (h : PythonRandom N μ) (hN : 1440 ≤ N) : Crash μ (generateDaily ⟨0, none⟩ 1000 coolerCase none) ≤ ENNReal.ofReal (1 / 10 ^ 250) := by
  have h1 := (C117_rare (env := ⟨0, none⟩) (depth := 999) h hN none coolerCase_ready (by simp [minutesFrom])
    (fun u hu => by obtain rfl := List.mem_singleton.1 hu; decide) coolerCase_safe (c := 650) (T := 900) (fun u hu a ha _ _ _ => by
      obtain rfl := List.mem_singleton.1 hu
      obtain rfl := List.mem_singleton.1 ha
      exact ⟨gapCooler_separated, gapCooler_covered⟩)).1
  refine le_trans h1 ?_
  have e1 : (1 - ((650 : ℕ) : ℝ≥0∞) / (900 : ℕ)) = ENNReal.ofReal (5 / 18) := by
    have : (((650 : ℕ) : ℝ≥0∞) / (900 : ℕ)) = ENNReal.ofReal (13 / 18) := by
      rw [show (13 / 18 : ℝ) = 650 / 900 by norm_num, ENNReal.ofReal_div_of_pos (by norm_num)]
      simp
    rw [this, ← ENNReal.ofReal_one, ← ENNReal.ofReal_sub _ (by norm_num)]
    norm_num
  rw [e1, ← ENNReal.ofReal_pow (by norm_num), show numRuns [(5760 : ℤ)].length coolerCase.users = 1 from rfl]
  rw [Nat.cast_one, one_mul, show ((900 : ℕ) : ℝ≥0∞) = ENNReal.ofReal 900 by simp, ← ENNReal.ofReal_mul (by norm_num)]
  refine ENNReal.ofReal_le_ofReal ?_
  have e2 : (5 / 18 : ℝ) ^ 100 ≤ 1 / 10 ^ 55 := by norm_num
  have e3 : (5 / 18 : ℝ) ^ (999 + 1) ≤ (1 / 10 ^ 55) ^ 10 := by
    rw [show 999 + 1 = 100 * 10 from rfl, pow_mul]
    exact pow_le_pow_left₀ (by positivity) e2 10
  refine le_trans (mul_le_mul_of_nonneg_left e3 (by norm_num)) ?_
  norm_num

/-- The failure is possible all the same: an event in the third window has no duty cycle. -/
theorem coolerCase_possible : ∃ rng, generateDaily ⟨0, none⟩ (999 + 1) coolerCase none rng = .error .recursionError := by
  have hun : UncoveredEvent gapCooler := by
    refine ⟨(1000, 1100), 1000, .inr (.inr ⟨1000, 1100, by decide, by decide, by decide⟩), by decide, by decide, ?_, ?_, ?_⟩ <;> rintro (⟨m, h1, h2⟩ | ⟨m, h1, h2⟩) <;>
      simp only [gapCooler] at h1 h2 <;> omega
  have hnot : ¬ NeverRaises (generateDaily ⟨0, none⟩ (999 + 1) coolerCase none) := by
    intro h
    obtain ⟨p, _, h8⟩ := ((C82_cannot_fail_iff (depth := 999 + 1) none coolerCase_ready).1 h 0 5760 rfl _ (List.mem_singleton.2 rfl) (by decide)).2 0 (by simp [PreferenceOf]) gapCooler
      (List.mem_singleton.2 rfl)
    exact h8 .recursionError (raises_generate_iff.2 (raises_uncovered gapCooler_config.1 gapCooler_config.2 (by decide) (by decide) (by simp [SkippedForSure, gapCooler])
      (by decide +kernel) hun))
  unfold NeverRaises at hnot
  push Not at hnot
  obtain ⟨e, he⟩ := hnot
  have := (C87_only_recursion (depth := 999) none coolerCase_ready (by simp [minutesFrom]) (fun u hu => by obtain rfl := List.mem_singleton.1 hu; decide) coolerCase_safe he).1
  rw [← this]
  exact he

end Ramp
