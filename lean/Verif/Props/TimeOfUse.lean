import Verif.Lemmas.Gen
import Verif.Props.Utils
import Verif.Model.User

/-! # C06–C08: randomised windows and randomised total time of use -/

set_option autoImplicit false

namespace Ramp

/-! ## C06 -/

/-- **C06.** For a window inside the day and `0 ≤ random_var_w ≤ 1`, with the variability that `windows()` stores for it, the
possible randomised windows are exactly the declared window with each end moved by at most `⌊random_var_w * length⌋` minutes
and then kept inside `[0, 1440]`; drawing it never fails. -/
theorem C06_randomised_window (w v : ℤ × ℤ) (rv : ℚ) (hw : DayWindow w) (h0 : 0 ≤ rv) (h1 : rv ≤ 1) :
    (Returns (calcRandWindow w (pyInt (rv * winLen w))) v ↔ MovedWindow w ⌊rv * (w.2 - w.1)⌋ v) ∧
    NeverRaises (calcRandWindow w (pyInt (rv * winLen w))) := by
  have hl : (0 : ℚ) ≤ (w.2 - w.1 : ℤ) := by exact_mod_cast (by have := hw.2.1; omega : 0 ≤ w.2 - w.1)
  have e : pyInt (rv * winLen w) = ⌊rv * (w.2 - w.1)⌋ := by
    unfold winLen
    rw [pyInt_of_nonneg (mul_nonneg h0 hl)]; push_cast; rfl
  have hp : 0 ≤ ⌊rv * ((w.2 : ℚ) - w.1)⌋ := by
    rw [Int.floor_nonneg]; push_cast at hl; exact mul_nonneg h0 hl
  rw [e]
  exact ⟨⟨fun h => (sat_calcRandWindow hp (E := fun _ => False)).ret h, fun h => (reach_calcRandWindow h).returns⟩,
    neverRaises_of_sat (sat_calcRandWindow hp)⟩

/-- **C06.** The randomised window stays inside the day and each end moves by at most `⌊random_var_w * length⌋` minutes. -/
theorem C06_stays_in_day (w v : ℤ × ℤ) (rv : ℚ) (hw : DayWindow w) (h0 : 0 ≤ rv) (h1 : rv ≤ 1)
    (h : Returns (calcRandWindow w (pyInt (rv * winLen w))) v) :
    0 ≤ v.1 ∧ v.1 ≤ 1440 ∧ 0 ≤ v.2 ∧ v.2 ≤ 1440 ∧
      |v.1 - w.1| ≤ ⌊rv * (w.2 - w.1)⌋ ∧ |v.2 - w.2| ≤ ⌊rv * (w.2 - w.1)⌋ := by
  have hm := (C06_randomised_window w v rv hw h0 h1).1.1 h
  have hl : (0 : ℚ) ≤ (w.2 : ℚ) - w.1 := by
    have : ((w.1 : ℤ) : ℚ) ≤ w.2 := by exact_mod_cast hw.2.1
    linarith
  have hp : 0 ≤ ⌊rv * ((w.2 : ℚ) - w.1)⌋ := Int.floor_nonneg.2 (mul_nonneg h0 hl)
  have hq : ⌊rv * ((w.2 : ℚ) - w.1)⌋ ≤ w.2 - w.1 := by
    have : rv * ((w.2 : ℚ) - w.1) ≤ ((w.2 - w.1 : ℤ) : ℚ) := by push_cast; nlinarith
    exact_mod_cast (Int.floor_le _).trans this
  have hb := hm.bounds hw ⟨hp, hq⟩
  rw [abs_le, abs_le]
  omega

/-- **C06.** Without variability the randomised window is the declared one. -/
theorem C06_no_variability (w v : ℤ × ℤ) (hw : DayWindow w) :
    Returns (calcRandWindow w (pyInt (0 * winLen w))) v ↔ v = w := by
  rw [(C06_randomised_window w v 0 hw le_rfl (by norm_num)).1]
  unfold DayWindow at hw
  constructor
  · rintro ⟨a, b, ha, hb, rfl⟩
    simp at ha hb
    ext <;> simp <;> omega
  · rintro rfl
    refine ⟨v.1, v.2, by simp, by simp, ?_⟩
    ext <;> simp <;> omega

/-- **C06 (limit of the property).** The randomised window can come out reversed, end before start, exactly when twice the
variability exceeds the length, i.e. only for `random_var_w > 1/2`; the generation then raises (see C71). -/
theorem C06_reversed_iff (w : ℤ × ℤ) (rv : ℚ) (hw : DayWindow w) (h0 : 0 ≤ rv) (h1 : rv ≤ 1) :
    (∃ v, Returns (calcRandWindow w (pyInt (rv * winLen w))) v ∧ v.2 < v.1) ↔ w.2 - w.1 < 2 * ⌊rv * (w.2 - w.1)⌋ := by
  have hl : (0 : ℚ) ≤ (w.2 : ℚ) - w.1 := by
    have : ((w.1 : ℤ) : ℚ) ≤ w.2 := by exact_mod_cast hw.2.1
    linarith
  have hp : 0 ≤ ⌊rv * ((w.2 : ℚ) - w.1)⌋ := Int.floor_nonneg.2 (mul_nonneg h0 hl)
  have hq : ⌊rv * ((w.2 : ℚ) - w.1)⌋ ≤ w.2 - w.1 := by
    have : rv * ((w.2 : ℚ) - w.1) ≤ ((w.2 - w.1 : ℤ) : ℚ) := by push_cast; nlinarith
    exact_mod_cast (Int.floor_le _).trans this
  simp only [(C06_randomised_window w _ rv hw h0 h1).1]
  generalize ⌊rv * ((w.2 : ℚ) - w.1)⌋ = r at *
  unfold DayWindow at hw
  constructor
  · rintro ⟨v, ⟨a, b, ha, hb, rfl⟩, hv⟩
    simp only at hv; omega
  · intro h
    refine ⟨_, ⟨w.1 + r, w.2 - r, by omega, by omega, rfl⟩, ?_⟩
    simp only; omega

example : DayWindow (600, 720) ∧ MovedWindow (600, 720) ⌊(1/4 : ℚ) * (720 - 600)⌋ (570, 750) := by
  constructor
  · simp [DayWindow]
  · exact ⟨570, 750, by norm_num, by norm_num, by simp⟩

/-! ## C07, C08 -/

/-- Most minutes that may be used: 99 % of the window time. -/
def maxUse (w1 w2 w3 : ℤ × ℤ) : ℤ := ⌊(99 / 100 : ℚ) * totalTime w1 w2 w3⌋

theorem gt_maxUse_iff {t : ℤ} {w1 w2 w3 : ℤ × ℤ} :
    ((t : ℚ) > 99 / 100 * totalTime w1 w2 w3) ↔ maxUse w1 w2 w3 < t := by
  unfold maxUse
  rw [gt_iff_lt, Int.floor_lt]

/-- The tail of `rand_total_time_of_use` is a clipping between `func_cycle` and 99 % of the window time. -/
theorem sat_randTime (app : Appliance) (w1 w2 w3 : ℤ × ℤ) (hft : 0 ≤ app.funcTime)
    (hv0 : 0 ≤ app.timeFractionRandomVariability) (hv1 : app.timeFractionRandomVariability ≤ 1)
    (ht : 0 ≤ totalTime w1 w2 w3) :
    Sat (randTotalTimeOfUse app w1 w2 w3)
      (fun t => app.funcCycle ≤ maxUse w1 w2 w3 ∧
        ∃ n : ℤ, ⌊(app.funcTime : ℚ) * (1 - app.timeFractionRandomVariability)⌋ ≤ n ∧
        n ≤ ⌊(app.funcTime : ℚ) * (1 + app.timeFractionRandomVariability)⌋ ∧
        t = min (max n app.funcCycle) (maxUse w1 w2 w3))
      (fun e => e = .valueError ∧ maxUse w1 w2 w3 < app.funcCycle) := by
  have hft' : (0 : ℚ) ≤ app.funcTime := by exact_mod_cast hft
  have htq : (0 : ℚ) ≤ 99 / 100 * (totalTime w1 w2 w3 : ℚ) := by
    have : (0 : ℚ) ≤ (totalTime w1 w2 w3 : ℚ) := by exact_mod_cast ht
    linarith
  unfold randTotalTimeOfUse
  refine sat_bind (sat_bind (sat_uniform fun u hu0 hu1 => sat_pure ?_))
  generalize hrv : (1 : ℚ) * (1 - app.timeFractionRandomVariability + (1 + app.timeFractionRandomVariability -
    (1 - app.timeFractionRandomVariability)) * u) = rv
  have r1 : 1 - app.timeFractionRandomVariability ≤ rv := by rw [← hrv]; nlinarith
  have r2 : rv ≤ 1 + app.timeFractionRandomVariability := by rw [← hrv]; nlinarith
  have r0 : 0 ≤ rv := by linarith
  refine sat_bind (sat_uniform fun u' hu0' hu1' => ?_)
  have hpi : pyInt (app.funcTime * rv) = ⌊(app.funcTime : ℚ) * rv⌋ := pyInt_of_nonneg (mul_nonneg hft' r0)
  have hlo : ⌊(app.funcTime : ℚ) * (1 - app.timeFractionRandomVariability)⌋ ≤ pyInt (app.funcTime * rv) := by
    rw [hpi]; exact Int.floor_le_floor (mul_le_mul_of_nonneg_left r1 hft')
  have hhi : pyInt (app.funcTime * rv) ≤ ⌊(app.funcTime : ℚ) * (1 + app.timeFractionRandomVariability)⌋ := by
    rw [hpi]; exact Int.floor_le_floor (mul_le_mul_of_nonneg_left r2 hft')
  have hlo' : ⌊(app.funcTime : ℚ) * (1 - app.timeFractionRandomVariability)⌋ ≤ app.funcTime := by
    have : (app.funcTime : ℚ) * (1 - app.timeFractionRandomVariability) ≤ app.funcTime := by nlinarith
    exact_mod_cast (Int.floor_le _).trans this
  have hhi' : app.funcTime ≤ ⌊(app.funcTime : ℚ) * (1 + app.timeFractionRandomVariability)⌋ := by
    rw [Int.le_floor]; nlinarith
  generalize pyInt (app.funcTime * rv) = m at *
  generalize hx : (app.funcTime : ℚ) + ((m : ℚ) - app.funcTime) * u' = x
  have hx1 : ((min m app.funcTime : ℤ) : ℚ) ≤ x := by
    rcases le_total m app.funcTime with h | h
    · rw [min_eq_left h]; have : (m : ℚ) ≤ app.funcTime := by exact_mod_cast h
      nlinarith
    · rw [min_eq_right h]; have : (app.funcTime : ℚ) ≤ m := by exact_mod_cast h
      nlinarith
  have hx2 : x ≤ ((max m app.funcTime : ℤ) : ℚ) := by
    rcases le_total m app.funcTime with h | h
    · rw [max_eq_right h]; have : (m : ℚ) ≤ app.funcTime := by exact_mod_cast h
      nlinarith
    · rw [max_eq_left h]; have : (app.funcTime : ℚ) ≤ m := by exact_mod_cast h
      nlinarith
  have hn1 := le_pyRound hx1
  have hn2 := pyRound_le hx2
  generalize pyRound x = n at *
  simp only
  -- the clipped value
  have e1 : (if n < app.funcCycle then app.funcCycle else n) = max n app.funcCycle := by split_ifs <;> omega
  rw [e1]
  have e2 : (w1.2 - w1.1) + (w2.2 - w2.1) + (w3.2 - w3.1) = totalTime w1 w2 w3 := rfl
  rw [e2]
  have e3 : (if ((max n app.funcCycle : ℤ) : ℚ) > 99 / 100 * (totalTime w1 w2 w3 : ℚ)
      then pyInt (99 / 100 * (totalTime w1 w2 w3 : ℚ)) else max n app.funcCycle) =
      min (max n app.funcCycle) (maxUse w1 w2 w3) := by
    rw [pyInt_of_nonneg htq]
    show (if _ then maxUse w1 w2 w3 else _) = _
    by_cases h : ((max n app.funcCycle : ℤ) : ℚ) > 99 / 100 * (totalTime w1 w2 w3 : ℚ)
    · rw [if_pos h]
      have := gt_maxUse_iff.1 h
      omega
    · rw [if_neg h]
      have : ¬ maxUse w1 w2 w3 < max n app.funcCycle := fun h' => h (gt_maxUse_iff.2 h')
      omega
  rw [e3]
  refine sat_ite (fun h => sat_raise ⟨rfl, by omega⟩) (fun h => sat_pure ⟨by omega, n, by omega, by omega, rfl⟩)

theorem reach_randTime (app : Appliance) (w1 w2 w3 : ℤ × ℤ) (n : ℕ) (hft : 0 ≤ app.funcTime)
    (hv0 : 0 ≤ app.timeFractionRandomVariability) (hv1 : app.timeFractionRandomVariability ≤ 1)
    (ht : 0 ≤ totalTime w1 w2 w3) (hn : PartLength app.timeFractionRandomVariability app.funcTime n)
    (hfc : app.funcCycle ≤ maxUse w1 w2 w3) :
    Reach (randTotalTimeOfUse app w1 w2 w3) (min (max (n : ℤ) app.funcCycle) (maxUse w1 w2 w3)) := by
  have hft' : (0 : ℚ) ≤ app.funcTime := by exact_mod_cast hft
  have htq : (0 : ℚ) ≤ 99 / 100 * (totalTime w1 w2 w3 : ℚ) := by
    have : (0 : ℚ) ≤ (totalTime w1 w2 w3 : ℚ) := by exact_mod_cast ht
    linarith
  -- a factor whose truncated product is n
  have key : ∃ f : ℚ, 1 - app.timeFractionRandomVariability ≤ f ∧ f ≤ 1 + app.timeFractionRandomVariability ∧
      pyInt (app.funcTime * f) = n := by
    obtain ⟨d, hr, hd⟩ := reach_part hv0 hv1 hft hn
    have := hr.returns
    have hs : Sat (randomVariation (-app.timeFractionRandomVariability) app.funcTime)
      (fun d => ∃ f, 1 - app.timeFractionRandomVariability ≤ f ∧ f ≤ 1 + app.timeFractionRandomVariability ∧
        d = app.funcTime * f) (fun _ => True) :=
      sat_bind (sat_uniform fun u hu0 hu1 => sat_pure ⟨_, by nlinarith, by nlinarith, rfl⟩)
    obtain ⟨f, h1, h2, rfl⟩ := hs.ret this
    exact ⟨f, h1, h2, hd⟩
  obtain ⟨f, hf1, hf2, hf⟩ := key
  unfold randTotalTimeOfUse
  refine reach_bind (reach_bind (reach_uniform_of_mem hf1 hf2) (reach_pure' (one_mul f))) ?_
  rw [hf]
  refine reach_bind (reach_uniform (u := 1) (x := ((n : ℤ) : ℚ)) (by norm_num) le_rfl (by push_cast; ring)) ?_
  rw [pyRound_intCast]
  simp only
  have e1 : (if (n : ℤ) < app.funcCycle then app.funcCycle else (n : ℤ)) = max (n : ℤ) app.funcCycle := by
    split_ifs <;> omega
  rw [e1]
  have e2 : (w1.2 - w1.1) + (w2.2 - w2.1) + (w3.2 - w3.1) = totalTime w1 w2 w3 := rfl
  rw [e2]
  have e3 : (if ((max (n : ℤ) app.funcCycle : ℤ) : ℚ) > 99 / 100 * (totalTime w1 w2 w3 : ℚ)
      then pyInt (99 / 100 * (totalTime w1 w2 w3 : ℚ)) else max (n : ℤ) app.funcCycle) =
      min (max (n : ℤ) app.funcCycle) (maxUse w1 w2 w3) := by
    rw [pyInt_of_nonneg htq]
    show (if _ then maxUse w1 w2 w3 else _) = _
    by_cases h : ((max (n : ℤ) app.funcCycle : ℤ) : ℚ) > 99 / 100 * (totalTime w1 w2 w3 : ℚ)
    · rw [if_pos h]
      have := gt_maxUse_iff.1 h
      omega
    · rw [if_neg h]
      have : ¬ maxUse w1 w2 w3 < max (n : ℤ) app.funcCycle := fun h' => h (gt_maxUse_iff.2 h')
      omega
  rw [e3, if_neg (by omega)]
  exact reach_pure _

/-- **C07.** The possible values of the randomised time of use are exactly: an integer number of minutes within the variability
band around `func_time`, raised to `func_cycle`, and cut at 99 % of the window time. -/
theorem C07_time_of_use_exact (app : Appliance) (w1 w2 w3 : ℤ × ℤ) (t : ℤ) (hft : 0 ≤ app.funcTime)
    (hv0 : 0 ≤ app.timeFractionRandomVariability) (hv1 : app.timeFractionRandomVariability ≤ 1)
    (ht : 0 ≤ totalTime w1 w2 w3) :
    Returns (randTotalTimeOfUse app w1 w2 w3) t ↔
      app.funcCycle ≤ ⌊(99 / 100 : ℚ) * totalTime w1 w2 w3⌋ ∧
      ∃ n : ℤ, ⌊(app.funcTime : ℚ) * (1 - app.timeFractionRandomVariability)⌋ ≤ n ∧
        n ≤ ⌊(app.funcTime : ℚ) * (1 + app.timeFractionRandomVariability)⌋ ∧
        t = min (max n app.funcCycle) ⌊(99 / 100 : ℚ) * totalTime w1 w2 w3⌋ := by
  constructor
  · exact fun h => (sat_randTime app w1 w2 w3 hft hv0 hv1 ht).ret h
  · rintro ⟨hfc, n, h1, h2, rfl⟩
    have hn : 0 ≤ n := by
      have : 0 ≤ ⌊(app.funcTime : ℚ) * (1 - app.timeFractionRandomVariability)⌋ := by
        rw [Int.floor_nonneg]
        exact mul_nonneg (by exact_mod_cast hft) (by linarith)
      omega
    obtain ⟨k, rfl⟩ : ∃ k : ℕ, n = k := ⟨n.toNat, by omega⟩
    exact (reach_randTime app w1 w2 w3 k hft hv0 hv1 ht ⟨h1, h2⟩ hfc).returns

/-- **C07.** Bounds: at least `func_cycle`, at most 99 % of the window time, at most the larger of `func_cycle` and
`func_time * (1 + variability)`, and not below the smaller of 99 % of the window time and `func_time * (1 - variability)`. -/
theorem C07_time_of_use_bounds (app : Appliance) (w1 w2 w3 : ℤ × ℤ) (t : ℤ) (hft : 0 ≤ app.funcTime)
    (hv0 : 0 ≤ app.timeFractionRandomVariability) (hv1 : app.timeFractionRandomVariability ≤ 1)
    (ht : 0 ≤ totalTime w1 w2 w3) (h : Returns (randTotalTimeOfUse app w1 w2 w3) t) :
    app.funcCycle ≤ t ∧ (t : ℚ) ≤ 99 / 100 * totalTime w1 w2 w3 ∧
    (t : ℚ) ≤ max (app.funcCycle : ℚ) (app.funcTime * (1 + app.timeFractionRandomVariability)) ∧
    min ⌊(99 / 100 : ℚ) * totalTime w1 w2 w3⌋ ⌊(app.funcTime : ℚ) * (1 - app.timeFractionRandomVariability)⌋ ≤ t := by
  obtain ⟨hfc, n, h1, h2, rfl⟩ := (C07_time_of_use_exact app w1 w2 w3 t hft hv0 hv1 ht).1 h
  have hcap := Int.floor_le ((99 / 100 : ℚ) * totalTime w1 w2 w3)
  have hnq : (n : ℚ) ≤ app.funcTime * (1 + app.timeFractionRandomVariability) := by
    have := Int.le_floor.1 h2; exact this
  refine ⟨by omega, ?_, ?_, by omega⟩
  · push_cast
    exact (min_le_right _ _).trans hcap
  · push_cast
    refine (min_le_left _ _).trans ?_
    rw [max_comm]
    exact max_le_max le_rfl hnq

/-- **C07.** Without variability and when everything fits, the time of use is `func_time` itself. -/
theorem C07_no_variability (app : Appliance) (w1 w2 w3 : ℤ × ℤ) (t : ℤ) (hft : 0 ≤ app.funcTime)
    (hv : app.timeFractionRandomVariability = 0) (hc : app.funcCycle ≤ app.funcTime)
    (hfit : (app.funcTime : ℚ) ≤ 99 / 100 * totalTime w1 w2 w3) (ht : 0 ≤ totalTime w1 w2 w3) :
    Returns (randTotalTimeOfUse app w1 w2 w3) t ↔ t = app.funcTime := by
  rw [C07_time_of_use_exact app w1 w2 w3 t hft (by rw [hv]) (by rw [hv]; norm_num) ht, hv]
  have hcap : app.funcTime ≤ ⌊(99 / 100 : ℚ) * totalTime w1 w2 w3⌋ := Int.le_floor.2 hfit
  simp only [sub_zero, add_zero, mul_one, Int.floor_intCast]
  constructor
  · rintro ⟨_, n, h1, h2, rfl⟩; omega
  · rintro rfl; exact ⟨by omega, app.funcTime, le_rfl, le_rfl, by omega⟩

/-- **C08.** The time of use fails exactly when `func_cycle` exceeds 99 % of the available window time, with `ValueError`, and
this does not depend on the random draws: either every run fails or none does. -/
theorem C08_failure_iff (app : Appliance) (w1 w2 w3 : ℤ × ℤ) (hft : 0 ≤ app.funcTime)
    (hv0 : 0 ≤ app.timeFractionRandomVariability) (hv1 : app.timeFractionRandomVariability ≤ 1)
    (ht : 0 ≤ totalTime w1 w2 w3) (rng : Rng) :
    (randTotalTimeOfUse app w1 w2 w3 rng = .error .valueError ↔ (99 / 100 : ℚ) * totalTime w1 w2 w3 < app.funcCycle) ∧
    (∀ e, randTotalTimeOfUse app w1 w2 w3 rng = .error e → e = .valueError) := by
  have hs := sat_randTime app w1 w2 w3 hft hv0 hv1 ht rng
  have hiff : (99 / 100 : ℚ) * totalTime w1 w2 w3 < app.funcCycle ↔ maxUse w1 w2 w3 < app.funcCycle := gt_maxUse_iff
  rw [hiff]
  cases h : randTotalTimeOfUse app w1 w2 w3 rng with
  | error e =>
    rw [h] at hs
    simp only at hs
    obtain ⟨rfl, h'⟩ := hs
    simp [h']
  | ok p =>
    rw [h] at hs
    simp only at hs
    simp
    exact hs.1

/-- **C08.** With reversed windows of negative total time and `func_cycle ≥ 1` the call always fails. -/
theorem C08_negative_total (app : Appliance) (w1 w2 w3 : ℤ × ℤ) (hfc : 1 ≤ app.funcCycle)
    (ht : totalTime w1 w2 w3 < 0) (rng : Rng) :
    randTotalTimeOfUse app w1 w2 w3 rng = .error .valueError := by
  have hs : Sat (randTotalTimeOfUse app w1 w2 w3) (fun _ => False) (fun e => e = .valueError) := by
    unfold randTotalTimeOfUse
    refine sat_bind (sat_bind (sat_uniform fun u hu0 hu1 => sat_pure ?_))
    refine sat_bind (sat_uniform fun u' hu0' hu1' => ?_)
    simp only
    have e2 : (w1.2 - w1.1) + (w2.2 - w2.1) + (w3.2 - w3.1) = totalTime w1 w2 w3 := rfl
    rw [e2]
    have htq : (totalTime w1 w2 w3 : ℚ) < 0 := by exact_mod_cast ht
    refine sat_ite (fun _ => sat_raise rfl) (fun h => ?_)
    exfalso
    generalize pyRound _ = n at h
    have e1 : (if n < app.funcCycle then app.funcCycle else n) = max n app.funcCycle := by split_ifs <;> omega
    rw [e1] at h
    have h1 : (1 : ℚ) ≤ ((max n app.funcCycle : ℤ) : ℚ) := by exact_mod_cast (by omega : (1 : ℤ) ≤ max n app.funcCycle)
    rw [if_pos (by linarith)] at h
    have h2 : pyInt (99 / 100 * (totalTime w1 w2 w3 : ℚ)) ≤ 0 := pyInt_le (by push_cast; linarith)
    omega
  cases h : randTotalTimeOfUse app w1 w2 w3 rng with
  | error e => have := hs.err ⟨rng, h⟩; rw [this]
  | ok p => exact (hs.ret ⟨rng, p.2, h⟩).elim

-- func_time 120 with 20 % variability in a window of 200 minutes can come out as 110 minutes.
example : Returns (randTotalTimeOfUse { funcTime := 120, timeFractionRandomVariability := 1/5, funcCycle := 5 }
    (0, 200) (0, 0) (0, 0)) 110 := by
  rw [C07_time_of_use_exact _ _ _ _ _ (by decide) (by norm_num) (by norm_num) (by decide)]
  refine ⟨by simp [totalTime, Int.le_floor]; norm_num, 110, ?_, ?_, ?_⟩ <;>
    norm_num [totalTime, Int.floor_le_iff, Int.le_floor]

end Ramp
