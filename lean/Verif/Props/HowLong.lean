import Verif.Props.Room
import Verif.Spec12
import Verif.Lemmas.AverageTime

/-! # C112: the variability of the time of use and of the windows -/

set_option autoImplicit false

open MeasureTheory ENNReal

namespace Ramp

variable {μ : Measure Draw}

/-! ## The average time of use -/

theorem averageTime_mem {M : ℕ} (hM : 0 < M) {f : ℤ} {v : ℚ} {lo hi : ℤ} (h : ∀ x y : ℚ, 0 ≤ x → x ≤ 1 → 0 ≤ y → y ≤ 1 → lo ≤ timeDrawn f v x y ∧ timeDrawn f v x y ≤ hi) :
    (lo : ℚ) ≤ averageTime M f v ∧ averageTime M f v ≤ hi := by
  have hM' : (0 : ℚ) < M := by exact_mod_cast hM
  have key : ∀ (c : ℚ), ∑ _j ∈ Finset.range M, ∑ _k ∈ Finset.range M, c = c * (M * M) := by
    intro c
    rw [Finset.sum_const, Finset.sum_const, Finset.card_range, nsmul_eq_mul, nsmul_eq_mul]
    ring
  unfold averageTime
  constructor
  · rw [le_div_iff₀ (mul_pos hM' hM'), ← key]
    refine Finset.sum_le_sum fun j hj => Finset.sum_le_sum fun k hk => ?_
    obtain ⟨x0, x1⟩ := grid_mem (Finset.mem_range.1 hj)
    obtain ⟨y0, y1⟩ := grid_mem (Finset.mem_range.1 hk)
    exact_mod_cast (h _ _ x0 x1 y0 y1).1
  · rw [div_le_iff₀ (mul_pos hM' hM'), ← key]
    refine Finset.sum_le_sum fun j hj => Finset.sum_le_sum fun k hk => ?_
    obtain ⟨x0, x1⟩ := grid_mem (Finset.mem_range.1 hj)
    obtain ⟨y0, y1⟩ := grid_mem (Finset.mem_range.1 hk)
    exact_mod_cast (h _ _ x0 x1 y0 y1).2

theorem timeDrawn_mem {f : ℤ} {v : ℚ} (hf : 0 ≤ f) (h0 : 0 ≤ v) (h1 : v ≤ 1) (x y : ℚ) (hx0 : 0 ≤ x) (hx1 : x ≤ 1) (hy0 : 0 ≤ y) (hy1 : y ≤ 1) :
    ⌊(f : ℚ) * (1 - v)⌋ ≤ timeDrawn f v x y ∧ timeDrawn f v x y ≤ ⌊(f : ℚ) * (1 + v)⌋ := by
  have hf' : (0 : ℚ) ≤ f := by exact_mod_cast hf
  have hfv : 0 ≤ (f : ℚ) * v := mul_nonneg hf' h0
  obtain ⟨_, _, g3, g4⟩ := timeEnd_bounds hf h0 h1 hx0 hx1
  have g3' : ((⌊(f : ℚ) * (1 - v)⌋ : ℤ) : ℚ) ≤ timeEnd f v x := by exact_mod_cast g3
  have g4' : (timeEnd f v x : ℚ) ≤ (⌊(f : ℚ) * (1 + v)⌋ : ℤ) := by exact_mod_cast g4
  have f1 : ((⌊(f : ℚ) * (1 - v)⌋ : ℤ) : ℚ) ≤ f := (Int.floor_le _).trans (by linarith)
  have f2 : (f : ℚ) ≤ (⌊(f : ℚ) * (1 + v)⌋ : ℤ) := by exact_mod_cast Int.le_floor.2 (by linarith : (f : ℚ) ≤ f * (1 + v))
  unfold timeDrawn
  exact ⟨le_pyRound (by nlinarith), pyRound_le (by nlinarith)⟩

/-! ## The average windows -/

theorem mean_randint {N : ℕ} (h : PythonRandom N μ) {a b : ℤ} (hab : a ≤ b) (hN : b - a + 1 ≤ N) (G : ℤ → ℝ≥0∞) :
    MeanOf μ (randint a b) G = ((b - a + 1).toNat : ℝ≥0∞)⁻¹ * ∑ j ∈ Finset.range (b - a + 1).toNat, G (a + j) := by
  have := h.probability
  unfold randint
  rw [if_neg (by omega), meanOf_bind fin_nextDraw fun _ => fin_pure _, meanOf_nextDraw]
  simp only [meanOf_pure]
  have hn : (((b - a + 1).toNat : ℕ) : ℤ) = b - a + 1 := by omega
  generalize (b - a + 1).toNat = n at *
  rw [← hn]
  have h0 : 0 < n := by omega
  have e1 : ∀ d : Draw, G (a + (d.k : ℤ) % (n : ℤ)) = ∑ j ∈ Finset.range n, Set.indicator {d : Draw | d.k % n = j} (fun _ => G (a + j)) d := by
    intro d
    have hlt : d.k % n < n := Nat.mod_lt _ h0
    rw [Finset.sum_eq_single (d.k % n)]
    · rw [Set.indicator_of_mem (show d ∈ {d' : Draw | d'.k % n = d.k % n} from rfl), Int.natCast_mod]
    · exact fun j _ hj => Set.indicator_of_notMem (show d ∉ {d : Draw | d.k % n = j} from fun hd => hj (Eq.symm hd)) _
    · exact fun hn => absurd (Finset.mem_range.2 hlt) hn
  rw [lintegral_congr e1, lintegral_finsetSum _ fun _ _ => Measurable.of_discrete, Finset.mul_sum]
  refine Finset.sum_congr rfl fun j hj => ?_
  rw [lintegral_indicator_const MeasurableSet.of_discrete, h.integers n h0 (by omega) j (Finset.mem_range.1 hj), mul_comm]

/-- An integer drawn around `c` is `c` on average. -/
theorem mean_around {N : ℕ} (h : PythonRandom N μ) {c r : ℤ} (hr : 0 ≤ r) (hN : 2 * r + 1 ≤ N) {γ δ : ℝ} (hpos : ∀ x : ℤ, c - r ≤ x → x ≤ c + r → 0 ≤ γ * x + δ) :
    MeanOf μ (randint (c - r) (c + r)) (fun x => ENNReal.ofReal (γ * x + δ)) = ENNReal.ofReal (γ * c + δ) := by
  rw [mean_randint h (by omega) (by omega)]
  have hn : (((c + r - (c - r) + 1).toNat : ℕ) : ℤ) = 2 * r + 1 := by omega
  generalize (c + r - (c - r) + 1).toNat = n at *
  have h0 : 0 < n := by omega
  have h0' : (n : ℝ) ≠ 0 := by exact_mod_cast h0.ne'
  rw [← ENNReal.ofReal_sum_of_nonneg, inv_ofReal h0]
  · congr 1
    have hg : (∑ j ∈ Finset.range n, (j : ℝ)) * 2 = n * (n - 1) := by
      have := Finset.sum_range_id_mul_two n
      have h2 : (((∑ j ∈ Finset.range n, j) * 2 : ℕ) : ℝ) = ((n * (n - 1) : ℕ) : ℝ) := by rw [this]
      rw [Nat.cast_mul, Nat.cast_mul, Nat.cast_sum, Nat.cast_sub h0] at h2
      push_cast at h2
      exact h2
    have hnr : (n : ℝ) = 2 * r + 1 := by exact_mod_cast hn
    have e : ∀ j ∈ Finset.range n, γ * ((c - r + (j : ℕ) : ℤ) : ℝ) + δ = (γ * (c - r) + δ) + γ * (j : ℝ) := by
      intro j _
      push_cast
      ring
    rw [Finset.sum_congr rfl e, Finset.sum_add_distrib, Finset.sum_const, Finset.card_range, nsmul_eq_mul, ← Finset.mul_sum]
    have hs : ∑ j ∈ Finset.range n, (j : ℝ) = n * r := by
      have : (n : ℝ) - 1 = 2 * r := by linarith
      rw [this] at hg
      linarith
    rw [hs]
    field_simp
    ring
  · intro j hj
    have := Finset.mem_range.1 hj
    exact hpos _ (by omega) (by omega)

/-- The length of a window that stays inside of the day is unchanged on average. -/
theorem mean_window {N : ℕ} (h : PythonRandom N μ) {w : ℤ × ℤ} {r : ℤ} (hr : 0 ≤ r) (hN : 2 * r + 1 ≤ N) (hd : r ≤ w.1 ∧ w.2 + r ≤ 1440) {γ δ : ℝ}
    (hpos : ∀ x : ℤ × ℤ, MovedWindow w r x → 0 ≤ γ * (x.2 - x.1) + δ) :
    MeanOf μ (calcRandWindow w r) (fun x => ENNReal.ofReal (γ * (x.2 - x.1) + δ)) = ENNReal.ofReal (γ * (w.2 - w.1) + δ) := by
  have := h.probability
  have hmv : ∀ a b : ℤ, w.1 - r ≤ a → a ≤ w.1 + r → w.2 - r ≤ b → b ≤ w.2 + r → MovedWindow w r (a, b) := fun a b h1 h2 h3 h4 =>
    ⟨a, b, ⟨h1, h2⟩, ⟨h3, h4⟩, by rw [max_eq_right (by omega), min_eq_right (by omega)]⟩
  have hret : ∀ {c : ℤ} {x : ℤ}, Returns (randint (c - r) (c + r)) x → c - r ≤ x ∧ x ≤ c + r := fun {c x} hx =>
    (sat_randint (Q := fun x => c - r ≤ x ∧ x ≤ c + r) (E := fun _ => True) (fun x h1 h2 => ⟨h1, h2⟩) (fun _ => trivial)).ret hx
  unfold calcRandWindow
  rw [meanOf_bind (fin_randint _ _) fun _ => fin_bind (fin_randint _ _) fun _ => fin_pure _]
  have e1 : ∀ a, Returns (randint (w.1 - r) (w.1 + r)) a → MeanOf μ (randint (w.2 - r) (w.2 + r) >>= fun b => pure ((if a < 0 then 0 else a), (if b > 1440 then 1440 else b)))
      (fun x : ℤ × ℤ => ENNReal.ofReal (γ * (x.2 - x.1) + δ)) = ENNReal.ofReal ((-γ) * a + (γ * w.2 + δ)) := by
    intro a ha
    obtain ⟨a1, a2⟩ := hret ha
    rw [meanOf_bind (fin_randint _ _) fun _ => fin_pure _]
    have e2 : ∀ b, Returns (randint (w.2 - r) (w.2 + r)) b → MeanOf μ (pure ((if a < 0 then 0 else a), (if b > 1440 then 1440 else b)) : Sim (ℤ × ℤ))
        (fun x : ℤ × ℤ => ENNReal.ofReal (γ * (x.2 - x.1) + δ)) = ENNReal.ofReal (γ * b + (-γ * a + δ)) := by
      intro b hb
      obtain ⟨b1, b2⟩ := hret hb
      rw [meanOf_pure, if_neg (by omega), if_neg (by omega)]
      congr 1
      simp only
      ring
    rw [meanOf_congr e2, mean_around h hr hN]
    · congr 1
      ring
    · intro b h1 h2
      have := hpos _ (hmv a b a1 a2 h1 h2)
      simp only at this
      linarith
  rw [meanOf_congr e1, mean_around h hr hN]
  · congr 1
    ring
  · intro a h1 h2
    have := hpos _ (hmv a w.2 h1 h2 (by omega) (by omega))
    simp only at this
    linarith

/-! ## The energy of a day with a given time of use -/

theorem roomFor_less {c t t' : ℤ} {w1 w2 w3 : ℤ × ℤ} (h : RoomFor c t w1 w2 w3) (ht : t' ≤ t) : RoomFor c t' w1 w2 w3 := fun u1 u2 u3 b1 b2 b3 => ht.trans (h u1 u2 u3 b1 b2 b3)

/-- The events of a day with the windows `w1`, `w2`, `w3` and the time of use `rt`. -/
theorem rest_events {a : Appliance} (hs : WellSeparated a) (hc : a.fixedCycle ≤ 0) {w1 w2 w3 : ℤ × ℤ} (hap : WindowsApart w1 w2 w3) (d1 : DayWindow w1) (d2 : DayWindow w2)
    (d3 : DayWindow w3) {rt : ℤ} (hrt : a.funcCycle ≤ rt) {depth : ℕ} {peak : List ℤ} (hpk : peak ≠ []) {p : ℚ} {b : Appliance}
    (h : Returns (restRun a (depth + 1) peak p (some (w1, w2, w3, rt))) b) :
    ∃ es, PlainDay a p [w1, w2, w3] rt es ∧ DayProfile [w1, w2, w3] es b.dailyUse := by
  unfold restRun eventsRun at h
  rw [returns_bind (fin_liftE _)] at h
  obtain ⟨d, hd, h⟩ := h
  rw [returns_liftE, fillWindows_ok _ d1 d2 d3] at hd
  cases hd
  rw [returns_bind (fin_assignRandomCycles _)] at h
  obtain ⟨a2, h2, h⟩ := h
  rw [show assignRandomCycles { a with dailyUse := windowProfile w1 w2 w3 (1 / 1000) } = pure { a with dailyUse := windowProfile w1 w2 w3 (1 / 1000) } from
    if_neg (show ¬ a.fixedCycle ≥ 1 by omega), returns_pure] at h2
  subst h2
  rw [returns_bind (fin_switchOnLoop _ _ _ _ _ _ _ _)] at h
  obtain ⟨⟨a3, log⟩, h3, h⟩ := h
  rw [returns_pure] at h
  subst h
  have hap' := windowsApart_pairwise hap
  have hsh := hs.shortest
  have := (returns_loop_iff (app0 := a) (power := p) (peak := peak) (depth := depth) (rt := rt) hs.shortest hrt hs.number hpk hap' (by
      intro w hw
      have hm := List.mem_of_mem_filter hw
      simp only [List.mem_cons, List.not_mem_nil, or_false] at hm
      rcases hm with rfl | rfl | rfl
      · exact ⟨d1.1, d1.2.2⟩
      · exact ⟨d2.1, d2.2.2⟩
      · exact ⟨d3.1, d3.2.2⟩) (fun h => absurd h (by omega))
    (rt.toNat + 2) (windowProfile w1 w2 w3 (1 / 1000)) (initialSpots [w1, w2, w3]) a.currentDutyCycleId [] [] 0
    (spots_start d1 d2 d3 hap') rfl (by omega) (by push_cast; omega) b.dailyUse).1 ⟨b, log, h3, rfl⟩
  obtain ⟨es, hg, hp⟩ := this
  have hsch := (schedule_filter (app := a) hs.shortest).1 (remaining_nil_iff.1 ((goes_iff es [] (by show (0 : ℤ) ≤ rt; omega)).1 hg))
  exact ⟨es, PlainDay.of_schedule hc hsch, (dayProfile_iff hsch.disjoint).2 hp⟩

/-- The energy of the events of a day without variability of power. -/
theorem steady_energy {a : Appliance} {p : ℚ} {ws : List (ℤ × ℤ)} {time : ℤ} {es : List SwitchEvent} (hpl : PlainDay a p ws time es) (hall : a.fixed ≠ "no") (htv : a.thermalPVar = 0) :
    (es.map (fun e => (e.minutes : ℚ) * e.values.getD 0 0)).sum = minutesOn es * (a.number * p) := by
  have hv : ∀ e ∈ es, (e.minutes : ℚ) * e.values.getD 0 0 = e.minutes * (a.number * p) := by
    intro e hm
    obtain ⟨f, hf, hv⟩ := hpl.power e hm
    have hn := hpl.number e hm
    unfold NumberOn at hn
    rw [if_neg hall] at hn
    rw [htv, abs_zero] at hf
    have : f = 1 := by linarith [abs_nonpos_iff.1 hf]
    rw [hv, hn, this]
    simp
  rw [List.map_congr_left hv]
  clear hv hpl
  induction es with
  | nil => simp [minutesOn]
  | cons e l ih =>
    simp only [List.map_cons, List.sum_cons, ih, minutesOn]
    push_cast
    ring

theorem rest_energy {a : Appliance} (hs : WellSeparated a) (ho : OnlyHowLong a) {w1 w2 w3 : ℤ × ℤ} (hap : WindowsApart w1 w2 w3) (d1 : DayWindow w1) (d2 : DayWindow w2)
    (d3 : DayWindow w3) {rt : ℤ} (hrt : a.funcCycle ≤ rt) (hroom : RoomFor a.funcCycle rt w1 w2 w3) {depth : ℕ} {peak : List ℤ} (hpk : peak ≠ []) {p : ℚ} {b : Appliance}
    (h : Returns (restRun a (depth + 1) peak p (some (w1, w2, w3, rt))) b) :
    energy b.dailyUse = rt * (a.number * p) + 1 / 1000 * (totalTime w1 w2 w3 - rt) := by
  obtain ⟨es, hpl, hp⟩ := rest_events hs ho.noCycles hap d1 d2 d3 hrt hpk h
  rw [energy_of_events hap d1 d2 d3 hpl hp, steady_energy hpl ho.together ho.power, all_used_room hap d1 d2 d3 hpl hs.shortest hroom]

/-! ## Windows and time of use of a day -/

/-- The windows and the time of use of a day. -/
def usedRun (a : Appliance) : Sim ((ℤ × ℤ) × (ℤ × ℤ) × (ℤ × ℤ) × ℤ) :=
  calcRandWindow a.window1 a.randomVar1 >>= fun w1 => calcRandWindow a.window2 a.randomVar2 >>= fun w2 => calcRandWindow a.window3 a.randomVar3 >>= fun w3 =>
    randTotalTimeOfUse { a with dailyUse := zeros } w1 w2 w3 >>= fun rt => pure (w1, w2, w3, rt)

theorem fin_usedRun (a : Appliance) : Finitary (usedRun a) :=
  fin_bind (fin_calcRandWindow _ _) fun _ => fin_bind (fin_calcRandWindow _ _) fun _ => fin_bind (fin_calcRandWindow _ _) fun _ => fin_bind (fin_randTotalTimeOfUse _ _ _ _) fun _ => fin_pure _

/-- The beginning of a day: first whether the appliance is used, then how. -/
theorem begin_mean [IsProbabilityMeasure μ] {a : Appliance} {pref dt : ℤ} (G : (ℤ × ℤ) × (ℤ × ℤ) × (ℤ × ℤ) × ℤ → ℝ≥0∞) :
    MeanOf μ (beginRun a pref dt) (fun o => o.elim 0 G) = ind (¬ SkippedForSure a pref dt) * (μ {d | d.u ≤ a.occasionalUse} * MeanOf μ (usedRun a) G) := by
  have heq : beginRun a pref dt = nextDraw >>= fun d => if d.u > a.occasionalUse ∨ (a.prefIndex ≠ 0 ∧ pref ≠ a.prefIndex) ∨ ¬ (a.wdWeType = dt ∨ a.wdWeType = 2) ∨ a.funcTime = 0 then
      (pure none : Sim (Option ((ℤ × ℤ) × (ℤ × ℤ) × (ℤ × ℤ) × ℤ))) else usedRun a >>= fun x => pure (some x) := by
    have eu : uniform 0 1 = nextDraw >>= fun d => pure d.u := by
      unfold uniform
      congr 1
      funext d
      congr 1
      ring
    unfold beginRun usedRun
    rw [eu, sim_bind_assoc]
    simp only [sim_bind_assoc, sim_pure_bind]
  have hfin : ∀ d : Draw, Finitary (if d.u > a.occasionalUse ∨ (a.prefIndex ≠ 0 ∧ pref ≠ a.prefIndex) ∨ ¬ (a.wdWeType = dt ∨ a.wdWeType = 2) ∨ a.funcTime = 0 then
      (pure none : Sim (Option ((ℤ × ℤ) × (ℤ × ℤ) × (ℤ × ℤ) × ℤ))) else usedRun a >>= fun x => pure (some x)) := fun _ =>
    fin_ite (fin_pure _) (fin_bind (fin_usedRun a) fun _ => fin_pure _)
  rw [heq, meanOf_bind fin_nextDraw hfin, meanOf_nextDraw]
  have hskip : SkippedForSure a pref dt ↔ (a.prefIndex ≠ 0 ∧ pref ≠ a.prefIndex) ∨ ¬ (a.wdWeType = dt ∨ a.wdWeType = 2) ∨ a.funcTime = 0 := by
    unfold SkippedForSure
    tauto
  have key : ∀ d : Draw, MeanOf μ (if d.u > a.occasionalUse ∨ (a.prefIndex ≠ 0 ∧ pref ≠ a.prefIndex) ∨ ¬ (a.wdWeType = dt ∨ a.wdWeType = 2) ∨ a.funcTime = 0 then
      (pure none : Sim (Option ((ℤ × ℤ) × (ℤ × ℤ) × (ℤ × ℤ) × ℤ))) else usedRun a >>= fun x => pure (some x)) (fun o => o.elim 0 G) =
      ind (¬ SkippedForSure a pref dt) * Set.indicator {d : Draw | d.u ≤ a.occasionalUse} (fun _ => MeanOf μ (usedRun a) G) d := by
    intro d
    by_cases hcond : d.u > a.occasionalUse ∨ (a.prefIndex ≠ 0 ∧ pref ≠ a.prefIndex) ∨ ¬ (a.wdWeType = dt ∨ a.wdWeType = 2) ∨ a.funcTime = 0
    · rw [if_pos hcond, meanOf_pure]
      rcases hcond with hcond | hcond
      · rw [Set.indicator_of_notMem (show d ∉ {d : Draw | d.u ≤ a.occasionalUse} from not_le.2 hcond), mul_zero]
        rfl
      · rw [ind_false (not_not.2 (hskip.2 hcond)), zero_mul]
        rfl
    · rw [if_neg hcond, meanOf_bind (fin_usedRun a) fun _ => fin_pure _]
      rw [not_or, ← hskip] at hcond
      rw [ind_true hcond.2, one_mul, Set.indicator_of_mem (show d ∈ {d : Draw | d.u ≤ a.occasionalUse} from not_lt.1 hcond.1)]
      simp only [meanOf_pure]
      rfl
  rw [lintegral_congr key, lintegral_const_mul _ Measurable.of_discrete, lintegral_indicator_const MeasurableSet.of_discrete, mul_comm (MeanOf μ (usedRun a) G)]

theorem moved_day {w v : ℤ × ℤ} {r : ℤ} (h : MovedWindow w r v) (hw : DayWindow w) (hr : 0 ≤ r ∧ r ≤ w.2 - w.1) (hh : 2 * r ≤ w.2 - w.1) : DayWindow v := by
  have := h.bounds hw hr
  unfold DayWindow
  omega

/-- The expected value of a quantity that is affine in the time of use and in the length of the windows. -/
theorem used_mean {N : ℕ} (h : PythonRandom N μ) {a : Appliance} (hc : SafeConfig a) (hv : RoomToVary a) (hN : windowDraws a ≤ N) {α γ : ℝ} (hγ : 0 ≤ γ) (hα : -γ ≤ α) :
    MeanOf μ (usedRun a) (fun x => ENNReal.ofReal (α * x.2.2.2 + γ * (totalTime x.1 x.2.1 x.2.2.1 : ℤ))) =
      ENNReal.ofReal (α * ((averageTime (2 ^ 53) a.funcTime a.timeFractionRandomVariability : ℚ) : ℝ) + γ * (totalTime a.window1 a.window2 a.window3 : ℤ)) := by
  have := h.probability
  have hM : 0 < 2 ^ 53 := by positivity
  have hgrid := h.grid
  unfold windowDraws at hN
  obtain ⟨v1, v2, v3⟩ : 2 * a.randomVar1 + 1 ≤ N ∧ 2 * a.randomVar2 + 1 ≤ N ∧ 2 * a.randomVar3 + 1 ≤ N := by omega
  have hw := hc.windows
  have hfc := hc.fc
  have hles := hv.least
  obtain ⟨tlo, thi⟩ := averageTime_mem hM (timeDrawn_mem hc.ft hc.var.1 hc.var.2)
  generalize hT : averageTime (2 ^ 53) a.funcTime a.timeFractionRandomVariability = T at *
  -- what is averaged is not negative
  have hpos : ∀ w1 w2 w3, MovedWindow a.window1 a.randomVar1 w1 → MovedWindow a.window2 a.randomVar2 w2 → MovedWindow a.window3 a.randomVar3 w3 → ∀ t : ℝ,
      ((shortestTime a : ℤ) : ℝ) ≤ t → t ≤ ((longestTime a : ℤ) : ℝ) → 0 ≤ α * t + γ * (totalTime w1 w2 w3 : ℤ) := by
    intro w1 w2 w3 m1 m2 m3 t h1 h2
    have hl := (hv.longest w1 w2 w3 m1 m2 m3).1
    have hlr : ((longestTime a : ℤ) : ℝ) ≤ 99 / 100 * ((totalTime w1 w2 w3 : ℤ) : ℝ) := by
      have := (Rat.cast_le (K := ℝ)).2 hl
      push_cast at this
      exact this
    have hs1 : (1 : ℝ) ≤ ((shortestTime a : ℤ) : ℝ) := by exact_mod_cast (by omega : 1 ≤ shortestTime a)
    have htot : t ≤ ((totalTime w1 w2 w3 : ℤ) : ℝ) := by linarith
    nlinarith
  have hposT : ∀ w1 w2 w3, MovedWindow a.window1 a.randomVar1 w1 → MovedWindow a.window2 a.randomVar2 w2 → MovedWindow a.window3 a.randomVar3 w3 →
      0 ≤ α * (T : ℝ) + γ * (totalTime w1 w2 w3 : ℤ) := fun w1 w2 w3 m1 m2 m3 =>
    hpos w1 w2 w3 m1 m2 m3 _ (by unfold shortestTime; exact_mod_cast tlo) (by unfold longestTime; exact_mod_cast thi)
  have s1 := moved_self hw.w1 hw.r1.1
  have s2 := moved_self hw.w2 hw.r2.1
  have s3 := moved_self hw.w3 hw.r3.1
  -- time of use
  have e4 : ∀ w1 w2 w3, MovedWindow a.window1 a.randomVar1 w1 → MovedWindow a.window2 a.randomVar2 w2 → MovedWindow a.window3 a.randomVar3 w3 →
      MeanOf μ (randTotalTimeOfUse { a with dailyUse := zeros } w1 w2 w3 >>= fun rt => pure (w1, w2, w3, rt))
        (fun x => ENNReal.ofReal (α * x.2.2.2 + γ * (totalTime x.1 x.2.1 x.2.2.1 : ℤ))) =
      ENNReal.ofReal (γ * (w3.2 - w3.1) + (α * (T : ℝ) + γ * ((w1.2 - w1.1) + (w2.2 - w2.1)))) := by
    intro w1 w2 w3 m1 m2 m3
    rw [meanOf_bind (fin_randTotalTimeOfUse _ _ _ _) fun _ => fin_pure _]
    simp only [meanOf_pure]
    rw [mean_time hM hgrid (a := { a with dailyUse := zeros }) (w1 := w1) (w2 := w2) (w3 := w3) hc.ft hc.var.1 hc.var.2 hv.least (hv.longest w1 w2 w3 m1 m2 m3).1
      (α := α) (β := γ * (totalTime w1 w2 w3 : ℤ)) fun t h1 h2 => hpos w1 w2 w3 m1 m2 m3 t (by exact_mod_cast h1) (by exact_mod_cast h2)]
    congr 1
    show α * ((averageTime (2 ^ 53) a.funcTime a.timeFractionRandomVariability : ℚ) : ℝ) + _ = _
    rw [hT]
    unfold totalTime
    push_cast
    ring
  have tot : ∀ w1 w2 w3 : ℤ × ℤ, ((totalTime w1 w2 w3 : ℤ) : ℝ) = (w1.2 - w1.1) + (w2.2 - w2.1) + (w3.2 - w3.1) := by
    intro w1 w2 w3
    unfold totalTime
    push_cast
    ring
  have e3 : ∀ w1 w2, MovedWindow a.window1 a.randomVar1 w1 → MovedWindow a.window2 a.randomVar2 w2 →
      MeanOf μ (calcRandWindow a.window3 a.randomVar3 >>= fun w3 => randTotalTimeOfUse { a with dailyUse := zeros } w1 w2 w3 >>= fun rt => pure (w1, w2, w3, rt))
        (fun x => ENNReal.ofReal (α * x.2.2.2 + γ * (totalTime x.1 x.2.1 x.2.2.1 : ℤ))) =
      ENNReal.ofReal (γ * (w2.2 - w2.1) + (α * (T : ℝ) + γ * ((w1.2 - w1.1) + (a.window3.2 - a.window3.1)))) := by
    intro w1 w2 m1 m2
    rw [meanOf_bind (fin_calcRandWindow _ _) fun _ => fin_bind (fin_randTotalTimeOfUse _ _ _ _) fun _ => fin_pure _]
    rw [meanOf_congr fun w3 hw3 => e4 w1 w2 w3 m1 m2 ((movedWindow_iff hw.r3.1).1 hw3)]
    rw [mean_window h hw.r3.1 v3 hv.inDay3]
    · congr 1
      ring
    · intro w3 m3
      have := hposT w1 w2 w3 m1 m2 m3
      rw [tot] at this
      linarith
  have e2 : ∀ w1, MovedWindow a.window1 a.randomVar1 w1 →
      MeanOf μ (calcRandWindow a.window2 a.randomVar2 >>= fun w2 => calcRandWindow a.window3 a.randomVar3 >>= fun w3 =>
        randTotalTimeOfUse { a with dailyUse := zeros } w1 w2 w3 >>= fun rt => pure (w1, w2, w3, rt))
        (fun x => ENNReal.ofReal (α * x.2.2.2 + γ * (totalTime x.1 x.2.1 x.2.2.1 : ℤ))) =
      ENNReal.ofReal (γ * (w1.2 - w1.1) + (α * (T : ℝ) + γ * ((a.window2.2 - a.window2.1) + (a.window3.2 - a.window3.1)))) := by
    intro w1 m1
    rw [meanOf_bind (fin_calcRandWindow _ _) fun _ => fin_bind (fin_calcRandWindow _ _) fun _ => fin_bind (fin_randTotalTimeOfUse _ _ _ _) fun _ => fin_pure _]
    rw [meanOf_congr fun w2 hw2 => e3 w1 w2 m1 ((movedWindow_iff hw.r2.1).1 hw2)]
    rw [mean_window h hw.r2.1 v2 hv.inDay2]
    · congr 1
      ring
    · intro w2 m2
      have := hposT w1 w2 a.window3 m1 m2 s3
      rw [tot] at this
      linarith
  unfold usedRun
  rw [meanOf_bind (fin_calcRandWindow _ _) fun _ => fin_bind (fin_calcRandWindow _ _) fun _ => fin_bind (fin_calcRandWindow _ _) fun _ =>
    fin_bind (fin_randTotalTimeOfUse _ _ _ _) fun _ => fin_pure _]
  rw [meanOf_congr fun w1 hw1 => e2 w1 ((movedWindow_iff hw.r1.1).1 hw1)]
  rw [mean_window h hw.r1.1 v1 hv.inDay1]
  · congr 1
    rw [tot]
    ring
  · intro w1 m1
    have := hposT w1 a.window2 a.window3 m1 s2 s3
    rw [tot] at this
    linarith

/-- The expected energy of a day of an appliance. -/
theorem mean_howLong {N : ℕ} (h : PythonRandom N μ) {a : Appliance} (hs : WellSeparated a) (ho : OnlyHowLong a) (hc : SafeConfig a) (hv : RoomToVary a) (hN : windowDraws a ≤ N)
    {k : ℕ} {p : ℚ} (hk : a.power[k]? = some p) (hp : 0 ≤ p) {peak : List ℤ} (hpk : peak ≠ []) {depth : ℕ} {pref dt : ℤ}
    (hn : NeverRaises (generateLoadProfile a (depth + 1) pref k peak dt p)) :
    MeanOf μ (applianceRun (depth + 1) k peak dt pref a) energyOf = ind (¬ SkippedForSure a pref dt) * (μ {d | d.u ≤ a.occasionalUse} *
      ENNReal.ofReal ((energyOfMinutes a p (averageTime (2 ^ 53) a.funcTime a.timeFractionRandomVariability) : ℚ) : ℝ)) := by
  have := h.probability
  have hw := hc.windows
  rw [mean_run hk, generate_split ho.notFlat, meanOf_bind (fin_beginRun _ _ _) fun _ => fin_restRun _ _ _ _ _]
  rw [generate_split ho.notFlat] at hn
  have hn2 := (never_bind (fin_beginRun _ _ _) hn).2
  have hγ : (0 : ℝ) ≤ 1 / 1000 := by norm_num
  have hnum : (0 : ℝ) ≤ (a.number : ℝ) * (p : ℝ) := by
    have h1 : (0 : ℝ) ≤ a.number := by exact_mod_cast (by have := hc.number; omega : 0 ≤ a.number)
    have h2 : (0 : ℝ) ≤ p := by exact_mod_cast hp
    exact mul_nonneg h1 h2
  have hG : ∀ o, Returns (beginRun a pref dt) o → MeanOf μ (restRun a (depth + 1) peak p o) (fun b => energyOf b.dailyUse) =
      o.elim 0 (fun x => ENNReal.ofReal (((a.number : ℝ) * p - 1 / 1000) * x.2.2.2 + 1 / 1000 * (totalTime x.1 x.2.1 x.2.2.1 : ℤ))) := by
    intro o hoR
    have hnr := hn2.2 o hoR
    cases o with
    | none =>
      unfold restRun
      rw [meanOf_pure]
      exact C104_energy_adds_up.nothing
    | some x =>
      obtain ⟨w1, w2, w3, rt⟩ := x
      have hsat : Sat (beginRun a pref dt) (fun o => ∀ w1 w2 w3 rt, o = some (w1, w2, w3, rt) → MovedWindow a.window1 a.randomVar1 w1 ∧ MovedWindow a.window2 a.randomVar2 w2 ∧
          MovedWindow a.window3 a.randomVar3 w3 ∧ Returns (randTotalTimeOfUse { a with dailyUse := zeros } w1 w2 w3) rt) (fun _ => True) := by
        unfold beginRun
        refine sat_bind' sat_true fun x _ => sat_ite (fun _ => sat_pure (fun _ _ _ _ h => by cases h)) fun _ => ?_
        refine sat_bind' (sat_calcRandWindow hw.r1.1) fun w1 m1 => sat_bind' (sat_calcRandWindow hw.r2.1) fun w2 m2 => sat_bind' (sat_calcRandWindow hw.r3.1) fun w3 m3 => ?_
        refine sat_bind' (P := fun t => Returns (randTotalTimeOfUse { a with dailyUse := zeros } w1 w2 w3) t) ?_ fun t ht => sat_pure ?_
        · rw [sat_iff]
          exact ⟨fun t ht => ht, fun _ _ => trivial⟩
        · rintro _ _ _ _ h
          cases h
          exact ⟨m1, m2, m3, ht⟩
      obtain ⟨m1, m2, m3, hrt⟩ := hsat.ret hoR w1 w2 w3 rt rfl
      have d1 := moved_day m1 hw.w1 hw.r1 hc.half1
      have d2 := moved_day m2 hw.w2 hw.r2 hc.half2
      have d3 := moved_day m3 hw.w3 hw.r3 hc.half3
      have htou : TimeOfUse a w1 w2 w3 rt := (C07_time_of_use_exact { a with dailyUse := zeros } w1 w2 w3 rt hc.ft hc.var.1 hc.var.2 (by
        unfold DayWindow at d1 d2 d3
        unfold totalTime
        omega)).1 hrt
      obtain ⟨hfit, n, n1, n2, hrt'⟩ := htou
      obtain ⟨l1, l2⟩ := hv.longest w1 w2 w3 m1 m2 m3
      have hles := hv.least
      have hl : longestTime a ≤ ⌊(99 / 100 : ℚ) * totalTime w1 w2 w3⌋ := Int.le_floor.2 l1
      unfold shortestTime longestTime at *
      have hrtn : rt = n := by omega
      have hE : ∀ b, Returns (restRun a (depth + 1) peak p (some (w1, w2, w3, rt))) b → energyOf b.dailyUse =
          ENNReal.ofReal (((a.number : ℝ) * p - 1 / 1000) * rt + 1 / 1000 * (totalTime w1 w2 w3 : ℤ)) := by
        intro b hb
        rw [energyOf_eq, rest_energy hs ho (hs.apart _ _ _ m1 m2 m3) d1 d2 d3 (by omega) (roomFor_less l2 (by omega)) hpk hb]
        congr 1
        push_cast
        ring
      rw [meanOf_congr hE, meanOf_const hnr]
      rfl
  rw [meanOf_congr hG, begin_mean, used_mean h hc hv hN hγ (by linarith)]
  congr 3
  unfold energyOfMinutes
  push_cast
  ring

/-! ## The theorems -/

theorem about_average {a : Appliance} (hf : 0 ≤ a.funcTime) (h0 : 0 ≤ a.timeFractionRandomVariability) (h1 : a.timeFractionRandomVariability ≤ 1) :
    AboutFuncTime a (averageTime (2 ^ 53) a.funcTime a.timeFractionRandomVariability) := by
  have hM : 0 < 2 ^ 53 := by positivity
  obtain ⟨b1, b2⟩ := averageTime_bounds hM hf h0 h1
  have e : 2 * ((a.funcTime : ℚ) + 1) / ((2 ^ 53 : ℕ) : ℚ) = (a.funcTime + 1) / 2 ^ 52 := by
    push_cast
    ring
  rw [e] at b1 b2
  refine ⟨b1, b2, fun hv => ?_⟩
  obtain ⟨c1, c2⟩ := averageTime_mem hM (timeDrawn_mem hf h0 h1)
  rw [hv] at c1 c2 ⊢
  rw [sub_zero, mul_one, Int.floor_intCast] at c1
  rw [add_zero, mul_one, Int.floor_intCast] at c2
  exact le_antisymm c2 c1

/-- **C112.** The time of use drawn for a day is `func_time` on average, at most half a minute less: if the shortest time is not below `func_cycle` and the longest fits into 99 %
of the windows, the expected time of use is between `func_time - 1/2` and `func_time`, up to the resolution of the generator. -/
theorem C112_average_time {N : ℕ} (h : PythonRandom N μ) {a : Appliance} {w1 w2 w3 : ℤ × ℤ} (hf : 0 ≤ a.funcTime) (h0 : 0 ≤ a.timeFractionRandomVariability)
    (h1 : a.timeFractionRandomVariability ≤ 1) (hc : 0 ≤ a.funcCycle) (hl : a.funcCycle ≤ shortestTime a) (hu : (longestTime a : ℚ) ≤ 99 / 100 * totalTime w1 w2 w3) :
    ∃ t, AboutFuncTime a t ∧ MeanOf μ (randTotalTimeOfUse a w1 w2 w3) (fun time => ENNReal.ofReal time) = ENNReal.ofReal (t : ℚ) := by
  have := h.probability
  refine ⟨_, about_average hf h0 h1, ?_⟩
  have e := mean_time (by positivity) h.grid (a := a) (w1 := w1) (w2 := w2) (w3 := w3) hf h0 h1 hl hu (α := 1) (β := 0) (fun t ht _ => by
    unfold shortestTime at hl
    have : (0 : ℝ) ≤ t := by exact_mod_cast (by omega : 0 ≤ t)
    linarith)
  simp only [one_mul, add_zero] at e
  exact e

/-- **C112.** The average is really shorter: whenever the variability is less than a minute (and not zero), the expected time of use is at least a quarter of a minute shorter than
`func_time`. -/
theorem C112_shorter {N : ℕ} (h : PythonRandom N μ) {a : Appliance} {w1 w2 w3 : ℤ × ℤ} (h1 : a.timeFractionRandomVariability ≤ 1)
    (hpos : 0 < a.funcTime * a.timeFractionRandomVariability) (hlt : a.funcTime * a.timeFractionRandomVariability < 1) (h0 : 0 ≤ a.timeFractionRandomVariability)
    (hc : 0 ≤ a.funcCycle) (hl : a.funcCycle ≤ shortestTime a) (hu : (longestTime a : ℚ) ≤ 99 / 100 * totalTime w1 w2 w3) :
    MeanOf μ (randTotalTimeOfUse a w1 w2 w3) (fun time => ENNReal.ofReal time) ≤ ENNReal.ofReal ((a.funcTime - 1 / 4 + (a.funcTime + 1) / 2 ^ 52 : ℚ) : ℚ) := by
  have := h.probability
  have hf : 0 ≤ a.funcTime := by
    by_contra hn
    have : (a.funcTime : ℚ) ≤ 0 := by exact_mod_cast (by omega : a.funcTime ≤ 0)
    nlinarith
  have hM : 0 < 2 ^ 53 := by positivity
  have e := mean_time hM h.grid (a := a) (w1 := w1) (w2 := w2) (w3 := w3) hf h0 h1 hl hu (α := 1) (β := 0) (fun t ht _ => by
    unfold shortestTime at hl
    have : (0 : ℝ) ≤ t := by exact_mod_cast (by omega : 0 ≤ t)
    linarith)
  simp only [one_mul, add_zero] at e
  rw [e]
  refine ENNReal.ofReal_le_ofReal ((Rat.cast_le (K := ℝ)).2 ?_)
  have hb := averageTime_small hM hf h0 h1 hpos hlt
  have e2 : 2 * ((a.funcTime : ℚ) + 1) / ((2 ^ 53 : ℕ) : ℚ) = (a.funcTime + 1) / 2 ^ 52 := by
    push_cast
    ring
  rwa [e2] at hb

/-- The expected energy of the days, with the average time of use spelled out. -/
theorem expected_average {N : ℕ} (h : PythonRandom N μ) {env : Env} {depth : ℕ} {uc : UseCase} {ds peak : List ℤ} {days : Option (List ℤ)} (hr : Ready uc ds peak)
    (hp : peak ≠ []) (hs : ∀ u ∈ uc.users, SensibleUser u) (hl : ∀ u ∈ uc.users, ∀ a ∈ u.appList, ds.length ≤ a.power.length)
    (hv : ∀ u ∈ uc.users, ∀ a ∈ u.appList, VisibleUse a) (ho : ∀ u ∈ uc.users, ∀ a ∈ u.appList, OnlyHowLong a) (hroom : ∀ u ∈ uc.users, ∀ a ∈ u.appList, RoomToVary a)
    (hN : ∀ u ∈ uc.users, ∀ a ∈ u.appList, windowDraws a ≤ N) :
    ∀ (k : ℕ) (hk : k < ds.length),
      expectedEnergy μ (dailyRows env (depth + 1) uc days) k =
        (uc.users.map (fun u => (u.numUsers.toNat : ℝ≥0∞) * (u.appList.map (fun a =>
          chanceOfUse μ (typeOfDay ds[k]) u a * ENNReal.ofReal ((energyOfMinutes a (a.power.getD k 0) (averageTime (2 ^ 53) a.funcTime a.timeFractionRandomVariability) : ℚ) : ℝ))).sum)).sum := by
  have := h.probability
  intro k hk
  show MeanOf μ (dailyRows env (depth + 1) uc days) (fun rows => energyOf (rows.getD k zeros)) = _
  rw [mean_rows_sensible hr hp hs hl (fun u hu a ha => (hv u hu a ha).powers) hk C104_energy_adds_up]
  congr 1
  refine List.map_congr_left fun u hu => ?_
  congr 2
  refine List.map_congr_left fun a ha => ?_
  obtain ⟨h1, h2, h3⟩ := (hs u hu).appliances a ha
  have hka : k < a.power.length := by have := hl u hu a ha; omega
  have hoa := ho u hu a ha
  have hsep : WellSeparated a := ⟨h1.windows, (hv u hu a ha).apart, h1.cycles, fun h => absurd hoa.noCycles (by omega), h1.fc, h1.ft, h1.var, h1.number⟩
  have hw := List.getElem?_eq_getElem hka
  have hwk : a.power.getD k 0 = a.power[k] := by rw [List.getD_eq_getElem?_getD, hw]; rfl
  have hp0 : 0 ≤ a.power[k] := by
    obtain ⟨P, hP⟩ := (hv u hu a ha).powers
    exact (hP.powers _ (List.getElem_mem hka)).1
  rw [hwk]
  have e : ∀ pref, MeanOf μ (applianceRun (depth + 1) k peak (typeOfDay ds[k]) pref a) energyOf = ind (¬ SkippedForSure a pref (typeOfDay ds[k])) *
      (μ {d | d.u ≤ a.occasionalUse} * ENNReal.ofReal ((energyOfMinutes a a.power[k] (averageTime (2 ^ 53) a.funcTime a.timeFractionRandomVariability) : ℚ) : ℝ)) := fun pref =>
    mean_howLong h hsep hoa h1 (hroom u hu a ha) (hN u hu a ha) hw hp0 hp (C72_never_raises h1 hp (fun _ => hka) h2 h3)
  simp only [e]
  rw [meanOf_mul_right (fin_drawPreference _), ← mul_assoc, mean_ind_pref]

/-- **C112.** The expected energy of the days, if only whether, when and how long the appliances are used is left to chance, and their windows have room for it: the sum over users and
appliances of `num_users` times the probability of use times the energy of `T a` minutes of use, where `T a` is `func_time`, at most half a minute less. The variability of the
windows has no influence on it. -/
theorem C112_expected_energy {N : ℕ} (h : PythonRandom N μ) {env : Env} {depth : ℕ} {uc : UseCase} {ds peak : List ℤ} {days : Option (List ℤ)} (hr : Ready uc ds peak)
    (hp : peak ≠ []) (hs : ∀ u ∈ uc.users, SensibleUser u) (hl : ∀ u ∈ uc.users, ∀ a ∈ u.appList, ds.length ≤ a.power.length)
    (hv : ∀ u ∈ uc.users, ∀ a ∈ u.appList, VisibleUse a) (ho : ∀ u ∈ uc.users, ∀ a ∈ u.appList, OnlyHowLong a) (hroom : ∀ u ∈ uc.users, ∀ a ∈ u.appList, RoomToVary a)
    (hN : ∀ u ∈ uc.users, ∀ a ∈ u.appList, windowDraws a ≤ N) :
    ∃ T : Appliance → ℚ, (∀ u ∈ uc.users, ∀ a ∈ u.appList, AboutFuncTime a (T a)) ∧ ∀ (k : ℕ) (hk : k < ds.length),
      expectedEnergy μ (dailyRows env (depth + 1) uc days) k =
        (uc.users.map (fun u => (u.numUsers.toNat : ℝ≥0∞) * (u.appList.map (fun a =>
          chanceOfUse μ (typeOfDay ds[k]) u a * ENNReal.ofReal ((energyOfMinutes a (a.power.getD k 0) (T a) : ℚ) : ℝ))).sum)).sum := by
  refine ⟨fun a => averageTime (2 ^ 53) a.funcTime a.timeFractionRandomVariability, fun u hu a ha => ?_, expected_average h hr hp hs hl hv ho hroom hN⟩
  have hc := ((hs u hu).appliances a ha).config
  exact about_average hc.ft hc.var.1 hc.var.2

/-- **C112.** A sufficient condition for the room: the windows, made shorter by twice their variability, have the room of C111. -/
theorem C112_enough_room {a : Appliance} (hc : SafeConfig a)
    (hd : ∀ w r, (w, r) ∈ [(a.window1, a.randomVar1), (a.window2, a.randomVar2), (a.window3, a.randomVar3)] → r ≤ w.1 ∧ w.2 + r ≤ 1440)
    (hles : a.funcCycle ≤ shortestTime a)
    (hlong : (longestTime a : ℚ) ≤ 99 / 100 * (totalTime a.window1 a.window2 a.window3 - 2 * (a.randomVar1 + a.randomVar2 + a.randomVar3) : ℤ))
    (hroom : longestTime a + ((longestTime a - 1) / a.funcCycle + 3) * (a.funcCycle - 1) ≤
      totalTime a.window1 a.window2 a.window3 - 2 * (a.randomVar1 + a.randomVar2 + a.randomVar3)) : RoomToVary a := by
  refine ⟨hd _ _ (by simp), hd _ _ (by simp), hd _ _ (by simp), hles, fun w1 w2 w3 m1 m2 m3 => ?_⟩
  have hw := hc.windows
  have d1 := moved_day m1 hw.w1 hw.r1 hc.half1
  have d2 := moved_day m2 hw.w2 hw.r2 hc.half2
  have d3 := moved_day m3 hw.w3 hw.r3 hc.half3
  have b1 := m1.bounds hw.w1 hw.r1
  have b2 := m2.bounds hw.w2 hw.r2
  have b3 := m3.bounds hw.w3 hw.r3
  have htot : totalTime a.window1 a.window2 a.window3 - 2 * (a.randomVar1 + a.randomVar2 + a.randomVar3) ≤ totalTime w1 w2 w3 := by
    unfold totalTime
    omega
  constructor
  · have : ((totalTime a.window1 a.window2 a.window3 - 2 * (a.randomVar1 + a.randomVar2 + a.randomVar3) : ℤ) : ℚ) ≤ totalTime w1 w2 w3 := by exact_mod_cast htot
    linarith
  · refine C111_enough_room hc.fc d1.2.1 d2.2.1 d3.2.1 ?_
    have hlen : ((([w1, w2, w3].filter (fun w => decide (w.1 < w.2))).length : ℕ) : ℤ) ≤ 3 := by
      have := List.length_filter_le (fun w : ℤ × ℤ => decide (w.1 < w.2)) [w1, w2, w3]
      simp only [List.length_cons, List.length_nil] at this
      omega
    have hfc := hc.fc
    have := mul_le_mul_of_nonneg_right (add_le_add_right hlen ((longestTime a - 1) / a.funcCycle)) (by omega : 0 ≤ a.funcCycle - 1)
    omega

/-- **C112.** The same with a variability of power, up to one part in `2^53`. -/
theorem C112_variable_power {N : ℕ} (h : PythonRandom N μ) {env : Env} {depth : ℕ} {uc : UseCase} {ds peak : List ℤ} {days : Option (List ℤ)} (hr : Ready uc ds peak)
    (hp : peak ≠ []) (hs : ∀ u ∈ uc.users, SensibleUser u) (hl : ∀ u ∈ uc.users, ∀ a ∈ u.appList, ds.length ≤ a.power.length)
    (hv : ∀ u ∈ uc.users, ∀ a ∈ u.appList, VisibleUse a) (ho : ∀ u ∈ uc.users, ∀ a ∈ u.appList, OnlyHowLong { a with thermalPVar := 0 })
    (hroom : ∀ u ∈ uc.users, ∀ a ∈ u.appList, RoomToVary a) (hN : ∀ u ∈ uc.users, ∀ a ∈ u.appList, windowDraws a ≤ N) :
    ∃ T : Appliance → ℚ, (∀ u ∈ uc.users, ∀ a ∈ u.appList, AboutFuncTime a (T a)) ∧ ∀ (k : ℕ) (hk : k < ds.length) (E : ℝ≥0∞),
      E = (uc.users.map (fun u => (u.numUsers.toNat : ℝ≥0∞) * (u.appList.map (fun a =>
          chanceOfUse μ (typeOfDay ds[k]) u a * ENNReal.ofReal ((energyOfMinutes a (a.power.getD k 0) (T a) : ℚ) : ℝ))).sum)).sum →
      (1 - (2 ^ 53)⁻¹) * E ≤ expectedEnergy μ (dailyRows env (depth + 1) uc days) k ∧ expectedEnergy μ (dailyRows env (depth + 1) uc days) k ≤ E := by
  have := h.probability
  have hmem : ∀ u ∈ constantPowers uc.users, ∃ v ∈ uc.users, u = { v with appList := v.appList.map constantPower } := by
    intro u hu
    obtain ⟨v, hv, rfl⟩ := List.mem_map.1 hu
    exact ⟨v, hv, rfl⟩
  obtain ⟨T, hT, e⟩ := C112_expected_energy h (env := env) (depth := depth) (days := days) (ready_users hr (constantPowers uc.users)) hp
    (fun u hu => by
      obtain ⟨v, hv, rfl⟩ := hmem u hu
      refine ⟨(hs v hv).preference, fun a ha => ?_⟩
      obtain ⟨b, hb, rfl⟩ := List.mem_map.1 ha
      exact sensible_constant ((hs v hv).appliances b hb))
    (fun u hu a ha => by
      obtain ⟨v, hv, rfl⟩ := hmem u hu
      obtain ⟨b, hb, rfl⟩ := List.mem_map.1 ha
      exact hl v hv b hb)
    (fun u hu a ha => by
      obtain ⟨v, hv', rfl⟩ := hmem u hu
      obtain ⟨b, hb, rfl⟩ := List.mem_map.1 ha
      obtain ⟨v1, ⟨P, v2⟩, v3⟩ := hv v hv' b hb
      exact ⟨v1, ⟨P, powersUpTo_constant v2⟩, v3⟩)
    (fun u hu a ha => by
      obtain ⟨v, hv, rfl⟩ := hmem u hu
      obtain ⟨b, hb, rfl⟩ := List.mem_map.1 ha
      exact ho v hv b hb)
    (fun u hu a ha => by
      obtain ⟨v, hv, rfl⟩ := hmem u hu
      obtain ⟨b, hb, rfl⟩ := List.mem_map.1 ha
      have := hroom v hv b hb
      exact ⟨this.inDay1, this.inDay2, this.inDay3, this.least, this.longest⟩)
    (fun u hu a ha => by
      obtain ⟨v, hv, rfl⟩ := hmem u hu
      obtain ⟨b, hb, rfl⟩ := List.mem_map.1 ha
      exact hN v hv b hb)
  refine ⟨fun a => T (constantPower a), fun u hu a ha => ?_, fun k hk E hE => ?_⟩
  · have := hT { u with appList := u.appList.map constantPower } (List.mem_map.2 ⟨u, hu, rfl⟩) (constantPower a) (List.mem_map.2 ⟨a, ha, rfl⟩)
    exact ⟨this.least, this.most, this.exact⟩
  have e2 : (constantPowers uc.users).map (fun u => (u.numUsers.toNat : ℝ≥0∞) * (u.appList.map (fun a =>
        chanceOfUse μ (typeOfDay ds[k]) u a * ENNReal.ofReal ((energyOfMinutes a (a.power.getD k 0) (T a) : ℚ) : ℝ))).sum) = uc.users.map (fun u => (u.numUsers.toNat : ℝ≥0∞) *
        (u.appList.map (fun a => chanceOfUse μ (typeOfDay ds[k]) u a * ENNReal.ofReal ((energyOfMinutes a (a.power.getD k 0) (T (constantPower a)) : ℚ) : ℝ))).sum) := by
    unfold constantPowers
    rw [List.map_map]
    refine List.map_congr_left fun u _ => ?_
    simp only [Function.comp_apply, List.map_map]
    rfl
  have e3 : expectedEnergy μ (dailyRows env (depth + 1) { uc with users := constantPowers uc.users } days) k = E := by
    rw [hE, ← e2]
    exact e k hk
  have := (C108_python h (env := env) (depth := depth) (days := days) hr hp hs hl (fun u hu a ha => (hv u hu a ha).powers) hk).2
  rwa [e3] at this

/-! ## Cases -/

/-- The fan of C111 with a variability of 20 % of its time of use and windows moved by up to 18 and 30 minutes. -/
def variedFan : Appliance where
  number := 1
  power := List.replicate 367 60
  window1 := (720, 900)
  window2 := (1080, 1380)
  randomVar1 := 18
  randomVar2 := 30
  funcTime := 120
  funcCycle := 15
  timeFractionRandomVariability := 1 / 5
  fixed := "yes"

theorem variedFan_sensible : SensibleAppliance variedFan := by
  refine ⟨⟨⟨?_, ?_, ?_, ?_, ?_, ?_⟩, ?_, ?_, ?_, ?_, ?_, ?_, ?_, ?_, ⟨?_, ?_, ?_, ?_, ?_, ?_, ?_, ?_, ?_, ?_⟩⟩, ⟨?_, ?_, ?_, ?_, ?_, ?_⟩, .inl ?_⟩
  all_goals simp only [DayWindow, variedFan, totalTime]
  all_goals norm_num

theorem variedFan_times : shortestTime variedFan = 96 ∧ longestTime variedFan = 144 := by
  unfold shortestTime longestTime
  rw [show variedFan.funcTime = 120 from rfl, show variedFan.timeFractionRandomVariability = 1 / 5 from rfl]
  norm_num

theorem variedFan_room : RoomToVary variedFan := by
  obtain ⟨h1, h2⟩ := variedFan_times
  refine C112_enough_room variedFan_sensible.config ?_ ?_ ?_ ?_
  · intro w r h
    have h' : (w, r) ∈ [(((720 : ℤ), (900 : ℤ)), (18 : ℤ)), ((1080, 1380), 30), ((0, 0), 0)] := h
    simp only [List.mem_cons, Prod.mk.injEq, List.not_mem_nil, or_false] at h'
    rcases h' with ⟨rfl, rfl⟩ | ⟨rfl, rfl⟩ | ⟨rfl, rfl⟩ <;> norm_num
  · rw [h1]
    decide
  · rw [h2]
    unfold totalTime
    rw [show variedFan.window1 = (720, 900) from rfl, show variedFan.window2 = (1080, 1380) from rfl, show variedFan.window3 = (0, 0) from rfl,
      show variedFan.randomVar1 = 18 from rfl, show variedFan.randomVar2 = 30 from rfl, show variedFan.randomVar3 = 0 from rfl]
    norm_num
  · rw [h2]
    decide

theorem variedFan_visible : VisibleUse variedFan := by
  refine ⟨fun w1 w2 w3 m1 m2 m3 => ?_, ⟨60, ⟨variedFan_sensible.config.windows, by norm_num [variedFan], by norm_num [variedFan], by norm_num [variedFan], fun p hp => ?_, fun p hp => ?_⟩⟩,
    fun h => absurd h (by decide)⟩
  · have e3 : w3 = (0, 0) := moved_zero (w := (0, 0)) (by unfold DayWindow; norm_num) m3
    have hw := variedFan_sensible.config.windows
    have b1 := m1.bounds hw.w1 hw.r1
    have b2 := m2.bounds hw.w2 hw.r2
    rw [show variedFan.window1 = (720, 900) from rfl, show variedFan.randomVar1 = 18 from rfl] at b1
    rw [show variedFan.window2 = (1080, 1380) from rfl, show variedFan.randomVar2 = 30 from rfl] at b2
    subst e3
    unfold WindowsApart Apart
    simp only at b1 b2 ⊢
    omega
  · rw [List.eq_of_mem_replicate hp]
    norm_num
  · have hp' : p ∈ [(0 : ℚ), 0, 0, 0, 0, 0] := hp
    have h0 : p = 0 := by simpa using hp'
    rw [h0]
    norm_num

/-- A case for C112: the 20 fans take between `20 · (119.5 · 60 + …)` and `20 · (120 · 60 + …)` watt minutes on the second day, on average, up to the resolution of the generator. -/
example {N : ℕ} (h : PythonRandom N μ) (hN : 61 ≤ N) : ∃ t : ℚ, 120 - 1 / 2 - 121 / 2 ^ 52 ≤ t ∧ t ≤ 120 + 121 / 2 ^ 52 ∧
    expectedEnergy μ (dailyRows ⟨0, none⟩ 1000 (lampDays [{ numUsers := 20, appList := [variedFan] }]) none) 1 =
      20 * (μ {d | d.u ≤ 1} * ENNReal.ofReal ((t * 60 + 1 / 1000 * (480 - t) : ℚ) : ℝ)) := by
  have := h.probability
  have hmem : ∀ u ∈ (lampDays [{ numUsers := 20, appList := [variedFan] }]).users, u.userPreference = 0 ∧ ∀ a ∈ u.appList, a = variedFan := by
    intro u hu
    rw [List.mem_singleton.1 hu]
    exact ⟨rfl, fun a ha => List.mem_singleton.1 ha⟩
  obtain ⟨T, hT, he⟩ := C112_expected_energy h (env := ⟨0, none⟩) (depth := 999) (uc := lampDays [{ numUsers := 20, appList := [variedFan] }]) (ds := [0, 1, 2]) (peak := [700])
    (days := none) ⟨rfl, rfl, rfl⟩ (by simp)
    (fun u hu => ⟨by rw [(hmem u hu).1], fun a ha => by rw [(hmem u hu).2 a ha]; exact variedFan_sensible⟩)
    (fun u hu a ha => by
      rw [(hmem u hu).2 a ha]
      show 3 ≤ (List.replicate 367 (60 : ℚ)).length
      rw [List.length_replicate]
      norm_num)
    (fun u hu a ha => by rw [(hmem u hu).2 a ha]; exact variedFan_visible)
    (fun u hu a ha => by rw [(hmem u hu).2 a ha]; exact ⟨le_refl _, by decide, by decide, rfl⟩)
    (fun u hu a ha => by rw [(hmem u hu).2 a ha]; exact variedFan_room)
    (fun u hu a ha => by
      rw [(hmem u hu).2 a ha]
      have : windowDraws variedFan = 61 := by decide
      omega)
  have hA := hT { numUsers := 20, appList := [variedFan] } (List.mem_singleton.2 rfl) variedFan (List.mem_singleton.2 rfl)
  refine ⟨T variedFan, ?_, ?_, ?_⟩
  · have := hA.least
    rw [show variedFan.funcTime = 120 from rfl] at this
    norm_num at this ⊢
    linarith
  · have := hA.most
    rw [show variedFan.funcTime = 120 from rfl] at this
    norm_num at this ⊢
    linarith
  rw [he 1 (by simp)]
  have hE : energyOfMinutes variedFan (variedFan.power.getD 1 0) (T variedFan) = T variedFan * 60 + 1 / 1000 * (480 - T variedFan) := by
    have hpow : variedFan.power.getD 1 0 = 60 := rfl
    unfold energyOfMinutes
    rw [hpow, show variedFan.number = 1 from rfl]
    unfold totalTime
    rw [show variedFan.window1 = (720, 900) from rfl, show variedFan.window2 = (1080, 1380) from rfl, show variedFan.window3 = (0, 0) from rfl]
    norm_num
  have hch : chanceOfUse μ (typeOfDay ([0, 1, 2] : List ℤ)[1]) { numUsers := 20, appList := [variedFan] } variedFan = μ {d | d.u ≤ 1} := by
    unfold chanceOfUse
    rw [if_neg (by decide)]
    rw [chanceOf_const_sure (fin_drawPreference _) (never_drawPreference.2 (le_refl 0)) fun _ => .inl rfl, one_mul]
    rfl
  show ((([{ numUsers := 20, appList := [variedFan] }] : List User).map (fun u => (u.numUsers.toNat : ℝ≥0∞) * (u.appList.map (fun a =>
    chanceOfUse μ (typeOfDay ([0, 1, 2] : List ℤ)[1]) u a * ENNReal.ofReal ((energyOfMinutes a (a.power.getD 1 0) (T a) : ℚ) : ℝ))).sum)).sum) = _
  rw [List.map_singleton, List.sum_singleton]
  show ((20 : ℕ) : ℝ≥0∞) * ([variedFan].map _).sum = _
  rw [List.map_singleton, List.sum_singleton, hch, hE]
  rfl

/-- A case for C112: ten minutes of use with a variability of 5 % are at most 9.75 minutes on average (up to the resolution of the generator). -/
example {N : ℕ} (h : PythonRandom N μ) : MeanOf μ (randTotalTimeOfUse { funcTime := 10, funcCycle := 5, timeFractionRandomVariability := 1 / 20 } (480, 600) (0, 0) (0, 0))
    (fun time => ENNReal.ofReal time) ≤ ENNReal.ofReal ((39 / 4 + 11 / 2 ^ 52 : ℚ) : ℚ) := by
  have e := C112_shorter h (a := { funcTime := 10, funcCycle := 5, timeFractionRandomVariability := 1 / 20 }) (w1 := (480, 600)) (w2 := (0, 0)) (w3 := (0, 0)) (by norm_num) (by norm_num)
    (by norm_num) (by norm_num) (by norm_num) (by unfold shortestTime; norm_num) (by unfold longestTime totalTime; norm_num)
  refine e.trans (ENNReal.ofReal_le_ofReal ((Rat.cast_le (K := ℝ)).2 ?_))
  norm_num

end Ramp
