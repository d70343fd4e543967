import Verif.Props.Chances
import Verif.Props.Unbiased

/-! # C109: the load curve of appliances used once a day -/

set_option autoImplicit false

open MeasureTheory ENNReal

namespace Ramp

variable {μ : Measure Draw}

/-! ## The start of an event -/

theorem sum_getD (f : ℤ → ℝ≥0∞) : ∀ l : List ℤ, ∑ j ∈ Finset.range l.length, f (l.getD j 0) = (l.map f).sum := by
  intro l
  induction l with
  | nil => rfl
  | cons x l ih =>
    rw [List.length_cons, Finset.sum_range_succ', List.map_cons, List.sum_cons, ← ih, add_comm]
    rfl

theorem mean_choice {N : ℕ} (h : PythonRandom N μ) {α : Type} {l : List ℤ} (hnd : l.Nodup) (h0 : 0 < l.length) (hN : l.length ≤ N) {f : ℤ → Sim α} (hf : ∀ m, Finitary (f m))
    (G : α → ℝ≥0∞) : MeanOf μ (nextDraw >>= fun d => match l[d.k % l.length]? with
      | none => raise .indexError
      | some m => f m) G = (l.length : ℝ≥0∞)⁻¹ * ∑ m ∈ l.toFinset, MeanOf μ (f m) G := by
  have := h.probability
  have hfin : ∀ d : Draw, Finitary (match l[d.k % l.length]? with
      | none => raise .indexError
      | some m => f m) := by
    intro d
    cases l[d.k % l.length]? with
    | none => exact fin_raise _
    | some m => exact hf _
  rw [meanOf_bind fin_nextDraw hfin, meanOf_nextDraw]
  have e1 : ∀ d : Draw, MeanOf μ (match l[d.k % l.length]? with
      | none => raise .indexError
      | some m => f m) G = ∑ j ∈ Finset.range l.length, Set.indicator {d : Draw | d.k % l.length = j} (fun _ => MeanOf μ (f (l.getD j 0)) G) d := by
    intro d
    have hlt : d.k % l.length < l.length := Nat.mod_lt _ h0
    rw [Finset.sum_eq_single (d.k % l.length)]
    · rw [Set.indicator_of_mem (show d ∈ {d' : Draw | d'.k % l.length = d.k % l.length} from rfl), List.getD_eq_getElem?_getD, List.getElem?_eq_getElem hlt]
      rfl
    · exact fun j _ hj => Set.indicator_of_notMem (show d ∉ {d : Draw | d.k % l.length = j} from fun hd => hj (Eq.symm hd)) _
    · exact fun hn => absurd (Finset.mem_range.2 hlt) hn
  simp only [e1]
  rw [lintegral_finsetSum _ fun _ _ => Measurable.of_discrete]
  have e2 : ∀ j ∈ Finset.range l.length, ∫⁻ d, Set.indicator {d : Draw | d.k % l.length = j} (fun _ => MeanOf μ (f (l.getD j 0)) G) d ∂μ =
      (l.length : ℝ≥0∞)⁻¹ * MeanOf μ (f (l.getD j 0)) G := by
    intro j hj
    rw [lintegral_indicator_const MeasurableSet.of_discrete, h.integers l.length h0 hN j (Finset.mem_range.1 hj), mul_comm]
  rw [Finset.sum_congr rfl e2, ← Finset.mul_sum, sum_getD (fun m => MeanOf μ (f m) G), List.sum_toFinset _ hnd]

theorem mean_start {N : ℕ} (h : PythonRandom N μ) {a : Appliance} {rt : ℤ} (hc : a.fixedCycle ≤ 0) (hf : 1 ≤ a.funcCycle) (hd : SpotsDisjoint a.freeSpots)
    (hN : (switchOnChoices a.freeSpots a.funcCycle).length ≤ N) (depth : ℕ) (h0 : 0 < (switchOnChoices a.freeSpots a.funcCycle).length) (G : Appliance × Option SwitchOn → ℝ≥0∞) :
    MeanOf μ (randSwitchOnWindow (depth + 1) a rt) G =
      ((switchOnChoices a.freeSpots a.funcCycle).length : ℝ≥0∞)⁻¹ * ∑ m ∈ (switchOnChoices a.freeSpots a.funcCycle).toFinset, MeanOf μ (eventAt a rt m) G := by
  rw [randSwitch_eq hc depth rfl h0]
  exact mean_choice h (nodup_choices hf hd) h0 hN (fin_eventAt a rt) G

/-! ## After the event -/

theorem loop_over {a : Appliance} {depth : ℕ} {peak : List ℤ} {power : ℚ} (hc : a.fixedCycle ≤ 0) (hf : 1 ≤ a.funcCycle) (fuel : ℕ) (log : List Booking) :
    Sat (switchOnLoop (depth + 1) peak power a.funcCycle (fuel + 1) a a.funcCycle log) (fun p => p.1 = a) (fun _ => False) := by
  rw [loop_succ, if_pos ⟨le_refl _, by omega⟩]
  have hs : Sat (randSwitchOnWindow (depth + 1) a a.funcCycle) (fun r => r.1 = a ∧ ∀ ev, r.2 = some ev → (ev.indexes.length : ℤ) = a.funcCycle) (fun _ => False) := by
    refine (sat_randSwitchOnWindow (depth + 1) a a.funcCycle hf (le_refl _)).mono ?_ ?_
    · rintro r (⟨h1, h2, _⟩ | ⟨ev, h1, s, hs, m, d, h2, h3, h4, h5, h6, ⟨_, h7, h8⟩ | ⟨h7, _⟩⟩)
      · exact ⟨h2, fun ev hev => by rw [h1] at hev; cases hev⟩
      · refine ⟨h7, fun ev' hev => ?_⟩
        rw [h1] at hev
        cases hev
        rw [h8, h2, length_arange]
        omega
      · omega
    · rintro e ⟨_, h | ⟨h, _⟩⟩
      · cases h
      · omega
  refine sat_bind' hs fun r hr => ?_
  obtain ⟨hr1, hr2⟩ := hr
  obtain ⟨b, o⟩ := r
  obtain rfl : b = a := hr1
  unfold afterEvent
  cases o with
  | none => exact sat_pure rfl
  | some ev =>
    obtain ⟨drawn, indexes⟩ := ev
    have hlen : (indexes.length : ℤ) = b.funcCycle := hr2 _ rfl
    have h1 : b.funcCycle + (indexes.length : ℤ) > b.funcCycle := by omega
    have h2 : ¬ (indexes.take (indexes.length - (b.funcCycle + indexes.length - b.funcCycle).toNat)).length > 0 := by
      rw [List.length_take]
      omega
    simp only [if_pos h1, if_neg h2]
    exact sat_pure rfl

theorem mean_sat [IsProbabilityMeasure μ] {α : Type} {m : Sim α} {x : α} {g : α → ℝ≥0∞} {Q : α → Prop} (h : Sat m Q (fun _ => False)) (hg : ∀ y, Q y → g y = g x) : MeanOf μ m g = g x :=
  (meanOf_congr fun y hy => hg y (h.ret hy)).trans (meanOf_const (fun _ he => h.err he) _)

/-- The profile with an event from `m` on. -/
def painted (d : Profile) (m n : ℤ) (v : ℚ) : Profile := fun i => if m ≤ (i : ℤ) ∧ (i : ℤ) < m + n then v else d i

theorem mean_event [IsProbabilityMeasure μ] {a : Appliance} {depth : ℕ} {peak : List ℤ} {power : ℚ} (hc : a.fixedCycle ≤ 0) (hf : 1 ≤ a.funcCycle) (htog : a.fixed ≠ "no")
    (hv : a.thermalPVar = 0) (hpk : peak ≠ []) (hne : a.freeSpots ≠ []) {m : ℤ} (h0 : 0 ≤ m) (h1 : m + a.funcCycle ≤ 1440) (fuel : ℕ) (g : Profile → ℝ≥0∞) (drawn : List ℤ) :
    MeanOf μ (afterEvent (depth + 1) peak power a.funcCycle (fuel + 1) 0 [] (a, some ⟨drawn, arange m (m + a.funcCycle)⟩)) (fun p => g p.1.dailyUse) =
      g (painted a.dailyUse m a.funcCycle (a.number * power)) := by
  obtain ⟨n, hn⟩ : ∃ n : ℕ, a.funcCycle = n := ⟨a.funcCycle.toNat, by omega⟩
  have hlen : ((arange m (m + a.funcCycle)).length : ℤ) = a.funcCycle := by rw [length_arange]; omega
  unfold afterEvent
  simp only
  rw [if_neg (by rw [hlen]; omega), meanOf_bind (fin_bookEvent _ _ _ _) fun _ => fin_switchOnLoop _ _ _ _ _ _ _ _, hlen, zero_add]
  have hbook : ∃ inside, bookEvent a peak power (arange m (m + a.funcCycle)) = calcCoincidentSwitchOn a inside >>= fun c =>
      updateDailyUse a c power (arange m (m + a.funcCycle)) >>= fun a' => pure (a', c) := by
    unfold bookEvent
    rw [head?_arange (by omega), getLast?_arange (by omega), List.head?_eq_some_head hpk, List.getLast?_eq_some_getLast hpk]
    exact ⟨_, rfl⟩
  obtain ⟨inside, hbook⟩ := hbook
  have hco : calcCoincidentSwitchOn a inside = pure a.number := by
    unfold calcCoincidentSwitchOn
    rw [if_neg fun h => htog h.2, if_neg fun h => htog h.2]
  rw [hbook, hco, sim_pure_bind, meanOf_bind (fin_updateDailyUse _ _ _ _) fun _ => fin_pure _, update_plain (not_lt.2 hc), hv,
    meanOf_bind (fin_randomVariation _ _) fun _ => fin_bind (fin_liftE _) fun _ => fin_finishUpdate _ _ _, mean_no_variation, mean_put]
  have hav : updateAvailableTime a.freeSpots (arange m (m + a.funcCycle)) = .ok (bookSpots a.freeSpots m (m + a.funcCycle - 1)) := by
    unfold updateAvailableTime
    rw [if_neg hne, head?_arange (by omega), getLast?_arange (by omega)]
  have hput : npPut a.dailyUse (arange m (m + a.funcCycle)) [(a.number : ℚ) * power] = .ok (painted a.dailyUse m a.funcCycle (a.number * power)) := by
    rw [hn, npPut_arange [(a.number : ℚ) * power] (by simp) n m _ h0 (by omega)]
    unfold painted
    congr 1
    funext i
    simp [Nat.mod_one]
  rw [hput, hav]
  simp only
  rw [meanOf_pure]
  have hsat := loop_over (depth := depth) (peak := peak) (power := power)
    (a := { a with dailyUse := painted a.dailyUse m a.funcCycle (a.number * power), freeSpots := bookSpots a.freeSpots m (m + a.funcCycle - 1) }) hc hf fuel
    [⟨drawn, arange m (m + a.funcCycle), a.number, a.currentDutyCycleId⟩]
  exact mean_sat (μ := μ) (x := ({ a with dailyUse := painted a.dailyUse m a.funcCycle (a.number * power), freeSpots := bookSpots a.freeSpots m (m + a.funcCycle - 1) }, ([] : List Booking)))
    (g := fun p : Appliance × List Booking => g p.1.dailyUse) hsat fun y hy => by rw [hy]

/-! ## A day of use -/

theorem spots_disjoint {a : Appliance} (h : OneUse a) : SpotsDisjoint (initialSpots [a.window1, a.window2, a.window3]) := by
  obtain ⟨h1, h2, h3⟩ := h.apart
  have key : ∀ w v : ℤ × ℤ, ApartWindows w v → decide (w.1 ≠ w.2) = true → decide (v.1 ≠ v.2) = true → w.2 ≤ v.1 ∨ v.2 ≤ w.1 := by
    intro w v h hw hv
    rw [decide_eq_true_eq] at hw hv
    rcases h with h | h | h | h
    · exact absurd h hw
    · exact absurd h hv
    · exact .inl h
    · exact .inr h
  unfold SpotsDisjoint initialSpots
  rw [List.pairwise_map, List.pairwise_filter]
  refine List.pairwise_cons.2 ⟨fun v hv => ?_, List.pairwise_cons.2 ⟨fun v hv => ?_, List.pairwise_singleton _ _⟩⟩
  · rcases List.mem_cons.1 hv with rfl | hv
    · exact key _ _ h1
    · rw [List.mem_singleton.1 hv]
      exact key _ _ h2
  · rw [List.mem_singleton.1 hv]
    exact key _ _ h3

theorem mem_spots {ws : List (ℤ × ℤ)} {s : Spot} : s ∈ initialSpots ws ↔ ∃ w ∈ ws, w.1 ≠ w.2 ∧ s = ⟨w.1, w.2⟩ := by
  unfold initialSpots
  rw [List.mem_map]
  constructor
  · rintro ⟨w, hw, rfl⟩
    rw [List.mem_filter, decide_eq_true_eq] at hw
    exact ⟨w, hw.1, hw.2, rfl⟩
  · rintro ⟨w, hw, hne, rfl⟩
    exact ⟨w, List.mem_filter.2 ⟨hw, by rwa [decide_eq_true_eq]⟩, rfl⟩

theorem starts_of_use {a : Appliance} (hf : 1 ≤ a.funcCycle) :
    startsOfUse a = ((switchOnChoices (initialSpots [a.window1, a.window2, a.window3]) a.funcCycle).toFinset : Set ℤ) := by
  ext m
  rw [List.coe_toFinset]
  show (∃ w ∈ [a.window1, a.window2, a.window3], w.1 ≤ m ∧ m + a.funcCycle ≤ w.2) ↔ m ∈ switchOnChoices (initialSpots [a.window1, a.window2, a.window3]) a.funcCycle
  rw [mem_switchOnChoices]
  constructor
  · rintro ⟨w, hw, h1, h2⟩
    exact ⟨⟨w.1, w.2⟩, mem_spots.2 ⟨w, hw, by omega, rfl⟩, h1, by show m ≤ w.2 - a.funcCycle; omega, by show a.funcCycle ≤ w.2 - w.1; omega⟩
  · rintro ⟨s, hs, h1, h2, h3⟩
    obtain ⟨w, hw, _, rfl⟩ := mem_spots.1 hs
    exact ⟨w, hw, h1, by have : m ≤ w.2 - a.funcCycle := h2; omega⟩

theorem day_window {a : Appliance} (hw : ValidWindows a) {w : ℤ × ℤ} (h : w ∈ [a.window1, a.window2, a.window3]) : DayWindow w := by
  rcases List.mem_cons.1 h with rfl | h
  · exact hw.w1
  rcases List.mem_cons.1 h with rfl | h
  · exact hw.w2
  rw [List.mem_singleton.1 h]
  exact hw.w3

theorem windowProfile_eq (a : Appliance) (v : ℚ) (i : Fin 1440) [Decidable (∃ w ∈ [a.window1, a.window2, a.window3], w.1 ≤ (i : ℤ) ∧ (i : ℤ) < w.2)] :
    windowProfile a.window1 a.window2 a.window3 v i = if ∃ w ∈ [a.window1, a.window2, a.window3], w.1 ≤ (i : ℤ) ∧ (i : ℤ) < w.2 then v else 0 := by
  unfold windowProfile InWindow
  refine if_congr ?_ rfl rfl
  simp

/-- The average over the starts. -/
theorem average_curve {a : Appliance} (h : OneUse a) (hf : 1 ≤ a.funcCycle) (hn : 1 ≤ a.number) {k : ℕ} {p : ℚ} (hpk : a.power.getD k 0 = p) (hp : 0 ≤ p) {l : List ℤ}
    (hl : switchOnChoices (initialSpots [a.window1, a.window2, a.window3]) a.funcCycle = l) (h0 : 0 < l.length) (i : Fin 1440) :
    (l.length : ℝ≥0∞)⁻¹ * ∑ m ∈ l.toFinset, loadAt i (painted (windowProfile a.window1 a.window2 a.window3 (1 / 1000)) m a.funcCycle (a.number * p)) =
      ENNReal.ofReal ((curveOfUse k a i : ℚ) : ℝ) := by
  classical
  have hst : startsOfUse a = (l.toFinset : Set ℤ) := by rw [starts_of_use hf, hl]
  have hnd : l.Nodup := by rw [← hl]; exact nodup_choices hf (spots_disjoint h)
  have hcard : (startsOfUse a).ncard = l.length := by rw [hst, Set.ncard_coe_finset, List.toFinset_card_of_nodup hnd]
  have hcnt : {m | m ∈ startsOfUse a ∧ m ≤ (i : ℤ) ∧ (i : ℤ) < m + a.funcCycle}.ncard = (l.toFinset.filter (fun m => m ≤ (i : ℤ) ∧ (i : ℤ) < m + a.funcCycle)).card := by
    rw [← Set.ncard_coe_finset, Finset.coe_filter]
    congr 1
    ext m
    rw [hst]
    rfl
  have hn' : (0 : ℚ) ≤ a.number := by exact_mod_cast (by omega : (0 : ℤ) ≤ a.number)
  have hL : (0 : ℝ) < (l.length : ℝ) := by exact_mod_cast h0
  have hle : (l.toFinset.filter (fun m => m ≤ (i : ℤ) ∧ (i : ℤ) < m + a.funcCycle)).card ≤ l.length := by
    rw [← List.toFinset_card_of_nodup hnd]
    exact Finset.card_filter_le _ _
  unfold curveOfUse shareOfStarts
  rw [hcard, hcnt, hpk]
  generalize hc : (l.toFinset.filter (fun m => m ≤ (i : ℤ) ∧ (i : ℤ) < m + a.funcCycle)).card = c at *
  have hsum : ∀ x : ℚ, 0 ≤ x → windowProfile a.window1 a.window2 a.window3 (1 / 1000) i = x →
      ∑ m ∈ l.toFinset, loadAt i (painted (windowProfile a.window1 a.window2 a.window3 (1 / 1000)) m a.funcCycle (a.number * p)) =
      ENNReal.ofReal ((c * (a.number * p) + (l.length - c) * x : ℚ) : ℝ) := by
    intro x hx hwx
    have e1 : ∀ m ∈ l.toFinset, loadAt i (painted (windowProfile a.window1 a.window2 a.window3 (1 / 1000)) m a.funcCycle (a.number * p)) =
        ENNReal.ofReal ((if m ≤ (i : ℤ) ∧ (i : ℤ) < m + a.funcCycle then (a.number * p : ℚ) else x : ℚ) : ℝ) := by
      intro m _
      unfold loadAt painted
      rw [hwx]
    rw [Finset.sum_congr rfl e1, ← ENNReal.ofReal_sum_of_nonneg fun m _ => by
      rw [← Rat.cast_zero, Rat.cast_le]
      split_ifs
      · exact mul_nonneg hn' hp
      · exact hx]
    congr 1
    rw [← Rat.cast_sum, Finset.sum_ite, Finset.sum_const, Finset.sum_const, Finset.filter_not, Finset.card_sdiff_of_subset (Finset.filter_subset _ _), hc,
      List.toFinset_card_of_nodup hnd, nsmul_eq_mul, nsmul_eq_mul, Nat.cast_sub hle]
  have hwp := windowProfile_eq a (1 / 1000) i
  split_ifs with hin
  · rw [if_pos hin] at hwp
    rw [hsum _ (by norm_num) hwp, ← ENNReal.ofReal_natCast, ← ENNReal.ofReal_inv_of_pos hL, ← ENNReal.ofReal_mul (by positivity)]
    congr 1
    push_cast
    field_simp
  · rw [if_neg hin] at hwp
    have hc0 : c = 0 := by
      rw [← hc, Finset.card_eq_zero, Finset.filter_eq_empty_iff]
      rintro m hm ⟨h1, h2⟩
      have hm' : m ∈ startsOfUse a := by rw [hst]; exact hm
      obtain ⟨w, hw, h3, h4⟩ := hm'
      exact hin ⟨w, hw, by omega, by omega⟩
    rw [hsum 0 (le_refl _) hwp, hc0]
    simp

theorem mean_use {N : ℕ} (h : PythonRandom N μ) {a : Appliance} (h1 : OneUse a) (hf : 1 ≤ a.funcCycle) (hn : 1 ≤ a.number) (hw : ValidWindows a)
    (hN : (startsOfUse a).ncard ≤ N) {k : ℕ} {p : ℚ} (hpk : a.power.getD k 0 = p) (hp : 0 ≤ p) {peak : List ℤ} (hpeak : peak ≠ []) (depth : ℕ) (i : Fin 1440) :
    MeanOf μ (restRun a (depth + 1) peak p (some (a.window1, a.window2, a.window3, a.funcCycle))) (fun b => loadAt i b.dailyUse) = ENNReal.ofReal ((curveOfUse k a i : ℚ) : ℝ) := by
  have := h.probability
  unfold restRun
  simp only
  rw [fillWindows_ok _ hw.w1 hw.w2 hw.w3, meanOf_bind (fin_liftE _) fun _ => fin_eventsRun _ _ _ _ _ _, meanOf_liftE]
  simp only
  rw [mean_events]
  have hassign : assignRandomCycles { a with dailyUse := windowProfile a.window1 a.window2 a.window3 (1 / 1000) } =
      pure { a with dailyUse := windowProfile a.window1 a.window2 a.window3 (1 / 1000) } := by
    unfold assignRandomCycles
    rw [if_neg (by show ¬ a.fixedCycle ≥ 1; have := h1.noCycles; omega)]
  rw [hassign, meanOf_pure]
  generalize hb : ({ a with dailyUse := windowProfile a.window1 a.window2 a.window3 (1 / 1000), freeSpots := initialSpots [a.window1, a.window2, a.window3] } : Appliance) = b
  have b1 : b.freeSpots = initialSpots [a.window1, a.window2, a.window3] := by rw [← hb]
  have b2 : b.dailyUse = windowProfile a.window1 a.window2 a.window3 (1 / 1000) := by rw [← hb]
  have b3 : b.funcCycle = a.funcCycle := by rw [← hb]
  have b4 : b.number = a.number := by rw [← hb]
  have b5 : b.fixedCycle ≤ 0 := by rw [← hb]; exact h1.noCycles
  have b6 : b.fixed ≠ "no" := by rw [← hb]; exact h1.together
  have b7 : b.thermalPVar = 0 := by rw [← hb]; exact h1.power
  show MeanOf μ (switchOnLoop (depth + 1) peak p a.funcCycle (a.funcCycle.toNat + 1 + 1) b 0 []) (fun q => loadAt i q.1.dailyUse) = _
  rw [loop_succ, if_pos ⟨by omega, by omega⟩, meanOf_bind (fin_randSwitchOnWindow _ _ _) fun _ => fin_afterEvent _ _ _ _ _ _ _ _]
  have hst := starts_of_use (a := a) hf
  have hd := spots_disjoint h1
  have hnd := nodup_choices hf hd
  generalize hl : switchOnChoices (initialSpots [a.window1, a.window2, a.window3]) a.funcCycle = l at *
  have hlb : switchOnChoices b.freeSpots b.funcCycle = l := by rw [b1, b3, hl]
  have hlen : l.length ≤ N := by rwa [hst, Set.ncard_coe_finset, List.toFinset_card_of_nodup hnd] at hN
  rcases Nat.eq_zero_or_pos l.length with h0 | h0
  · rw [randSwitchOnWindow_succ, hlb, h0, if_neg (by omega), meanOf_pure]
    unfold afterEvent
    simp only
    rw [meanOf_pure, b2]
    classical
    have hs0 : startsOfUse a = ∅ := by rw [hst, List.length_eq_zero_iff.1 h0, List.toFinset_nil, Finset.coe_empty]
    unfold curveOfUse shareOfStarts loadAt
    rw [hs0, windowProfile_eq]
    simp
  · have e := mean_start h (a := b) (rt := a.funcCycle) b5 (by rw [b3]; exact hf) (by rw [b1]; exact hd) (by rw [hlb]; exact hlen) depth (by rw [hlb]; exact h0)
      (fun q => MeanOf μ (afterEvent (depth + 1) peak p a.funcCycle (a.funcCycle.toNat + 1) 0 [] q) (fun q => loadAt i q.1.dailyUse))
    rw [hlb] at e
    rw [e, ← average_curve h1 hf hn hpk hp hl h0 i]
    congr 1
    refine Finset.sum_congr rfl fun m hm => ?_
    rw [List.mem_toFinset, ← hl] at hm
    obtain ⟨s, hs, k1, k2, k3⟩ := mem_switchOnChoices.1 hm
    obtain ⟨w, hwm, hwne, rfl⟩ := mem_spots.1 hs
    have k2' : m + a.funcCycle ≤ w.2 := by have : m ≤ w.2 - a.funcCycle := k2; omega
    have k1' : w.1 ≤ m := k1
    obtain ⟨d1, d2, d3⟩ := day_window hw hwm
    have hev : eventAt b a.funcCycle m = pure (b, some ⟨arange m (m + a.funcCycle), arange m (m + a.funcCycle)⟩) := by
      unfold eventAt
      rw [b1, b3, find_spot hf k1 k2' hd hs]
      simp only
      unfold drawIndexes
      have hmin : min a.funcCycle (w.2 - m) = a.funcCycle := by omega
      rw [hmin, if_neg (by omega), if_pos rfl, sim_pure_bind]
    have hbne : b.freeSpots ≠ [] := by rw [b1]; exact List.ne_nil_of_mem hs
    rw [hev, meanOf_pure]
    have := mean_event (μ := μ) (a := b) (depth := depth) (peak := peak) (power := p) b5 (by rw [b3]; exact hf) b6 b7 hpeak hbne (m := m) (by omega) (by rw [b3]; omega)
      a.funcCycle.toNat (loadAt i) (arange m (m + a.funcCycle))
    rw [b3, b2, b4] at this
    exact this

/-! ## Whether there is a use -/

theorem begin_once {a : Appliance} (h1 : OneUse a) (hc : SafeConfig a) (pref dt : ℤ) :
    Sat (beginRun a pref dt) (fun o => o = none ∨ o = some (a.window1, a.window2, a.window3, a.funcCycle)) (fun _ => True) := by
  obtain ⟨v1, v2, v3⟩ := h1.windows
  have hwin : ∀ (w : ℤ × ℤ) (v : ℤ), DayWindow w → v = 0 → Sat (calcRandWindow w v) (fun x => x = w) (fun _ => True) := fun w v hw hv => by
    subst hv
    exact (sat_calcRandWindow (le_refl 0)).mono (fun x hx => moved_zero hw hx) fun _ h => h
  unfold beginRun
  refine sat_bind' sat_true fun x _ => sat_ite (fun _ => sat_pure (.inl rfl)) fun _ => ?_
  refine sat_bind' (hwin _ _ hc.windows.w1 v1) fun w1 e1 => sat_bind' (hwin _ _ hc.windows.w2 v2) fun w2 e2 => sat_bind' (hwin _ _ hc.windows.w3 v3) fun w3 e3 => ?_
  subst e1 e2 e3
  refine sat_bind' (P := fun t => t = a.funcCycle) ?_ fun t ht => sat_pure (.inr (by rw [ht]))
  rw [sat_iff]
  refine ⟨fun t ht => ?_, fun _ _ => trivial⟩
  have d1 := hc.windows.w1.2.1
  have d2 := hc.windows.w2.2.1
  have d3 := hc.windows.w3.2.1
  obtain ⟨t1, _, t3, _⟩ := C07_time_of_use_bounds { a with dailyUse := zeros } a.window1 a.window2 a.window3 t hc.ft hc.var.1 hc.var.2 (by unfold totalTime; omega) ht
  have t1' : a.funcCycle ≤ t := t1
  have t3' : (t : ℚ) ≤ max (a.funcCycle : ℚ) (a.funcTime * (1 + a.timeFractionRandomVariability)) := t3
  rw [h1.time, h1.once, add_zero, mul_one, max_self] at t3'
  have t3'' : t ≤ a.funcCycle := by exact_mod_cast t3'
  omega

theorem begin_chance [IsProbabilityMeasure μ] {a : Appliance} {pref dt : ℤ} (hn : NeverRaises (beginRun a pref dt)) :
    MeanOf μ (beginRun a pref dt) (fun o => ind (o ≠ none)) = ind (¬ SkippedForSure a pref dt) * μ {d | d.u ≤ a.occasionalUse} := by
  have hrest : ∀ x, Finitary (if x > a.occasionalUse ∨ (a.prefIndex ≠ 0 ∧ pref ≠ a.prefIndex) ∨ ¬ (a.wdWeType = dt ∨ a.wdWeType = 2) ∨ a.funcTime = 0 then
        (pure none : Sim (Option ((ℤ × ℤ) × (ℤ × ℤ) × (ℤ × ℤ) × ℤ)))
      else do
        let w1 ← calcRandWindow a.window1 a.randomVar1
        let w2 ← calcRandWindow a.window2 a.randomVar2
        let w3 ← calcRandWindow a.window3 a.randomVar3
        let rt ← randTotalTimeOfUse { a with dailyUse := zeros } w1 w2 w3
        pure (some (w1, w2, w3, rt))) := fun x => fin_ite (fin_pure _) (fin_bind (fin_calcRandWindow _ _) fun _ => fin_bind (fin_calcRandWindow _ _) fun _ =>
    fin_bind (fin_calcRandWindow _ _) fun _ => fin_bind (fin_randTotalTimeOfUse _ _ _ _) fun _ => fin_pure _)
  unfold beginRun at hn ⊢
  have hn' := (never_bind (fin_uniform 0 1) hn).2.2
  rw [meanOf_bind (fin_uniform _ _) hrest]
  have eu : uniform 0 1 = nextDraw >>= fun d => pure d.u := by
    unfold uniform
    congr 1
    funext d
    congr 1
    ring
  rw [eu, meanOf_bind fin_nextDraw fun _ => fin_pure _, meanOf_nextDraw]
  simp only [meanOf_pure]
  have hret : ∀ d : Draw, Returns (uniform 0 1) d.u := fun d => ⟨fun _ => d, fun _ => d, by rw [eu]; rfl⟩
  have key : ∀ d : Draw, MeanOf μ (if d.u > a.occasionalUse ∨ (a.prefIndex ≠ 0 ∧ pref ≠ a.prefIndex) ∨ ¬ (a.wdWeType = dt ∨ a.wdWeType = 2) ∨ a.funcTime = 0 then
        (pure none : Sim (Option ((ℤ × ℤ) × (ℤ × ℤ) × (ℤ × ℤ) × ℤ)))
      else do
        let w1 ← calcRandWindow a.window1 a.randomVar1
        let w2 ← calcRandWindow a.window2 a.randomVar2
        let w3 ← calcRandWindow a.window3 a.randomVar3
        let rt ← randTotalTimeOfUse { a with dailyUse := zeros } w1 w2 w3
        pure (some (w1, w2, w3, rt))) (fun o => ind (o ≠ none)) = ind (¬ SkippedForSure a pref dt) * Set.indicator {d : Draw | d.u ≤ a.occasionalUse} (fun _ => 1) d := by
    intro d
    have hnd := hn' _ (hret d)
    have hskip : SkippedForSure a pref dt ↔ (a.prefIndex ≠ 0 ∧ pref ≠ a.prefIndex) ∨ ¬ (a.wdWeType = dt ∨ a.wdWeType = 2) ∨ a.funcTime = 0 := by
      unfold SkippedForSure
      tauto
    by_cases hcond : d.u > a.occasionalUse ∨ (a.prefIndex ≠ 0 ∧ pref ≠ a.prefIndex) ∨ ¬ (a.wdWeType = dt ∨ a.wdWeType = 2) ∨ a.funcTime = 0
    · rw [if_pos hcond, meanOf_pure, ind_false (by simp)]
      rcases hcond with hcond | hcond
      · rw [Set.indicator_of_notMem (show d ∉ {d : Draw | d.u ≤ a.occasionalUse} from not_le.2 hcond), mul_zero]
      · rw [ind_false (not_not.2 (hskip.2 hcond)), zero_mul]
    · rw [if_neg hcond] at hnd ⊢
      rw [not_or, ← hskip] at hcond
      rw [ind_true hcond.2, one_mul, Set.indicator_of_mem (show d ∈ {d : Draw | d.u ≤ a.occasionalUse} from not_lt.1 hcond.1)]
      refine (meanOf_congr fun o ho => ?_).trans (meanOf_const hnd 1)
      refine ind_true ?_
      refine Sat.ret (Q := fun o => o ≠ none) (E := fun _ => True) ?_ ho
      exact sat_bind' sat_true fun _ _ => sat_bind' sat_true fun _ _ => sat_bind' sat_true fun _ _ => sat_bind' sat_true fun _ _ => sat_pure (by simp)
  rw [lintegral_congr key, lintegral_const_mul _ Measurable.of_discrete, lintegral_indicator_const MeasurableSet.of_discrete, one_mul]

theorem mean_once {N : ℕ} (h : PythonRandom N μ) {a : Appliance} (h1 : OneUse a) (hc : SafeConfig a) (hN : (startsOfUse a).ncard ≤ N) {k : ℕ} {p : ℚ} (hk : a.power[k]? = some p)
    (hp : 0 ≤ p) {peak : List ℤ} (hpeak : peak ≠ []) {depth : ℕ} {pref dt : ℤ} (hn : NeverRaises (generateLoadProfile a (depth + 1) pref k peak dt p)) (i : Fin 1440) :
    MeanOf μ (applianceRun (depth + 1) k peak dt pref a) (loadAt i) =
      ind (¬ SkippedForSure a pref dt) * (μ {d | d.u ≤ a.occasionalUse} * ENNReal.ofReal ((curveOfUse k a i : ℚ) : ℝ)) := by
  have := h.probability
  have hpk : a.power.getD k 0 = p := by rw [List.getD_eq_getElem?_getD, hk]; rfl
  rw [mean_run hk, generate_split h1.notFlat, meanOf_bind (fin_beginRun _ _ _) fun _ => fin_restRun _ _ _ _ _]
  rw [generate_split h1.notFlat] at hn
  rw [← mul_assoc, ← begin_chance (never_bind (fin_beginRun _ _ _) hn).1, ← meanOf_mul_right (fin_beginRun _ _ _)]
  refine meanOf_congr fun o ho => ?_
  rcases (begin_once h1 hc pref dt).ret ho with rfl | rfl
  · unfold restRun
    rw [meanOf_pure, ind_false (by simp), zero_mul]
    exact (C104_load_adds_up i).nothing
  · rw [ind_true (by simp), one_mul]
    exact mean_use h h1 hc.fc hc.number hc.windows hN hpk hp hpeak depth i

/-! ## The load curve of a use case -/

/-- **C109.** The expected load of minute `i` of day `k`, for appliances used once a day: the sum over the users and their appliances of `num_users` times the
probability of use times the load curve of a day of use. -/
theorem C109_load_curve {N : ℕ} (h : PythonRandom N μ) {env : Env} {depth : ℕ} {uc : UseCase} {ds peak : List ℤ} {days : Option (List ℤ)} (hr : Ready uc ds peak)
    (hp : peak ≠ []) (hs : ∀ u ∈ uc.users, SensibleUser u) (hl : ∀ u ∈ uc.users, ∀ a ∈ u.appList, ds.length ≤ a.power.length)
    (hP : ∀ u ∈ uc.users, ∀ a ∈ u.appList, ∃ P, PowersUpTo P a) (hone : ∀ u ∈ uc.users, ∀ a ∈ u.appList, OneUse a)
    (hN : ∀ u ∈ uc.users, ∀ a ∈ u.appList, (startsOfUse a).ncard ≤ N) {k : ℕ} (hk : k < ds.length) (i : Fin 1440) :
    expectedLoad μ (dailyRows env (depth + 1) uc days) k i =
      (uc.users.map (fun u => (u.numUsers.toNat : ℝ≥0∞) * (u.appList.map (fun a =>
        chanceOfUse μ (typeOfDay ds[k]) u a * ENNReal.ofReal ((curveOfUse k a i : ℚ) : ℝ))).sum)).sum := by
  have := h.probability
  show MeanOf μ (dailyRows env (depth + 1) uc days) (fun rows => loadAt i (rows.getD k zeros)) = _
  rw [mean_rows_sensible hr hp hs hl hP hk (C104_load_adds_up i)]
  congr 1
  refine List.map_congr_left fun u hu => ?_
  congr 2
  refine List.map_congr_left fun a ha => ?_
  obtain ⟨s1, s2, s3⟩ := (hs u hu).appliances a ha
  obtain ⟨P, hPa⟩ := hP u hu a ha
  have hka : k < a.power.length := by have := hl u hu a ha; omega
  have hka' := List.getElem?_eq_getElem hka
  have e : ∀ pref, MeanOf μ (applianceRun (depth + 1) k peak (typeOfDay ds[k]) pref a) (loadAt i) =
      ind (¬ SkippedForSure a pref (typeOfDay ds[k])) * (μ {d | d.u ≤ a.occasionalUse} * ENNReal.ofReal ((curveOfUse k a i : ℚ) : ℝ)) := fun pref =>
    mean_once h (hone u hu a ha) s1 (hN u hu a ha) hka' (hPa.powers _ (List.getElem_mem hka)).1 hp (C72_never_raises s1 hp (fun _ => hka) s2 s3) i
  simp only [e]
  rw [meanOf_mul_right (fin_drawPreference _), ← mul_assoc, mean_ind_pref]

/-- **C109.** The same with a variability of power, up to one part in `2^53`. -/
theorem C109_variable_power {N : ℕ} (h : PythonRandom N μ) {env : Env} {depth : ℕ} {uc : UseCase} {ds peak : List ℤ} {days : Option (List ℤ)} (hr : Ready uc ds peak)
    (hp : peak ≠ []) (hs : ∀ u ∈ uc.users, SensibleUser u) (hl : ∀ u ∈ uc.users, ∀ a ∈ u.appList, ds.length ≤ a.power.length)
    (hP : ∀ u ∈ uc.users, ∀ a ∈ u.appList, ∃ P, PowersUpTo P a) (hone : ∀ u ∈ uc.users, ∀ a ∈ u.appList, OneUse { a with thermalPVar := 0 })
    (hN : ∀ u ∈ uc.users, ∀ a ∈ u.appList, (startsOfUse a).ncard ≤ N) {k : ℕ} (hk : k < ds.length) (i : Fin 1440) {load : ℝ≥0∞}
    (hload : load = (uc.users.map (fun u => (u.numUsers.toNat : ℝ≥0∞) * (u.appList.map (fun a =>
        chanceOfUse μ (typeOfDay ds[k]) u a * ENNReal.ofReal ((curveOfUse k a i : ℚ) : ℝ))).sum)).sum) :
    (1 - (2 ^ 53)⁻¹) * load ≤ expectedLoad μ (dailyRows env (depth + 1) uc days) k i ∧ expectedLoad μ (dailyRows env (depth + 1) uc days) k i ≤ load := by
  have hmem : ∀ u ∈ constantPowers uc.users, ∃ v ∈ uc.users, u = { v with appList := v.appList.map constantPower } := by
    intro u hu
    obtain ⟨v, hv, rfl⟩ := List.mem_map.1 hu
    exact ⟨v, hv, rfl⟩
  have e := C109_load_curve h (env := env) (depth := depth) (days := days) (ready_users hr (constantPowers uc.users)) hp
    (fun u hu => by
      obtain ⟨v, hv, rfl⟩ := hmem u hu
      refine ⟨(hs v hv).preference, fun a ha => ?_⟩
      obtain ⟨b, hb, rfl⟩ := List.mem_map.1 ha
      exact sensible_constant ((hs v hv).appliances b hb))
    (fun u hu a ha => by
      obtain ⟨v, hv, rfl⟩ := hmem u hu
      obtain ⟨b, hb, rfl⟩ := List.mem_map.1 ha
      exact hl v hv b hb)
    (fun u hu a ha => by
      obtain ⟨v, hv, rfl⟩ := hmem u hu
      obtain ⟨b, hb, rfl⟩ := List.mem_map.1 ha
      obtain ⟨P, hb⟩ := hP v hv b hb
      exact ⟨P, powersUpTo_constant hb⟩)
    (fun u hu a ha => by
      obtain ⟨v, hv, rfl⟩ := hmem u hu
      obtain ⟨b, hb, rfl⟩ := List.mem_map.1 ha
      exact hone v hv b hb)
    (fun u hu a ha => by
      obtain ⟨v, hv, rfl⟩ := hmem u hu
      obtain ⟨b, hb, rfl⟩ := List.mem_map.1 ha
      exact hN v hv b hb) hk i
  have e2 : (constantPowers uc.users).map (fun u => (u.numUsers.toNat : ℝ≥0∞) * (u.appList.map (fun a =>
        chanceOfUse μ (typeOfDay ds[k]) u a * ENNReal.ofReal ((curveOfUse k a i : ℚ) : ℝ))).sum) = uc.users.map (fun u => (u.numUsers.toNat : ℝ≥0∞) * (u.appList.map (fun a =>
        chanceOfUse μ (typeOfDay ds[k]) u a * ENNReal.ofReal ((curveOfUse k a i : ℚ) : ℝ))).sum) := by
    unfold constantPowers
    rw [List.map_map]
    refine List.map_congr_left fun u _ => ?_
    simp only [Function.comp_apply, List.map_map]
    rfl
  have e3 : expectedLoad μ (dailyRows env (depth + 1) { uc with users := constantPowers uc.users } days) k i = load := by
    rw [hload, ← e2]
    exact e
  have := (C108_python h (env := env) (depth := depth) (days := days) hr hp hs hl hP hk).1 i
  rwa [e3] at this

/-- **C109.** With a single window from `s` to `e` the share of the starts that make minute `t` one of use is that of the starts from `t - func_cycle + 1` to `t`
among those from `s` to `e - func_cycle`: it rises, stays and falls. -/
theorem C109_share {a : Appliance} {s e L : ℤ} (h1 : a.window1 = (s, e)) (h2 : a.window2.1 = a.window2.2) (h3 : a.window3.1 = a.window3.2) (hf : a.funcCycle = L) (hL : 1 ≤ L)
    (hroom : L ≤ e - s) {t : ℤ} (ht : s ≤ t ∧ t < e) : shareOfStarts a t = (min t (e - L) - max s (t - L + 1) + 1) / (e - s - L + 1) := by
  have hst : startsOfUse a = ((Finset.Icc s (e - L) : Finset ℤ) : Set ℤ) := by
    ext m
    rw [Finset.coe_Icc, Set.mem_Icc]
    constructor
    · rintro ⟨w, hw, k1, k2⟩
      rw [h1, hf] at *
      rcases List.mem_cons.1 hw with rfl | hw
      · exact ⟨k1, by have : m + L ≤ e := k2; omega⟩
      rcases List.mem_cons.1 hw with rfl | hw
      · omega
      rw [List.mem_singleton.1 hw] at k1 k2
      omega
    · rintro ⟨k1, k2⟩
      exact ⟨a.window1, by simp, by rw [h1]; exact k1, by rw [h1, hf]; show m + L ≤ e; omega⟩
  have hon : {m | m ∈ startsOfUse a ∧ m ≤ t ∧ t < m + a.funcCycle} = ((Finset.Icc (max s (t - L + 1)) (min t (e - L)) : Finset ℤ) : Set ℤ) := by
    ext m
    rw [hst, hf]
    show (m ∈ ((Finset.Icc s (e - L) : Finset ℤ) : Set ℤ) ∧ m ≤ t ∧ t < m + L) ↔ _
    rw [Finset.coe_Icc, Set.mem_Icc, Finset.coe_Icc, Set.mem_Icc]
    omega
  unfold shareOfStarts
  rw [hon, hst, Set.ncard_coe_finset, Set.ncard_coe_finset, Int.card_Icc, Int.card_Icc]
  have n1 : (((min t (e - L) + 1 - max s (t - L + 1)).toNat : ℕ) : ℚ) = ((min t (e - L) + 1 - max s (t - L + 1) : ℤ) : ℚ) := by
    rw [← Int.cast_natCast, Int.toNat_of_nonneg (by omega)]
  have n2 : (((e - L + 1 - s).toNat : ℕ) : ℚ) = ((e - L + 1 - s : ℤ) : ℚ) := by rw [← Int.cast_natCast, Int.toNat_of_nonneg (by omega)]
  rw [n1, n2]
  push_cast
  congr 1 <;> ring

/-! ## A case -/

/-- A kettle of 1000 W used once a day, for 5 minutes between 7:00 and 8:00, on three days of ten. -/
def kettle : Appliance where
  number := 1
  power := List.replicate 367 1000
  window1 := (420, 480)
  funcTime := 5
  funcCycle := 5
  fixed := "yes"
  occasionalUse := 3 / 10

theorem kettle_sensible : SensibleAppliance kettle := by
  refine ⟨⟨⟨?_, ?_, ?_, ?_, ?_, ?_⟩, ?_, ?_, ?_, ?_, ?_, ?_, ?_, ?_, ⟨?_, ?_, ?_, ?_, ?_, ?_, ?_, ?_, ?_, ?_⟩⟩, ⟨?_, ?_, ?_, ?_, ?_, ?_⟩, .inl ?_⟩
  all_goals simp only [DayWindow, kettle, totalTime]
  all_goals norm_num

theorem kettle_powers : PowersUpTo 1000 kettle := by
  refine ⟨kettle_sensible.config.windows, by norm_num [kettle], by norm_num [kettle], by norm_num [kettle], fun p hp => ?_, fun p hp => ?_⟩
  · rw [List.eq_of_mem_replicate hp]
    norm_num
  · have hp' : p ∈ [(0 : ℚ), 0, 0, 0, 0, 0] := hp
    have h0 : p = 0 := by simpa using hp'
    rw [h0]
    norm_num

theorem kettle_once : OneUse kettle := ⟨le_refl _, by decide, by decide, rfl, rfl, ⟨rfl, rfl, rfl⟩, rfl, ⟨.inr (.inl rfl), .inr (.inl rfl), .inl rfl⟩⟩

theorem kettle_share {t : ℤ} (ht : 420 ≤ t ∧ t < 480) : shareOfStarts kettle t = (min t 475 - max 420 (t - 4) + 1) / 56 := by
  have := C109_share (a := kettle) (s := 420) (e := 480) (L := 5) rfl rfl rfl rfl (by norm_num) (by norm_num) ht
  rw [this, show t - 5 + 1 = t - 4 by ring]
  norm_num

theorem kettle_starts : (startsOfUse kettle).ncard = 56 := by
  have e : startsOfUse kettle = ((Finset.Icc 420 475 : Finset ℤ) : Set ℤ) := by
    ext m
    rw [Finset.coe_Icc, Set.mem_Icc]
    constructor
    · rintro ⟨w, hw, k1, k2⟩
      have hf : kettle.funcCycle = 5 := rfl
      rw [hf] at k2
      have hw' : w ∈ [((420 : ℤ), (480 : ℤ)), (0, 0), (0, 0)] := hw
      simp only [List.mem_cons, List.not_mem_nil, or_false] at hw'
      rcases hw' with rfl | rfl | rfl <;> simp only at k1 k2 <;> omega
    · rintro ⟨k1, k2⟩
      exact ⟨(420, 480), List.mem_cons.2 (.inl rfl), k1, by show m + 5 ≤ 480; omega⟩
  rw [e, Set.ncard_coe_finset]
  rfl

/-- A case for C109: the kettles of 20 households.  At 7:00 on the second day their expected load is `20 · P(u ≤ 0.3) · (1/56 · 1000 + 55/56 · 0.001)` W, at 7:30 that
with 5/56 and 51/56. -/
theorem kettle_case {N : ℕ} (h : PythonRandom N μ) (hN : 56 ≤ N) :
    expectedLoad μ (dailyRows ⟨0, none⟩ 1000 (lampDays [{ numUsers := 20, appList := [kettle] }]) none) 1 ⟨420, by norm_num⟩ =
        20 * (μ {d | d.u ≤ 3 / 10} * ENNReal.ofReal ((1 / 56 * 1000 + 55 / 56 * (1 / 1000) : ℚ) : ℝ)) ∧
      expectedLoad μ (dailyRows ⟨0, none⟩ 1000 (lampDays [{ numUsers := 20, appList := [kettle] }]) none) 1 ⟨450, by norm_num⟩ =
        20 * (μ {d | d.u ≤ 3 / 10} * ENNReal.ofReal ((5 / 56 * 1000 + 51 / 56 * (1 / 1000) : ℚ) : ℝ)) := by
  have := h.probability
  have hmem : ∀ u ∈ (lampDays [{ numUsers := 20, appList := [kettle] }]).users, u.userPreference = 0 ∧ ∀ a ∈ u.appList, a = kettle := by
    intro u hu
    rw [List.mem_singleton.1 hu]
    exact ⟨rfl, fun a ha => List.mem_singleton.1 ha⟩
  have e := fun i => C109_load_curve h (env := ⟨0, none⟩) (depth := 999) (uc := lampDays [{ numUsers := 20, appList := [kettle] }])
    (ds := [0, 1, 2]) (peak := [700]) (days := none) ⟨rfl, rfl, rfl⟩ (by simp)
    (fun u hu => ⟨by rw [(hmem u hu).1], fun a ha => by rw [(hmem u hu).2 a ha]; exact kettle_sensible⟩)
    (fun u hu a ha => by
      rw [(hmem u hu).2 a ha]
      show 3 ≤ (List.replicate 367 (1000 : ℚ)).length
      rw [List.length_replicate]
      norm_num)
    (fun u hu a ha => by rw [(hmem u hu).2 a ha]; exact ⟨1000, kettle_powers⟩)
    (fun u hu a ha => by rw [(hmem u hu).2 a ha]; exact kettle_once)
    (fun u hu a ha => by rw [(hmem u hu).2 a ha, kettle_starts]; exact hN) (k := 1) (by simp) i
  have hch : ∀ dt, chanceOfUse μ dt { numUsers := 20, appList := [kettle] } kettle = μ {d | d.u ≤ 3 / 10} := by
    intro dt
    unfold chanceOfUse
    rw [if_neg (by
      rintro (⟨_, h⟩ | h)
      · exact h rfl
      · exact absurd (show (5 : ℤ) = 0 from h) (by norm_num))]
    have hpref : ChanceOf μ (drawPreference ({ numUsers := 20, appList := [kettle] } : User).userPreference) (fun pref => kettle.prefIndex = 0 ∨ pref = kettle.prefIndex) = 1 := by
      rw [chanceOf_ind (fin_drawPreference _)]
      exact (meanOf_congr fun _ _ => ind_true (.inl rfl)).trans (meanOf_const (never_drawPreference.2 (le_refl _)) 1)
    rw [hpref, one_mul]
    rfl
  have hpw : kettle.power.getD 1 0 = 1000 := by
    show (List.replicate 367 (1000 : ℚ)).getD 1 0 = 1000
    rw [List.getD_eq_getElem?_getD, List.getElem?_replicate, if_pos (by norm_num)]
    rfl
  have hcv : ∀ t : ℤ, 420 ≤ t ∧ t < 480 → curveOfUse 1 kettle t = (min t 475 - max 420 (t - 4) + 1) / 56 * 1000 + (1 - (min t 475 - max 420 (t - 4) + 1) / 56) * (1 / 1000) := by
    intro t ht
    unfold curveOfUse
    rw [if_pos ⟨(420, 480), List.mem_cons.2 (.inl rfl), ht⟩, kettle_share ht, hpw, show kettle.number = 1 from rfl]
    push_cast
    ring
  have hgo : ∀ i : Fin 1440, expectedLoad μ (dailyRows ⟨0, none⟩ 1000 (lampDays [{ numUsers := 20, appList := [kettle] }]) none) 1 i =
      20 * (μ {d | d.u ≤ 3 / 10} * ENNReal.ofReal ((curveOfUse 1 kettle i : ℚ) : ℝ)) := by
    intro i
    rw [e i]
    show (([{ numUsers := 20, appList := [kettle] }] : List User).map _).sum = _
    simp only [List.map_cons, List.map_nil, List.sum_cons, List.sum_nil, add_zero, hch]
    rfl
  constructor
  · rw [hgo, show (((⟨420, by norm_num⟩ : Fin 1440) : ℕ) : ℤ) = 420 from rfl, hcv 420 (by norm_num)]
    norm_num
  · rw [hgo, show (((⟨450, by norm_num⟩ : Fin 1440) : ℕ) : ℤ) = 450 from rfl, hcv 450 (by norm_num)]
    norm_num

end Ramp
