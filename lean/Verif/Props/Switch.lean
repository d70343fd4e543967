import Verif.Lemmas.Gen
import Verif.Props.Utils

/-! # Properties C09-C12 and C17: drawing one switch-on event -/

set_option autoImplicit false

namespace Ramp

/-! ## The selected duty cycle, in terms of minutes -/

theorem overlap_iff {lo hi : ℤ} {w : ℤ × ℤ} (h : lo ≤ hi) (hw : w.1 ≤ w.2) :
    rangeWithinWindow lo hi w = true ↔ ShareMinute lo hi w.1 w.2 := C04_range_within_window lo hi w h hw

theorem selectDutyCycle_none_iff {app : Appliance} (hc : OrderedCycleWindows app) {lo hi : ℤ} (h : lo ≤ hi) :
    selectDutyCycle app lo hi = none ↔ ¬ Overlaps1 app lo hi ∧ ¬ Overlaps2 app lo hi ∧ ¬ Overlaps3 app lo hi := by
  unfold selectDutyCycle Overlaps1 Overlaps2 Overlaps3
  rw [← overlap_iff h hc.c11, ← overlap_iff h hc.c12, ← overlap_iff h hc.c21, ← overlap_iff h hc.c22,
    ← overlap_iff h hc.c31, ← overlap_iff h hc.c32]
  simp only [← Bool.or_eq_true]
  split_ifs <;> simp_all

theorem selectDutyCycle_iff {app : Appliance} (hc : OrderedCycleWindows app) {lo hi i : ℤ} (h : lo ≤ hi) :
    selectDutyCycle app lo hi = some (i, dutyCycleOf app i) ↔ ChosenCycle app lo hi i := by
  unfold selectDutyCycle ChosenCycle Overlaps1 Overlaps2 Overlaps3
  rw [← overlap_iff h hc.c11, ← overlap_iff h hc.c12, ← overlap_iff h hc.c21, ← overlap_iff h hc.c22,
    ← overlap_iff h hc.c31, ← overlap_iff h hc.c32]
  simp only [← Bool.or_eq_true]
  split_ifs with h1 h2 h3
  · simp only [h1, Option.some.injEq, Prod.mk.injEq, and_true, not_true_eq_false, false_and, and_false, or_false]
    constructor
    · rintro ⟨rfl, _⟩; rfl
    · rintro rfl; exact ⟨rfl, by simp [dutyCycleOf]⟩
  · simp only [h1, h2, Option.some.injEq, Prod.mk.injEq, and_true, not_true_eq_false, false_and, and_false, or_false,
      false_or, Bool.false_eq_true, not_false_eq_true, true_and]
    constructor
    · rintro ⟨rfl, _⟩; rfl
    · rintro rfl; exact ⟨rfl, by simp [dutyCycleOf]⟩
  · simp only [h1, h2, h3, Option.some.injEq, Prod.mk.injEq, and_true, and_false,
      false_or, Bool.false_eq_true, not_false_eq_true, true_and]
    constructor
    · rintro ⟨rfl, _⟩; rfl
    · rintro rfl; exact ⟨rfl, by simp [dutyCycleOf]⟩
  · simp [h1, h2, h3]

/-! ## C09 -/

/-- **C09.** Every event returned by `rand_switch_on_window` is a contiguous run of minutes inside one free range, at most
`rand_time` long.  It is at least `func_cycle` long, except that a single-shot duty cycle (`continuous_duty_cycle = 0`) may cut
it to the length of the cycle; in particular it is not empty unless that cycle is empty. -/
theorem C09_event_in_free_range (depth : ℕ) (app app' : Appliance) (randTime : ℤ) (ev : SwitchOn)
    (h1 : 1 ≤ app.funcCycle) (hrt : app.funcCycle ≤ randTime)
    (h : Returns (randSwitchOnWindow depth app randTime) (app', some ev)) :
    ∃ s ∈ app.freeSpots, ∃ (a : ℤ) (n : ℕ), ev.indexes = minutesFrom a n ∧ s.start ≤ a ∧ a + n ≤ s.stop ∧
      (n : ℤ) ≤ randTime ∧
      (app.fixedCycle ≤ 0 ∨ app.continuousDutyCycle ≠ 0 → app.funcCycle ≤ n) ∧
      (0 < app.fixedCycle → app.continuousDutyCycle = 0 →
        ∃ i, (i = 1 ∨ i = 2 ∨ i = 3) ∧ min app.funcCycle (dutyCycleOf app i).length ≤ n ∧ n ≤ (dutyCycleOf app i).length) := by
  rcases (sat_randSwitchOnWindow depth app randTime h1 hrt).ret h with ⟨h, _⟩ | ⟨ev', he, s, hs, a, d, hd, hsa, had, hfc, hdr, hcase⟩
  · simp at h
  · simp only [Option.some.injEq] at he
    subst he
    have hdn : ((d.toNat : ℕ) : ℤ) = d := by omega
    rcases hcase with ⟨hfix, _, hidx⟩ | ⟨hfix, i, hsel, _, hidx⟩
    · refine ⟨s, hs, a, d.toNat, ?_, hsa, by omega, by omega, fun _ => by omega, fun h => by omega⟩
      rw [hidx, hd, ← arange_eq_minutesFrom, hdn]
    · have hi := (selectDutyCycle_some hsel).2
      by_cases hcont : app.continuousDutyCycle = 0
      · rw [if_pos hcont] at hidx
        refine ⟨s, hs, a, (min d (dutyCycleOf app i).length).toNat, ?_, hsa, by omega, by omega, fun h => by omega,
          fun _ _ => ⟨i, hi, by omega, by omega⟩⟩
        rw [hidx, ← arange_eq_minutesFrom]
        congr 2; omega
      · rw [if_neg hcont] at hidx
        refine ⟨s, hs, a, d.toNat, ?_, hsa, by omega, by omega, fun _ => by omega, fun _ h => absurd h hcont⟩
        rw [hidx, ← arange_eq_minutesFrom, hdn]

/-- **C09, exact.** Without duty cycles and with free ranges that do not touch, the events that can be returned are exactly the
runs of `func_cycle` to `rand_time` minutes inside one free range. -/
theorem C09_events_exact (depth : ℕ) (app app' : Appliance) (randTime : ℤ) (ev : SwitchOn)
    (h1 : 1 ≤ app.funcCycle) (hrt : app.funcCycle ≤ randTime) (hsp : SpotsApart app.freeSpots) (hfix : app.fixedCycle ≤ 0) :
    Returns (randSwitchOnWindow (depth + 1) app randTime) (app', some ev) ↔
      app' = app ∧ ev.drawn = ev.indexes ∧ ∃ a d : ℤ, EventFits app randTime a d ∧ ev.indexes = minutesFrom a d.toNat := by
  constructor
  · intro h
    rcases (sat_randSwitchOnWindow _ app randTime h1 hrt).ret h with ⟨h, _⟩ | ⟨ev', he, s, hs, a, d, hd, hsa, had, hfc, hdr, hcase⟩
    · simp at h
    · simp only [Option.some.injEq] at he
      subst he
      rcases hcase with ⟨_, ha, hidx⟩ | ⟨hfix', _⟩
      · refine ⟨ha, hidx.symm, a, d, ⟨s, hs, hsa, had, hfc, hdr⟩, ?_⟩
        rw [hidx, hd, ← arange_eq_minutesFrom]; congr 2; omega
      · omega
  · rintro ⟨rfl, hdi, a, d, ⟨s, hs, hsa, had, hfc, hdr⟩, hidx⟩
    refine (reach_randSwitchOnWindow depth app' app' randTime ev h1 hsp ⟨s, hs, a, d, ?_, hsa, had, hfc, hdr, .inl ⟨hfix, rfl, hdi.symm⟩⟩).returns
    rw [hdi, hidx, ← arange_eq_minutesFrom]; congr 2; omega

/-- **C09, exact, with duty cycles.** The event drawn is a run of `func_cycle` to `rand_time` minutes inside one free range that
overlaps a duty cycle window; the cycle is the first one overlapped; with `continuous_duty_cycle = 0` the event is cut to the
length of the cycle.  All these outcomes are possible. -/
theorem C09_events_exact_cycles (depth : ℕ) (app app' : Appliance) (randTime : ℤ) (ev : SwitchOn)
    (h1 : 1 ≤ app.funcCycle) (hrt : app.funcCycle ≤ randTime) (hsp : SpotsApart app.freeSpots) (hfix : 0 < app.fixedCycle)
    (hc : OrderedCycleWindows app) :
    Returns (randSwitchOnWindow (depth + 1) app randTime) (app', some ev) ↔
      ∃ a d i : ℤ, EventFits app randTime a d ∧ ChosenCycle app a (a + d - 1) i ∧
        app' = { app with currentDutyCycleId := i } ∧ ev.drawn = minutesFrom a d.toNat ∧
        ev.indexes = if app.continuousDutyCycle = 0 then ev.drawn.take (dutyCycleOf app i).length else ev.drawn := by
  have key : ∀ a d : ℤ, ∀ i, 1 ≤ d → arange a (a + if app.continuousDutyCycle = 0 then min d (dutyCycleOf app i).length else d) =
      if app.continuousDutyCycle = 0 then (minutesFrom a d.toNat).take (dutyCycleOf app i).length else minutesFrom a d.toNat := by
    intro a d i hd
    have e : minutesFrom a d.toNat = arange a (a + d) := by rw [← arange_eq_minutesFrom]; congr 2; omega
    rw [e]
    split_ifs with hcont
    · by_cases hl : ((dutyCycleOf app i).length : ℤ) ≤ d
      · rw [take_arange _ _ _ (by omega), min_eq_right hl]
      · rw [List.take_of_length_le (by simp [arange]; omega), min_eq_left (by omega)]
    · rfl
  constructor
  · intro h
    rcases (sat_randSwitchOnWindow _ app randTime h1 hrt).ret h with ⟨h, _⟩ | ⟨ev', he, s, hs, a, d, hd, hsa, had, hfc, hdr, hcase⟩
    · simp at h
    · simp only [Option.some.injEq] at he
      subst he
      rcases hcase with ⟨hfix', _, _⟩ | ⟨_, i, hsel, ha, hidx⟩
      · omega
      · have hd' : ev.drawn = minutesFrom a d.toNat := by rw [hd, ← arange_eq_minutesFrom]; congr 2; omega
        refine ⟨a, d, i, ⟨s, hs, hsa, had, hfc, hdr⟩, (selectDutyCycle_iff hc (by omega)).1 hsel, ha, hd', ?_⟩
        rw [hidx, hd', key a d i (by omega)]
  · rintro ⟨a, d, i, ⟨s, hs, hsa, had, hfc, hdr⟩, hch, rfl, hd, hidx⟩
    refine (reach_randSwitchOnWindow depth app _ randTime ev h1 hsp ⟨s, hs, a, d, ?_, hsa, had, hfc, hdr,
      .inr ⟨hfix, i, (selectDutyCycle_iff hc (by omega)).2 hch, rfl, ?_⟩⟩).returns
    · rw [hd, ← arange_eq_minutesFrom]; congr 2; omega
    · rw [hidx, hd, key a d i (by omega)]

/-- A case for C09: two separated free ranges, no duty cycle, an event of 20 minutes starting at 650. -/
example : ∃ app : Appliance, SpotsApart app.freeSpots ∧ app.fixedCycle ≤ 0 ∧ 1 ≤ app.funcCycle ∧
    Returns (randSwitchOnWindow 1000 app 90) (app, some ⟨minutesFrom 650 20, minutesFrom 650 20⟩) := by
  refine ⟨{ funcCycle := 10, freeSpots := [⟨0, 100⟩, ⟨600, 700⟩] }, ?_, by decide, by decide, ?_⟩
  · exact ⟨by simp, by simp [Apart]⟩
  · refine (C09_events_exact 999 _ _ 90 _ (by decide) (by decide) ⟨by simp, by simp [Apart]⟩ (by decide)).2
      ⟨rfl, rfl, 650, 20, ⟨⟨600, 700⟩, by simp, by decide, by decide, by decide, by decide⟩, rfl⟩

/-! ## C10 -/

/-- **C10.** `None` is a possible result exactly when no free range is at least `func_cycle` minutes long, and then it is the only
result: for every random outcome nothing else is returned, nothing is raised and nothing changes. -/
theorem C10_none_iff (depth : ℕ) (app : Appliance) (randTime : ℤ) (h1 : 1 ≤ app.funcCycle) (hrt : app.funcCycle ≤ randTime) :
    ((∃ app', Returns (randSwitchOnWindow (depth + 1) app randTime) (app', none)) ↔
      ∀ s ∈ app.freeSpots, s.stop - s.start < app.funcCycle) ∧
    ((∀ s ∈ app.freeSpots, s.stop - s.start < app.funcCycle) →
      ∀ rng, randSwitchOnWindow (depth + 1) app randTime rng = .ok ((app, none), rng)) := by
  have h2 : (∀ s ∈ app.freeSpots, s.stop - s.start < app.funcCycle) →
      ∀ rng, randSwitchOnWindow (depth + 1) app randTime rng = .ok ((app, none), rng) := by
    intro h rng
    rw [randSwitchOnWindow_succ, switchOnChoices_eq_nil.2 h]
    rfl
  refine ⟨⟨?_, fun h => ⟨app, fun _ => draw0, _, h2 h _⟩⟩, h2⟩
  rintro ⟨app', h⟩
  rcases (sat_randSwitchOnWindow _ app randTime h1 hrt).ret h with ⟨_, _, h⟩ | ⟨ev', he, _⟩
  · exact h
  · simp at he

/-- A case for C10: free ranges of 5 and 9 minutes with `func_cycle = 10`. -/
example : ∃ app', Returns (randSwitchOnWindow 1000 ({ funcCycle := 10, freeSpots := [⟨0, 5⟩, ⟨600, 609⟩] } : Appliance) 90)
    (app', none) :=
  (C10_none_iff 999 _ 90 (by decide) (by decide)).1.2 (by simp)

/-! ## C11 -/

/-- **C11.** With `rand_time ≥ func_cycle ≥ 1` the only exception `rand_switch_on_window` can raise is a `RecursionError`, and
only with duty cycles: the `ValueError` of line 1867 and the index and type errors are unreachable. -/
theorem C11_only_recursion_error (depth : ℕ) (app : Appliance) (randTime : ℤ) (e : Err) (h1 : 1 ≤ app.funcCycle)
    (hrt : app.funcCycle ≤ randTime) (h : Raises (randSwitchOnWindow (depth + 1) app randTime) e) :
    e = .recursionError ∧ 0 < app.fixedCycle := by
  obtain ⟨he, hd | hu⟩ := (sat_randSwitchOnWindow _ app randTime h1 hrt).err h
  · simp at hd
  · exact ⟨he, hu.1⟩

/-- **C11.** Without duty cycles it never raises. -/
theorem C11_never_raises (depth : ℕ) (app : Appliance) (randTime : ℤ) (h1 : 1 ≤ app.funcCycle)
    (hrt : app.funcCycle ≤ randTime) (hfix : app.fixedCycle ≤ 0) :
    NeverRaises (randSwitchOnWindow (depth + 1) app randTime) := by
  intro e h
  have := (C11_only_recursion_error depth app randTime e h1 hrt h).2
  omega

/-- The hypothesis `rand_time ≥ func_cycle` of C11 holds for every time of use that `generate_load_profile` uses. -/
theorem C11_hypothesis_met (app : Appliance) (w1 w2 w3 : ℤ × ℤ) (t : ℤ)
    (h : Returns (randTotalTimeOfUse app w1 w2 w3) t) : app.funcCycle ≤ t := (sat_randTime_ge app w1 w2 w3).ret h

/-- Without that hypothesis the sanity error does occur. -/
example : Raises (randSwitchOnWindow 1000 ({ funcCycle := 10, freeSpots := [⟨0, 50⟩] } : Appliance) 5) .valueError :=
  ⟨fun _ => draw0, rfl⟩

/-! ## C12 -/

/-- **C12.** When the free ranges do not touch and the event lies in one of them, booking it leaves exactly the other minutes
available, and the free ranges still do not touch. -/
theorem C12_booking_exact (spots : List Spot) (a : ℤ) (n : ℕ) (hn : 1 ≤ n) (hs : SpotsApart spots)
    (hin : ∃ s ∈ spots, s.start ≤ a ∧ a + n ≤ s.stop) :
    ∃ spots', updateAvailableTime spots (minutesFrom a n) = .ok spots' ∧ SpotsApart spots' ∧
      ∀ m, Avail spots' m ↔ Avail spots m ∧ m ∉ minutesFrom a n := by
  obtain ⟨s, hsm, hsa, hsn⟩ := hin
  have hne : spots ≠ [] := by rintro rfl; simp at hsm
  have hb := bookSpots_exact (i0 := a) (i1 := a + n - 1) (by omega) hs ⟨s, hsm, hsa, by omega⟩
  refine ⟨bookSpots spots a (a + n - 1), ?_, hb.1, ?_⟩
  · unfold updateAvailableTime
    rw [if_neg hne, ← arange_eq_minutesFrom, head?_arange (by omega), getLast?_arange (by omega)]
  · intro m
    rw [hb.2 m, mem_minutesFrom]
    have : (a ≤ m ∧ m ≤ a + n - 1) ↔ (a ≤ m ∧ m < a + n) := by omega
    rw [this]

/-- A case for C12. -/
example : updateAvailableTime [⟨0, 100⟩, ⟨600, 700⟩] (minutesFrom 650 20) = .ok [⟨0, 100⟩, ⟨600, 650⟩, ⟨670, 700⟩] := by
  decide +kernel

/-- **C12, limit of the property.** With two ranges that touch, booking the first minute of the second range leaves it
available: the separation hypothesis is needed. -/
theorem C12_touching_ranges :
    ∃ spots spots' : List Spot, (∀ s ∈ spots, s.start ≤ s.stop) ∧ updateAvailableTime spots [10] = .ok spots' ∧
      Avail spots 10 ∧ Avail spots' 10 := by
  refine ⟨[⟨0, 10⟩, ⟨10, 20⟩], [⟨0, 10⟩, ⟨10, 20⟩], by simp, by decide +kernel, ?_, ?_⟩ <;>
    exact ⟨⟨10, 20⟩, by simp, by decide, by decide⟩

/-- **C12.** Booking never makes a minute available that was not, whatever the ranges. -/
theorem C12_booking_sound (spots spots' : List Spot) (a : ℤ) (n : ℕ) (hn : 1 ≤ n) (hs : ∀ s ∈ spots, s.start ≤ s.stop)
    (h : updateAvailableTime spots (minutesFrom a n) = .ok spots') (m : ℤ) (hm : Avail spots' m) : Avail spots m := by
  unfold updateAvailableTime at h
  by_cases hne : spots = []
  · rw [if_pos hne] at h; cases h; obtain ⟨s, hs, _⟩ := hm; simp at hs
  · rw [if_neg hne, ← arange_eq_minutesFrom, head?_arange (by omega), getLast?_arange (by omega)] at h
    cases h
    obtain ⟨t, ht, htm⟩ := hm
    obtain ⟨_, s, hs', h1, h2⟩ := bookSpots_sub (by omega) hs t ht
    exact ⟨s, hs', by omega, by omega⟩

/-! ## C17 -/

theorem onNumber_eq {prob : ℚ} {n k : ℤ} (hn : 1 ≤ n) (h0 : 0 ≤ k) (hk : k < n) (h1 : (k : ℚ) / n ≤ prob)
    (h2 : prob < (k + 1) / n) : onNumber prob n = k + 1 := by
  have hnq : (0 : ℚ) < n := by exact_mod_cast (by omega : 0 < n)
  unfold onNumber
  have hf : (List.range n.toNat).filter (fun (i : ℕ) => decide (prob ≥ (i : ℚ) / n)) = List.range (k + 1).toNat := by
    have hr : List.range n.toNat = List.range ((k + 1).toNat + (n.toNat - (k + 1).toNat)) := by congr 1; omega
    rw [hr, List.range_add, List.filter_append]
    have e1 : (List.range (k + 1).toNat).filter (fun (i : ℕ) => decide (prob ≥ (i : ℚ) / n)) = List.range (k + 1).toNat := by
      rw [List.filter_eq_self]
      intro i hi
      rw [List.mem_range] at hi
      simp only [ge_iff_le, decide_eq_true_eq]
      refine le_trans ?_ h1
      have : (i : ℚ) ≤ k := by exact_mod_cast (by omega : (i : ℤ) ≤ k)
      exact div_le_div_of_nonneg_right this hnq.le
    rw [e1, List.filter_eq_nil_iff.2, List.append_nil]
    intro i hi
    simp only [List.mem_map, List.mem_range] at hi
    obtain ⟨j, hj, rfl⟩ := hi
    simp only [ge_iff_le, decide_eq_true_eq, not_le]
    refine lt_of_lt_of_le h2 ?_
    have : (k : ℚ) + 1 ≤ (((k + 1).toNat + j : ℕ) : ℚ) := by exact_mod_cast (by omega : k + 1 ≤ (((k + 1).toNat + j : ℕ) : ℤ))
    exact div_le_div_of_nonneg_right this hnq.le
  rw [hf]
  have e : (k + 1).toNat = k.toNat + 1 := by omega
  rw [e, List.range_succ, List.getLast?_concat]
  simp only
  omega

theorem sat_calcCoincident (app : Appliance) (inside : Bool) (hn : 1 ≤ app.number) :
    Sat (calcCoincidentSwitchOn app inside) (fun c => (app.fixed ≠ "no" ∧ c = app.number) ∨
      (app.fixed = "no" ∧ 1 ≤ c ∧ c ≤ app.number)) (fun _ => False) := by
  have hnq : (1 : ℚ) ≤ app.number := by exact_mod_cast hn
  unfold calcCoincidentSwitchOn
  refine sat_ite (fun h => sat_bind (sat_gauss fun z => sat_pure ?_)) (fun h => ?_)
  · right; exact ⟨h.2, by omega, by omega⟩
  · refine sat_ite (fun h => ?_) (fun h' => sat_pure ?_)
    · refine sat_ite (fun h => by omega) (fun _ => sat_bind (sat_uniform fun u h0 h1 => sat_pure ?_))
      right
      have e : (0 : ℚ) + ((app.number - switchOnParameters.2.2) / app.number - 0) * u = u * (app.number - 1 / 2) / app.number := by
        simp only [switchOnParameters]; ring
      rw [e]
      have hu : 0 ≤ u * (app.number - 1 / 2) := mul_nonneg h0 (by linarith)
      have hu' : u * (app.number - 1 / 2) ≤ app.number - 1 / 2 := by nlinarith
      have hfl := Int.floor_le (u * ((app.number : ℚ) - 1 / 2))
      have hfl' := Int.lt_floor_add_one (u * ((app.number : ℚ) - 1 / 2))
      have hk0 : 0 ≤ ⌊u * ((app.number : ℚ) - 1 / 2)⌋ := Int.floor_nonneg.2 hu
      have hk1 : ⌊u * ((app.number : ℚ) - 1 / 2)⌋ < app.number := by
        rw [Int.floor_lt]; linarith
      rw [onNumber_eq hn hk0 hk1 (div_le_div_of_nonneg_right hfl (by linarith)) (div_lt_div_of_pos_right hfl' (by linarith))]
      exact ⟨h.2, by omega, by omega⟩
    · left
      refine ⟨fun hh => ?_, rfl⟩
      cases inside
      · exact h' ⟨rfl, hh⟩
      · exact h ⟨rfl, hh⟩

/-- **C17.** For `number ≥ 1` the possible numbers of appliances switched on together are exactly: `number` if the appliance is
fixed; every value of `1..number` otherwise, inside the peak as well as outside.  No exception is raised. -/
theorem C17_coincidence (app : Appliance) (inside : Bool) (hn : 1 ≤ app.number) (c : ℤ) :
    (Returns (calcCoincidentSwitchOn app inside) c ↔
      if app.fixed = "no" then 1 ≤ c ∧ c ≤ app.number else c = app.number) ∧
    NeverRaises (calcCoincidentSwitchOn app inside) := by
  have hnq : (1 : ℚ) ≤ app.number := by exact_mod_cast hn
  refine ⟨⟨fun h => ?_, fun h => ?_⟩, neverRaises_of_sat (sat_calcCoincident app inside hn)⟩
  · rcases (sat_calcCoincident app inside hn).ret h with ⟨h1, h2⟩ | ⟨h1, h2⟩
    · rw [if_neg h1]; exact h2
    · rw [if_pos h1]; exact h2
  · by_cases hf : app.fixed = "no"
    · rw [if_pos hf] at h
      unfold calcCoincidentSwitchOn
      cases inside
      · rw [if_neg (by simp), if_pos ⟨rfl, hf⟩, if_neg (by omega)]
        have hpos : (0 : ℚ) < app.number - 1 / 2 := by linarith
        have hc1 : (1 : ℚ) ≤ c := by exact_mod_cast h.1
        have hc2 : (c : ℚ) ≤ app.number := by exact_mod_cast h.2
        refine Reach.returns ?_
        refine reach_bind (reach_uniform (u := (c - 1) / (app.number - 1 / 2)) (x := (c - 1 : ℤ) / (app.number : ℚ)) ?_ ?_ ?_)
          (reach_pure' ?_)
        · exact div_nonneg (by linarith) hpos.le
        · rw [div_le_one hpos]; linarith
        · simp only [switchOnParameters]
          push_cast
          have hn0 : (app.number : ℚ) ≠ 0 := by linarith
          rw [sub_zero, zero_add, div_mul_div_comm, mul_comm ((app.number : ℚ) - 1 / 2), mul_div_mul_right _ _ hpos.ne']
        · rw [onNumber_eq (k := c - 1) hn (by omega) (by omega) le_rfl]
          · ring
          · push_cast
            exact div_lt_div_of_pos_right (by linarith) (by linarith)
      · rw [if_pos ⟨rfl, hf⟩]
        refine Reach.returns ?_
        refine reach_bind (reach_gauss (z := (c - app.number / 2) / (app.number / 4)) (x := (c : ℚ)) ?_) (reach_pure' ?_)
        · simp only [switchOnParameters]
          field_simp
          ring
        · rw [Int.ceil_intCast]; omega
    · rw [if_neg hf] at h
      unfold calcCoincidentSwitchOn
      rw [if_neg (fun h => hf h.2), if_neg (fun h => hf h.2), h]
      exact (reach_pure _).returns

/-- **C17.** The distribution: in the peak, the normal deviate `z` gives `⌈number/2 + z*number/4⌉` kept in `1..number`; outside, the
uniform deviate `u` gives `⌊u*(number - 1/2)⌋ + 1`. -/
theorem C17_distribution (app : Appliance) (hn : 1 ≤ app.number) (hf : app.fixed = "no") (rng : Rng) :
    calcCoincidentSwitchOn app true rng =
      .ok (min app.number (max 1 ⌈(app.number : ℚ) / 2 + (rng 0).z * app.number / 4⌉), fun k => rng (k + 1)) ∧
    calcCoincidentSwitchOn app false rng = .ok (⌊(rng 0).u * ((app.number : ℚ) - 1 / 2)⌋ + 1, fun k => rng (k + 1)) := by
  have hnq : (1 : ℚ) ≤ app.number := by exact_mod_cast hn
  have h0 := (rng 0).u_nonneg
  have h1 := (rng 0).u_le_one
  constructor
  · unfold calcCoincidentSwitchOn
    rw [if_pos ⟨rfl, hf⟩]
    refine bind_ok (a := (app.number : ℚ) / 2 + (rng 0).z * app.number / 4) (r' := fun k => rng (k + 1)) ?_
    unfold gauss
    refine (bind_ok (m := nextDraw) rfl).trans ?_
    simp only [switchOnParameters]
    refine congrArg Except.ok (Prod.ext ?_ rfl)
    simp only
    ring
  · unfold calcCoincidentSwitchOn
    rw [if_neg (by simp), if_pos ⟨rfl, hf⟩, if_neg (by omega)]
    refine (bind_ok (a := (rng 0).u * (app.number - 1 / 2) / app.number) (r' := fun k => rng (k + 1)) ?_).trans ?_
    · unfold uniform
      refine (bind_ok (m := nextDraw) rfl).trans ?_
      simp only [switchOnParameters]
      refine congrArg Except.ok (Prod.ext ?_ rfl)
      simp only
      ring
    · refine congrArg Except.ok (Prod.ext ?_ rfl)
      have hu : 0 ≤ (rng 0).u * (app.number - 1 / 2) := mul_nonneg h0 (by linarith)
      have hu' : (rng 0).u * (app.number - 1 / 2) ≤ app.number - 1 / 2 := by nlinarith
      have hfl := Int.floor_le ((rng 0).u * ((app.number : ℚ) - 1 / 2))
      have hfl' := Int.lt_floor_add_one ((rng 0).u * ((app.number : ℚ) - 1 / 2))
      exact onNumber_eq hn (Int.floor_nonneg.2 hu) (by rw [Int.floor_lt]; linarith)
        (div_le_div_of_nonneg_right hfl (by linarith)) (div_lt_div_of_pos_right hfl' (by linarith))

/-- **C17, which rule applies to an event.** An event on the minutes `i0..i1` counts as in the peak exactly when it has a minute in common with
`q0..q1`, the range from the first to the last minute of the peak time range: then the normal deviate decides how many appliances are on
together, otherwise the uniform deviate; a fixed appliance ignores both. -/
theorem C17_event_number (app : Appliance) (hn : 1 ≤ app.number) {peak indexes : List ℤ} {power : ℚ} {i0 i1 q0 q1 : ℤ}
    (h0 : indexes.head? = some i0) (h1 : indexes.getLast? = some i1) (hi : i0 ≤ i1) (hq0 : peak.head? = some q0) (hq1 : peak.getLast? = some q1)
    (hq : q0 ≤ q1) {rng rng' : Rng} {app' : Appliance} {c : ℤ} (h : bookEvent app peak power indexes rng = .ok ((app', c), rng')) :
    (app.fixed ≠ "no" → c = app.number) ∧
    (app.fixed = "no" → (∃ m, i0 ≤ m ∧ m ≤ i1 ∧ q0 ≤ m ∧ m ≤ q1) →
      c = min app.number (max 1 ⌈(app.number : ℚ) / 2 + (rng 0).z * app.number / 4⌉)) ∧
    (app.fixed = "no" → (¬ ∃ m, i0 ≤ m ∧ m ≤ i1 ∧ q0 ≤ m ∧ m ≤ q1) → c = ⌊(rng 0).u * ((app.number : ℚ) - 1 / 2)⌋ + 1) := by
  classical
  unfold bookEvent at h
  simp only [h0, h1, hq0, hq1] at h
  have hw : withinPeakTimeWindow i0 i1 q0 q1 = decide (∃ m, i0 ≤ m ∧ m ≤ i1 ∧ q0 ≤ m ∧ m ≤ q1) := by
    rw [Bool.eq_iff_iff, decide_eq_true_eq]
    unfold withinPeakTimeWindow
    simp only
    constructor
    · intro hh
      refine ⟨max i0 q0, ?_⟩
      split_ifs at hh with g1 g2 g3 <;> simp at hh <;> omega
    · rintro ⟨m, hm⟩
      rw [if_neg (by omega), if_neg (by omega)]
  rw [hw] at h
  cases hc : calcCoincidentSwitchOn app (decide (∃ m, i0 ≤ m ∧ m ≤ i1 ∧ q0 ≤ m ∧ m ≤ q1)) rng with
  | error e => rw [bind_error hc] at h; cases h
  | ok x =>
    obtain ⟨c', r⟩ := x
    rw [bind_ok hc] at h
    have hcc : c = c' := by
      cases hu : updateDailyUse app c' power indexes r with
      | error e => rw [bind_error hu] at h; cases h
      | ok y => rw [bind_ok hu] at h; cases h; rfl
    subst hcc
    refine ⟨fun hf => ?_, fun hf hm => ?_, fun hf hm => ?_⟩
    · unfold calcCoincidentSwitchOn at hc
      rw [if_neg (fun h => hf h.2), if_neg (fun h => hf h.2)] at hc
      cases hc; rfl
    · rw [decide_eq_true hm, (C17_distribution app hn hf rng).1] at hc
      cases hc; rfl
    · rw [decide_eq_false hm, (C17_distribution app hn hf rng).2] at hc
      cases hc; rfl

/-- A case: three appliances, an event from 19:00 to 19:30 and a peak from 19:20 to 20:20. -/
example : ([1140, 1170] : List ℤ).head? = some 1140 ∧ ∃ m : ℤ, 1140 ≤ m ∧ m ≤ 1170 ∧ 1160 ≤ m ∧ m ≤ 1220 := ⟨rfl, 1165, by omega⟩

/-- A case for C17: three lamps, two of them on outside the peak. -/
example : Returns (calcCoincidentSwitchOn ({ number := 3 } : Appliance) false) 2 :=
  (C17_coincidence _ _ (by decide) _).1.2 (by decide)

end Ramp
