import Verif.Lemmas.Spots

/-! # `rand_switch_on_window`: every outcome, and every outcome that is possible -/

set_option autoImplicit false

namespace Ramp

theorem selectDutyCycle_some {app : Appliance} {lo hi i : ℤ} {c : List ℚ} (h : selectDutyCycle app lo hi = some (i, c)) :
    c = dutyCycleOf app i ∧ (i = 1 ∨ i = 2 ∨ i = 3) := by
  unfold selectDutyCycle at h
  split_ifs at h <;> simp at h <;> obtain ⟨rfl, rfl⟩ := h <;> simp [dutyCycleOf]

/-- The event `ev` returned together with the appliance `app'` is one that the configuration allows: the drawn run of
minutes is contiguous, lies in one free range, and its length is between `func_cycle` and `rand_time`; with duty cycles the
cycle is the selected one and a single-shot event is cut to the length of its cycle. -/
def EventOK (app app' : Appliance) (randTime : ℤ) (ev : SwitchOn) : Prop :=
  ∃ s ∈ app.freeSpots, ∃ a d : ℤ, ev.drawn = arange a (a + d) ∧ s.start ≤ a ∧ a + d ≤ s.stop ∧
    app.funcCycle ≤ d ∧ d ≤ randTime ∧
    ((app.fixedCycle ≤ 0 ∧ app' = app ∧ ev.indexes = ev.drawn) ∨
     (0 < app.fixedCycle ∧ ∃ i, selectDutyCycle app a (a + d - 1) = some (i, dutyCycleOf app i) ∧
        app' = { app with currentDutyCycleId := i } ∧
        ev.indexes = arange a (a + if app.continuousDutyCycle = 0 then min d (dutyCycleOf app i).length else d)))

theorem find?_exists {α : Type} {p : α → Bool} {l : List α} {x : α} (hx : x ∈ l) (hp : p x = true) :
    ∃ y, l.find? p = some y ∧ y ∈ l ∧ p y = true := by
  cases h : l.find? p with
  | none => rw [List.find?_eq_none] at h; exact absurd hp (h x hx)
  | some y => exact ⟨y, rfl, List.mem_of_find?_eq_some h, List.find?_some h⟩

/-- Body of `rand_switch_on_window` after the start minute and its range are known. -/
def afterStart (depth : ℕ) (app : Appliance) (randTime : ℤ) (switchOn : ℤ) (spot : Spot) :
    Sim (Appliance × Option SwitchOn) := do
  let largestDuration := min randTime (spot.stop - switchOn)
  let indexes ← drawIndexes app.funcCycle largestDuration switchOn
  if app.fixedCycle > 0 then
    match indexes.head?, indexes.getLast? with
    | some lo, some hi =>
      match selectDutyCycle app lo hi with
      | some (i, cycle) =>
        let app := { app with currentDutyCycleId := i }
        if indexes.length > cycle.length ∧ app.continuousDutyCycle = 0 then
          pure (app, some ⟨indexes, indexes.take cycle.length⟩)
        else pure (app, some ⟨indexes, indexes⟩)
      | none => randSwitchOnWindow depth app randTime
    | _, _ => raise .indexError
  else pure (app, some ⟨indexes, indexes⟩)

theorem randSwitchOnWindow_succ (depth : ℕ) (app : Appliance) (randTime : ℤ) :
    randSwitchOnWindow (depth + 1) app randTime =
      (if ((switchOnChoices app.freeSpots app.funcCycle).length : ℤ) > 0 then do
        let k ← randint 0 (((switchOnChoices app.freeSpots app.funcCycle).length : ℤ) - 1)
        match (switchOnChoices app.freeSpots app.funcCycle)[k.toNat]? with
        | none => raise .indexError
        | some switchOn =>
          match app.freeSpots.find? (fun fs => fs.start ≤ switchOn && switchOn ≤ fs.stop - app.funcCycle) with
          | none => raise .typeError
          | some spot => afterStart depth app randTime switchOn spot
      else pure (app, none)) := by
  rw [randSwitchOnWindow]
  rfl

/-- The part of `afterStart` that draws the duration. -/
theorem sat_duration {fc L a : ℤ} (h1 : 1 ≤ fc) (hL : fc ≤ L) :
    Sat (drawIndexes fc L a)
      (fun l => ∃ d, l = arange a (a + d) ∧ fc ≤ d ∧ d ≤ L) (fun _ => False) := by
  unfold drawIndexes
  refine sat_ite (fun h => ?_) (fun h => ?_)
  · refine sat_bind (sat_uniform fun u h0 h1' => sat_pure ⟨_, rfl, ?_, ?_⟩)
    · apply le_pyInt
      have : (fc : ℚ) ≤ L := by exact_mod_cast hL
      nlinarith
    · apply pyInt_le
      have : (fc : ℚ) ≤ L := by exact_mod_cast hL
      nlinarith
  · refine sat_ite (fun h' => sat_pure ⟨L, rfl, by omega, le_rfl⟩) (fun h' => ?_)
    omega

theorem reach_duration {fc L a d : ℤ} (h1 : 1 ≤ fc) (hd : fc ≤ d) (hL : d ≤ L) :
    Reach (drawIndexes fc L a) (arange a (a + d)) := by
  unfold drawIndexes
  split_ifs with h h'
  · refine reach_bind (reach_uniform_of_mem (x := (d : ℚ)) (by exact_mod_cast hd) (by exact_mod_cast hL))
      (reach_pure' ?_)
    rw [pyInt_intCast]
  · refine reach_pure' ?_
    have : d = L := by omega
    rw [this]
  · omega

/-- The configuration allows an event that overlaps no duty cycle window. -/
def Unmatched (app : Appliance) (randTime : ℤ) : Prop :=
  0 < app.fixedCycle ∧ ∃ s ∈ app.freeSpots, ∃ a d : ℤ, s.start ≤ a ∧ a + d ≤ s.stop ∧
    app.funcCycle ≤ d ∧ d ≤ randTime ∧ selectDutyCycle app a (a + d - 1) = none

theorem sat_randSwitchOnWindow (depth : ℕ) (app : Appliance) (randTime : ℤ) (h1 : 1 ≤ app.funcCycle)
    (hrt : app.funcCycle ≤ randTime) :
    Sat (randSwitchOnWindow depth app randTime)
      (fun r => (r.2 = none ∧ r.1 = app ∧ ∀ s ∈ app.freeSpots, s.stop - s.start < app.funcCycle) ∨
        ∃ ev, r.2 = some ev ∧ EventOK app r.1 randTime ev)
      (fun e => e = .recursionError ∧ (depth = 0 ∨ Unmatched app randTime)) := by
  induction depth with
  | zero => exact sat_raise ⟨rfl, .inl rfl⟩
  | succ depth ih =>
    rw [randSwitchOnWindow_succ]
    refine sat_ite (fun hn => ?_) (fun hn => ?_)
    · refine sat_bind (sat_randint (fun k hk0 hk1 => ?_) (fun h => by omega))
      have hk : k.toNat < (switchOnChoices app.freeSpots app.funcCycle).length := by omega
      rw [List.getElem?_eq_getElem hk]
      simp only
      have hmem := List.getElem_mem hk
      generalize (switchOnChoices app.freeSpots app.funcCycle)[k.toNat] = m at hmem
      obtain ⟨s0, hs0, hs1, hs2, hs3⟩ := mem_switchOnChoices.1 hmem
      obtain ⟨s, hf, hs, hp⟩ := find?_exists
        (p := fun fs : Spot => decide (fs.start ≤ m) && decide (m ≤ fs.stop - app.funcCycle)) hs0
        (by simp; omega)
      rw [hf]
      simp only [Bool.and_eq_true, decide_eq_true_eq] at hp
      simp only
      unfold afterStart
      have hdur := sat_duration (fc := app.funcCycle) (L := min randTime (s.stop - m)) (a := m) h1 (by omega)
      refine sat_bind' (hdur.mono (fun _ h => h) (fun _ h => h.elim)) ?_
      rintro _ ⟨d, rfl, hd1, hd2⟩
      refine sat_ite (fun hfc => ?_) (fun hfc => ?_)
      · rw [head?_arange (by omega), getLast?_arange (by omega)]
        simp only
        have hhi : m + d - 1 = m + d - 1 := rfl
        cases hsel : selectDutyCycle app m (m + d - 1) with
        | none =>
          simp only
          refine ih.mono (fun _ h => h) (fun e he => ⟨he.1, .inr ⟨hfc, s, hs, m, d, hp.1, by omega, hd1, by omega, hsel⟩⟩)
        | some ic =>
          obtain ⟨i, c⟩ := ic
          obtain ⟨rfl, _⟩ := selectDutyCycle_some hsel
          simp only
          refine sat_ite (fun hc => ?_) (fun hc => ?_)
          · refine sat_pure (.inr ⟨_, rfl, s, hs, m, d, rfl, hp.1, by omega, hd1, by omega, .inr ⟨hfc, i, hsel, rfl, ?_⟩⟩)
            simp only [length_arange] at hc ⊢
            rw [if_pos hc.2, take_arange _ _ _ (by omega)]
            congr 2; omega
          · refine sat_pure (.inr ⟨_, rfl, s, hs, m, d, rfl, hp.1, by omega, hd1, by omega, .inr ⟨hfc, i, hsel, rfl, ?_⟩⟩)
            simp only [length_arange] at hc ⊢
            split_ifs with h0
            · have : ¬ ((m + d - m).toNat > (dutyCycleOf app i).length) := fun h => hc ⟨h, h0⟩
              congr 2; omega
            · rfl
      · exact sat_pure (.inr ⟨_, rfl, s, hs, m, d, rfl, hp.1, by omega, hd1, by omega, .inl ⟨by omega, rfl, rfl⟩⟩)
    · exact sat_pure (.inl ⟨rfl, rfl, switchOnChoices_eq_nil.1 (by omega)⟩)

/-- With separated free ranges, an event that overlaps no duty cycle window can be drawn again and again until the
recursion limit is reached. -/
theorem reachErr_randSwitchOnWindow (depth : ℕ) (app : Appliance) (randTime : ℤ)
    (h1 : 1 ≤ app.funcCycle) (hsp : SpotsApart app.freeSpots) (h : Unmatched app randTime) :
    ReachErr (randSwitchOnWindow depth app randTime) .recursionError := by
  obtain ⟨hfc, s, hs, a, d, ha, had, hd1, hd2, hsel⟩ := h
  have hmem : a ∈ switchOnChoices app.freeSpots app.funcCycle :=
    mem_switchOnChoices.2 ⟨s, hs, ha, by omega, by omega⟩
  obtain ⟨k, hk, hka⟩ := List.mem_iff_getElem.1 hmem
  obtain ⟨s', hf, hs', hp⟩ := find?_exists
    (p := fun fs : Spot => decide (fs.start ≤ a) && decide (a ≤ fs.stop - app.funcCycle)) hs (by simp; omega)
  have hss : s' = s := by
    simp only [Bool.and_eq_true, decide_eq_true_eq] at hp
    by_contra hne
    have := hsp.2
    obtain ⟨l1, l2, hl⟩ := List.append_of_mem hs
    rw [hl] at this hs'
    rw [List.pairwise_append] at this
    rcases List.mem_append.1 hs' with hm | hm
    · have := this.2.2 s' hm s (by simp)
      unfold Apart at this; simp at this; omega
    · rcases List.mem_cons.1 hm with rfl | hm
      · exact hne rfl
      · have := (List.pairwise_cons.1 this.2.1).1 s' hm
        unfold Apart at this; simp at this; omega
  subst hss
  induction depth with
  | zero => exact reachErr_raise _
  | succ depth ih =>
    rw [randSwitchOnWindow_succ, if_pos (by omega)]
    refine reachErr_bind (reach_randint (k := (k : ℤ)) (by omega) (by omega)) ?_
    rw [Int.toNat_natCast, List.getElem?_eq_getElem hk, hka]
    simp only
    rw [hf]
    simp only
    unfold afterStart
    refine reachErr_bind (reach_duration (d := d) h1 hd1 (by omega)) ?_
    rw [if_pos hfc, head?_arange (by omega), getLast?_arange (by omega)]
    simp only [hsel]
    exact ih

/-- With separated free ranges every event allowed by the configuration can actually be drawn. -/
theorem reach_randSwitchOnWindow (depth : ℕ) (app app' : Appliance) (randTime : ℤ) (ev : SwitchOn)
    (h1 : 1 ≤ app.funcCycle) (hsp : SpotsApart app.freeSpots) (h : EventOK app app' randTime ev) :
    Reach (randSwitchOnWindow (depth + 1) app randTime) (app', some ev) := by
  obtain ⟨s, hs, a, d, hdr, ha, had, hd1, hd2, hcase⟩ := h
  have hmem : a ∈ switchOnChoices app.freeSpots app.funcCycle :=
    mem_switchOnChoices.2 ⟨s, hs, ha, by omega, by omega⟩
  obtain ⟨k, hk, hka⟩ := List.mem_iff_getElem.1 hmem
  rw [randSwitchOnWindow_succ, if_pos (by omega)]
  refine reach_bind (reach_randint (k := (k : ℤ)) (by omega) (by omega)) ?_
  rw [Int.toNat_natCast, List.getElem?_eq_getElem hk, hka]
  simp only
  obtain ⟨s', hf, hs', hp⟩ := find?_exists
    (p := fun fs : Spot => decide (fs.start ≤ a) && decide (a ≤ fs.stop - app.funcCycle)) hs (by simp; omega)
  rw [hf]
  simp only [Bool.and_eq_true, decide_eq_true_eq] at hp
  have hss : s' = s := by
    by_contra hne
    have := hsp.2
    obtain ⟨l1, l2, hl⟩ := List.append_of_mem hs
    rw [hl] at this hs'
    rw [List.pairwise_append] at this
    rcases List.mem_append.1 hs' with hm | hm
    · have := this.2.2 s' hm s (by simp)
      unfold Apart at this; simp at this; omega
    · rcases List.mem_cons.1 hm with rfl | hm
      · exact hne rfl
      · have := (List.pairwise_cons.1 this.2.1).1 s' hm
        unfold Apart at this; simp at this; omega
  subst hss
  simp only
  unfold afterStart
  refine reach_bind (reach_duration (d := d) h1 hd1 (by omega)) ?_
  obtain ⟨drawn, indexes⟩ := ev
  simp only at hdr hcase
  rcases hcase with ⟨hfc, rfl, hi⟩ | ⟨hfc, i, hsel, rfl, hi⟩
  · rw [if_neg (by omega)]
    rw [hi, hdr]; exact reach_pure _
  · rw [if_pos hfc, head?_arange (by omega), getLast?_arange (by omega)]
    simp only [hsel]
    split_ifs with hc
    · refine reach_pure' ?_
      simp only [length_arange] at hc
      rw [hi, hdr, if_pos hc.2, take_arange _ _ _ (by omega)]
      have : min d ((dutyCycleOf app i).length : ℤ) = (dutyCycleOf app i).length := by omega
      rw [this]
    · refine reach_pure' ?_
      simp only [length_arange] at hc
      rw [hi, hdr]
      split_ifs with h0
      · have : ¬ ((a + d - a).toNat > (dutyCycleOf app i).length) := fun h => hc ⟨h, h0⟩
        have : min d ((dutyCycleOf app i).length : ℤ) = d := by omega
        rw [this]
      · rfl

end Ramp
