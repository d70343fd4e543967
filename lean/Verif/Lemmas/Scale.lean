import Verif.Lemmas.Relate

/-! # Runs of an appliance and of the same appliance with other powers, with the same random numbers -/

set_option autoImplicit false

namespace Ramp

/-- The appliance with all its powers multiplied by `c`: the power of every day and the powers of the duty cycles. -/
def withPowers (c : ℚ) (a : Appliance) : Appliance :=
  { a with power := a.power.map (c * ·), p11 := c * a.p11, p12 := c * a.p12, p21 := c * a.p21, p22 := c * a.p22, p31 := c * a.p31, p32 := c * a.p32 }

/-- Every value is multiplied by `c`, except that the values 0 and 0.001, which stand for no load, may stay as they are. -/
def Multiplied (c : ℚ) (p p' : Profile) : Prop := ∀ i, p' i = c * p i ∨ (p' i = p i ∧ (p i = 0 ∨ p i = 1 / 1000))

/-- In the middle of two runs. -/
def ScaledRun (c : ℚ) (a b : Appliance) : Prop :=
  ∃ d c1 c2 c3 j, b = { withPowers c a with dailyUse := d, randomCycle1 := c1, randomCycle2 := c2, randomCycle3 := c3, currentDutyCycleId := j } ∧
    Multiplied c a.dailyUse d ∧
    (0 < a.fixedCycle → c1 = a.randomCycle1.map (c * ·) ∧ c2 = a.randomCycle2.map (c * ·) ∧ c3 = a.randomCycle3.map (c * ·))

theorem select_scaled {c : ℚ} {a b : Appliance} (h : ScaledRun c a b) (hf : 0 < a.fixedCycle) (lo hi : ℤ) :
    selectDutyCycle b lo hi = (selectDutyCycle a lo hi).map fun p => (p.1, p.2.map (c * ·)) := by
  obtain ⟨d, c1, c2, c3, j, rfl, _, hc⟩ := h
  obtain ⟨rfl, rfl, rfl⟩ := hc hf
  unfold selectDutyCycle withPowers
  simp only
  split_ifs <;> rfl

theorem rel_scaled_switchOn (c : ℚ) (depth : ℕ) (rt : ℤ) : ∀ {a b : Appliance}, ScaledRun c a b →
    Rel (randSwitchOnWindow depth a rt) (randSwitchOnWindow depth b rt)
      (fun p q => p.2 = q.2 ∧ ScaledRun c p.1 q.1 ∧ (0 < p.1.fixedCycle → p.2 ≠ none → q.1.currentDutyCycleId = p.1.currentDutyCycleId)) := by
  induction depth with
  | zero => intro a b _; exact rel_raise
  | succ depth ih =>
    intro a b h
    have hsel := select_scaled h
    obtain ⟨d, c1, c2, c3, i, rfl, hd, hc⟩ := h
    have hrun : ScaledRun c a { withPowers c a with dailyUse := d, randomCycle1 := c1, randomCycle2 := c2, randomCycle3 := c3, currentDutyCycleId := i } :=
      ⟨d, c1, c2, c3, i, rfl, hd, hc⟩
    have e1 : (withPowers c a).freeSpots = a.freeSpots := rfl
    have e2 : (withPowers c a).funcCycle = a.funcCycle := rfl
    have e3 : (withPowers c a).fixedCycle = a.fixedCycle := rfl
    have e4 : (withPowers c a).continuousDutyCycle = a.continuousDutyCycle := rfl
    unfold randSwitchOnWindow
    simp only [e1, e2, e3, e4]
    refine rel_ite (fun _ => ?_) (fun _ => rel_pure ⟨rfl, hrun, fun _ h => absurd rfl h⟩)
    refine rel_bind_same fun k => ?_
    cases (switchOnChoices a.freeSpots a.funcCycle)[k.toNat]? with
    | none => exact rel_raise
    | some s =>
      simp only
      cases (a.freeSpots.find? (fun fs => fs.start ≤ s && s ≤ fs.stop - a.funcCycle)) with
      | none => exact rel_raise
      | some spot =>
        simp only
        refine rel_bind_same fun idx => ?_
        refine rel_ite (fun hf => ?_) (fun hf => rel_pure ⟨rfl, hrun, fun h => absurd h hf⟩)
        cases idx.head? with
        | none => exact rel_raise
        | some lo =>
          cases idx.getLast? with
          | none => exact rel_raise
          | some hi =>
            simp only
            have hs := hsel hf lo hi
            simp only [e1, e2, e3, e4] at hs
            rw [hs]
            cases selectDutyCycle a lo hi with
            | none =>
              simp only [Option.map_none]
              exact ih hrun
            | some p =>
              obtain ⟨j, cyc⟩ := p
              simp only [Option.map_some, List.length_map]
              have hnext : ScaledRun c { a with currentDutyCycleId := j } { { withPowers c a with dailyUse := d, randomCycle1 := c1, randomCycle2 := c2, randomCycle3 := c3, currentDutyCycleId := i } with currentDutyCycleId := j } :=
                ⟨d, c1, c2, c3, j, rfl, hd, hc⟩
              exact rel_ite (fun _ => rel_pure ⟨rfl, hnext, fun _ _ => rfl⟩) (fun _ => rel_pure ⟨rfl, hnext, fun _ _ => rfl⟩)

theorem npPutFrom_scaled {c : ℚ} {v : List ℚ} (hv : v ≠ []) : ∀ (l : List ℤ) (k : ℕ) {p p' : Profile}, Multiplied c p p' →
    (∃ e, npPutFrom v k l p = .error e ∧ npPutFrom (v.map (c * ·)) k l p' = .error e) ∨
    ∃ q q', npPutFrom v k l p = .ok q ∧ npPutFrom (v.map (c * ·)) k l p' = .ok q' ∧ Multiplied c q q'
  | [], k, p, p', h => .inr ⟨p, p', rfl, rfl, h⟩
  | i :: l, k, p, p', h => by
    unfold npPutFrom
    cases wrapIdx i with
    | none => exact .inl ⟨_, rfl, rfl⟩
    | some j =>
      simp only
      refine npPutFrom_scaled hv l (k + 1) ?_
      intro m
      simp only
      by_cases hm : m = j
      · left
        rw [if_pos hm, if_pos hm]
        have hpos : 0 < v.length := List.length_pos_of_ne_nil hv
        have hlt := Nat.mod_lt k hpos
        simp only [List.getD_eq_getElem?_getD, List.length_map, List.getElem?_map, List.getElem?_eq_getElem hlt, Option.map_some, Option.getD_some]
      · rw [if_neg hm, if_neg hm]
        exact h m

theorem rel_npPut {c : ℚ} {v : List ℚ} {l : List ℤ} {p p' : Profile} (h : Multiplied c p p') :
    Rel (liftE (npPut p l v)) (liftE (npPut p' l (v.map (c * ·)))) (Multiplied c) := by
  unfold npPut
  rw [List.length_map]
  by_cases hv : v.length = 0
  · rw [if_pos hv, if_pos hv]
    exact fun r => .inr ⟨p, p', r, rfl, rfl, h⟩
  · rw [if_neg hv, if_neg hv]
    rcases npPutFrom_scaled (c := c) (v := v) (fun h => hv (by rw [h]; rfl)) l 0 h with ⟨e, e1, e2⟩ | ⟨q, q', e1, e2, h'⟩
    · intro r
      left
      refine ⟨e, ?_, ?_⟩
      · unfold liftE; rw [e1]
      · unfold liftE; rw [e2]
    · intro r
      right
      refine ⟨q, q', r, ?_, ?_, h'⟩
      · unfold liftE; rw [e1]
      · unfold liftE; rw [e2]

theorem rel_variation (v c x y : ℚ) (h : y = c * x) : Rel (randomVariation v x) (randomVariation v y) (fun a b => b = c * a) := by
  unfold randomVariation
  exact rel_bind_same fun u => rel_pure (by rw [h]; ring)

theorem rel_scaled_put {c : ℚ} {a b : Appliance} (h : ScaledRun c a b) (hi : 0 < a.fixedCycle → b.currentDutyCycleId = a.currentDutyCycleId) (n : ℤ) (p : ℚ)
    (l : List ℤ) : Rel (putEvent a n p l) (putEvent b n (c * p) l) (fun x y => ScaledRun c x y ∧ x.freeSpots = a.freeSpots ∧
      x.currentDutyCycleId = a.currentDutyCycleId ∧ x.fixedCycle = a.fixedCycle ∧ y.currentDutyCycleId = b.currentDutyCycleId) := by
  obtain ⟨d, c1, c2, c3, j, rfl, hd, hc⟩ := h
  have e3 : (withPowers c a).fixedCycle = a.fixedCycle := rfl
  have e4 : (withPowers c a).thermalPVar = a.thermalPVar := rfl
  unfold putEvent
  simp only [e3, e4]
  refine rel_ite (fun hf => ?_) (fun hf => ?_)
  · have hij : j = a.currentDutyCycleId := hi hf
    subst hij
    obtain ⟨rfl, rfl, rfl⟩ := hc hf
    have hmap : ∀ w : List ℚ, (w.map (c * ·)).map (· * (n : ℚ)) = (w.map (· * (n : ℚ))).map (c * ·) := by
      intro w
      rw [List.map_map, List.map_map]
      refine List.map_congr_left fun x _ => ?_
      simp only [Function.comp_apply]
      ring
    rw [hmap, hmap, hmap]
    refine rel_ite (fun _ => ?_) (fun _ => rel_ite (fun _ => ?_) (fun _ => rel_ite (fun _ => ?_) (fun _ => rel_pure ⟨⟨_, _, _, _, _, rfl, hd, hc⟩, rfl, rfl, rfl, rfl⟩)))
    all_goals exact rel_bind (rel_npPut hd) fun x y hxy => rel_pure ⟨⟨y, _, _, _, _, rfl, hxy, fun _ => ⟨rfl, rfl, rfl⟩⟩, rfl, rfl, rfl, rfl⟩
  · refine rel_bind (rel_variation a.thermalPVar c (n * p) (n * (c * p)) (by ring)) fun x y hxy => ?_
    subst hxy
    exact rel_bind (rel_npPut (v := [x]) hd) fun q q' hq => rel_pure ⟨⟨q', _, _, _, _, rfl, hq, fun h => absurd h hf⟩, rfl, rfl, rfl, rfl⟩

theorem rel_scaled_update {c : ℚ} {a b : Appliance} (h : ScaledRun c a b) (hi : 0 < a.fixedCycle → b.currentDutyCycleId = a.currentDutyCycleId) (n : ℤ) (p : ℚ)
    (l : List ℤ) : Rel (updateDailyUse a n p l) (updateDailyUse b n (c * p) l) (fun x y => ScaledRun c x y ∧
      x.currentDutyCycleId = a.currentDutyCycleId ∧ x.fixedCycle = a.fixedCycle ∧ y.currentDutyCycleId = b.currentDutyCycleId) := by
  unfold updateDailyUse
  refine rel_bind (rel_scaled_put h hi n p l) ?_
  rintro x y ⟨⟨d, c1, c2, c3, j, rfl, hd, hc⟩, _, h2, h3, h4⟩
  have e1 : (withPowers c x).freeSpots = x.freeSpots := rfl
  simp only [e1]
  exact rel_bind_same fun s => rel_pure ⟨⟨d, c1, c2, c3, j, rfl, hd, hc⟩, h2, h3, h4⟩

theorem rel_scaled_book {c : ℚ} {a b : Appliance} (h : ScaledRun c a b) (hi : 0 < a.fixedCycle → b.currentDutyCycleId = a.currentDutyCycleId) (peak : List ℤ) (p : ℚ)
    (l : List ℤ) : Rel (bookEvent a peak p l) (bookEvent b peak (c * p) l) (fun x y => x.2 = y.2 ∧ ScaledRun c x.1 y.1 ∧
      x.1.currentDutyCycleId = a.currentDutyCycleId ∧ x.1.fixedCycle = a.fixedCycle ∧ y.1.currentDutyCycleId = b.currentDutyCycleId) := by
  unfold bookEvent
  cases l.head? with
  | none => exact rel_raise
  | some i0 =>
    cases l.getLast? with
    | none => exact rel_raise
    | some i1 =>
      cases peak.head? with
      | none => exact rel_raise
      | some q0 =>
        cases peak.getLast? with
        | none => exact rel_raise
        | some q1 =>
          simp only
          have hc : calcCoincidentSwitchOn b = calcCoincidentSwitchOn a := by
            obtain ⟨d, c1, c2, c3, i, rfl, _⟩ := h; rfl
          rw [hc]
          refine rel_bind_same fun n => ?_
          refine rel_bind (rel_scaled_update h hi n p l) ?_
          intro x y hxy
          exact rel_pure ⟨rfl, hxy⟩

/-- The bookings of two runs: the same but for the number of the duty cycle of an appliance that has none. -/
def SameBookings (fixed : Bool) (l l' : List Booking) : Prop :=
  List.Forall₂ (fun b b' => b'.drawn = b.drawn ∧ b'.indexes = b.indexes ∧ b'.coincidence = b.coincidence ∧ (fixed = true → b'.cycleId = b.cycleId)) l l'

theorem sat_fixed_switchOn (depth : ℕ) (rt : ℤ) : ∀ (a : Appliance), Sat (randSwitchOnWindow depth a rt) (fun p => p.1.fixedCycle = a.fixedCycle) (fun _ => True) := by
  induction depth with
  | zero => intro a; exact sat_raise trivial
  | succ depth ih =>
    intro a
    unfold randSwitchOnWindow
    simp only
    refine sat_ite (fun _ => sat_bind' sat_true fun k _ => ?_) (fun _ => sat_pure rfl)
    cases (switchOnChoices a.freeSpots a.funcCycle)[k.toNat]? with
    | none => exact sat_raise trivial
    | some s =>
      simp only
      cases (a.freeSpots.find? (fun fs => fs.start ≤ s && s ≤ fs.stop - a.funcCycle)) with
      | none => exact sat_raise trivial
      | some spot =>
        simp only
        refine sat_bind' sat_true fun idx _ => sat_ite (fun _ => ?_) (fun _ => sat_pure rfl)
        cases idx.head? with
        | none => exact sat_raise trivial
        | some lo =>
          cases idx.getLast? with
          | none => exact sat_raise trivial
          | some hi =>
            simp only
            cases selectDutyCycle a lo hi with
            | none => exact ih a
            | some p => exact sat_ite (fun _ => sat_pure rfl) (fun _ => sat_pure rfl)

theorem rel_scaled_loop (c : ℚ) (depth : ℕ) (peak : List ℤ) (power : ℚ) (rt : ℤ) : ∀ (fuel : ℕ) {a b : Appliance} (tot : ℤ)
    (l l' : List Booking), ScaledRun c a b → SameBookings (decide (0 < a.fixedCycle)) l l' →
    Rel (switchOnLoop depth peak power rt fuel a tot l) (switchOnLoop depth peak (c * power) rt fuel b tot l')
      (fun x y => ScaledRun c x.1 y.1 ∧ SameBookings (decide (0 < a.fixedCycle)) x.2 y.2)
  | 0, a, b, tot, l, l', _, _ => rel_raise
  | fuel + 1, a, b, tot, l, l', h, hl => by
    unfold switchOnLoop
    refine rel_ite (fun _ => ?_) (fun _ => rel_pure ⟨h, hl⟩)
    have hsw : Rel (randSwitchOnWindow depth a rt) (randSwitchOnWindow depth b rt) (fun p q => p.2 = q.2 ∧ ScaledRun c p.1 q.1 ∧
        (0 < p.1.fixedCycle → p.2 ≠ none → q.1.currentDutyCycleId = p.1.currentDutyCycleId) ∧ p.1.fixedCycle = a.fixedCycle) := by
      intro r
      rcases rel_scaled_switchOn c depth rt h r with he | ⟨x, y, r', h1, h2, h3, h4, h5⟩
      · exact .inl he
      · refine .inr ⟨x, y, r', h1, h2, h3, h4, h5, ?_⟩
        have := sat_fixed_switchOn depth rt a r
        rw [h1] at this
        exact this
    refine rel_bind hsw ?_
    rintro ⟨x, ev⟩ ⟨y, ev'⟩ ⟨he, hm, hf, hfx⟩
    simp only at he hm hf hfx
    subst he
    cases ev with
    | none => exact rel_pure ⟨hm, hl⟩
    | some ev =>
      obtain ⟨drawn, idx⟩ := ev
      have hb : 0 < x.fixedCycle → y.currentDutyCycleId = x.currentDutyCycleId := fun hx => hf hx (by simp)
      simp only
      refine rel_ite (fun _ => ?_) (fun _ => ?_)
      · refine rel_ite (fun _ => ?_) (fun _ => rel_pure ⟨hm, hl⟩)
        refine rel_bind (rel_scaled_book hm hb peak power _) ?_
        rintro ⟨x', n⟩ ⟨y', n'⟩ ⟨e, h2, h3, h4, h5⟩
        simp only at e h2 h3 h4 h5
        subst e
        refine rel_pure ⟨h2, .cons ⟨rfl, rfl, rfl, fun hd => ?_⟩ hl⟩
        simp only
        rw [h3, h5]
        exact hb (by rw [hfx]; simpa using hd)
      · refine rel_bind (rel_scaled_book hm hb peak power _) ?_
        rintro ⟨x', n⟩ ⟨y', n'⟩ ⟨e, h2, h3, h4, h5⟩
        simp only at e h2 h3 h4 h5
        subst e
        have hxa : x'.fixedCycle = a.fixedCycle := h4.trans hfx
        have := rel_scaled_loop c depth peak power rt fuel (tot + idx.length)
          (⟨drawn, idx, n, x'.currentDutyCycleId⟩ :: l) (⟨drawn, idx, n, y'.currentDutyCycleId⟩ :: l') h2 (by
            rw [hxa]
            refine .cons ⟨rfl, rfl, rfl, fun hd => ?_⟩ hl
            simp only
            rw [h3, h5]
            exact hb (by rw [hfx]; simpa using hd))
        rw [hxa] at this
        exact this

theorem rel_scaled_duty {c rc : ℚ} {t1 t2 : ℤ} {p1 p2 q1 q2 : ℚ} (h1 : q1 = c * p1) (h2 : q2 = c * p2) :
    Rel (dutyCycle rc t1 p1 t2 p2) (dutyCycle rc t1 q1 t2 q2) (fun x y => y = x.map (c * ·)) := by
  have hones : ∀ (n : ℤ) (p : ℚ), Rel (liftE (onesTimes n p)) (liftE (onesTimes n (c * p))) (fun x y => y = x.map (c * ·)) := by
    intro n p r
    unfold onesTimes liftE
    by_cases h : n < 0
    · rw [if_pos h, if_pos h]; exact .inl ⟨_, rfl, rfl⟩
    · rw [if_neg h, if_neg h]; exact .inr ⟨_, _, r, rfl, rfl, by simp⟩
  subst h1 h2
  unfold dutyCycle
  refine rel_bind_same fun d1 => rel_bind (hones _ _) fun x y hxy => rel_bind_same fun d2 => rel_bind (hones _ _) fun x' y' hxy' => rel_pure ?_
  rw [hxy, hxy', List.map_append]

theorem rel_scaled_choice {c rc : ℚ} {t1 t2 : ℤ} {p1 p2 q1 q2 : ℚ} (h1 : q1 = c * p1) (h2 : q2 = c * p2) :
    Rel (randomChoice rc t1 p1 t2 p2) (randomChoice rc t1 q1 t2 q2) (fun x y => y = x.map (c * ·)) := by
  unfold randomChoice
  refine rel_bind (rel_scaled_duty h1 h2) fun x y hxy => rel_bind (rel_scaled_duty h2 h1) fun x' y' hxy' => ?_
  subst hxy hxy'
  unfold choice2
  refine rel_bind_same fun d => rel_pure ?_
  split_ifs <;> rfl

theorem rel_scaled_assign {c : ℚ} {a b : Appliance} (d : Profile) (f : List Spot) (k1 k2 k3 : List ℚ) (i : ℤ) (hb : b = leftovers (withPowers c a) d f k1 k2 k3 i)
    (hd : b.dailyUse = a.dailyUse) (hm : Multiplied c a.dailyUse a.dailyUse) :
    Rel (assignRandomCycles a) (assignRandomCycles b) (fun x y => x.fixedCycle = a.fixedCycle ∧ ∀ s, ScaledRun c { x with freeSpots := s } { y with freeSpots := s }) := by
  have hdd : d = a.dailyUse := by rw [hb] at hd; exact hd
  subst hdd
  subst hb
  unfold leftovers withPowers assignRandomCycles
  simp only
  refine rel_ite (fun hf => ?_) (fun hf => rel_pure ⟨rfl, fun s => ⟨a.dailyUse, k1, k2, k3, i, rfl, hm, fun h => absurd h (by simp only; omega)⟩⟩)
  refine rel_bind (rel_variation _ c _ _ rfl) fun p11 q11 e11 => rel_bind (rel_variation _ c _ _ rfl) fun p12 q12 e12 => ?_
  refine rel_bind (rel_scaled_duty e11 e12) fun x1 y1 h1 => ?_
  subst h1
  refine rel_ite (fun _ => ?_) (fun _ => rel_pure ⟨rfl, fun s => ⟨a.dailyUse, _, _, _, i, rfl, hm, fun _ => ⟨rfl, rfl, rfl⟩⟩⟩)
  refine rel_bind (rel_variation _ c _ _ rfl) fun p21 q21 e21 => rel_bind (rel_variation _ c _ _ rfl) fun p22 q22 e22 => ?_
  refine rel_bind (rel_scaled_duty e21 e22) fun x2 y2 h2 => ?_
  subst h2
  refine rel_ite (fun _ => ?_) (fun _ => rel_pure ⟨rfl, fun s => ⟨a.dailyUse, _, _, _, i, rfl, hm, fun _ => ⟨rfl, rfl, rfl⟩⟩⟩)
  refine rel_bind (rel_variation _ c _ _ rfl) fun p31 q31 e31 => rel_bind (rel_variation _ c _ _ rfl) fun p32 q32 e32 => ?_
  refine rel_bind (rel_scaled_choice e11 e12) fun x1' y1' h1' => rel_bind (rel_scaled_choice e21 e22) fun x2' y2' h2' =>
    rel_bind (rel_scaled_choice e31 e32) fun x3' y3' h3' => ?_
  subst h1' h2' h3'
  exact rel_pure ⟨rfl, fun s => ⟨a.dailyUse, _, _, _, i, rfl, hm, fun _ => ⟨rfl, rfl, rfl⟩⟩⟩

/-- The second appliance is the first with its powers multiplied by `c`; what earlier days left in the objects can be anything. -/
def ScaledDef (c : ℚ) (a b : Appliance) : Prop := ∃ d f k1 k2 k3 i, b = leftovers (withPowers c a) d f k1 k2 k3 i

/-- The records of two runs: the same windows, the same time of use, the same events. -/
def SameEvents (fixed : Bool) : Option RunInfo → Option RunInfo → Prop
  | none, none => True
  | some x, some y => y.w1 = x.w1 ∧ y.w2 = x.w2 ∧ y.w3 = x.w3 ∧ y.randTime = x.randTime ∧ SameBookings fixed x.bookings y.bookings
  | _, _ => False

theorem multiplied_zeros (c : ℚ) : Multiplied c zeros zeros := fun _ => .inl (by simp [zeros])

theorem fillSlice_scaled {c x : ℚ} (p : Profile) (lo hi len : ℤ) :
    fillSlice (fun i => c * p i) lo hi len (c * x) = (fillSlice p lo hi len x).map (fun q i => c * q i) := by
  unfold fillSlice
  simp only
  by_cases h1 : len < 0
  · rw [if_pos h1, if_pos h1]; rfl
  · rw [if_neg h1, if_neg h1]
    by_cases h2 : len = max 0 (sliceBound hi - sliceBound lo) ∨ len = 1
    · rw [if_pos h2, if_pos h2]
      simp only [Except.map]
      refine congrArg _ (funext fun i => ?_)
      split_ifs <;> rfl
    · rw [if_neg h2, if_neg h2]; rfl

theorem fillWindows_scaled (c x : ℚ) (w1 w2 w3 : ℤ × ℤ) :
    fillWindows w1 w2 w3 (c * x) = (fillWindows w1 w2 w3 x).map (fun q i => c * q i) := by
  have hz : zeros = (fun i => c * zeros i : Profile) := by funext i; simp [zeros]
  unfold fillWindows
  conv_lhs => rw [hz]
  rw [fillSlice_scaled]
  cases fillSlice zeros w1.1 w1.2 (w1.2 - w1.1) x with
  | error e => rfl
  | ok d =>
    show (fillSlice (fun i => c * d i) w2.1 w2.2 (w2.2 - w2.1) (c * x) >>= fun d => fillSlice d w3.1 w3.2 (w3.2 - w3.1) (c * x)) = _
    rw [fillSlice_scaled]
    show _ = Except.map _ (fillSlice d w2.1 w2.2 (w2.2 - w2.1) x >>= fun d => fillSlice d w3.1 w3.2 (w3.2 - w3.1) x)
    cases fillSlice d w2.1 w2.2 (w2.2 - w2.1) x with
    | error e => rfl
    | ok d => exact fillSlice_scaled _ _ _ _

theorem fillSlice_values {p q : Profile} {v : ℚ} {lo hi len : ℤ} (hp : ∀ i, p i = 0 ∨ p i = v) (h : fillSlice p lo hi len v = .ok q) :
    ∀ i, q i = 0 ∨ q i = v := by
  unfold fillSlice at h
  simp only at h
  split_ifs at h
  cases h
  intro i
  simp only
  split_ifs
  · exact .inr rfl
  · exact hp i

theorem fillWindows_values {w1 w2 w3 : ℤ × ℤ} {v : ℚ} {q : Profile} (h : fillWindows w1 w2 w3 v = .ok q) : ∀ i, q i = 0 ∨ q i = v := by
  unfold fillWindows at h
  cases h1 : fillSlice zeros w1.1 w1.2 (w1.2 - w1.1) v with
  | error e => rw [h1] at h; cases h
  | ok d =>
    rw [h1] at h
    change (fillSlice d w2.1 w2.2 (w2.2 - w2.1) v >>= fun d => fillSlice d w3.1 w3.2 (w3.2 - w3.1) v) = _ at h
    cases h2 : fillSlice d w2.1 w2.2 (w2.2 - w2.1) v with
    | error e => rw [h2] at h; cases h
    | ok d' =>
      rw [h2] at h
      change fillSlice d' w3.1 w3.2 (w3.2 - w3.1) v = _ at h
      exact fillSlice_values (fillSlice_values (fillSlice_values (fun i => .inl rfl) h1) h2) h

theorem sameBookings_reverse {fixed : Bool} {l l' : List Booking} (h : SameBookings fixed l l') : SameBookings fixed l.reverse l'.reverse :=
  List.rel_reverse h

theorem ScaledRun.def {c : ℚ} {a b : Appliance} (h : ScaledRun c a b) : ScaledDef c a b := by
  obtain ⟨d, c1, c2, c3, j, rfl, _⟩ := h
  exact ⟨d, a.freeSpots, c1, c2, c3, j, rfl⟩

theorem ScaledRun.multiplied {c : ℚ} {a b : Appliance} (h : ScaledRun c a b) : Multiplied c a.dailyUse b.dailyUse := by
  obtain ⟨d, c1, c2, c3, j, rfl, h, _⟩ := h
  exact h

/-- A day of the two appliances with the same random numbers. -/
theorem rel_scaled_info {c : ℚ} {a b : Appliance} (h : ScaledDef c a b) (depth : ℕ) (pref : ℤ) (profI : ℕ) (peak : List ℤ) (dayType : ℤ) (power : ℚ) :
    Rel (generateLoadProfileInfo a depth pref profI peak dayType power) (generateLoadProfileInfo b depth pref profI peak dayType (c * power))
      (fun x y => ScaledDef c x.1 y.1 ∧ Multiplied c x.1.dailyUse y.1.dailyUse ∧ SameEvents (decide (0 < a.fixedCycle)) x.2 y.2 ∧
        (a.flat = "yes" → ∀ i, y.1.dailyUse i = c * x.1.dailyUse i)) := by
  obtain ⟨d, f, c1, c2, c3, i, rfl⟩ := h
  unfold generateLoadProfileInfo
  have e1 : (leftovers (withPowers c a) d f c1 c2 c3 i).occasionalUse = a.occasionalUse := rfl
  have e2 : (leftovers (withPowers c a) d f c1 c2 c3 i).prefIndex = a.prefIndex := rfl
  have e3 : (leftovers (withPowers c a) d f c1 c2 c3 i).wdWeType = a.wdWeType := rfl
  have e4 : (leftovers (withPowers c a) d f c1 c2 c3 i).funcTime = a.funcTime := rfl
  have e5 : (leftovers (withPowers c a) d f c1 c2 c3 i).window1 = a.window1 := rfl
  have e6 : (leftovers (withPowers c a) d f c1 c2 c3 i).window2 = a.window2 := rfl
  have e7 : (leftovers (withPowers c a) d f c1 c2 c3 i).window3 = a.window3 := rfl
  have e8 : (leftovers (withPowers c a) d f c1 c2 c3 i).randomVar1 = a.randomVar1 := rfl
  have e9 : (leftovers (withPowers c a) d f c1 c2 c3 i).randomVar2 = a.randomVar2 := rfl
  have e10 : (leftovers (withPowers c a) d f c1 c2 c3 i).randomVar3 = a.randomVar3 := rfl
  have e11 : (leftovers (withPowers c a) d f c1 c2 c3 i).flat = a.flat := rfl
  have e12 : (leftovers (withPowers c a) d f c1 c2 c3 i).power = a.power.map (c * ·) := rfl
  have e13 : (leftovers (withPowers c a) d f c1 c2 c3 i).number = a.number := rfl
  simp only [e1, e2, e3, e4, e5, e6, e7, e8, e9, e10, e11, e12, e13]
  refine rel_bind_same fun x => ?_
  refine rel_ite (fun _ => rel_pure ⟨⟨_, _, _, _, _, _, rfl⟩, multiplied_zeros c, trivial, fun _ i => by simp [zeros]⟩) (fun _ => ?_)
  refine rel_bind_same fun w1 => rel_bind_same fun w2 => rel_bind_same fun w3 => ?_
  refine rel_bind (P := fun x y => y = x) ?_ ?_
  · exact fun r => (rel_refl (m := randTotalTimeOfUse { a with dailyUse := zeros } w1 w2 w3) r).imp id (fun ⟨x, y, r', h1, h2, h3⟩ => ⟨x, y, r', h1, h2, h3.symm⟩)
  intro rt0 rt hrt
  subst hrt
  refine rel_ite (fun hfl => ?_) (fun hfl => ?_)
  · rw [List.getElem?_map]
    cases a.power[profI]? with
    | none => exact rel_raise
    | some pw =>
      simp only [Option.map_some]
      refine rel_bind (P := fun x y => y = fun i => c * x i) ?_ ?_
      · rw [mul_assoc, fillWindows_scaled c]
        cases fillWindows w1 w2 w3 (pw * a.number) with
        | error e => exact fun r => .inl ⟨e, rfl, rfl⟩
        | ok q => exact fun r => .inr ⟨_, _, r, rfl, rfl, rfl⟩
      · intro x y hxy
        subst hxy
        exact rel_pure ⟨⟨_, _, _, _, _, _, rfl⟩, fun i => .inl rfl, ⟨rfl, rfl, rfl, rfl, .nil⟩, fun _ i => rfl⟩
  · cases hq : fillWindows w1 w2 w3 (1 / 1000) with
    | error e => exact fun r => .inl ⟨e, rfl, rfl⟩
    | ok q =>
      have hv := fillWindows_values hq
      refine rel_bind (P := fun x y => x = q ∧ y = q) (fun r => .inr ⟨q, q, r, rfl, rfl, rfl, rfl⟩) ?_
      intro x0 y0 hx0
      rw [hx0.1, hx0.2]
      refine rel_bind (rel_scaled_assign (c := c) (a := { a with dailyUse := q }) q f c1 c2 c3 i rfl rfl (fun i => .inr ⟨rfl, hv i⟩)) ?_
      intro x y hxy
      refine rel_bind (rel_scaled_loop c depth peak power rt _ 0 [] [] (hxy.2 _) .nil) ?_
      rintro ⟨p, l⟩ ⟨p', l'⟩ ⟨h1, h2⟩
      refine rel_pure ⟨h1.def, h1.multiplied, ⟨rfl, rfl, rfl, rfl, ?_⟩, fun h => absurd h hfl⟩
      simp only [hxy.1] at h2
      exact sameBookings_reverse h2

end Ramp
