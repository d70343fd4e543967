import Verif.Lemmas.Affine

/-! # A variable power can be replaced by its average -/

set_option autoImplicit false

open MeasureTheory ENNReal

namespace Ramp

variable {μ : Measure Draw} {α : Type}

/-- The appliance without variability of power and with all its powers multiplied by `k`. -/
def calm (k : ℚ) (a : Appliance) : Appliance := withPowers k { a with thermalPVar := 0 }

/-- In the middle of a run of an appliance with variability `v`. -/
structure OKA (v : ℚ) (a : Appliance) : Prop where
  number : 1 ≤ a.number
  var : a.thermalPVar = v
  use : ∀ i, 0 ≤ a.dailyUse i
  c1 : ∀ x ∈ a.randomCycle1, 0 ≤ x
  c2 : ∀ x ∈ a.randomCycle2, 0 ≤ x
  c3 : ∀ x ∈ a.randomCycle3, 0 ≤ x

/-- The values written for an event of an appliance with duty cycles. -/
def valuesOf (a : Appliance) (c : ℤ) : List ℚ :=
  if a.currentDutyCycleId = 1 then a.randomCycle1.map (· * (c : ℚ))
  else if a.currentDutyCycleId = 2 then a.randomCycle2.map (· * (c : ℚ))
  else if a.currentDutyCycleId = 3 then a.randomCycle3.map (· * (c : ℚ)) else []

/-- The end of `update_daily_use`. -/
def finishUpdate (a : Appliance) (l : List ℤ) (d : Profile) : Sim Appliance :=
  liftE (updateAvailableTime a.freeSpots l) >>= fun s => pure { a with dailyUse := d, freeSpots := s }

theorem fin_finishUpdate (a : Appliance) (l : List ℤ) (d : Profile) : Finitary (finishUpdate a l d) := fin_bind (fin_liftE _) fun _ => fin_pure _

theorem update_duty {a : Appliance} (h : a.fixedCycle > 0) (c : ℤ) (p : ℚ) (l : List ℤ) :
    updateDailyUse a c p l = liftE (npPut a.dailyUse l (valuesOf a c)) >>= finishUpdate a l := by
  have hb : ∀ v : List ℚ, (liftE (npPut a.dailyUse l v) >>= fun d => (pure { a with dailyUse := d } : Sim Appliance)) >>=
      (fun a => liftE (updateAvailableTime a.freeSpots l) >>= fun s => pure { a with freeSpots := s }) = liftE (npPut a.dailyUse l v) >>= finishUpdate a l := by
    intro v
    rw [sim_bind_assoc]
    congr 1
  unfold updateDailyUse putEvent valuesOf
  rw [if_pos h]
  by_cases h1 : a.currentDutyCycleId = 1
  · rw [if_pos h1, if_pos h1]
    exact hb _
  · rw [if_neg h1, if_neg h1]
    by_cases h2 : a.currentDutyCycleId = 2
    · rw [if_pos h2, if_pos h2]
      exact hb _
    · rw [if_neg h2, if_neg h2]
      by_cases h3 : a.currentDutyCycleId = 3
      · rw [if_pos h3, if_pos h3]
        exact hb _
      · rw [if_neg h3, if_neg h3]
        rfl

theorem update_plain {a : Appliance} (h : ¬ a.fixedCycle > 0) (c : ℤ) (p : ℚ) (l : List ℤ) :
    updateDailyUse a c p l = randomVariation a.thermalPVar (c * p) >>= fun v => liftE (npPut a.dailyUse l [v]) >>= finishUpdate a l := by
  unfold updateDailyUse putEvent
  rw [if_neg h, sim_bind_assoc]
  congr 1
  funext v
  rw [sim_bind_assoc]
  congr 1

theorem fam_zero (d : Profile) (t : ℚ) : fam d zeros t = d := by
  funext i
  show d i + t * 0 = d i
  ring

theorem put_nonneg {d d' : Profile} {l : List ℤ} {v : List ℚ} (hd : ∀ i, 0 ≤ d i) (hv : ∀ x ∈ v, 0 ≤ x) (h : npPut d l v = .ok d') : ∀ i, 0 ≤ d' i := by
  rcases put_fam (V := v.map (fun x => (x, 0))) (fun q hq => by
    obtain ⟨x, hx, rfl⟩ := List.mem_map.1 hq
    exact ⟨hv x hx, le_refl _⟩) l hd (y := zeros) (fun _ => le_refl _) with ⟨e, he⟩ | ⟨x', y', h1, h2, h3⟩
  · have := he 0
    rw [fam_zero, evl_const, h] at this
    cases this
  · have := h3 0
    rw [fam_zero, evl_const, h] at this
    cases this
    intro i
    show 0 ≤ x' i + 0 * y' i
    rw [zero_mul, add_zero]
    exact h1 i

theorem values_nonneg {v : ℚ} {a : Appliance} (h : OKA v a) {c : ℤ} (hc : 0 ≤ c) : ∀ x ∈ valuesOf a c, 0 ≤ x := by
  have hc' : (0 : ℚ) ≤ (c : ℚ) := by exact_mod_cast hc
  have key : ∀ l : List ℚ, (∀ x ∈ l, 0 ≤ x) → ∀ x ∈ l.map (· * (c : ℚ)), 0 ≤ x := by
    intro l hl x hx
    obtain ⟨y, hy, rfl⟩ := List.mem_map.1 hx
    exact mul_nonneg (hl y hy) hc'
  unfold valuesOf
  split_ifs
  · exact key _ h.c1
  · exact key _ h.c2
  · exact key _ h.c3
  · intro x hx
    cases hx

theorem mean_put [IsProbabilityMeasure μ] (a : Appliance) (l : List ℤ) (v : List ℚ) (G : Appliance → ℝ≥0∞) :
    MeanOf μ (liftE (npPut a.dailyUse l v) >>= finishUpdate a l) G =
      match npPut a.dailyUse l v, updateAvailableTime a.freeSpots l with
      | .ok d, .ok s => G { a with dailyUse := d, freeSpots := s }
      | _, _ => 0 := by
  rw [meanOf_bind (fin_liftE _) fun _ => fin_finishUpdate _ _ _, meanOf_liftE]
  cases npPut a.dailyUse l v with
  | error e => rfl
  | ok d =>
    simp only
    unfold finishUpdate
    rw [meanOf_bind (fin_liftE _) fun _ => fin_pure _, meanOf_liftE]
    cases updateAvailableTime a.freeSpots l with
    | error e => rfl
    | ok s => exact meanOf_pure _ _

theorem same_put [IsProbabilityMeasure μ] {v k : ℚ} {G G' : Appliance → ℝ≥0∞} (hG : ∀ a, OKA v a → G' (calm k a) = G a) {a : Appliance} (ha : OKA v a) (l : List ℤ) {w : List ℚ}
    (hw : ∀ x ∈ w, 0 ≤ x) : MeanOf μ (liftE (npPut a.dailyUse l w) >>= finishUpdate a l) G = MeanOf μ (liftE (npPut (calm k a).dailyUse l w) >>= finishUpdate (calm k a) l) G' := by
  rw [mean_put, mean_put]
  have e1 : (calm k a).dailyUse = a.dailyUse := rfl
  have e2 : (calm k a).freeSpots = a.freeSpots := rfl
  rw [e1, e2]
  cases hp : npPut a.dailyUse l w with
  | error e => rfl
  | ok d =>
    cases updateAvailableTime a.freeSpots l with
    | error e => rfl
    | ok s => exact (hG { a with dailyUse := d, freeSpots := s } ⟨ha.number, ha.var, put_nonneg ha.use hw hp, ha.c1, ha.c2, ha.c3⟩).symm

theorem aff_put [IsProbabilityMeasure μ] {v : ℚ} (h0 : 0 ≤ v) (h1 : v ≤ 1) {G : Appliance → ℝ≥0∞} (hG : Lifts G) {a : Appliance} (ha : OKA v a) (l : List ℤ) :
    Aff (fun x => MeanOf μ (liftE (npPut a.dailyUse l [x]) >>= finishUpdate a l) G) := by
  have hc : ∀ {c : List ℚ}, (∀ x ∈ c, 0 ≤ x) → ∀ q ∈ c.map (fun x => (x, (0 : ℚ))), 0 ≤ q.1 ∧ 0 ≤ q.2 := by
    intro c h q hq
    obtain ⟨x, hx, rfl⟩ := List.mem_map.1 hq
    exact ⟨h x hx, le_refl _⟩
  have he : ∀ t : ℚ, evl t [((0 : ℚ), (1 : ℚ))] = [t] := by
    intro t
    show [0 + t * 1] = [t]
    rw [zero_add, mul_one]
  rcases put_fam (V := [((0 : ℚ), (1 : ℚ))]) (fun q hq => by rw [List.mem_singleton.1 hq]; norm_num) l ha.use (y := zeros) (fun _ => le_refl _) with ⟨e, h2⟩ | ⟨x', y', h2, h3, h4⟩
  · refine aff_congr (fun t _ => ?_) (aff_const 0)
    have := h2 t
    rw [fam_zero, he] at this
    rw [mean_put, this]
  · cases hs : updateAvailableTime a.freeSpots l with
    | error e =>
      refine aff_congr (fun t _ => ?_) (aff_const 0)
      have := h4 t
      rw [fam_zero, he] at this
      rw [mean_put, this, hs]
    | ok s =>
      refine aff_congr (fun t _ => ?_) (hG { a with freeSpots := s } x' y' (a.randomCycle1.map (fun x => (x, 0))) (a.randomCycle2.map (fun x => (x, 0))) (a.randomCycle3.map (fun x => (x, 0)))
        ⟨ha.number, by show 0 ≤ a.thermalPVar; rw [ha.var]; exact h0, by show a.thermalPVar ≤ 1; rw [ha.var]; exact h1⟩ ⟨h2, h3, hc ha.c1, hc ha.c2, hc ha.c3⟩)
      have := h4 t
      rw [fam_zero, he] at this
      rw [mean_put, this, hs]
      simp only
      unfold st
      rw [evl_const, evl_const, evl_const]

theorem replace_update [IsProbabilityMeasure μ] {m : ℚ} (hμ : MeanIs μ m) {v : ℚ} (h0 : 0 ≤ v) (h1 : v ≤ 1) {G G' : Appliance → ℝ≥0∞} (hL : Lifts G)
    (hG : ∀ a, OKA v a → G' (calm (factorMean m v) a) = G a) {a : Appliance} (ha : OKA v a) {c : ℤ} (hc : 0 ≤ c) {power : ℚ} (hp : 0 ≤ power) (l : List ℤ) :
    MeanOf μ (updateDailyUse a c power l) G = MeanOf μ (updateDailyUse (calm (factorMean m v) a) c (factorMean m v * power) l) G' := by
  have hc' : (0 : ℚ) ≤ (c : ℚ) := by exact_mod_cast hc
  by_cases hf : a.fixedCycle > 0
  · rw [update_duty hf, update_duty (a := calm (factorMean m v) a) hf]
    exact same_put hG ha l (values_nonneg ha hc)
  · rw [update_plain hf, update_plain (a := calm (factorMean m v) a) hf]
    rw [meanOf_bind (fin_randomVariation _ _) fun _ => fin_bind (fin_liftE _) fun _ => fin_finishUpdate _ _ _,
      meanOf_bind (fin_randomVariation _ _) fun _ => fin_bind (fin_liftE _) fun _ => fin_finishUpdate _ _ _, ha.var,
      mean_variation hμ h0 h1 (mul_nonneg hc' hp) (aff_put h0 h1 hL ha l)]
    have e : (calm (factorMean m v) a).thermalPVar = 0 := rfl
    rw [e, mean_no_variation, show (c : ℚ) * (factorMean m v * power) = c * power * factorMean m v by ring]
    refine same_put hG ha l fun x hx => ?_
    rw [List.mem_singleton.1 hx]
    exact mul_nonneg (mul_nonneg hc' hp) (factorMean_nonneg hμ.1 h0 h1)

theorem replace_book [IsProbabilityMeasure μ] {m : ℚ} (hμ : MeanIs μ m) {v : ℚ} (h0 : 0 ≤ v) (h1 : v ≤ 1) {G G' : Appliance × ℤ → ℝ≥0∞} (hL : ∀ c, Lifts (fun a => G (a, c)))
    (hG : ∀ c a, OKA v a → G' (calm (factorMean m v) a, c) = G (a, c)) {a : Appliance} (ha : OKA v a) (peak : List ℤ) {power : ℚ} (hp : 0 ≤ power) (l : List ℤ) :
    MeanOf μ (bookEvent a peak power l) G = MeanOf μ (bookEvent (calm (factorMean m v) a) peak (factorMean m v * power) l) G' := by
  rcases bookEvent_eq a peak power l with ⟨e1, e2⟩ | ⟨inside, e⟩
  · rw [e1, e2, meanOf_raise, meanOf_raise]
  · rw [e, e, meanOf_bind (fin_calcCoincident _ _) fun _ => fin_bind (fin_updateDailyUse _ _ _ _) fun _ => fin_pure _,
      meanOf_bind (fin_calcCoincident _ _) fun _ => fin_bind (fin_updateDailyUse _ _ _ _) fun _ => fin_pure _,
      calcCoincident_congr (app := a) (app' := calm (factorMean m v) a) inside rfl rfl]
    refine meanOf_congr fun c hc => ?_
    rw [meanOf_bind (fin_updateDailyUse _ _ _ _) fun _ => fin_pure _, meanOf_bind (fin_updateDailyUse _ _ _ _) fun _ => fin_pure _]
    simp only [meanOf_pure]
    exact replace_update hμ h0 h1 (hL c) (hG c) ha (coincidence_nonneg ha.number hc) hp l

theorem skeleton_calm (k : ℚ) (a : Appliance) : Skeleton a (calm k a) := ⟨rfl, rfl, rfl, rfl, rfl, rfl, rfl, rfl, rfl, rfl, rfl, rfl, rfl, rfl⟩

theorem rel_left {β : Type} {m : Sim α} {m' : Sim β} {P : α → β → Prop} (h : Rel m m' P) {x : α} (hx : Returns m x) : ∃ y, P x y := by
  obtain ⟨r, r', hr⟩ := hx
  rcases h r with ⟨e, h1, _⟩ | ⟨p, q, r', h1, _, h3⟩
  · rw [hr] at h1
    cases h1
  · rw [hr] at h1
    cases h1
    exact ⟨q, h3⟩

theorem replace_loop [IsProbabilityMeasure μ] {m : ℚ} (hμ : MeanIs μ m) {v : ℚ} (h0 : 0 ≤ v) (h1 : v ≤ 1) {H H' : Appliance → ℝ≥0∞} (hL : Lifts H)
    (hH : ∀ a, OKA v a → H' (calm (factorMean m v) a) = H a) (depth : ℕ) (peak : List ℤ) {power : ℚ} (hp : 0 ≤ power) (rt : ℤ) :
    ∀ (fuel : ℕ) (tot : ℤ) (log : List Booking) {a : Appliance}, OKA v a → MeanOf μ (switchOnLoop depth peak power rt fuel a tot log) (fun p => H p.1) =
      MeanOf μ (switchOnLoop depth peak (factorMean m v * power) rt fuel (calm (factorMean m v) a) tot log) (fun p => H' p.1) := by
  intro fuel
  induction fuel with
  | zero =>
    intro tot log a _
    exact (meanOf_raise _ _).trans (meanOf_raise _ _).symm
  | succ fuel ih =>
    intro tot log a ha
    by_cases hc : tot ≤ rt ∧ rt ≠ 0
    · rw [loop_succ, loop_succ, if_pos hc, if_pos hc, meanOf_bind (fin_randSwitchOnWindow _ _ _) fun _ => fin_afterEvent _ _ _ _ _ _ _ _,
        meanOf_bind (fin_randSwitchOnWindow _ _ _) fun _ => fin_afterEvent _ _ _ _ _ _ _ _, meanOf_rel (rel_skeleton rt (skeleton_calm (factorMean m v) a) depth)]
      refine meanOf_congr fun p hpr => ?_
      obtain ⟨_, hp1, _⟩ := rel_left (rel_skeleton rt (skeleton_calm (factorMean m v) a) depth) hpr
      have hok : OKA v p.1 := by
        rw [hp1]
        exact ⟨ha.number, ha.var, ha.use, ha.c1, ha.c2, ha.c3⟩
      have hcalm : setDuty p.1.currentDutyCycleId (calm (factorMean m v) a) = calm (factorMean m v) p.1 := by
        conv_rhs => rw [hp1]
        rfl
      rw [hcalm]
      unfold afterEvent
      obtain ⟨b, ev⟩ := p
      simp only
      cases ev with
      | none => rw [meanOf_pure, meanOf_pure]; exact (hH b hok).symm
      | some ev =>
        obtain ⟨drawn, indexes⟩ := ev
        simp only
        split_ifs with g1 g2
        · rw [meanOf_bind (fin_bookEvent _ _ _ _) fun _ => fin_pure _, meanOf_bind (fin_bookEvent _ _ _ _) fun _ => fin_pure _]
          simp only [meanOf_pure]
          exact replace_book hμ h0 h1 (G := fun x => H x.1) (G' := fun x => H' x.1) (fun _ => hL) (fun _ => hH) hok peak hp _
        · rw [meanOf_pure, meanOf_pure]
          exact (hH b hok).symm
        · rw [meanOf_bind (fin_bookEvent _ _ _ _) fun _ => fin_switchOnLoop _ _ _ _ _ _ _ _, meanOf_bind (fin_bookEvent _ _ _ _) fun _ => fin_switchOnLoop _ _ _ _ _ _ _ _]
          refine replace_book hμ h0 h1 (fun c b x y c1 c2 c3 hb hn => ?_) (fun c b hb => (ih _ _ hb).symm) hok peak hp indexes
          exact lifts_loop (μ := μ) hL depth peak hp rt fuel (tot + indexes.length) (⟨drawn, indexes, c, b.currentDutyCycleId⟩ :: log) b x y c1 c2 c3 hb hn
    · rw [loop_succ, loop_succ, if_neg hc, if_neg hc, meanOf_pure, meanOf_pure]
      exact (hH a ha).symm

/-! ## Duty cycles -/

/-- The lengths of the two parts of a duty cycle. -/
def dutyLengths (var : ℚ) (t1 t2 : ℤ) : Sim (ℕ × ℕ) := do
  let d1 ← randomVariation (-var) t1
  let a ← liftE (if pyInt d1 < 0 then .error .valueError else .ok (pyInt d1).toNat)
  let d2 ← randomVariation (-var) t2
  let b ← liftE (if pyInt d2 < 0 then .error .valueError else .ok (pyInt d2).toNat)
  pure (a, b)

theorem fin_dutyLengths (var : ℚ) (t1 t2 : ℤ) : Finitary (dutyLengths var t1 t2) :=
  fin_bind (fin_randomVariation _ _) fun _ => fin_bind (fin_liftE _) fun _ => fin_bind (fin_randomVariation _ _) fun _ => fin_bind (fin_liftE _) fun _ => fin_pure _

theorem liftE_ones (n : ℤ) (p : ℚ) {β : Type} (f : List ℚ → Sim β) :
    (liftE (onesTimes n p) >>= f) = (liftE (if n < 0 then .error .valueError else .ok n.toNat) : Sim ℕ) >>= fun k => f (List.replicate k p) := by
  unfold onesTimes
  split_ifs <;> rfl

theorem dutyCycle_lengths (var : ℚ) (t1 : ℤ) (p1 : ℚ) (t2 : ℤ) (p2 : ℚ) :
    dutyCycle var t1 p1 t2 p2 = dutyLengths var t1 t2 >>= fun n => pure (List.replicate n.1 p1 ++ List.replicate n.2 p2) := by
  unfold dutyCycle dutyLengths
  rw [sim_bind_assoc]
  congr 1
  funext d1
  rw [liftE_ones, sim_bind_assoc]
  congr 1
  funext a
  rw [sim_bind_assoc]
  congr 1
  funext d2
  rw [liftE_ones, sim_bind_assoc]
  congr 1

/-- The samples of a duty cycle with powers that depend on `t`. -/
def dutyPairs (n : ℕ × ℕ) (q1 q2 : ℚ × ℚ) : List (ℚ × ℚ) := List.replicate n.1 q1 ++ List.replicate n.2 q2

theorem evl_dutyPairs (t : ℚ) (n : ℕ × ℕ) (q1 q2 : ℚ × ℚ) :
    evl t (dutyPairs n q1 q2) = List.replicate n.1 (q1.1 + t * q1.2) ++ List.replicate n.2 (q2.1 + t * q2.2) := by
  unfold evl dutyPairs
  rw [List.map_append, List.map_replicate, List.map_replicate]

theorem dutyPairs_nonneg {n : ℕ × ℕ} {q1 q2 : ℚ × ℚ} (h1 : 0 ≤ q1.1 ∧ 0 ≤ q1.2) (h2 : 0 ≤ q2.1 ∧ 0 ≤ q2.2) : ∀ q ∈ dutyPairs n q1 q2, 0 ≤ q.1 ∧ 0 ≤ q.2 := by
  intro q hq
  rcases List.mem_append.1 hq with h | h
  · rw [List.eq_of_mem_replicate h]
    exact h1
  · rw [List.eq_of_mem_replicate h]
    exact h2

/-- `x + t y`. -/
def evp (t : ℚ) (q : ℚ × ℚ) : ℚ := q.1 + t * q.2

/-- A number that does not depend on `t` and one that is `t`. -/
theorem evp_const (t x : ℚ) : evp t (x, 0) = x := by
  unfold evp
  ring

theorem evp_var (t : ℚ) : evp t (0, 1) = t := by
  unfold evp
  ring

/-- `K` of a list is affine in `t`. -/
def LiftsL (K : List ℚ → ℝ≥0∞) : Prop := ∀ c : List (ℚ × ℚ), (∀ q ∈ c, 0 ≤ q.1 ∧ 0 ≤ q.2) → Aff (fun t => K (evl t c))

theorem aff_duty [IsProbabilityMeasure μ] (var : ℚ) (t1 t2 : ℤ) {q1 q2 : ℚ × ℚ} (h1 : 0 ≤ q1.1 ∧ 0 ≤ q1.2) (h2 : 0 ≤ q2.1 ∧ 0 ≤ q2.2) {K : ℚ → List ℚ → ℝ≥0∞}
    (hK : ∀ c : List (ℚ × ℚ), (∀ q ∈ c, 0 ≤ q.1 ∧ 0 ≤ q.2) → Aff (fun t => K t (evl t c))) :
    Aff (fun t => MeanOf μ (dutyCycle var t1 (evp t q1) t2 (evp t q2)) (K t)) := by
  refine aff_congr (fun t _ => ?_) (aff_mean (μ := μ) (m := dutyLengths var t1 t2) (fin_dutyLengths _ _ _) fun n _ => hK (dutyPairs n q1 q2) (dutyPairs_nonneg h1 h2))
  rw [dutyCycle_lengths, meanOf_bind (fin_dutyLengths _ _ _) fun _ => fin_pure _]
  simp only [meanOf_pure, evl_dutyPairs]
  rfl

theorem aff_choice [IsProbabilityMeasure μ] (var : ℚ) (t1 t2 : ℤ) {q1 q2 : ℚ × ℚ} (h1 : 0 ≤ q1.1 ∧ 0 ≤ q1.2) (h2 : 0 ≤ q2.1 ∧ 0 ≤ q2.2) {K : ℚ → List ℚ → ℝ≥0∞}
    (hK : ∀ c : List (ℚ × ℚ), (∀ q ∈ c, 0 ≤ q.1 ∧ 0 ≤ q.2) → Aff (fun t => K t (evl t c))) :
    Aff (fun t => MeanOf μ (randomChoice var t1 (evp t q1) t2 (evp t q2)) (K t)) := by
  have e : ∀ t, MeanOf μ (randomChoice var t1 (evp t q1) t2 (evp t q2)) (K t) = MeanOf μ (dutyCycle var t1 (evp t q1) t2 (evp t q2)) (fun x =>
      MeanOf μ (dutyCycle var t2 (evp t q2) t1 (evp t q1)) (fun y => MeanOf μ (choice2 x y) (K t))) := by
    intro t
    unfold randomChoice
    rw [meanOf_bind (fin_dutyCycle _ _ _ _ _) fun _ => fin_bind (fin_dutyCycle _ _ _ _ _) fun _ => fin_choice2 _ _]
    congr 1
    funext x
    rw [meanOf_bind (fin_dutyCycle _ _ _ _ _) fun _ => fin_choice2 _ _]
  refine aff_congr (fun t _ => e t) (aff_duty var t1 t2 h1 h2 fun c hc => aff_duty var t2 t1 h2 h1 fun d hd => ?_)
  refine aff_congr (fun t _ => ?_) (aff_mean (μ := μ) (m := choice2 c d) (fin_choice2 _ _) fun w hw => hK w ?_)
  · unfold choice2
    rw [meanOf_bind fin_nextDraw fun _ => fin_pure _, meanOf_bind fin_nextDraw fun _ => fin_pure _]
    congr 1
    funext r
    rw [meanOf_pure, meanOf_pure]
    split_ifs <;> rfl
  · refine Sat.ret (Q := fun w => ∀ q ∈ w, 0 ≤ q.1 ∧ 0 ≤ q.2) (E := fun _ => True) ?_ hw
    exact sat_choice2 hc hd

/-- `assign_random_cycles` after the six powers are known. -/
def assign3 (a : Appliance) (p11 p12 p21 p22 p31 p32 : ℚ) : Sim Appliance := do
  let c1 ← randomChoice a.rc1 a.t11 p11 a.t12 p12
  let c2 ← randomChoice a.rc2 a.t21 p21 a.t22 p22
  let c3 ← randomChoice a.rc3 a.t31 p31 a.t32 p32
  pure { a with randomCycle1 := c1, randomCycle2 := c2, randomCycle3 := c3 }

/-- After the first four powers and the first cycle are known. -/
def assign2 (a : Appliance) (p11 p12 : ℚ) (c1 : List ℚ) (p21 p22 : ℚ) : Sim Appliance := do
  let c2 ← dutyCycle a.rc2 a.t21 p21 a.t22 p22
  if a.fixedCycle ≥ 3 then do
    let p31 ← randomVariation a.thermalPVar a.p31
    let p32 ← randomVariation a.thermalPVar a.p32
    assign3 a p11 p12 p21 p22 p31 p32
  else pure { a with randomCycle1 := c1, randomCycle2 := c2, randomCycle3 := c1 }

/-- After the first two powers are known. -/
def assign1 (a : Appliance) (p11 p12 : ℚ) : Sim Appliance := do
  let c1 ← dutyCycle a.rc1 a.t11 p11 a.t12 p12
  if a.fixedCycle ≥ 2 then do
    let p21 ← randomVariation a.thermalPVar a.p21
    let p22 ← randomVariation a.thermalPVar a.p22
    assign2 a p11 p12 c1 p21 p22
  else pure { a with randomCycle1 := c1, randomCycle2 := c1, randomCycle3 := c1 }

theorem assign_eq (a : Appliance) : assignRandomCycles a = if a.fixedCycle ≥ 1 then (do
    let p11 ← randomVariation a.thermalPVar a.p11
    let p12 ← randomVariation a.thermalPVar a.p12
    assign1 a p11 p12) else pure a := by
  unfold assignRandomCycles assign1 assign2 assign3
  simp only

theorem fin_assign3 (a : Appliance) (p11 p12 p21 p22 p31 p32 : ℚ) : Finitary (assign3 a p11 p12 p21 p22 p31 p32) :=
  fin_bind (fin_randomChoice _ _ _ _ _) fun _ => fin_bind (fin_randomChoice _ _ _ _ _) fun _ => fin_bind (fin_randomChoice _ _ _ _ _) fun _ => fin_pure _

theorem fin_assign2 (a : Appliance) (p11 p12 : ℚ) (c1 : List ℚ) (p21 p22 : ℚ) : Finitary (assign2 a p11 p12 c1 p21 p22) :=
  fin_bind (fin_dutyCycle _ _ _ _ _) fun _ => fin_ite (fin_bind (fin_randomVariation _ _) fun _ => fin_bind (fin_randomVariation _ _) fun _ => fin_assign3 _ _ _ _ _ _ _) (fin_pure _)

theorem fin_assign1 (a : Appliance) (p11 p12 : ℚ) : Finitary (assign1 a p11 p12) :=
  fin_bind (fin_dutyCycle _ _ _ _ _) fun _ => fin_ite (fin_bind (fin_randomVariation _ _) fun _ => fin_bind (fin_randomVariation _ _) fun _ => fin_assign2 _ _ _ _ _ _) (fin_pure _)

/-- `K` is affine in the cycles of `a`. -/
def LiftsC (a : Appliance) (K : Appliance → ℝ≥0∞) : Prop := ∀ c1 c2 c3 : List (ℚ × ℚ), (∀ q ∈ c1, 0 ≤ q.1 ∧ 0 ≤ q.2) → (∀ q ∈ c2, 0 ≤ q.1 ∧ 0 ≤ q.2) →
  (∀ q ∈ c3, 0 ≤ q.1 ∧ 0 ≤ q.2) → Aff (fun t => K { a with randomCycle1 := evl t c1, randomCycle2 := evl t c2, randomCycle3 := evl t c3 })

/-- Not negative. -/
def NNP (q : ℚ × ℚ) : Prop := 0 ≤ q.1 ∧ 0 ≤ q.2

theorem nnp_const {x : ℚ} (h : 0 ≤ x) : NNP (x, 0) := ⟨h, le_refl _⟩

theorem nnp_var : NNP (0, 1) := ⟨le_refl _, zero_le_one⟩

theorem aff_assign3 [IsProbabilityMeasure μ] {a : Appliance} {K : Appliance → ℝ≥0∞} (hK : LiftsC a K) {q11 q12 q21 q22 q31 q32 : ℚ × ℚ} (h11 : NNP q11) (h12 : NNP q12)
    (h21 : NNP q21) (h22 : NNP q22) (h31 : NNP q31) (h32 : NNP q32) :
    Aff (fun t => MeanOf μ (assign3 a (evp t q11) (evp t q12) (evp t q21) (evp t q22) (evp t q31) (evp t q32)) K) := by
  have e : ∀ t, MeanOf μ (assign3 a (evp t q11) (evp t q12) (evp t q21) (evp t q22) (evp t q31) (evp t q32)) K =
      MeanOf μ (randomChoice a.rc1 a.t11 (evp t q11) a.t12 (evp t q12)) (fun c1 => MeanOf μ (randomChoice a.rc2 a.t21 (evp t q21) a.t22 (evp t q22)) (fun c2 =>
        MeanOf μ (randomChoice a.rc3 a.t31 (evp t q31) a.t32 (evp t q32)) (fun c3 => K { a with randomCycle1 := c1, randomCycle2 := c2, randomCycle3 := c3 }))) := by
    intro t
    unfold assign3
    rw [meanOf_bind (fin_randomChoice _ _ _ _ _) fun _ => fin_bind (fin_randomChoice _ _ _ _ _) fun _ => fin_bind (fin_randomChoice _ _ _ _ _) fun _ => fin_pure _]
    congr 1
    funext c1
    rw [meanOf_bind (fin_randomChoice _ _ _ _ _) fun _ => fin_bind (fin_randomChoice _ _ _ _ _) fun _ => fin_pure _]
    congr 1
    funext c2
    rw [meanOf_bind (fin_randomChoice _ _ _ _ _) fun _ => fin_pure _]
    simp only [meanOf_pure]
  exact aff_congr (fun t _ => e t) (aff_choice _ _ _ h11 h12 fun c1 hc1 => aff_choice _ _ _ h21 h22 fun c2 hc2 => aff_choice _ _ _ h31 h32 fun c3 hc3 =>
    hK c1 c2 c3 hc1 hc2 hc3)

/-- The appliance has powers that make sense. -/
structure Powers (a : Appliance) : Prop where
  v0 : 0 ≤ a.thermalPVar
  v1 : a.thermalPVar ≤ 1
  p11 : 0 ≤ a.p11
  p12 : 0 ≤ a.p12
  p21 : 0 ≤ a.p21
  p22 : 0 ≤ a.p22
  p31 : 0 ≤ a.p31
  p32 : 0 ≤ a.p32

theorem mean_assign2 [IsProbabilityMeasure μ] (a : Appliance) (K : Appliance → ℝ≥0∞) (p11 p12 : ℚ) (c1 : List ℚ) (p21 p22 : ℚ) :
    MeanOf μ (assign2 a p11 p12 c1 p21 p22) K = MeanOf μ (dutyCycle a.rc2 a.t21 p21 a.t22 p22) (fun c2 =>
      if a.fixedCycle ≥ 3 then MeanOf μ (randomVariation a.thermalPVar a.p31) (fun p31 => MeanOf μ (randomVariation a.thermalPVar a.p32) (fun p32 =>
        MeanOf μ (assign3 a p11 p12 p21 p22 p31 p32) K)) else K { a with randomCycle1 := c1, randomCycle2 := c2, randomCycle3 := c1 }) := by
  unfold assign2
  rw [meanOf_bind (fin_dutyCycle _ _ _ _ _) fun _ => fin_ite (fin_bind (fin_randomVariation _ _) fun _ => fin_bind (fin_randomVariation _ _) fun _ => fin_assign3 _ _ _ _ _ _ _) (fin_pure _)]
  congr 1
  funext c2
  split_ifs
  · rw [meanOf_bind (fin_randomVariation _ _) fun _ => fin_bind (fin_randomVariation _ _) fun _ => fin_assign3 _ _ _ _ _ _ _]
    congr 1
    funext p31
    rw [meanOf_bind (fin_randomVariation _ _) fun _ => fin_assign3 _ _ _ _ _ _ _]
  · rw [meanOf_pure]

theorem mean_assign1 [IsProbabilityMeasure μ] (a : Appliance) (K : Appliance → ℝ≥0∞) (p11 p12 : ℚ) :
    MeanOf μ (assign1 a p11 p12) K = MeanOf μ (dutyCycle a.rc1 a.t11 p11 a.t12 p12) (fun c1 =>
      if a.fixedCycle ≥ 2 then MeanOf μ (randomVariation a.thermalPVar a.p21) (fun p21 => MeanOf μ (randomVariation a.thermalPVar a.p22) (fun p22 =>
        MeanOf μ (assign2 a p11 p12 c1 p21 p22) K)) else K { a with randomCycle1 := c1, randomCycle2 := c1, randomCycle3 := c1 }) := by
  unfold assign1
  rw [meanOf_bind (fin_dutyCycle _ _ _ _ _) fun _ => fin_ite (fin_bind (fin_randomVariation _ _) fun _ => fin_bind (fin_randomVariation _ _) fun _ => fin_assign2 _ _ _ _ _ _) (fin_pure _)]
  congr 1
  funext c2
  split_ifs
  · rw [meanOf_bind (fin_randomVariation _ _) fun _ => fin_bind (fin_randomVariation _ _) fun _ => fin_assign2 _ _ _ _ _ _]
    congr 1
    funext p21
    rw [meanOf_bind (fin_randomVariation _ _) fun _ => fin_assign2 _ _ _ _ _ _]
  · rw [meanOf_pure]

theorem mean_assign [IsProbabilityMeasure μ] (a : Appliance) (K : Appliance → ℝ≥0∞) :
    MeanOf μ (assignRandomCycles a) K = if a.fixedCycle ≥ 1 then MeanOf μ (randomVariation a.thermalPVar a.p11) (fun p11 =>
      MeanOf μ (randomVariation a.thermalPVar a.p12) (fun p12 => MeanOf μ (assign1 a p11 p12) K)) else K a := by
  rw [assign_eq]
  split_ifs
  · rw [meanOf_bind (fin_randomVariation _ _) fun _ => fin_bind (fin_randomVariation _ _) fun _ => fin_assign1 _ _ _]
    congr 1
    funext p11
    rw [meanOf_bind (fin_randomVariation _ _) fun _ => fin_assign1 _ _ _]
  · rw [meanOf_pure]

theorem aff_assign2 [IsProbabilityMeasure μ] {a : Appliance} (ha : Powers a) {K : Appliance → ℝ≥0∞} (hK : LiftsC a K) {q11 q12 q21 q22 : ℚ × ℚ} {c1 : List (ℚ × ℚ)} (h11 : NNP q11)
    (h12 : NNP q12) (hc1 : ∀ q ∈ c1, 0 ≤ q.1 ∧ 0 ≤ q.2) (h21 : NNP q21) (h22 : NNP q22) :
    Aff (fun t => MeanOf μ (assign2 a (evp t q11) (evp t q12) (evl t c1) (evp t q21) (evp t q22)) K) := by
  refine aff_congr (fun t _ => mean_assign2 _ _ _ _ _ _ _) (aff_duty _ _ _ h21 h22 fun c2 hc2 => ?_)
  by_cases hf : a.fixedCycle ≥ 3
  · refine aff_congr (fun t _ => if_pos hf) (aff_mean (fin_randomVariation _ _) fun p31 h31 => aff_mean (fin_randomVariation _ _) fun p32 h32 => ?_)
    refine aff_congr (fun t _ => ?_) (aff_assign3 (μ := μ) hK h11 h12 h21 h22 (nnp_const (returns_variation ha.v0 ha.v1 ha.p31 h31)) (nnp_const (returns_variation ha.v0 ha.v1 ha.p32 h32)))
    rw [evp_const, evp_const]
  · exact aff_congr (fun t _ => if_neg hf) (hK c1 c2 c1 hc1 hc2 hc1)

theorem aff_assign1 [IsProbabilityMeasure μ] {a : Appliance} (ha : Powers a) {K : Appliance → ℝ≥0∞} (hK : LiftsC a K) {q11 q12 : ℚ × ℚ} (h11 : NNP q11)
    (h12 : NNP q12) : Aff (fun t => MeanOf μ (assign1 a (evp t q11) (evp t q12)) K) := by
  refine aff_congr (fun t _ => mean_assign1 _ _ _ _) (aff_duty _ _ _ h11 h12 fun c1 hc1 => ?_)
  by_cases hf : a.fixedCycle ≥ 2
  · refine aff_congr (fun t _ => if_pos hf) (aff_mean (fin_randomVariation _ _) fun p21 h21 => aff_mean (fin_randomVariation _ _) fun p22 h22 => ?_)
    refine aff_congr (fun t _ => ?_) (aff_assign2 (μ := μ) ha hK h11 h12 hc1 (nnp_const (returns_variation ha.v0 ha.v1 ha.p21 h21)) (nnp_const (returns_variation ha.v0 ha.v1 ha.p22 h22)))
    rw [evp_const, evp_const]
  · exact aff_congr (fun t _ => if_neg hf) (hK c1 c1 c1 hc1 hc1 hc1)

/-- Two powers replaced by their averages. -/
theorem mean_two [IsProbabilityMeasure μ] {m : ℚ} (hμ : MeanIs μ m) {v p q : ℚ} (h0 : 0 ≤ v) (h1 : v ≤ 1) (hp : 0 ≤ p) (hq : 0 ≤ q) {R R' : ℚ → ℚ → ℝ≥0∞}
    (hR : ∀ y, 0 ≤ y → Aff (fun x => R x y)) (hR' : ∀ x, 0 ≤ x → Aff (fun y => R x y)) (he : ∀ x y, 0 ≤ x → 0 ≤ y → R x y = R' x y) :
    MeanOf μ (randomVariation v p) (fun x => MeanOf μ (randomVariation v q) (fun y => R x y)) =
      MeanOf μ (randomVariation 0 (factorMean m v * p)) (fun x => MeanOf μ (randomVariation 0 (factorMean m v * q)) (fun y => R' x y)) := by
  have hk := factorMean_nonneg hμ.1 h0 h1
  have hin : ∀ x, 0 ≤ x → MeanOf μ (randomVariation v q) (fun y => R x y) = R x (q * factorMean m v) := fun x hx => mean_variation hμ h0 h1 hq (hR' x hx)
  rw [mean_no_variation, mean_no_variation, ← he _ _ (mul_nonneg hk hp) (mul_nonneg hk hq), mul_comm _ p, mul_comm _ q]
  rw [meanOf_congr (g' := fun x => R x (q * factorMean m v)) fun x hx => hin x (returns_variation h0 h1 hp hx)]
  exact mean_variation hμ h0 h1 hp (hR _ (mul_nonneg hq hk))

theorem returns_duty_nonneg {var : ℚ} {t1 t2 : ℤ} {p1 p2 : ℚ} {c : List ℚ} (h1 : 0 ≤ p1) (h2 : 0 ≤ p2) (hc : Returns (dutyCycle var t1 p1 t2 p2) c) : ∀ x ∈ c, 0 ≤ x := by
  refine Sat.ret (Q := fun c => ∀ x ∈ c, 0 ≤ x) (E := fun _ => True) ?_ hc
  rw [dutyCycle_lengths]
  refine sat_bind' sat_true fun n _ => sat_pure fun x hx => ?_
  rcases List.mem_append.1 hx with h | h
  · rw [List.eq_of_mem_replicate h]
    exact h1
  · rw [List.eq_of_mem_replicate h]
    exact h2

theorem returns_choice_nonneg {var : ℚ} {t1 t2 : ℤ} {p1 p2 : ℚ} {c : List ℚ} (h1 : 0 ≤ p1) (h2 : 0 ≤ p2) (hc : Returns (randomChoice var t1 p1 t2 p2) c) : ∀ x ∈ c, 0 ≤ x := by
  refine Sat.ret (Q := fun c => ∀ x ∈ c, 0 ≤ x) (E := fun _ => True) ?_ hc
  have hs : ∀ {t1 t2 p1 p2}, 0 ≤ p1 → 0 ≤ p2 → Sat (dutyCycle var t1 p1 t2 p2) (fun c => ∀ x ∈ c, 0 ≤ x) (fun _ => True) := fun h1 h2 =>
    sat_iff.2 ⟨fun c hc => returns_duty_nonneg h1 h2 hc, fun _ _ => trivial⟩
  unfold randomChoice
  exact sat_bind' (hs h1 h2) fun x hx => sat_bind' (hs h2 h1) fun y hy => sat_choice2 hx hy

/-- The continuation of two runs agree. -/
def AgreeC (k : ℚ) (a : Appliance) (K K' : Appliance → ℝ≥0∞) : Prop := ∀ c1 c2 c3 : List ℚ, (∀ x ∈ c1, 0 ≤ x) → (∀ x ∈ c2, 0 ≤ x) → (∀ x ∈ c3, 0 ≤ x) →
  K { a with randomCycle1 := c1, randomCycle2 := c2, randomCycle3 := c3 } = K' { calm k a with randomCycle1 := c1, randomCycle2 := c2, randomCycle3 := c3 }

theorem replace_assign3 [IsProbabilityMeasure μ] {k : ℚ} {a : Appliance} {K K' : Appliance → ℝ≥0∞} (hA : AgreeC k a K K') {p11 p12 p21 p22 p31 p32 : ℚ} (h11 : 0 ≤ p11) (h12 : 0 ≤ p12)
    (h21 : 0 ≤ p21) (h22 : 0 ≤ p22) (h31 : 0 ≤ p31) (h32 : 0 ≤ p32) : MeanOf μ (assign3 a p11 p12 p21 p22 p31 p32) K = MeanOf μ (assign3 (calm k a) p11 p12 p21 p22 p31 p32) K' := by
  unfold assign3
  rw [meanOf_bind (fin_randomChoice _ _ _ _ _) fun _ => fin_bind (fin_randomChoice _ _ _ _ _) fun _ => fin_bind (fin_randomChoice _ _ _ _ _) fun _ => fin_pure _,
    meanOf_bind (fin_randomChoice _ _ _ _ _) fun _ => fin_bind (fin_randomChoice _ _ _ _ _) fun _ => fin_bind (fin_randomChoice _ _ _ _ _) fun _ => fin_pure _]
  refine meanOf_congr (m := randomChoice a.rc1 a.t11 p11 a.t12 p12) fun c1 hc1 => ?_
  rw [meanOf_bind (fin_randomChoice _ _ _ _ _) fun _ => fin_bind (fin_randomChoice _ _ _ _ _) fun _ => fin_pure _,
    meanOf_bind (fin_randomChoice _ _ _ _ _) fun _ => fin_bind (fin_randomChoice _ _ _ _ _) fun _ => fin_pure _]
  refine meanOf_congr (m := randomChoice a.rc2 a.t21 p21 a.t22 p22) fun c2 hc2 => ?_
  rw [meanOf_bind (fin_randomChoice _ _ _ _ _) fun _ => fin_pure _, meanOf_bind (fin_randomChoice _ _ _ _ _) fun _ => fin_pure _]
  refine meanOf_congr (m := randomChoice a.rc3 a.t31 p31 a.t32 p32) fun c3 hc3 => ?_
  rw [meanOf_pure, meanOf_pure]
  exact hA c1 c2 c3 (returns_choice_nonneg h11 h12 hc1) (returns_choice_nonneg h21 h22 hc2) (returns_choice_nonneg h31 h32 hc3)

theorem replace_assign2 [IsProbabilityMeasure μ] {m : ℚ} (hμ : MeanIs μ m) {a : Appliance} (ha : Powers a) {K K' : Appliance → ℝ≥0∞} (hK : LiftsC a K)
    (hA : AgreeC (factorMean m a.thermalPVar) a K K') {p11 p12 p21 p22 : ℚ} {c1 : List ℚ} (h11 : 0 ≤ p11) (h12 : 0 ≤ p12) (hc1 : ∀ x ∈ c1, 0 ≤ x) (h21 : 0 ≤ p21) (h22 : 0 ≤ p22) :
    MeanOf μ (assign2 a p11 p12 c1 p21 p22) K = MeanOf μ (assign2 (calm (factorMean m a.thermalPVar) a) p11 p12 c1 p21 p22) K' := by
  rw [mean_assign2, mean_assign2]
  refine meanOf_congr (m := dutyCycle a.rc2 a.t21 p21 a.t22 p22) fun c2 hc2 => ?_
  by_cases hf : a.fixedCycle ≥ 3
  · rw [if_pos hf, if_pos (show (calm (factorMean m a.thermalPVar) a).fixedCycle ≥ 3 from hf)]
    refine mean_two hμ ha.v0 ha.v1 ha.p31 ha.p32 (fun y hy => ?_) (fun x hx => ?_) fun x y hx hy => replace_assign3 hA h11 h12 h21 h22 hx hy
    · refine aff_congr (fun t _ => ?_) (aff_assign3 (μ := μ) hK (nnp_const h11) (nnp_const h12) (nnp_const h21) (nnp_const h22) nnp_var (nnp_const hy))
      simp only [evp_const, evp_var]
    · refine aff_congr (fun t _ => ?_) (aff_assign3 (μ := μ) hK (nnp_const h11) (nnp_const h12) (nnp_const h21) (nnp_const h22) (nnp_const hx) nnp_var)
      simp only [evp_const, evp_var]
  · rw [if_neg hf, if_neg (show ¬ (calm (factorMean m a.thermalPVar) a).fixedCycle ≥ 3 from hf)]
    exact hA c1 c2 c1 hc1 (returns_duty_nonneg h21 h22 hc2) hc1

theorem replace_assign1 [IsProbabilityMeasure μ] {m : ℚ} (hμ : MeanIs μ m) {a : Appliance} (ha : Powers a) {K K' : Appliance → ℝ≥0∞} (hK : LiftsC a K)
    (hA : AgreeC (factorMean m a.thermalPVar) a K K') {p11 p12 : ℚ} (h11 : 0 ≤ p11) (h12 : 0 ≤ p12) :
    MeanOf μ (assign1 a p11 p12) K = MeanOf μ (assign1 (calm (factorMean m a.thermalPVar) a) p11 p12) K' := by
  rw [mean_assign1, mean_assign1]
  refine meanOf_congr (m := dutyCycle a.rc1 a.t11 p11 a.t12 p12) fun c1 hc1 => ?_
  have hc1' := returns_duty_nonneg h11 h12 hc1
  have hcc : ∀ q ∈ c1.map (fun x => (x, (0 : ℚ))), 0 ≤ q.1 ∧ 0 ≤ q.2 := by
    intro q hq
    obtain ⟨x, hx, rfl⟩ := List.mem_map.1 hq
    exact ⟨hc1' x hx, le_refl _⟩
  by_cases hf : a.fixedCycle ≥ 2
  · rw [if_pos hf, if_pos (show (calm (factorMean m a.thermalPVar) a).fixedCycle ≥ 2 from hf)]
    refine mean_two hμ ha.v0 ha.v1 ha.p21 ha.p22 (fun y hy => ?_) (fun x hx => ?_) fun x y hx hy => replace_assign2 hμ ha hK hA h11 h12 hc1' hx hy
    · refine aff_congr (fun t _ => ?_) (aff_assign2 (μ := μ) ha hK (nnp_const h11) (nnp_const h12) hcc nnp_var (nnp_const hy))
      simp only [evp_const, evp_var, evl_const]
    · refine aff_congr (fun t _ => ?_) (aff_assign2 (μ := μ) ha hK (nnp_const h11) (nnp_const h12) hcc (nnp_const hx) nnp_var)
      simp only [evp_const, evp_var, evl_const]
  · rw [if_neg hf, if_neg (show ¬ (calm (factorMean m a.thermalPVar) a).fixedCycle ≥ 2 from hf)]
    exact hA c1 c1 c1 hc1' hc1' hc1'

theorem replace_assign [IsProbabilityMeasure μ] {m : ℚ} (hμ : MeanIs μ m) {a : Appliance} (ha : Powers a) {K K' : Appliance → ℝ≥0∞} (hK : LiftsC a K)
    (hA : AgreeC (factorMean m a.thermalPVar) a K K') (h0 : a.fixedCycle < 1 → K a = K' (calm (factorMean m a.thermalPVar) a)) :
    MeanOf μ (assignRandomCycles a) K = MeanOf μ (assignRandomCycles (calm (factorMean m a.thermalPVar) a)) K' := by
  rw [mean_assign, mean_assign]
  by_cases hf : a.fixedCycle ≥ 1
  · rw [if_pos hf, if_pos (show (calm (factorMean m a.thermalPVar) a).fixedCycle ≥ 1 from hf)]
    refine mean_two hμ ha.v0 ha.v1 ha.p11 ha.p12 (fun y hy => ?_) (fun x hx => ?_) fun x y hx hy => replace_assign1 hμ ha hK hA hx hy
    · refine aff_congr (fun t _ => ?_) (aff_assign1 (μ := μ) ha hK nnp_var (nnp_const hy))
      simp only [evp_const, evp_var]
    · refine aff_congr (fun t _ => ?_) (aff_assign1 (μ := μ) ha hK (nnp_const hx) nnp_var)
      simp only [evp_const, evp_var]
  · rw [if_neg hf, if_neg (show ¬ (calm (factorMean m a.thermalPVar) a).fixedCycle ≥ 1 from hf)]
    exact h0 (by omega)

end Ramp
