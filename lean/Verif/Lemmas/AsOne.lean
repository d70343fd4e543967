import Verif.Lemmas.UnbiasedDay
import Verif.Lemmas.Switch
import Verif.Props.Frequency

/-! # Several appliances can be replaced by one: the number switched on together, replaced by its average -/

set_option autoImplicit false

open MeasureTheory ENNReal

namespace Ramp

variable {μ : Measure Draw} {α : Type}

/-- A relation between expected values that passes to averages: `≤`, `≥` or `=`. -/
structure MeanOrder (μ : Measure Draw) (R : ℝ≥0∞ → ℝ≥0∞ → Prop) : Prop where
  refl : ∀ x, R x x
  trans : ∀ x y z, R x y → R y z → R x z
  mean : ∀ {α : Type} (m : Sim α) (f g : α → ℝ≥0∞), (∀ x, Returns m x → R (f x) (g x)) → R (MeanOf μ m f) (MeanOf μ m g)

theorem meanOf_le' {m : Sim α} {g g' : α → ℝ≥0∞} (h : ∀ a, Returns m a → g a ≤ g' a) : MeanOf μ m g ≤ MeanOf μ m g' := by
  classical
  rw [meanOf_congr (g := g) (g' := fun a => if Returns m a then g a else 0) fun a ha => by rw [if_pos ha]]
  refine meanOf_le fun a => ?_
  split_ifs with ha
  · exact h a ha
  · exact zero_le

theorem order_le : MeanOrder μ (· ≤ ·) := ⟨fun _ => le_refl _, fun _ _ _ => le_trans, fun _ _ _ h => meanOf_le' h⟩
theorem order_ge : MeanOrder μ (· ≥ ·) := ⟨fun _ => le_refl _, fun _ _ _ h1 h2 => le_trans h2 h1, fun _ _ _ h => meanOf_le' h⟩
theorem order_eq : MeanOrder μ (· = ·) := ⟨fun _ => rfl, fun _ _ _ h1 h2 => h1.trans h2, fun _ _ _ h => meanOf_congr h⟩

/-- Drawing the number switched on together compares with the number `c`. -/
def Averages (μ : Measure Draw) (R : ℝ≥0∞ → ℝ≥0∞ → Prop) (a : Appliance) (inside : Bool) (c : ℚ) : Prop :=
  ∀ K : ℚ → ℝ≥0∞, Aff K → R (MeanOf μ (calcCoincidentSwitchOn a inside) (fun j => K (j : ℚ))) (K c)

/-- In the middle of a run: one appliance with `c` times the power. -/
def oneRun (c : ℚ) (a : Appliance) : Appliance :=
  { withPowers c a with number := 1, fixed := "yes", randomCycle1 := a.randomCycle1.map (c * ·), randomCycle2 := a.randomCycle2.map (c * ·), randomCycle3 := a.randomCycle3.map (c * ·) }

/-- All free minutes are in `S`. -/
def Tracked (S : ℤ → Prop) (l : List Spot) : Prop := ∀ s ∈ l, s.start ≤ s.stop ∧ ∀ m, s.start ≤ m → m < s.stop → S m

/-- In the middle of a run of `a0`. -/
structure OKO (a0 : Appliance) (S : ℤ → Prop) (a : Appliance) : Prop where
  number : a.number = a0.number
  fixed : a.fixed = a0.fixed
  var : a.thermalPVar = a0.thermalPVar
  fc : a.funcCycle = a0.funcCycle
  use : ∀ i, 0 ≤ a.dailyUse i
  c1 : ∀ x ∈ a.randomCycle1, 0 ≤ x
  c2 : ∀ x ∈ a.randomCycle2, 0 ≤ x
  c3 : ∀ x ∈ a.randomCycle3, 0 ≤ x
  spots : Tracked S a.freeSpots

/-- The setting: what is assumed of the appliance and of the random numbers. -/
structure OneSetting (μ : Measure Draw) (R : ℝ≥0∞ → ℝ≥0∞ → Prop) (a0 : Appliance) (S : ℤ → Prop) (peak : List ℤ) (c : ℚ) : Prop where
  order : MeanOrder μ R
  number : 1 ≤ a0.number
  v0 : 0 ≤ a0.thermalPVar
  v1 : a0.thermalPVar ≤ 1
  fc : 1 ≤ a0.funcCycle
  c0 : 0 ≤ c
  avg : ∀ i0 i1 q0 q1, i0 ≤ i1 → (∀ m, i0 ≤ m → m ≤ i1 → S m) → peak.head? = some q0 → peak.getLast? = some q1 →
    Averages μ R a0 (withinPeakTimeWindow i0 i1 q0 q1) c

theorem OKO.okb {R : ℝ≥0∞ → ℝ≥0∞ → Prop} {a0 : Appliance} {S : ℤ → Prop} {peak : List ℤ} {c : ℚ} (st : OneSetting μ R a0 S peak c) {a : Appliance} (h : OKO a0 S a) : OKB a :=
  ⟨by rw [h.number]; exact st.number, by rw [h.var]; exact st.v0, by rw [h.var]; exact st.v1⟩

/-! ## A single appliance -/

theorem onNumber_one (p : ℚ) : onNumber p 1 = 1 := by
  unfold onNumber
  have : List.range (1 : ℤ).toNat = [0] := by decide
  rw [this]
  by_cases h : p ≥ ((0 : ℕ) : ℚ) / ((1 : ℤ) : ℚ)
  · rw [List.filter_cons_of_pos (by simpa using h)]
    rfl
  · rw [List.filter_cons_of_neg (by simpa using h)]
    rfl

theorem never_uniform (x y : ℚ) : NeverRaises (uniform x y) := fun _ ⟨_, h⟩ => by cases h

theorem never_gauss (x y : ℚ) : NeverRaises (gauss x y) := fun _ ⟨_, h⟩ => by cases h

theorem mean_one_number [IsProbabilityMeasure μ] {a : Appliance} (h : a.number = 1) (inside : Bool) (K : ℤ → ℝ≥0∞) : MeanOf μ (calcCoincidentSwitchOn a inside) K = K 1 := by
  have h1 : ∀ (m : Sim ℚ) (f : ℚ → ℤ), Finitary m → NeverRaises m → (∀ x, f x = 1) → MeanOf μ (m >>= fun x => pure (f x)) K = K 1 := by
    intro m f hm hn hf
    rw [meanOf_bind hm fun _ => fin_pure _]
    simp only [meanOf_pure, hf]
    exact meanOf_const hn _
  unfold calcCoincidentSwitchOn
  simp only
  split_ifs with g1 g2 g3
  · refine h1 _ _ (fin_gauss _ _) (never_gauss _ _) fun x => ?_
    rw [h]
    exact min_eq_left (le_max_left _ _)
  · omega
  · refine h1 _ _ (fin_uniform _ _) (never_uniform _ _) fun x => ?_
    rw [h]
    exact onNumber_one x
  · rw [meanOf_pure, h]

/-! ## One event -/

theorem aff_comp {F : ℚ → ℝ≥0∞} (h : Aff F) {k : ℚ} (hk : 0 ≤ k) : Aff (fun x => F (x * k)) := by
  obtain ⟨a, b, h⟩ := h
  refine ⟨a, b * ENNReal.ofReal (k : ℝ), fun t ht => ?_⟩
  beta_reduce
  rw [h _ (mul_nonneg ht hk), Rat.cast_mul, ENNReal.ofReal_mul (by exact_mod_cast ht)]
  ring

/-- The samples written by an event with duty cycles when `x` appliances are switched on. -/
def valuesQ (a : Appliance) (x : ℚ) : List ℚ :=
  if a.currentDutyCycleId = 1 then a.randomCycle1.map (· * x)
  else if a.currentDutyCycleId = 2 then a.randomCycle2.map (· * x)
  else if a.currentDutyCycleId = 3 then a.randomCycle3.map (· * x) else []

theorem valuesQ_int (a : Appliance) (j : ℤ) : valuesOf a j = valuesQ a (j : ℚ) := rfl

theorem valuesQ_one (c : ℚ) (a : Appliance) : valuesOf (oneRun c a) 1 = valuesQ a c := by
  have e : ∀ l : List ℚ, (l.map (c * ·)).map (· * ((1 : ℤ) : ℚ)) = l.map (· * c) := by
    intro l
    rw [List.map_map]
    refine List.map_congr_left fun x _ => ?_
    simp only [Function.comp_apply, Int.cast_one, mul_one]
    exact mul_comm _ _
  unfold valuesOf valuesQ oneRun
  simp only [e]
  rfl

theorem valuesQ_nonneg {a0 : Appliance} {S : ℤ → Prop} {a : Appliance} (h : OKO a0 S a) {x : ℚ} (hx : 0 ≤ x) : ∀ y ∈ valuesQ a x, 0 ≤ y := by
  have key : ∀ l : List ℚ, (∀ y ∈ l, 0 ≤ y) → ∀ y ∈ l.map (· * x), 0 ≤ y := by
    intro l hl y hy
    obtain ⟨z, hz, rfl⟩ := List.mem_map.1 hy
    exact mul_nonneg (hl z hz) hx
  unfold valuesQ
  split_ifs
  · exact key _ h.c1
  · exact key _ h.c2
  · exact key _ h.c3
  · intro y hy
    cases hy

theorem valuesQ_family (a : Appliance) (h1 : ∀ x ∈ a.randomCycle1, 0 ≤ x) (h2 : ∀ x ∈ a.randomCycle2, 0 ≤ x) (h3 : ∀ x ∈ a.randomCycle3, 0 ≤ x) :
    ∃ V : List (ℚ × ℚ), (∀ q ∈ V, 0 ≤ q.1 ∧ 0 ≤ q.2) ∧ ∀ t, valuesQ a t = evl t V := by
  have key : ∀ l : List ℚ, (∀ y ∈ l, 0 ≤ y) → (∀ q ∈ l.map (fun y => ((0 : ℚ), y)), 0 ≤ q.1 ∧ 0 ≤ q.2) ∧ ∀ t, l.map (· * t) = evl t (l.map (fun y => ((0 : ℚ), y))) := by
    intro l hl
    refine ⟨fun q hq => ?_, fun t => ?_⟩
    · obtain ⟨y, hy, rfl⟩ := List.mem_map.1 hq
      exact ⟨le_refl _, hl y hy⟩
    · unfold evl
      rw [List.map_map]
      refine List.map_congr_left fun y _ => ?_
      simp only [Function.comp_apply]
      ring
  unfold valuesQ
  split_ifs
  · exact ⟨_, key _ h1⟩
  · exact ⟨_, key _ h2⟩
  · exact ⟨_, key _ h3⟩
  · exact ⟨[], by simp, fun t => rfl⟩

/-- What follows a put of samples that depend on `t` is affine in `t`. -/
theorem aff_putV [IsProbabilityMeasure μ] {G : Appliance → ℝ≥0∞} (hG : Lifts G) {a : Appliance} (hb : OKB a) (hu : ∀ i, 0 ≤ a.dailyUse i) (h1 : ∀ x ∈ a.randomCycle1, 0 ≤ x)
    (h2 : ∀ x ∈ a.randomCycle2, 0 ≤ x) (h3 : ∀ x ∈ a.randomCycle3, 0 ≤ x) (l : List ℤ) {V : List (ℚ × ℚ)} (hV : ∀ q ∈ V, 0 ≤ q.1 ∧ 0 ≤ q.2) :
    Aff (fun x => MeanOf μ (liftE (npPut a.dailyUse l (evl x V)) >>= finishUpdate a l) G) := by
  have hc : ∀ {c : List ℚ}, (∀ x ∈ c, 0 ≤ x) → ∀ q ∈ c.map (fun x => (x, (0 : ℚ))), 0 ≤ q.1 ∧ 0 ≤ q.2 := by
    intro c h q hq
    obtain ⟨x, hx, rfl⟩ := List.mem_map.1 hq
    exact ⟨h x hx, le_refl _⟩
  rcases put_fam (V := V) hV l hu (y := zeros) (fun _ => le_refl _) with ⟨e, h4⟩ | ⟨x', y', h4, h5, h6⟩
  · refine aff_congr (fun t _ => ?_) (aff_const 0)
    have := h4 t
    rw [fam_zero] at this
    rw [mean_put, this]
  · cases hs : updateAvailableTime a.freeSpots l with
    | error e =>
      refine aff_congr (fun t _ => ?_) (aff_const 0)
      have := h6 t
      rw [fam_zero] at this
      rw [mean_put, this, hs]
    | ok s =>
      refine aff_congr (fun t _ => ?_) (hG { a with freeSpots := s } x' y' (a.randomCycle1.map (fun x => (x, 0))) (a.randomCycle2.map (fun x => (x, 0))) (a.randomCycle3.map (fun x => (x, 0)))
        ⟨hb.number, hb.v0, hb.v1⟩ ⟨h4, h5, hc h1, hc h2, hc h3⟩)
      have := h6 t
      rw [fam_zero] at this
      rw [mean_put, this, hs]
      simp only
      unfold st
      rw [evl_const, evl_const, evl_const]

/-- The expected value after an event with `x` appliances. -/
noncomputable def afterPut (μ : Measure Draw) (a : Appliance) (power : ℚ) (l : List ℤ) (G : Appliance → ℝ≥0∞) (x : ℚ) : ℝ≥0∞ :=
  if a.fixedCycle > 0 then MeanOf μ (liftE (npPut a.dailyUse l (valuesQ a x)) >>= finishUpdate a l) G
  else MeanOf μ (uniform (1 - a.thermalPVar) (1 + a.thermalPVar)) (fun y => MeanOf μ (liftE (npPut a.dailyUse l [x * (power * y)]) >>= finishUpdate a l) G)

theorem mean_update [IsProbabilityMeasure μ] (a : Appliance) (j : ℤ) (power : ℚ) (l : List ℤ) (G : Appliance → ℝ≥0∞) :
    MeanOf μ (updateDailyUse a j power l) G = afterPut μ a power l G (j : ℚ) := by
  unfold afterPut
  split_ifs with hf
  · rw [update_duty hf, valuesQ_int]
  · rw [update_plain hf, meanOf_bind (fin_randomVariation _ _) fun _ => fin_bind (fin_liftE _) fun _ => fin_finishUpdate _ _ _]
    unfold randomVariation
    rw [meanOf_bind (fin_uniform _ _) fun _ => fin_pure _]
    simp only [meanOf_pure, mul_assoc]

theorem mean_update_one [IsProbabilityMeasure μ] (c : ℚ) (a : Appliance) (power : ℚ) (l : List ℤ) (G : Appliance → ℝ≥0∞) :
    MeanOf μ (updateDailyUse (oneRun c a) 1 (c * power) l) G =
      if a.fixedCycle > 0 then MeanOf μ (liftE (npPut a.dailyUse l (valuesQ a c)) >>= finishUpdate (oneRun c a) l) G
      else MeanOf μ (uniform (1 - a.thermalPVar) (1 + a.thermalPVar)) (fun y => MeanOf μ (liftE (npPut a.dailyUse l [c * (power * y)]) >>= finishUpdate (oneRun c a) l) G) := by
  split_ifs with hf
  · rw [update_duty (a := oneRun c a) hf, valuesQ_one]
    rfl
  · rw [update_plain (a := oneRun c a) hf, meanOf_bind (fin_randomVariation _ _) fun _ => fin_bind (fin_liftE _) fun _ => fin_finishUpdate _ _ _]
    unfold randomVariation
    rw [meanOf_bind (fin_uniform _ _) fun _ => fin_pure _]
    simp only [meanOf_pure]
    have e : ∀ y : ℚ, ((1 : ℤ) : ℚ) * (c * power) * y = c * (power * y) := fun y => by push_cast; ring
    simp only [e]
    rfl

theorem uniform_nonneg {v y : ℚ} (h0 : 0 ≤ v) (h1 : v ≤ 1) (hy : Returns (uniform (1 - v) (1 + v)) y) : 0 ≤ y := by
  refine Sat.ret (Q := fun y => 0 ≤ y) (E := fun _ => True) (sat_uniform fun u hu0 hu1 => ?_) hy
  have := mul_nonneg h0 hu0
  nlinarith

theorem aff_afterPut [IsProbabilityMeasure μ] {R : ℝ≥0∞ → ℝ≥0∞ → Prop} {a0 : Appliance} {S : ℤ → Prop} {peak : List ℤ} {c : ℚ} (st : OneSetting μ R a0 S peak c)
    {G : Appliance → ℝ≥0∞} (hG : Lifts G) {a : Appliance} (ha : OKO a0 S a) {power : ℚ} (hp : 0 ≤ power) (l : List ℤ) : Aff (afterPut μ a power l G) := by
  unfold afterPut
  by_cases hf : a.fixedCycle > 0
  · simp only [if_pos hf]
    obtain ⟨V, hV, hV'⟩ := valuesQ_family a ha.c1 ha.c2 ha.c3
    simp only [hV']
    exact aff_putV hG (ha.okb st) ha.use ha.c1 ha.c2 ha.c3 l hV
  · simp only [if_neg hf]
    refine aff_mean (fin_uniform _ _) fun y hy => ?_
    rw [ha.var] at hy
    have hy0 := uniform_nonneg st.v0 st.v1 hy
    have h := aff_comp (aff_putV (μ := μ) hG (ha.okb st) ha.use ha.c1 ha.c2 ha.c3 l (V := [((0 : ℚ), (1 : ℚ))]) (fun q hq => by rw [List.mem_singleton.1 hq]; norm_num))
      (mul_nonneg hp hy0)
    refine aff_congr (fun t _ => ?_) h
    have he : evl (t * (power * y)) [((0 : ℚ), (1 : ℚ))] = [t * (power * y)] := by
      show [0 + t * (power * y) * 1] = _
      rw [zero_add, mul_one]
    rw [he]

theorem tracked_update {S : ℤ → Prop} {spots s : List Spot} (h : Tracked S spots) {l : List ℤ} {i0 i1 : ℤ} (h0 : l.head? = some i0) (h1 : l.getLast? = some i1) (h01 : i0 ≤ i1)
    (hs : updateAvailableTime spots l = .ok s) : Tracked S s := by
  unfold updateAvailableTime at hs
  rw [h0, h1] at hs
  split_ifs at hs with hn
  · cases hs
    intro t ht
    cases ht
  · simp only at hs
    cases hs
    intro t ht
    obtain ⟨h2, t', ht', h3, h4⟩ := bookSpots_sub h01 (fun s hs => (h s hs).1) t ht
    exact ⟨h2, fun m hm1 hm2 => (h t' ht').2 m (by omega) (by omega)⟩

theorem one_put [IsProbabilityMeasure μ] {R : ℝ≥0∞ → ℝ≥0∞ → Prop} {a0 : Appliance} {S : ℤ → Prop} {peak : List ℤ} {c : ℚ} (st : OneSetting μ R a0 S peak c)
    {G G' : Appliance → ℝ≥0∞} (hG : ∀ a, OKO a0 S a → R (G a) (G' (oneRun c a))) {a : Appliance} (ha : OKO a0 S a) {l : List ℤ} {i0 i1 : ℤ} (h0 : l.head? = some i0)
    (h1 : l.getLast? = some i1) (h01 : i0 ≤ i1) {w : List ℚ} (hw : ∀ x ∈ w, 0 ≤ x) :
    R (MeanOf μ (liftE (npPut a.dailyUse l w) >>= finishUpdate a l) G) (MeanOf μ (liftE (npPut a.dailyUse l w) >>= finishUpdate (oneRun c a) l) G') := by
  have e : MeanOf μ (liftE (npPut a.dailyUse l w) >>= finishUpdate (oneRun c a) l) G' = _ := mean_put (oneRun c a) l w G'
  rw [mean_put, e]
  have e1 : (oneRun c a).dailyUse = a.dailyUse := rfl
  have e2 : (oneRun c a).freeSpots = a.freeSpots := rfl
  rw [e1, e2]
  cases hp : npPut a.dailyUse l w with
  | error e => exact st.order.refl _
  | ok d =>
    cases hs : updateAvailableTime a.freeSpots l with
    | error e => exact st.order.refl _
    | ok s =>
      exact hG { a with dailyUse := d, freeSpots := s } ⟨ha.number, ha.fixed, ha.var, ha.fc, put_nonneg ha.use hw hp, ha.c1, ha.c2, ha.c3, tracked_update ha.spots h0 h1 h01 hs⟩

theorem one_book [IsProbabilityMeasure μ] {R : ℝ≥0∞ → ℝ≥0∞ → Prop} {a0 : Appliance} {S : ℤ → Prop} {peak : List ℤ} {c : ℚ} (st : OneSetting μ R a0 S peak c)
    {G G' : Appliance → ℝ≥0∞} (hL : Lifts G) (hG : ∀ a, OKO a0 S a → R (G a) (G' (oneRun c a))) {a : Appliance} (ha : OKO a0 S a) {power : ℚ} (hp : 0 ≤ power) {l : List ℤ} {i0 i1 : ℤ}
    (h0 : l.head? = some i0) (h1 : l.getLast? = some i1) (h01 : i0 ≤ i1) (hS : ∀ m, i0 ≤ m → m ≤ i1 → S m) :
    R (MeanOf μ (bookEvent a peak power l) (fun x => G x.1)) (MeanOf μ (bookEvent (oneRun c a) peak (c * power) l) (fun x => G' x.1)) := by
  unfold bookEvent
  rw [h0, h1]
  cases hq0 : peak.head? with
  | none =>
    simp only [meanOf_raise]
    exact st.order.refl _
  | some q0 =>
    cases hq1 : peak.getLast? with
    | none =>
      simp only [meanOf_raise]
      exact st.order.refl _
    | some q1 =>
      simp only
      rw [meanOf_bind (fin_calcCoincident _ _) fun _ => fin_bind (fin_updateDailyUse _ _ _ _) fun _ => fin_pure _,
        meanOf_bind (fin_calcCoincident _ _) fun _ => fin_bind (fin_updateDailyUse _ _ _ _) fun _ => fin_pure _, mean_one_number (a := oneRun c a) rfl,
        meanOf_bind (fin_updateDailyUse _ _ _ _) fun _ => fin_pure _]
      simp only [meanOf_pure]
      have e : ∀ j : ℤ, MeanOf μ (updateDailyUse a j power l >>= fun b => (pure (b, j) : Sim (Appliance × ℤ))) (fun x => G x.1) = afterPut μ a power l G (j : ℚ) := by
        intro j
        rw [meanOf_bind (fin_updateDailyUse _ _ _ _) fun _ => fin_pure _]
        simp only [meanOf_pure]
        exact mean_update a j power l G
      simp only [e]
      rw [calcCoincident_congr (app := a0) (app' := a) _ ha.number ha.fixed]
      refine st.order.trans _ _ _ (st.avg i0 i1 q0 q1 h01 hS hq0 hq1 _ (aff_afterPut st hL ha hp l)) ?_
      rw [mean_update_one]
      unfold afterPut
      split_ifs with hf
      · exact one_put st hG ha h0 h1 h01 (valuesQ_nonneg ha st.c0)
      · refine st.order.mean _ _ _ fun y hy => one_put st hG ha h0 h1 h01 fun x hx => ?_
        rw [ha.var] at hy
        rw [List.mem_singleton.1 hx]
        exact mul_nonneg st.c0 (mul_nonneg hp (uniform_nonneg st.v0 st.v1 hy))

/-! ## The events of a day -/

theorem skeleton_one (c : ℚ) (a : Appliance) : Skeleton a (oneRun c a) :=
  ⟨rfl, rfl, rfl, rfl, rfl, rfl, rfl, rfl, rfl, rfl, List.length_map _, List.length_map _, List.length_map _, rfl⟩

theorem rel_log (depth : ℕ) (peak : List ℤ) (power : ℚ) (rt : ℤ) : ∀ (fuel : ℕ) (a : Appliance) (tot : ℤ) (l l' : List Booking),
    Rel (switchOnLoop depth peak power rt fuel a tot l) (switchOnLoop depth peak power rt fuel a tot l') (fun x y => x.1 = y.1) := by
  intro fuel
  induction fuel with
  | zero => exact fun a tot l l' => rel_raise
  | succ fuel ih =>
    intro a tot l l'
    rw [loop_succ, loop_succ]
    refine rel_ite (fun _ => rel_bind_same fun p => ?_) fun _ => rel_pure rfl
    unfold afterEvent
    cases p.2 with
    | none => exact rel_pure rfl
    | some ev => exact rel_ite (fun _ => rel_ite (fun _ => rel_bind_same fun x => rel_pure rfl) fun _ => rel_pure rfl) fun _ => rel_bind_same fun x => ih _ _ _ _

theorem one_loop [IsProbabilityMeasure μ] {R : ℝ≥0∞ → ℝ≥0∞ → Prop} {a0 : Appliance} {S : ℤ → Prop} {peak : List ℤ} {c : ℚ} (st : OneSetting μ R a0 S peak c)
    {H H' : Appliance → ℝ≥0∞} (hL : Lifts H) (hH : ∀ a, OKO a0 S a → R (H a) (H' (oneRun c a))) (depth : ℕ) {power : ℚ} (hp : 0 ≤ power) {rt : ℤ} (hrt : a0.funcCycle ≤ rt) :
    ∀ (fuel : ℕ) (tot : ℤ) (log : List Booking) {a : Appliance}, OKO a0 S a → R (MeanOf μ (switchOnLoop depth peak power rt fuel a tot log) (fun p => H p.1))
      (MeanOf μ (switchOnLoop depth peak (c * power) rt fuel (oneRun c a) tot log) (fun p => H' p.1)) := by
  intro fuel
  induction fuel with
  | zero =>
    intro tot log a _
    rw [show switchOnLoop depth peak power rt 0 a tot log = raise .diverge from rfl, show switchOnLoop depth peak (c * power) rt 0 (oneRun c a) tot log = raise .diverge from rfl, meanOf_raise,
      meanOf_raise]
    exact st.order.refl _
  | succ fuel ih =>
    intro tot log a ha
    by_cases hc : tot ≤ rt ∧ rt ≠ 0
    · rw [loop_succ, loop_succ, if_pos hc, if_pos hc, meanOf_bind (fin_randSwitchOnWindow _ _ _) fun _ => fin_afterEvent _ _ _ _ _ _ _ _,
        meanOf_bind (fin_randSwitchOnWindow _ _ _) fun _ => fin_afterEvent _ _ _ _ _ _ _ _, meanOf_rel (rel_skeleton rt (skeleton_one c a) depth)]
      refine st.order.mean _ _ _ fun p hpr => ?_
      obtain ⟨_, hp1, _⟩ := rel_left (rel_skeleton rt (skeleton_one c a) depth) hpr
      have hok : OKO a0 S p.1 := by
        rw [hp1]
        exact ⟨ha.number, ha.fixed, ha.var, ha.fc, ha.use, ha.c1, ha.c2, ha.c3, ha.spots⟩
      have hone : setDuty p.1.currentDutyCycleId (oneRun c a) = oneRun c p.1 := by
        conv_rhs => rw [hp1]
        rfl
      rw [hone]
      have hev : ∀ ev, p.2 = some ev → ∃ s ∈ a.freeSpots, ∃ (x : ℤ) (n : ℤ), ev.indexes = arange x (x + n) ∧ s.start ≤ x ∧ x + n ≤ s.stop := by
        intro ev he
        rcases (sat_randSwitchOnWindow depth a rt (by rw [ha.fc]; exact st.fc) (by rw [ha.fc]; exact hrt)).ret hpr with ⟨h, _⟩ | ⟨ev', he', s, hs, x, d, hd, hsx, hxd, hfc, hdr, hcase⟩
        · rw [he] at h
          cases h
        · rw [he] at he'
          cases he'
          rcases hcase with ⟨_, _, hi⟩ | ⟨_, i, _, _, hi⟩
          · exact ⟨s, hs, x, d, hi.trans hd, hsx, hxd⟩
          · refine ⟨s, hs, x, _, hi, hsx, ?_⟩
            split_ifs
            · have := min_le_left d ((dutyCycleOf a i).length : ℤ)
              omega
            · exact hxd
      -- what happens when `l`, a part of the event, is booked
      have hbook : ∀ (l : List ℤ) (ev : SwitchOn), p.2 = some ev → (∃ n, n ≤ ev.indexes.length ∧ l = ev.indexes.take n) → ∀ {G G' : Appliance → ℝ≥0∞}, Lifts G →
          (∀ b, OKO a0 S b → R (G b) (G' (oneRun c b))) →
          R (MeanOf μ (bookEvent p.1 peak power l) (fun x => G x.1)) (MeanOf μ (bookEvent (oneRun c p.1) peak (c * power) l) (fun x => G' x.1)) := by
        rintro l ev he ⟨n, hn, rfl⟩ G G' hLG hG
        obtain ⟨s, hs, x, k, hi, hsx, hxk⟩ := hev ev he
        rw [hi] at hn ⊢
        rw [length_arange] at hn
        by_cases hn0 : n = 0
        · subst hn0
          rw [List.take_zero]
          have e : ∀ b q, bookEvent b peak q [] = raise .indexError := fun b q => rfl
          rw [e, e, meanOf_raise, meanOf_raise]
          exact st.order.refl _
        · rw [take_arange _ _ _ (by omega)]
          refine one_book st hLG hG hok hp (i0 := x) (i1 := x + n - 1) (head?_arange (by omega)) (getLast?_arange (by omega)) (by omega) fun m h1 h2 => ?_
          exact (ha.spots s hs).2 m (by omega) (by omega)
      unfold afterEvent
      obtain ⟨b, ev⟩ := p
      simp only at hok hbook ⊢
      cases ev with
      | none =>
        simp only [meanOf_pure]
        exact hH b hok
      | some ev =>
        obtain ⟨drawn, indexes⟩ := ev
        simp only
        split_ifs with g1 g2
        · rw [meanOf_bind (fin_bookEvent _ _ _ _) fun _ => fin_pure _, meanOf_bind (fin_bookEvent _ _ _ _) fun _ => fin_pure _]
          simp only [meanOf_pure]
          exact hbook _ _ rfl ⟨_, Nat.sub_le _ _, rfl⟩ hL hH
        · rw [meanOf_pure, meanOf_pure]
          exact hH b hok
        · rw [meanOf_bind (fin_bookEvent _ _ _ _) fun _ => fin_switchOnLoop _ _ _ _ _ _ _ _, meanOf_bind (fin_bookEvent _ _ _ _) fun _ => fin_switchOnLoop _ _ _ _ _ _ _ _]
          have e1 : ∀ x : Appliance × ℤ, MeanOf μ (switchOnLoop depth peak power rt fuel x.1 (tot + indexes.length) (⟨drawn, indexes, x.2, x.1.currentDutyCycleId⟩ :: log)) (fun p => H p.1) =
              MeanOf μ (switchOnLoop depth peak power rt fuel x.1 (tot + indexes.length) []) (fun p => H p.1) := fun x =>
            mean_of_rel (rel_log _ _ _ _ _ _ _ _ _) fun y z h => by rw [h]
          have e2 : ∀ x : Appliance × ℤ, MeanOf μ (switchOnLoop depth peak (c * power) rt fuel x.1 (tot + indexes.length) (⟨drawn, indexes, x.2, x.1.currentDutyCycleId⟩ :: log)) (fun p => H' p.1) =
              MeanOf μ (switchOnLoop depth peak (c * power) rt fuel x.1 (tot + indexes.length) []) (fun p => H' p.1) := fun x =>
            mean_of_rel (rel_log _ _ _ _ _ _ _ _ _) fun y z h => by rw [h]
          simp only [e1, e2]
          exact hbook indexes _ rfl ⟨indexes.length, le_refl _, (List.take_length).symm⟩ (lifts_loop (μ := μ) hL depth peak hp rt fuel (tot + indexes.length) [])
            (G' := fun b => MeanOf μ (switchOnLoop depth peak (c * power) rt fuel b (tot + indexes.length) []) (fun p => H' p.1)) fun b hb => ih _ _ hb
    · rw [loop_succ, loop_succ, if_neg hc, if_neg hc, meanOf_pure, meanOf_pure]
      exact hH a ha

theorem rel_one_assign {c : ℚ} {a : Appliance} (h1 : a.randomCycle1 = []) (h2 : a.randomCycle2 = []) (h3 : a.randomCycle3 = []) :
    Rel (assignRandomCycles a) (assignRandomCycles (oneRun c a)) (fun x y => y = oneRun c x) := by
  have e : oneRun c a = { withPowers c a with number := 1, fixed := "yes" } := by
    unfold oneRun
    rw [h1, h2, h3]
    obtain ⟨⟩ := a
    subst h1 h2 h3
    rfl
  conv in assignRandomCycles (oneRun c a) => rw [e]
  unfold withPowers assignRandomCycles
  simp only
  refine rel_ite (fun hf => ?_) (fun hf => rel_pure (by rw [e]; rfl))
  refine rel_bind (rel_variation _ c _ _ rfl) fun p11 q11 e11 => rel_bind (rel_variation _ c _ _ rfl) fun p12 q12 e12 => ?_
  refine rel_bind (rel_scaled_duty e11 e12) fun x1 y1 h1 => ?_
  subst h1
  refine rel_ite (fun _ => ?_) (fun _ => rel_pure rfl)
  refine rel_bind (rel_variation _ c _ _ rfl) fun p21 q21 e21 => rel_bind (rel_variation _ c _ _ rfl) fun p22 q22 e22 => ?_
  refine rel_bind (rel_scaled_duty e21 e22) fun x2 y2 h2 => ?_
  subst h2
  refine rel_ite (fun _ => ?_) (fun _ => rel_pure rfl)
  refine rel_bind (rel_variation _ c _ _ rfl) fun p31 q31 e31 => rel_bind (rel_variation _ c _ _ rfl) fun p32 q32 e32 => ?_
  refine rel_bind (rel_scaled_choice e11 e12) fun x1' y1' h1' => rel_bind (rel_scaled_choice e21 e22) fun x2' y2' h2' =>
    rel_bind (rel_scaled_choice e31 e32) fun x3' y3' h3' => ?_
  subst h1' h2' h3'
  exact rel_pure rfl

/-- What the cycles of the day leave unchanged, and that their samples are not negative. -/
theorem sat_assign {a : Appliance} (ha : Powers a) (h1 : a.randomCycle1 = []) (h2 : a.randomCycle2 = []) (h3 : a.randomCycle3 = []) :
    Sat (assignRandomCycles a) (fun b => ∃ c1 c2 c3, b = { a with randomCycle1 := c1, randomCycle2 := c2, randomCycle3 := c3 } ∧ (∀ x ∈ c1, 0 ≤ x) ∧ (∀ x ∈ c2, 0 ≤ x) ∧ ∀ x ∈ c3, 0 ≤ x)
      (fun _ => True) := by
  have hs : ∀ {v p : ℚ}, 0 ≤ v → v ≤ 1 → 0 ≤ p → Sat (randomVariation v p) (fun x => 0 ≤ x) (fun _ => True) := fun h0 h1 hp =>
    sat_iff.2 ⟨fun x hx => returns_variation h0 h1 hp hx, fun _ _ => trivial⟩
  have hd : ∀ {r t1 t2 p1 p2}, 0 ≤ p1 → 0 ≤ p2 → Sat (dutyCycle r t1 p1 t2 p2) (fun c => ∀ x ∈ c, 0 ≤ x) (fun _ => True) := fun h1 h2 =>
    sat_iff.2 ⟨fun c hc => returns_duty_nonneg h1 h2 hc, fun _ _ => trivial⟩
  have hch : ∀ {r t1 t2 p1 p2}, 0 ≤ p1 → 0 ≤ p2 → Sat (randomChoice r t1 p1 t2 p2) (fun c => ∀ x ∈ c, 0 ≤ x) (fun _ => True) := fun h1 h2 =>
    sat_iff.2 ⟨fun c hc => returns_choice_nonneg h1 h2 hc, fun _ _ => trivial⟩
  have hnil : ∀ x ∈ ([] : List ℚ), 0 ≤ x := by simp
  unfold assignRandomCycles
  refine sat_ite (fun _ => ?_) (fun _ => sat_pure ⟨a.randomCycle1, a.randomCycle2, a.randomCycle3, rfl, by rw [h1]; exact hnil, by rw [h2]; exact hnil, by rw [h3]; exact hnil⟩)
  refine sat_bind' (hs ha.v0 ha.v1 ha.p11) fun p11 e11 => sat_bind' (hs ha.v0 ha.v1 ha.p12) fun p12 e12 => sat_bind' (hd e11 e12) fun c1 hc1 => ?_
  simp only
  refine sat_ite (fun _ => ?_) (fun _ => sat_pure ⟨c1, c1, c1, rfl, hc1, hc1, hc1⟩)
  refine sat_bind' (hs ha.v0 ha.v1 ha.p21) fun p21 e21 => sat_bind' (hs ha.v0 ha.v1 ha.p22) fun p22 e22 => sat_bind' (hd e21 e22) fun c2 hc2 => ?_
  refine sat_ite (fun _ => ?_) (fun _ => sat_pure ⟨c1, c2, c1, rfl, hc1, hc2, hc1⟩)
  refine sat_bind' (hs ha.v0 ha.v1 ha.p31) fun p31 e31 => sat_bind' (hs ha.v0 ha.v1 ha.p32) fun p32 e32 => ?_
  exact sat_bind' (hch e11 e12) fun c1' h1' => sat_bind' (hch e21 e22) fun c2' h2' => sat_bind' (hch e31 e32) fun c3' h3' => sat_pure ⟨c1', c2', c3', rfl, h1', h2', h3'⟩

theorem one_events [IsProbabilityMeasure μ] {R : ℝ≥0∞ → ℝ≥0∞ → Prop} {a : Appliance} {S : ℤ → Prop} {peak : List ℤ} {c : ℚ} (st : OneSetting μ R a S peak c)
    (ha : Powers a) (hd : ∀ i, 0 ≤ a.dailyUse i) (h1 : a.randomCycle1 = []) (h2 : a.randomCycle2 = []) (h3 : a.randomCycle3 = []) {power : ℚ} (hp : 0 ≤ power)
    {H H' : Appliance → ℝ≥0∞} (hL : Lifts H) (hH : ∀ b, OKO a S b → R (H b) (H' (oneRun c b))) (depth : ℕ) {s : List Spot} (hs : Tracked S s) {rt : ℤ} (hrt : a.funcCycle ≤ rt) :
    R (MeanOf μ (eventsRun a depth peak power s rt) H) (MeanOf μ (eventsRun (oneRun c a) depth peak (c * power) s rt) H') := by
  rw [mean_events, mean_events, meanOf_rel (m := assignRandomCycles a) (P := fun _ => True) (F := oneRun c) (fun r => (rel_one_assign h1 h2 h3 r).imp id
    fun ⟨x, y, r', e1, e2, e3⟩ => ⟨x, y, r', e1, e2, trivial, e3⟩)]
  refine st.order.mean _ _ _ fun b hb => ?_
  obtain ⟨c1, c2, c3, rfl, n1, n2, n3⟩ := (sat_assign ha h1 h2 h3).ret hb
  exact one_loop st hL hH depth hp hrt _ 0 [] (a := { a with randomCycle1 := c1, randomCycle2 := c2, randomCycle3 := c3, freeSpots := s }) ⟨rfl, rfl, rfl, rfl, hd, n1, n2, n3, hs⟩

theorem setting_of {R : ℝ≥0∞ → ℝ≥0∞ → Prop} {a b : Appliance} {S : ℤ → Prop} {peak : List ℤ} {c : ℚ} (st : OneSetting μ R a S peak c) (h1 : b.number = a.number)
    (h2 : b.thermalPVar = a.thermalPVar) (h3 : b.funcCycle = a.funcCycle) (h4 : b.fixed = a.fixed) : OneSetting μ R b S peak c :=
  ⟨st.order, by rw [h1]; exact st.number, by rw [h2]; exact st.v0, by rw [h2]; exact st.v1, by rw [h3]; exact st.fc, st.c0, fun i0 i1 q0 q1 e1 e2 e3 e4 K hK => by
    rw [calcCoincident_congr _ h1 h4]
    exact st.avg i0 i1 q0 q1 e1 e2 e3 e4 K hK⟩

theorem one_clean [IsProbabilityMeasure μ] {R : ℝ≥0∞ → ℝ≥0∞ → Prop} {a : Appliance} {S : ℤ → Prop} {peak : List ℤ} {c : ℚ} (st : OneSetting μ R a S peak c)
    (ha : Powers a) (hfl : a.flat ≠ "yes") (h1 : a.randomCycle1 = []) (h2 : a.randomCycle2 = []) (h3 : a.randomCycle3 = []) {power : ℚ} (hp : 0 ≤ power) (depth : ℕ) (pref : ℤ)
    (k : ℕ) (dt : ℤ) (hw : ∀ w1 w2 w3 rt, Returns (beginRun a pref dt) (some (w1, w2, w3, rt)) → Tracked S (initialSpots [w1, w2, w3]) ∧ a.funcCycle ≤ rt) (i : Fin 1440) :
    R (MeanOf μ (generateLoadProfile a depth pref k peak dt power) (fun b => ENNReal.ofReal ((b.dailyUse i : ℚ) : ℝ)))
      (MeanOf μ (generateLoadProfile (oneRun c a) depth pref k peak dt (c * power)) (fun b => ENNReal.ofReal ((b.dailyUse i : ℚ) : ℝ))) := by
  rw [generate_split hfl, generate_split (a := oneRun c a) hfl, meanOf_bind (fin_beginRun _ _ _) fun _ => fin_restRun _ _ _ _ _,
    meanOf_bind (fin_beginRun _ _ _) fun _ => fin_restRun _ _ _ _ _]
  have e : beginRun (oneRun c a) pref dt = beginRun a pref dt := rfl
  rw [e]
  refine st.order.mean _ _ _ fun o ho => ?_
  cases o with
  | none =>
    unfold restRun
    rw [meanOf_pure, meanOf_pure]
    exact st.order.refl _
  | some o =>
    obtain ⟨w1, w2, w3, rt⟩ := o
    obtain ⟨hw1, hw2⟩ := hw w1 w2 w3 rt ho
    unfold restRun
    simp only
    rw [meanOf_bind (fin_liftE _) fun _ => fin_eventsRun _ _ _ _ _ _, meanOf_bind (fin_liftE _) fun _ => fin_eventsRun _ _ _ _ _ _, meanOf_liftE, meanOf_liftE]
    cases hf : fillWindows w1 w2 w3 (1 / 1000) with
    | error e => exact st.order.refl _
    | ok d =>
      simp only
      exact one_events (a := { a with dailyUse := d }) (setting_of st rfl rfl rfl rfl) ⟨ha.v0, ha.v1, ha.p11, ha.p12, ha.p21, ha.p22, ha.p31, ha.p32⟩
        (fun j => by rcases fillWindows_values hf j with h | h <;> rw [show ({ a with dailyUse := d } : Appliance).dailyUse j = d j from rfl, h] <;> norm_num)
        h1 h2 h3 hp (lifts_load i) (fun b _ => st.order.refl _) depth hw1 hw2

/-- One appliance with `c` times the power. -/
def oneOf (c : ℚ) (a : Appliance) : Appliance := withPowers c { a with number := 1, fixed := "yes" }

/-- **Several appliances can be replaced by one.** -/
theorem one_generate [IsProbabilityMeasure μ] {R : ℝ≥0∞ → ℝ≥0∞ → Prop} {a : Appliance} {S : ℤ → Prop} {peak : List ℤ} {c : ℚ} (st : OneSetting μ R a S peak c)
    (ha : Powers a) (hfl : a.flat ≠ "yes") {power : ℚ} (hp : 0 ≤ power) (depth : ℕ) (pref : ℤ)
    (k : ℕ) (dt : ℤ) (hw : ∀ w1 w2 w3 rt, Returns (beginRun a pref dt) (some (w1, w2, w3, rt)) → Tracked S (initialSpots [w1, w2, w3]) ∧ a.funcCycle ≤ rt) (i : Fin 1440) :
    R (MeanOf μ (generateLoadProfile a depth pref k peak dt power) (fun b => ENNReal.ofReal ((b.dailyUse i : ℚ) : ℝ)))
      (MeanOf μ (generateLoadProfile (oneOf c a) depth pref k peak dt (c * power)) (fun b => ENNReal.ofReal ((b.dailyUse i : ℚ) : ℝ))) := by
  have h1 : SameDefinition a (fresh a) := rfl
  have h2 : SameDefinition (oneRun c (fresh a)) (oneOf c a) := rfl
  have hg : ∀ x y : Appliance, SameDefinition x y ∧ y.dailyUse = x.dailyUse → ENNReal.ofReal ((x.dailyUse i : ℚ) : ℝ) = ENNReal.ofReal ((y.dailyUse i : ℚ) : ℝ) := by
    intro x y h
    rw [h.2]
  rw [mean_of_rel (rel_generate h1 depth pref k peak dt power) hg, ← mean_of_rel (rel_generate h2 depth pref k peak dt _) hg]
  exact one_clean (a := fresh a) (setting_of st rfl rfl rfl rfl) ⟨ha.v0, ha.v1, ha.p11, ha.p12, ha.p21, ha.p22, ha.p31, ha.p32⟩ hfl rfl rfl rfl hp depth pref k dt hw i

end Ramp
