import Verif.Lemmas.SumRuns
import Verif.Lemmas.Finitary
import Verif.Lemmas.Paint
import Verif.Lemmas.Scale

/-! # The expected load as a function of one power: affine -/

set_option autoImplicit false

open MeasureTheory ENNReal

namespace Ramp

variable {μ : Measure Draw} {α : Type}

/-! ## Affine functions -/

/-- `F` is affine on the numbers from 0 on. -/
def Aff (F : ℚ → ℝ≥0∞) : Prop := ∃ a b : ℝ≥0∞, ∀ t : ℚ, 0 ≤ t → F t = a + b * ENNReal.ofReal (t : ℝ)

theorem aff_const (c : ℝ≥0∞) : Aff (fun _ => c) := ⟨c, 0, fun _ _ => by rw [zero_mul, add_zero]⟩

theorem aff_congr {F G : ℚ → ℝ≥0∞} (h : ∀ t, 0 ≤ t → F t = G t) (hG : Aff G) : Aff F := by
  obtain ⟨a, b, hG⟩ := hG
  exact ⟨a, b, fun t ht => (h t ht).trans (hG t ht)⟩

theorem aff_mean {m : Sim α} (hm : Finitary m) {F : α → ℚ → ℝ≥0∞} (h : ∀ x, Returns m x → Aff (F x)) : Aff (fun t => MeanOf μ m (fun x => F x t)) := by
  classical
  have h' : ∀ x, ∃ a b : ℝ≥0∞, Returns m x → ∀ t : ℚ, 0 ≤ t → F x t = a + b * ENNReal.ofReal (t : ℝ) := by
    intro x
    by_cases hx : Returns m x
    · obtain ⟨a, b, hab⟩ := h x hx
      exact ⟨a, b, fun _ => hab⟩
    · exact ⟨0, 0, fun h => absurd h hx⟩
  choose a b hab using h'
  refine ⟨MeanOf μ m a, MeanOf μ m b, fun t ht => ?_⟩
  rw [← meanOf_mul_right hm, ← meanOf_add hm]
  exact meanOf_congr fun x hx => hab x hx t ht

/-- The average of `1 - v + 2 v u` when `m` is the average of `u`. -/
def factorMean (m v : ℚ) : ℚ := 1 - v + 2 * v * m

/-- `m` is the average of the numbers drawn by `random.random()`. -/
def MeanIs (μ : Measure Draw) (m : ℚ) : Prop := 0 ≤ m ∧ ∫⁻ d, ENNReal.ofReal ((d.u : ℚ) : ℝ) ∂μ = ENNReal.ofReal (m : ℝ)

theorem factorMean_nonneg {m v : ℚ} (hm : 0 ≤ m) (h0 : 0 ≤ v) (h1 : v ≤ 1) : 0 ≤ factorMean m v := by
  unfold factorMean
  have := mul_nonneg h0 hm
  linarith

theorem mean_variation [IsProbabilityMeasure μ] {m : ℚ} (hμ : MeanIs μ m) {v n : ℚ} (h0 : 0 ≤ v) (h1 : v ≤ 1) (hn : 0 ≤ n) {R : ℚ → ℝ≥0∞} (hR : Aff R) :
    MeanOf μ (randomVariation v n) R = R (n * factorMean m v) := by
  obtain ⟨a, b, hR⟩ := hR
  obtain ⟨hm, hμ⟩ := hμ
  have e1 : randomVariation v n = nextDraw >>= fun d => pure (n * (1 - v + (1 + v - (1 - v)) * d.u)) := by
    unfold randomVariation uniform
    rw [sim_bind_assoc]
    rfl
  have hv' : (0 : ℝ) ≤ ((1 - v : ℚ) : ℝ) := by exact_mod_cast sub_nonneg.2 h1
  have e2 : ∀ d : Draw, R (n * (1 - v + (1 + v - (1 - v)) * d.u)) =
      (a + b * ENNReal.ofReal ((n * (1 - v) : ℚ) : ℝ)) + b * ENNReal.ofReal ((n * (2 * v) : ℚ) : ℝ) * ENNReal.ofReal ((d.u : ℚ) : ℝ) := by
    intro d
    have hd := d.u_nonneg
    have hv1 : 0 ≤ 1 - v := sub_nonneg.2 h1
    have e3 : n * (1 - v + (1 + v - (1 - v)) * d.u) = n * (1 - v) + n * (2 * v) * d.u := by ring
    rw [e3, hR _ (by positivity), Rat.cast_add, Rat.cast_mul (n * (2 * v)), ENNReal.ofReal_add (by exact_mod_cast mul_nonneg hn hv1)
      (mul_nonneg (by exact_mod_cast (by positivity : (0 : ℚ) ≤ n * (2 * v))) (by exact_mod_cast hd)), ENNReal.ofReal_mul (by exact_mod_cast (by positivity : (0 : ℚ) ≤ n * (2 * v)))]
    ring
  have hv1 : 0 ≤ 1 - v := sub_nonneg.2 h1
  rw [e1, meanOf_bind fin_nextDraw fun _ => fin_pure _, meanOf_nextDraw]
  simp only [meanOf_pure, e2]
  rw [lintegral_add_left measurable_const, lintegral_const, measure_univ, mul_one, lintegral_const_mul _ Measurable.of_discrete, hμ,
    hR _ (mul_nonneg hn (factorMean_nonneg hm h0 h1)), show n * factorMean m v = n * (1 - v) + n * (2 * v) * m by unfold factorMean; ring, Rat.cast_add,
    Rat.cast_mul (n * (2 * v)), ENNReal.ofReal_add (by exact_mod_cast mul_nonneg hn hv1)
      (mul_nonneg (by exact_mod_cast (by positivity : (0 : ℚ) ≤ n * (2 * v))) (by exact_mod_cast hm)), ENNReal.ofReal_mul (by exact_mod_cast (by positivity : (0 : ℚ) ≤ n * (2 * v)))]
  ring

theorem mean_no_variation [IsProbabilityMeasure μ] (n : ℚ) (R : ℚ → ℝ≥0∞) : MeanOf μ (randomVariation 0 n) R = R n := by
  have e1 : randomVariation 0 n = nextDraw >>= fun _ => pure n := by
    unfold randomVariation uniform
    rw [sim_bind_assoc]
    congr 1
    funext d
    show (pure (n * (1 - 0 + (1 + 0 - (1 - 0)) * d.u)) : Sim ℚ) = pure n
    congr 1
    ring
  rw [e1, meanOf_bind fin_nextDraw fun _ => fin_pure _, meanOf_nextDraw]
  simp only [meanOf_pure]
  rw [lintegral_const, measure_univ, mul_one]

/-! ## Families of appliances -/

/-- The profile `x + t y`. -/
def fam (x y : Profile) (t : ℚ) : Profile := fun i => x i + t * y i

/-- The samples `x + t y`. -/
def evl (t : ℚ) (l : List (ℚ × ℚ)) : List ℚ := l.map (fun q => q.1 + t * q.2)

/-- The appliance with load and duty cycles depending on `t`. -/
def st (b : Appliance) (x y : Profile) (c1 c2 c3 : List (ℚ × ℚ)) (t : ℚ) : Appliance :=
  { b with dailyUse := fam x y t, randomCycle1 := evl t c1, randomCycle2 := evl t c2, randomCycle3 := evl t c3 }

/-- Nothing is negative. -/
structure NN (x y : Profile) (c1 c2 c3 : List (ℚ × ℚ)) : Prop where
  x : ∀ i, 0 ≤ x i
  y : ∀ i, 0 ≤ y i
  c1 : ∀ q ∈ c1, 0 ≤ q.1 ∧ 0 ≤ q.2
  c2 : ∀ q ∈ c2, 0 ≤ q.1 ∧ 0 ≤ q.2
  c3 : ∀ q ∈ c3, 0 ≤ q.1 ∧ 0 ≤ q.2

/-- Numbers that make sense. -/
structure OKB (b : Appliance) : Prop where
  number : 1 ≤ b.number
  v0 : 0 ≤ b.thermalPVar
  v1 : b.thermalPVar ≤ 1

/-- `G` of the appliance is affine in `t`. -/
def Lifts (G : Appliance → ℝ≥0∞) : Prop := ∀ b x y c1 c2 c3, OKB b → NN x y c1 c2 c3 → Aff (fun t => G (st b x y c1 c2 c3 t))

theorem lifts_load (i : Fin 1440) : Lifts (fun a => ENNReal.ofReal ((a.dailyUse i : ℚ) : ℝ)) := by
  intro b x y c1 c2 c3 _ h
  refine ⟨ENNReal.ofReal ((x i : ℚ) : ℝ), ENNReal.ofReal ((y i : ℚ) : ℝ), fun t ht => ?_⟩
  show ENNReal.ofReal ((x i + t * y i : ℚ) : ℝ) = _
  rw [Rat.cast_add, Rat.cast_mul, ENNReal.ofReal_add (by exact_mod_cast h.x i) (mul_nonneg (by exact_mod_cast ht) (by exact_mod_cast h.y i)),
    ENNReal.ofReal_mul (by exact_mod_cast ht), mul_comm]

theorem evl_getD (t : ℚ) (l : List (ℚ × ℚ)) (k : ℕ) : (evl t l).getD k 0 = (l.getD k (0, 0)).1 + t * (l.getD k (0, 0)).2 := by
  unfold evl
  rw [List.getD_eq_getElem?_getD, List.getD_eq_getElem?_getD, List.getElem?_map]
  cases l[k]? with
  | none => simp
  | some q => simp

theorem getD_nonneg {l : List (ℚ × ℚ)} (h : ∀ q ∈ l, 0 ≤ q.1 ∧ 0 ≤ q.2) (k : ℕ) : 0 ≤ (l.getD k (0, 0)).1 ∧ 0 ≤ (l.getD k (0, 0)).2 := by
  rw [List.getD_eq_getElem?_getD]
  cases hk : l[k]? with
  | none => exact ⟨le_refl _, le_refl _⟩
  | some q => exact h q (List.mem_of_getElem? hk)

theorem putFrom_fam {V : List (ℚ × ℚ)} (hV : ∀ q ∈ V, 0 ≤ q.1 ∧ 0 ≤ q.2) : ∀ (l : List ℤ) (k : ℕ) (x y : Profile), (∀ i, 0 ≤ x i) → (∀ i, 0 ≤ y i) →
    (∃ e, ∀ t, npPutFrom (evl t V) k l (fam x y t) = .error e) ∨
    ∃ x' y', (∀ i, 0 ≤ x' i) ∧ (∀ i, 0 ≤ y' i) ∧ ∀ t, npPutFrom (evl t V) k l (fam x y t) = .ok (fam x' y' t) := by
  intro l
  induction l with
  | nil => exact fun k x y hx hy => .inr ⟨x, y, hx, hy, fun t => rfl⟩
  | cons i l ih =>
    intro k x y hx hy
    cases hi : wrapIdx i with
    | none =>
      refine .inl ⟨.indexError, fun t => ?_⟩
      unfold npPutFrom
      rw [hi]
    | some p =>
      have hlen : ∀ t, (evl t V).length = V.length := fun t => List.length_map _
      have hg := getD_nonneg hV (k % V.length)
      have hs : ∀ t, npPutFrom (evl t V) k (i :: l) (fam x y t) = npPutFrom (evl t V) (k + 1) l
          (fam (fun j => if j = p then (V.getD (k % V.length) (0, 0)).1 else x j) (fun j => if j = p then (V.getD (k % V.length) (0, 0)).2 else y j) t) := by
        intro t
        conv_lhs => unfold npPutFrom
        rw [hi]
        simp only
        congr 1
        funext j
        rw [hlen, evl_getD]
        by_cases hj : j = p
        · simp only [fam, hj, if_true]
        · simp only [fam, hj, if_false]
      rcases ih (k + 1) (fun j => if j = p then (V.getD (k % V.length) (0, 0)).1 else x j) (fun j => if j = p then (V.getD (k % V.length) (0, 0)).2 else y j)
        (fun j => by split_ifs; exacts [hg.1, hx j]) (fun j => by split_ifs; exacts [hg.2, hy j]) with ⟨e, h⟩ | ⟨x', y', h1, h2, h⟩
      · exact .inl ⟨e, fun t => (hs t).trans (h t)⟩
      · exact .inr ⟨x', y', h1, h2, fun t => (hs t).trans (h t)⟩

theorem put_fam {V : List (ℚ × ℚ)} (hV : ∀ q ∈ V, 0 ≤ q.1 ∧ 0 ≤ q.2) (l : List ℤ) {x y : Profile} (hx : ∀ i, 0 ≤ x i) (hy : ∀ i, 0 ≤ y i) :
    (∃ e, ∀ t, npPut (fam x y t) l (evl t V) = .error e) ∨
    ∃ x' y', (∀ i, 0 ≤ x' i) ∧ (∀ i, 0 ≤ y' i) ∧ ∀ t, npPut (fam x y t) l (evl t V) = .ok (fam x' y' t) := by
  have hlen : ∀ t, (evl t V).length = V.length := fun t => List.length_map _
  by_cases h0 : V.length = 0
  · refine .inr ⟨x, y, hx, hy, fun t => ?_⟩
    unfold npPut
    rw [if_pos ((hlen t).trans h0)]
  · rcases putFrom_fam hV l 0 x y hx hy with ⟨e, h⟩ | ⟨x', y', h1, h2, h⟩
    · refine .inl ⟨e, fun t => ?_⟩
      unfold npPut
      rw [if_neg (by rw [hlen]; exact h0), h]
    · refine .inr ⟨x', y', h1, h2, fun t => ?_⟩
      unfold npPut
      rw [if_neg (by rw [hlen]; exact h0), h]

theorem evl_scale (t c : ℚ) (l : List (ℚ × ℚ)) : (evl t l).map (· * c) = evl t (l.map (fun q => (q.1 * c, q.2 * c))) := by
  unfold evl
  rw [List.map_map, List.map_map]
  refine List.map_congr_left fun q _ => ?_
  show (q.1 + t * q.2) * c = q.1 * c + t * (q.2 * c)
  ring

theorem evl_const (t : ℚ) (l : List ℚ) : evl t (l.map (fun x => (x, 0))) = l := by
  unfold evl
  rw [List.map_map]
  conv_rhs => rw [← List.map_id l]
  refine List.map_congr_left fun q _ => ?_
  show q + t * 0 = q
  ring

theorem scale_nonneg {l : List (ℚ × ℚ)} (h : ∀ q ∈ l, 0 ≤ q.1 ∧ 0 ≤ q.2) {c : ℚ} (hc : 0 ≤ c) : ∀ q ∈ l.map (fun q => (q.1 * c, q.2 * c)), 0 ≤ q.1 ∧ 0 ≤ q.2 := by
  intro q hq
  obtain ⟨p, hp, rfl⟩ := List.mem_map.1 hq
  exact ⟨mul_nonneg (h p hp).1 hc, mul_nonneg (h p hp).2 hc⟩

theorem returns_variation {v n x : ℚ} (h0 : 0 ≤ v) (h1 : v ≤ 1) (hn : 0 ≤ n) (hx : Returns (randomVariation v n) x) : 0 ≤ x := by
  refine Sat.ret (Q := fun x => 0 ≤ x) (E := fun _ => True) ?_ hx
  unfold randomVariation
  refine sat_bind (sat_uniform fun u hu0 hu1 => sat_pure ?_)
  refine mul_nonneg hn ?_
  have := mul_nonneg h0 hu0
  nlinarith

/-! ## Writing an event -/

theorem lifts_update [IsProbabilityMeasure μ] {G : Appliance → ℝ≥0∞} (hG : Lifts G) {c : ℤ} (hc : 0 ≤ c) {power : ℚ} (hp : 0 ≤ power) (l : List ℤ) :
    Lifts (fun a => MeanOf μ (updateDailyUse a c power l) G) := by
  intro b x y c1 c2 c3 hb h
  have hc' : (0 : ℚ) ≤ (c : ℚ) := by exact_mod_cast hc
  -- what follows a put of values that depend on `t`
  have key : ∀ V : List (ℚ × ℚ), (∀ q ∈ V, 0 ≤ q.1 ∧ 0 ≤ q.2) → Aff (fun t => MeanOf μ (liftE (npPut (fam x y t) l (evl t V)) >>= fun d =>
      liftE (updateAvailableTime b.freeSpots l) >>= fun s => pure { st b x y c1 c2 c3 t with dailyUse := d, freeSpots := s }) G) := by
    intro V hV
    have hfin : ∀ t d, Finitary (liftE (updateAvailableTime b.freeSpots l) >>= fun s => (pure { st b x y c1 c2 c3 t with dailyUse := d, freeSpots := s } : Sim Appliance)) :=
      fun t d => fin_bind (fin_liftE _) fun _ => fin_pure _
    rcases put_fam hV l h.x h.y with ⟨e, h1⟩ | ⟨x', y', h1, h2, h3⟩
    · refine aff_congr (G := fun _ => 0) (fun t _ => ?_) (aff_const 0)
      rw [h1, meanOf_bind (fin_liftE _) (hfin t), meanOf_liftE]
    · cases hs : updateAvailableTime b.freeSpots l with
      | error e =>
        refine aff_congr (G := fun _ => 0) (fun t _ => ?_) (aff_const 0)
        rw [h3, meanOf_bind (fin_liftE _) (fun d => fin_bind (fin_liftE _) fun _ => fin_pure _), meanOf_liftE]
        simp only
        rw [meanOf_bind (fin_liftE _) fun _ => fin_pure _, meanOf_liftE]
      | ok s =>
        refine aff_congr (fun t _ => ?_) (hG { b with freeSpots := s } x' y' c1 c2 c3 ⟨hb.number, hb.v0, hb.v1⟩ ⟨h1, h2, h.c1, h.c2, h.c3⟩)
        rw [h3, meanOf_bind (fin_liftE _) (fun d => fin_bind (fin_liftE _) fun _ => fin_pure _), meanOf_liftE]
        simp only
        rw [meanOf_bind (fin_liftE _) fun _ => fin_pure _, meanOf_liftE]
        simp only
        rw [meanOf_pure]
        rfl
  have bindput : ∀ (t : ℚ) (v : List ℚ), (liftE (npPut (fam x y t) l v) >>= fun d => (pure { st b x y c1 c2 c3 t with dailyUse := d } : Sim Appliance)) >>=
      (fun a => liftE (updateAvailableTime a.freeSpots l) >>= fun s => pure { a with freeSpots := s }) =
      liftE (npPut (fam x y t) l v) >>= fun d => liftE (updateAvailableTime b.freeSpots l) >>= fun s => pure { st b x y c1 c2 c3 t with dailyUse := d, freeSpots := s } := by
    intro t v
    rw [sim_bind_assoc]
    congr 1
  by_cases hf : b.fixedCycle > 0
  · by_cases h1 : b.currentDutyCycleId = 1
    · refine aff_congr (fun t _ => ?_) (key _ (scale_nonneg h.c1 hc'))
      have e : updateDailyUse (st b x y c1 c2 c3 t) c power l = (liftE (npPut (fam x y t) l ((evl t c1).map (· * (c : ℚ)))) >>= fun d => (pure { st b x y c1 c2 c3 t with dailyUse := d } : Sim Appliance)) >>=
          (fun a => liftE (updateAvailableTime a.freeSpots l) >>= fun s => pure { a with freeSpots := s }) := by
        unfold updateDailyUse putEvent
        rw [if_pos (show (st b x y c1 c2 c3 t).fixedCycle > 0 from hf), if_pos (show (st b x y c1 c2 c3 t).currentDutyCycleId = 1 from h1)]
        rfl
      beta_reduce
      rw [e, bindput, evl_scale]
    · by_cases h2 : b.currentDutyCycleId = 2
      · refine aff_congr (fun t _ => ?_) (key _ (scale_nonneg h.c2 hc'))
        have e : updateDailyUse (st b x y c1 c2 c3 t) c power l = (liftE (npPut (fam x y t) l ((evl t c2).map (· * (c : ℚ)))) >>= fun d => (pure { st b x y c1 c2 c3 t with dailyUse := d } : Sim Appliance)) >>=
            (fun a => liftE (updateAvailableTime a.freeSpots l) >>= fun s => pure { a with freeSpots := s }) := by
          unfold updateDailyUse putEvent
          rw [if_pos (show (st b x y c1 c2 c3 t).fixedCycle > 0 from hf), if_neg (show ¬ (st b x y c1 c2 c3 t).currentDutyCycleId = 1 from h1),
            if_pos (show (st b x y c1 c2 c3 t).currentDutyCycleId = 2 from h2)]
          rfl
        beta_reduce
        rw [e, bindput, evl_scale]
      · by_cases h3 : b.currentDutyCycleId = 3
        · refine aff_congr (fun t _ => ?_) (key _ (scale_nonneg h.c3 hc'))
          have e : updateDailyUse (st b x y c1 c2 c3 t) c power l = (liftE (npPut (fam x y t) l ((evl t c3).map (· * (c : ℚ)))) >>= fun d => (pure { st b x y c1 c2 c3 t with dailyUse := d } : Sim Appliance)) >>=
              (fun a => liftE (updateAvailableTime a.freeSpots l) >>= fun s => pure { a with freeSpots := s }) := by
            unfold updateDailyUse putEvent
            rw [if_pos (show (st b x y c1 c2 c3 t).fixedCycle > 0 from hf), if_neg (show ¬ (st b x y c1 c2 c3 t).currentDutyCycleId = 1 from h1),
              if_neg (show ¬ (st b x y c1 c2 c3 t).currentDutyCycleId = 2 from h2), if_pos (show (st b x y c1 c2 c3 t).currentDutyCycleId = 3 from h3)]
            rfl
          beta_reduce
          rw [e, bindput, evl_scale]
        · have e : ∀ t, updateDailyUse (st b x y c1 c2 c3 t) c power l = liftE (npPut (fam x y t) l (evl t [])) >>= fun d =>
              liftE (updateAvailableTime b.freeSpots l) >>= fun s => pure { st b x y c1 c2 c3 t with dailyUse := d, freeSpots := s } := by
            intro t
            rw [← bindput]
            unfold updateDailyUse putEvent
            rw [if_pos (show (st b x y c1 c2 c3 t).fixedCycle > 0 from hf), if_neg (show ¬ (st b x y c1 c2 c3 t).currentDutyCycleId = 1 from h1),
              if_neg (show ¬ (st b x y c1 c2 c3 t).currentDutyCycleId = 2 from h2), if_neg (show ¬ (st b x y c1 c2 c3 t).currentDutyCycleId = 3 from h3)]
            rfl
          exact aff_congr (fun t _ => by beta_reduce; rw [e]) (key [] (by simp))
  · have e : ∀ t, updateDailyUse (st b x y c1 c2 c3 t) c power l = randomVariation b.thermalPVar (c * power) >>= fun v => liftE (npPut (fam x y t) l [v]) >>= fun d =>
        liftE (updateAvailableTime b.freeSpots l) >>= fun s => pure { st b x y c1 c2 c3 t with dailyUse := d, freeSpots := s } := by
      intro t
      unfold updateDailyUse putEvent
      rw [if_neg (show ¬ (st b x y c1 c2 c3 t).fixedCycle > 0 from hf), sim_bind_assoc]
      congr 1
      funext v
      rw [← bindput]
      rfl
    refine aff_congr (fun t _ => ?_) (aff_mean (μ := μ) (m := randomVariation b.thermalPVar (c * power)) (fin_randomVariation _ _) fun v hv =>
      key [(v, 0)] fun q hq => by
        rw [List.mem_singleton.1 hq]
        exact ⟨returns_variation hb.v0 hb.v1 (mul_nonneg hc' hp) hv, le_refl _⟩)
    beta_reduce
    rw [e, meanOf_bind (fin_randomVariation _ _) fun _ => fin_bind (fin_liftE _) fun _ => fin_bind (fin_liftE _) fun _ => fin_pure _]
    congr 1
    funext v
    have : evl t [(v, 0)] = [v] := by
      show [v + t * 0] = [v]
      rw [mul_zero, add_zero]
    rw [this]

/-! ## Choosing an event -/

/-- Nothing that decides which events happen differs. -/
structure Skeleton (a b : Appliance) : Prop where
  freeSpots : b.freeSpots = a.freeSpots
  funcCycle : b.funcCycle = a.funcCycle
  fixedCycle : b.fixedCycle = a.fixedCycle
  cw11 : b.cw11 = a.cw11
  cw12 : b.cw12 = a.cw12
  cw21 : b.cw21 = a.cw21
  cw22 : b.cw22 = a.cw22
  cw31 : b.cw31 = a.cw31
  cw32 : b.cw32 = a.cw32
  continuous : b.continuousDutyCycle = a.continuousDutyCycle
  len1 : b.randomCycle1.length = a.randomCycle1.length
  len2 : b.randomCycle2.length = a.randomCycle2.length
  len3 : b.randomCycle3.length = a.randomCycle3.length
  current : b.currentDutyCycleId = a.currentDutyCycleId

theorem select_skeleton {a b : Appliance} (h : Skeleton a b) (lo hi : ℤ) :
    (selectDutyCycle a lo hi = none ∧ selectDutyCycle b lo hi = none) ∨
    ∃ j l l', selectDutyCycle a lo hi = some (j, l) ∧ selectDutyCycle b lo hi = some (j, l') ∧ l'.length = l.length := by
  unfold selectDutyCycle
  rw [h.cw11, h.cw12, h.cw21, h.cw22, h.cw31, h.cw32]
  split_ifs
  · exact .inr ⟨_, _, _, rfl, rfl, h.len1⟩
  · exact .inr ⟨_, _, _, rfl, rfl, h.len2⟩
  · exact .inr ⟨_, _, _, rfl, rfl, h.len3⟩
  · exact .inl ⟨rfl, rfl⟩

/-- The appliance with another duty cycle selected. -/
def setDuty (j : ℤ) (b : Appliance) : Appliance := { b with currentDutyCycleId := j }

theorem rel_skeleton (rt : ℤ) {a b : Appliance} (h : Skeleton a b) : ∀ depth : ℕ,
    Rel (randSwitchOnWindow depth a rt) (randSwitchOnWindow depth b rt)
      (fun p q => p.1 = setDuty p.1.currentDutyCycleId a ∧ q = (setDuty p.1.currentDutyCycleId b, p.2)) := by
  have hb : setDuty a.currentDutyCycleId b = b := by unfold setDuty; rw [← h.current]
  intro depth
  induction depth with
  | zero => exact rel_raise
  | succ depth ih =>
    rw [randSwitchOnWindow_succ, randSwitchOnWindow_succ, h.freeSpots, h.funcCycle]
    refine rel_ite (fun _ => ?_) (fun _ => rel_pure ⟨rfl, by rw [hb]⟩)
    refine rel_bind_same fun k => ?_
    cases (switchOnChoices a.freeSpots a.funcCycle)[k.toNat]? with
    | none => exact rel_raise
    | some s =>
      simp only
      cases (a.freeSpots.find? (fun fs => fs.start ≤ s && s ≤ fs.stop - a.funcCycle)) with
      | none => exact rel_raise
      | some spot =>
        simp only
        unfold afterStart
        rw [h.funcCycle]
        refine rel_bind_same fun idx => ?_
        rw [h.fixedCycle]
        refine rel_ite (fun hf => ?_) (fun hf => rel_pure ⟨rfl, by rw [hb]⟩)
        cases idx.head? with
        | none => exact rel_raise
        | some lo =>
          cases idx.getLast? with
          | none => exact rel_raise
          | some hi =>
            simp only
            rcases select_skeleton h lo hi with ⟨h1, h2⟩ | ⟨j, l, l', h1, h2, h3⟩
            · rw [h1, h2]
              exact ih
            · rw [h1, h2]
              simp only
              by_cases hc : idx.length > l.length ∧ a.continuousDutyCycle = 0
              · rw [if_pos hc, if_pos (show idx.length > l'.length ∧ b.continuousDutyCycle = 0 from by rw [h3, h.continuous]; exact hc)]
                refine rel_pure ⟨rfl, ?_⟩
                unfold setDuty
                simp only [h.funcCycle, h.fixedCycle, h3]
              · rw [if_neg hc, if_neg (show ¬ (idx.length > l'.length ∧ b.continuousDutyCycle = 0) from by rw [h3, h.continuous]; exact hc)]
                refine rel_pure ⟨rfl, ?_⟩
                unfold setDuty
                simp only [h.funcCycle, h.fixedCycle, h3]

theorem meanOf_rel {β : Type} {m : Sim α} {m' : Sim β} {F : α → β} {P : α → Prop} (h : Rel m m' (fun p q => P p ∧ q = F p)) (g : β → ℝ≥0∞) :
    MeanOf μ m' g = MeanOf μ m (fun p => g (F p)) := by
  unfold MeanOf Mean
  refine lintegral_congr fun r => ?_
  unfold endOf
  rcases h r with ⟨e, h1, h2⟩ | ⟨p, q, r', h1, h2, _, h3⟩
  · rw [h1, h2]
    rfl
  · rw [h1, h2, h3]
    rfl

theorem coincidence_nonneg {a : Appliance} {inside : Bool} {c : ℤ} (hn : 1 ≤ a.number) (h : Returns (calcCoincidentSwitchOn a inside) c) : 0 ≤ c := by
  refine Sat.ret (Q := fun c => 0 ≤ c) (E := fun _ => True) ?_ h
  unfold calcCoincidentSwitchOn
  refine sat_ite (fun _ => sat_bind (sat_gauss fun z => sat_pure ?_)) (fun _ => ?_)
  · exact le_min (by omega) (le_trans (by omega) (le_max_left _ _))
  refine sat_ite (fun h1 => ?_) (fun _ => sat_pure (by omega))
  refine sat_ite (fun h2 => sat_raise trivial) (fun _ => sat_bind (sat_uniform fun u _ _ => sat_pure ?_))
  unfold onNumber
  split <;> omega

/-- `bookEvent` with the common part in front. -/
theorem bookEvent_eq (a : Appliance) (peak : List ℤ) (power : ℚ) (l : List ℤ) : (bookEvent a peak power l = raise .indexError ∧ ∀ b p, bookEvent b peak p l = raise .indexError) ∨
    ∃ inside, ∀ b p, bookEvent b peak p l = calcCoincidentSwitchOn b inside >>= fun c => updateDailyUse b c p l >>= fun a' => pure (a', c) := by
  unfold bookEvent
  cases l.head? <;> cases l.getLast? <;> cases peak.head? <;> cases peak.getLast?
  all_goals first
    | exact .inl ⟨rfl, fun _ _ => rfl⟩
    | exact .inr ⟨_, fun _ _ => rfl⟩

theorem lifts_book [IsProbabilityMeasure μ] {G : Appliance × ℤ → ℝ≥0∞} (hG : ∀ c, Lifts (fun a => G (a, c))) (peak : List ℤ) {power : ℚ} (hp : 0 ≤ power) (l : List ℤ) :
    Lifts (fun a => MeanOf μ (bookEvent a peak power l) G) := by
  intro b x y c1 c2 c3 hb h
  rcases bookEvent_eq b peak power l with ⟨_, h1⟩ | ⟨inside, h1⟩
  · exact aff_congr (fun t _ => by beta_reduce; rw [h1, meanOf_raise]) (aff_const 0)
  · refine aff_congr (fun t _ => ?_) (aff_mean (μ := μ) (m := calcCoincidentSwitchOn b inside) (fin_calcCoincident _ _) fun c hc =>
      lifts_update (μ := μ) (hG c) (coincidence_nonneg hb.number hc) hp l b x y c1 c2 c3 hb h)
    beta_reduce
    rw [h1, meanOf_bind (fin_calcCoincident _ _) fun _ => fin_bind (fin_updateDailyUse _ _ _ _) fun _ => fin_pure _]
    rw [calcCoincident_congr (app := b) (app' := st b x y c1 c2 c3 t) inside rfl rfl]
    congr 1
    funext c
    rw [meanOf_bind (fin_updateDailyUse _ _ _ _) fun _ => fin_pure _]
    simp only [meanOf_pure]

theorem skeleton_st (b : Appliance) (x y : Profile) (c1 c2 c3 : List (ℚ × ℚ)) (t : ℚ) : Skeleton (st b x y c1 c2 c3 0) (st b x y c1 c2 c3 t) := by
  have hl : ∀ l : List (ℚ × ℚ), (evl t l).length = (evl 0 l).length := fun l => by
    unfold evl
    rw [List.length_map, List.length_map]
  exact ⟨rfl, rfl, rfl, rfl, rfl, rfl, rfl, rfl, rfl, rfl, hl _, hl _, hl _, rfl⟩

/-- What the loop does after an event was chosen. -/
def afterEvent (depth : ℕ) (peak : List ℤ) (power : ℚ) (rt : ℤ) (fuel : ℕ) (tot : ℤ) (log : List Booking) (p : Appliance × Option SwitchOn) : Sim (Appliance × List Booking) :=
  match p.2 with
  | none => pure (p.1, log)
  | some ⟨drawn, indexes⟩ =>
    if tot + indexes.length > rt then
      if (indexes.take (indexes.length - (tot + indexes.length - rt).toNat)).length > 0 then
        bookEvent p.1 peak power (indexes.take (indexes.length - (tot + indexes.length - rt).toNat)) >>= fun x =>
          pure (x.1, ⟨drawn, indexes.take (indexes.length - (tot + indexes.length - rt).toNat), x.2, x.1.currentDutyCycleId⟩ :: log)
      else pure (p.1, log)
    else bookEvent p.1 peak power indexes >>= fun x =>
      switchOnLoop depth peak power rt fuel x.1 (tot + indexes.length) (⟨drawn, indexes, x.2, x.1.currentDutyCycleId⟩ :: log)

theorem loop_succ (depth : ℕ) (peak : List ℤ) (power : ℚ) (rt : ℤ) (fuel : ℕ) (a : Appliance) (tot : ℤ) (log : List Booking) :
    switchOnLoop depth peak power rt (fuel + 1) a tot log =
      if tot ≤ rt ∧ rt ≠ 0 then randSwitchOnWindow depth a rt >>= afterEvent depth peak power rt fuel tot log else pure (a, log) := by
  conv_lhs => unfold switchOnLoop
  split_ifs with h
  · congr 1
  · rfl

theorem fin_afterEvent (depth : ℕ) (peak : List ℤ) (power : ℚ) (rt : ℤ) (fuel : ℕ) (tot : ℤ) (log : List Booking) (p : Appliance × Option SwitchOn) :
    Finitary (afterEvent depth peak power rt fuel tot log p) := by
  unfold afterEvent
  split
  · exact fin_pure _
  · exact fin_ite (fin_ite (fin_bind (fin_bookEvent _ _ _ _) fun _ => fin_pure _) (fin_pure _))
      (fin_bind (fin_bookEvent _ _ _ _) fun _ => fin_switchOnLoop _ _ _ _ _ _ _ _)

theorem sat_book_current (a : Appliance) (peak : List ℤ) (power : ℚ) (l : List ℤ) :
    Sat (bookEvent a peak power l) (fun p => p.1.currentDutyCycleId = a.currentDutyCycleId) (fun _ => True) := by
  rcases bookEvent_eq a peak power l with ⟨h, _⟩ | ⟨inside, h⟩
  · rw [h]
    exact sat_raise trivial
  · rw [h]
    refine sat_bind' (sat_true) fun c _ => ?_
    unfold updateDailyUse
    rw [sim_bind_assoc]
    have hput : Sat (putEvent a c power l) (fun b => b.currentDutyCycleId = a.currentDutyCycleId) (fun _ => True) := by
      have hl : ∀ v, Sat (liftE (npPut a.dailyUse l v) >>= fun d => (pure { a with dailyUse := d } : Sim Appliance)) (fun b => b.currentDutyCycleId = a.currentDutyCycleId) (fun _ => True) :=
        fun v => sat_bind' sat_true fun _ _ => sat_pure rfl
      unfold putEvent
      exact sat_ite (fun _ => sat_ite (fun _ => hl _) fun _ => sat_ite (fun _ => hl _) fun _ => sat_ite (fun _ => hl _) fun _ => sat_pure rfl)
        fun _ => sat_bind' sat_true fun v _ => hl _
    refine sat_bind' hput fun b hb => ?_
    rw [sim_bind_assoc]
    exact sat_bind' sat_true fun s _ => by
      rw [sim_pure_bind]
      exact sat_pure hb

theorem lifts_loop [IsProbabilityMeasure μ] {H : Appliance → ℝ≥0∞} (hH : Lifts H) (depth : ℕ) (peak : List ℤ) {power : ℚ} (hp : 0 ≤ power) (rt : ℤ) :
    ∀ (fuel : ℕ) (tot : ℤ) (log : List Booking), Lifts (fun a => MeanOf μ (switchOnLoop depth peak power rt fuel a tot log) (fun p => H p.1)) := by
  intro fuel
  induction fuel with
  | zero =>
    intro tot log b x y c1 c2 c3 hb h
    exact aff_congr (fun t _ => meanOf_raise _ _) (aff_const 0)
  | succ fuel ih =>
    intro tot log b x y c1 c2 c3 hb h
    by_cases hc : tot ≤ rt ∧ rt ≠ 0
    · have hafter : ∀ ev : Option SwitchOn, Lifts (fun a => MeanOf μ (afterEvent depth peak power rt fuel tot log (a, ev)) (fun p => H p.1)) := by
        intro ev
        cases ev with
        | none =>
          intro b x y c1 c2 c3 hb h
          exact aff_congr (fun t _ => meanOf_pure _ _) (hH b x y c1 c2 c3 hb h)
        | some ev =>
          obtain ⟨drawn, indexes⟩ := ev
          intro b x y c1 c2 c3 hb h
          by_cases h1 : tot + indexes.length > rt
          · by_cases h2 : (indexes.take (indexes.length - (tot + indexes.length - rt).toNat)).length > 0
            · refine aff_congr (fun t _ => ?_) (lifts_book (μ := μ) (G := fun x => H x.1) (fun _ => hH) peak hp (indexes.take (indexes.length - (tot + indexes.length - rt).toNat)) b x y c1 c2 c3 hb h)
              unfold afterEvent
              simp only
              rw [if_pos h1, if_pos h2, meanOf_bind (fin_bookEvent _ _ _ _) fun _ => fin_pure _]
              simp only [meanOf_pure]
            · refine aff_congr (fun t _ => ?_) (hH b x y c1 c2 c3 hb h)
              unfold afterEvent
              simp only
              rw [if_pos h1, if_neg h2, meanOf_pure]
          · refine aff_congr (fun t _ => ?_) (lifts_book (μ := μ) (G := fun x => MeanOf μ (switchOnLoop depth peak power rt fuel x.1 (tot + indexes.length) (⟨drawn, indexes, x.2, b.currentDutyCycleId⟩ :: log)) (fun p => H p.1))
              (fun c => ih (tot + indexes.length) (⟨drawn, indexes, c, b.currentDutyCycleId⟩ :: log)) peak hp indexes b x y c1 c2 c3 hb h)
            unfold afterEvent
            simp only
            rw [if_neg h1, meanOf_bind (fin_bookEvent _ _ _ _) fun _ => fin_switchOnLoop _ _ _ _ _ _ _ _]
            refine meanOf_congr fun p hp => ?_
            have hcur : p.1.currentDutyCycleId = b.currentDutyCycleId := by
              refine Sat.ret (Q := fun p : Appliance × ℤ => p.1.currentDutyCycleId = b.currentDutyCycleId) (E := fun _ => True) ?_ hp
              exact sat_book_current _ peak power indexes
            rw [hcur]
      refine aff_congr (fun t _ => ?_) (aff_mean (μ := μ) (m := randSwitchOnWindow depth (st b x y c1 c2 c3 0) rt) (fin_randSwitchOnWindow _ _ _) fun p _ =>
        hafter p.2 (setDuty p.1.currentDutyCycleId b) x y c1 c2 c3 ⟨hb.number, hb.v0, hb.v1⟩ h)
      beta_reduce
      rw [loop_succ, if_pos hc, meanOf_bind (fin_randSwitchOnWindow _ _ _) fun _ => fin_afterEvent _ _ _ _ _ _ _ _,
        meanOf_rel (rel_skeleton rt (skeleton_st b x y c1 c2 c3 t) depth)]
      rfl
    · refine aff_congr (fun t _ => ?_) (hH b x y c1 c2 c3 hb h)
      beta_reduce
      rw [loop_succ, if_neg hc, meanOf_pure]

end Ramp
