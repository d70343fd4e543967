import Verif.Spec8
import Verif.Lemmas.Finitary
import Mathlib.MeasureTheory.Integral.Lebesgue.Countable
import Mathlib.MeasureTheory.Measure.Prod

/-! # Expected values of computations: how `Mean` computes -/

set_option autoImplicit false

open MeasureTheory ENNReal

namespace Ramp

instance : Countable Draw := by
  have : Function.Injective (fun d : Draw => (d.u, d.k, d.z)) := by
    rintro ⟨u, h1, h2, k, z⟩ ⟨u', h1', h2', k', z'⟩ h
    simp only [Prod.mk.injEq] at h
    obtain ⟨rfl, rfl, rfl⟩ := h
    rfl
  exact this.countable

instance : DiscreteMeasurableSpace Draw := ⟨fun _ => trivial⟩

variable {α β γ : Type} {μ : Measure Draw}

/-- A function of a stream that looks at finitely many draws. -/
def Local (F : Rng → γ) : Prop := ∀ r, ∃ n, ∀ s : Rng, (∀ k < n, s k = r k) → F s = F r

theorem Local.measurable [MeasurableSpace γ] {F : Rng → γ} (h : Local F) : Measurable F := by
  intro A _
  have : F ⁻¹' A = ⋃ (x : (n : ℕ) × (Fin n → Draw)), ⋃ (_ : ∀ s : Rng, (∀ k : Fin x.1, s k = x.2 k) → F s ∈ A), {s : Rng | ∀ k : Fin x.1, s k = x.2 k} := by
    ext r
    simp only [Set.mem_preimage, Set.mem_iUnion, Set.mem_setOf_eq]
    constructor
    · intro hr
      obtain ⟨n, hn⟩ := h r
      exact ⟨⟨n, fun k => r k⟩, fun s hs => by rw [hn s fun k hk => hs ⟨k, hk⟩]; exact hr, fun k => rfl⟩
    · rintro ⟨x, h1, h2⟩
      exact h1 r h2
  rw [this]
  refine MeasurableSet.iUnion fun x => MeasurableSet.iUnion fun _ => ?_
  rw [Set.setOf_forall]
  refine MeasurableSet.iInter fun k => ?_
  exact (measurable_pi_apply (X := fun _ : ℕ => Draw) (k : ℕ)) (MeasurableSet.of_discrete (s := ({x.2 k} : Set Draw)))

theorem Local.comp {F : Rng → γ} (h : Local F) (g : γ → α) : Local (fun r => g (F r)) := fun r => by
  obtain ⟨n, hn⟩ := h r
  exact ⟨n, fun s hs => by simp only [hn s hs]⟩

theorem local_endOf {m : Sim α} (h : Finitary m) : Local (endOf m) := fun r => by
  unfold endOf
  cases hr : m r with
  | error e =>
    obtain ⟨n, hn⟩ := (h r).2 e hr
    exact ⟨n, fun s hs => by rw [hn s hs]⟩
  | ok x =>
    obtain ⟨n, _, hn⟩ := (h r).1 x.1 x.2 hr
    exact ⟨n, fun s hs => by rw [hn s hs]; rfl⟩

theorem measurable_endOf {m : Sim α} (h : Finitary m) (g : Except Err α → ℝ≥0∞) : Measurable (fun r => g (endOf m r)) :=
  ((local_endOf h).comp g).measurable

instance [IsProbabilityMeasure μ] : IsProbabilityMeasure (stream μ) := by unfold stream; infer_instance

/-! ## One draw after the other -/

/-- A stream that begins with `d`. -/
def consDraw {X : Type} (d : X) (r : ℕ → X) : ℕ → X := fun n => match n with
  | 0 => d
  | n + 1 => r n

theorem measurable_consDraw {X : Type} [MeasurableSpace X] : Measurable (fun x : X × (ℕ → X) => consDraw x.1 x.2) := by
  rw [measurable_pi_iff]
  rintro (_ | n)
  · exact measurable_fst
  · exact (measurable_pi_apply n).comp measurable_snd

theorem infinitePi_cons {X : Type} [MeasurableSpace X] {μ : Measure X} [IsProbabilityMeasure μ] :
    (μ.prod (Measure.infinitePi (fun _ : ℕ => μ))).map (fun x => consDraw x.1 x.2) = Measure.infinitePi (fun _ : ℕ => μ) := by
  refine Measure.eq_infinitePi _ fun s t ht => ?_
  rw [Measure.map_apply measurable_consDraw (MeasurableSet.pi s.countable_toSet fun i _ => ht i)]
  classical
  set s' : Finset ℕ := (s.filter (· ≠ 0)).image (· - 1) with hs'
  have hmem : ∀ n, n ∈ s' ↔ n + 1 ∈ s := by
    intro n
    simp only [hs', Finset.mem_image, Finset.mem_filter]
    constructor
    · rintro ⟨a, ⟨h1, h2⟩, rfl⟩
      rwa [Nat.sub_add_cancel (Nat.pos_of_ne_zero h2)]
    · intro h
      exact ⟨n + 1, ⟨h, by omega⟩, rfl⟩
  have hpre : (fun x : X × (ℕ → X) => consDraw x.1 x.2) ⁻¹' Set.pi s t = (if 0 ∈ s then t 0 else Set.univ) ×ˢ Set.pi s' (fun i => t (i + 1)) := by
    ext ⟨d, r⟩
    simp only [Set.mem_preimage, Set.mem_pi, Set.mem_prod, Finset.mem_coe]
    constructor
    · intro h
      refine ⟨?_, fun i hi => h (i + 1) ((hmem i).1 hi)⟩
      split_ifs with h0
      · exact h 0 h0
      · trivial
    · rintro ⟨h1, h2⟩ (_ | i) hi
      · rw [if_pos hi] at h1; exact h1
      · exact h2 i ((hmem i).2 hi)
  rw [hpre, Measure.prod_prod, Measure.infinitePi_pi _ (fun i _ => ht (i + 1))]
  have hsplit : ∏ i ∈ s, μ (t i) = (if 0 ∈ s then μ (t 0) else 1) * ∏ i ∈ s.filter (· ≠ 0), μ (t i) := by
    rw [← Finset.prod_filter_mul_prod_filter_not s (fun i => i = 0)]
    congr 1
    split_ifs with h0
    · rw [show s.filter (fun i => i = 0) = {0} by ext i; simp; rintro rfl; exact h0, Finset.prod_singleton]
    · rw [show s.filter (fun i => i = 0) = ∅ by ext i; simp; rintro h rfl; exact h0 h, Finset.prod_empty]
  rw [hsplit]
  congr 1
  · split_ifs
    · rfl
    · exact measure_univ
  · rw [hs', Finset.prod_image]
    · refine Finset.prod_congr rfl fun i hi => ?_
      simp only [Finset.mem_filter] at hi
      rw [Nat.sub_add_cancel (Nat.pos_of_ne_zero hi.2)]
    · intro a ha b hb hab
      simp only [Finset.coe_filter, Set.mem_setOf_eq] at ha hb hab
      have := ha.2; have := hb.2
      omega

theorem lintegral_consPi {X : Type} [MeasurableSpace X] {μ : Measure X} [IsProbabilityMeasure μ] {F : (ℕ → X) → ℝ≥0∞} (hF : Measurable F) :
    ∫⁻ r, F r ∂(Measure.infinitePi (fun _ : ℕ => μ)) = ∫⁻ d, ∫⁻ r, F (consDraw d r) ∂(Measure.infinitePi (fun _ : ℕ => μ)) ∂μ := by
  conv_lhs => rw [← infinitePi_cons]
  rw [lintegral_map hF measurable_consDraw]
  exact lintegral_prod (fun x : X × (ℕ → X) => F (consDraw x.1 x.2)) (hF.comp measurable_consDraw).aemeasurable

theorem lintegral_cons [IsProbabilityMeasure μ] {F : Rng → ℝ≥0∞} (hF : Measurable F) :
    ∫⁻ r, F r ∂(stream μ) = ∫⁻ d, ∫⁻ r, F (consDraw d r) ∂(stream μ) ∂μ := lintegral_consPi hF

/-- What depends on the first `n` draws is independent of what depends on the later ones. -/
theorem lintegral_split [IsProbabilityMeasure μ] {H : Rng → ℝ≥0∞} (hH : Measurable H) : ∀ (n : ℕ) {K : Rng → ℝ≥0∞} (_ : Measurable K)
    (_ : ∀ r s : Rng, (∀ k < n, s k = r k) → K s = K r),
    ∫⁻ r, K r * H (dropDraws n r) ∂(stream μ) = (∫⁻ r, K r ∂(stream μ)) * ∫⁻ r, H r ∂(stream μ)
  | 0, K, hK, hd => by
    by_cases he : Nonempty Rng
    · obtain ⟨r0⟩ := he
      have hc : K = fun _ => K r0 := funext fun r => hd r0 r fun k hk => absurd hk (Nat.not_lt_zero k)
      have h0 : ∀ r : Rng, dropDraws 0 r = r := fun r => by funext k; simp [dropDraws]
      simp only [h0]
      rw [hc, lintegral_const_mul _ hH, lintegral_const, measure_univ, mul_one]
    · rw [not_nonempty_iff] at he
      have : stream μ = 0 := Measure.eq_zero_of_isEmpty _
      have h1 : stream μ Set.univ = 1 := measure_univ
      rw [this] at h1
      simp at h1
  | n + 1, K, hK, hd => by
    have hdrop : ∀ j : ℕ, Measurable (dropDraws j) := fun j => measurable_pi_iff.2 fun k => measurable_pi_apply (j + k)
    have hcd : ∀ d : Draw, Measurable (consDraw (X := Draw) d) := fun d => (measurable_consDraw (X := Draw)).comp (Measurable.prodMk measurable_const measurable_id)
    rw [lintegral_cons (F := fun r => K r * H (dropDraws (n + 1) r)) (hK.mul (hH.comp (hdrop (n + 1)))), lintegral_cons hK]
    have hin : ∀ d, ∫⁻ r, K (consDraw d r) * H (dropDraws (n + 1) (consDraw d r)) ∂(stream μ) = (∫⁻ r, K (consDraw d r) ∂(stream μ)) * ∫⁻ r, H r ∂(stream μ) := by
      intro d
      have : ∀ r, dropDraws (n + 1) (consDraw d r) = dropDraws n r := fun r => by
        funext k
        simp only [dropDraws]
        rw [show n + 1 + k = (n + k) + 1 by omega]
        rfl
      simp only [this]
      refine lintegral_split hH n (hK.comp (hcd d)) fun r s hrs => hd _ _ fun k hk => ?_
      cases k with
      | zero => rfl
      | succ k => exact hrs k (by omega)
    simp only [hin]
    rw [lintegral_mul_const]
    exact Measurable.of_discrete

/-! ## How `Mean` computes -/

theorem mean_pure [IsProbabilityMeasure μ] (a : α) (g : Except Err α → ℝ≥0∞) : Mean μ (pure a) g = g (.ok a) := by
  unfold Mean
  show ∫⁻ _, g (.ok a) ∂(stream μ) = _
  rw [lintegral_const, measure_univ, mul_one]

theorem mean_raise [IsProbabilityMeasure μ] (e : Err) (g : Except Err α → ℝ≥0∞) : Mean μ (raise e) g = g (.error e) := by
  unfold Mean
  show ∫⁻ _, g (.error e) ∂(stream μ) = _
  rw [lintegral_const, measure_univ, mul_one]

theorem mean_nextDraw [IsProbabilityMeasure μ] (g : Except Err Draw → ℝ≥0∞) : Mean μ nextDraw g = ∫⁻ d, g (.ok d) ∂μ := by
  unfold Mean
  have : ∀ r, g (endOf nextDraw r) = (fun d => g (.ok d)) (r 0) := fun r => rfl
  simp only [this]
  rw [lintegral_cons (F := fun r => g (.ok (r 0))) ((Measurable.of_discrete (f := fun d : Draw => g (.ok d))).comp (measurable_pi_apply 0))]
  refine lintegral_congr fun d => ?_
  show ∫⁻ _, g (.ok d) ∂(stream μ) = _
  rw [lintegral_const, measure_univ, mul_one]

/-- The draws a computation needs. -/
def Decided (m : Sim α) (n : ℕ) (r : Rng) : Prop :=
  (∃ a, ∀ s : Rng, (∀ k < n, s k = r k) → m s = .ok (a, dropDraws n s)) ∨ ∃ e, ∀ s : Rng, (∀ k < n, s k = r k) → m s = .error e

theorem decided_of_finitary {m : Sim α} (h : Finitary m) (r : Rng) : ∃ n, Decided m n r := by
  cases hr : m r with
  | error e => obtain ⟨n, hn⟩ := (h r).2 e hr; exact ⟨n, .inr ⟨e, hn⟩⟩
  | ok x => obtain ⟨n, _, hn⟩ := (h r).1 x.1 x.2 hr; exact ⟨n, .inl ⟨x.1, hn⟩⟩

theorem decided_agree {m : Sim α} {n : ℕ} {r s : Rng} (h : ∀ k < n, s k = r k) (hd : Decided m n r) : Decided m n s := by
  rcases hd with ⟨a, ha⟩ | ⟨e, he⟩
  · exact .inl ⟨a, fun t ht => ha t fun k hk => (ht k hk).trans (h k hk)⟩
  · exact .inr ⟨e, fun t ht => he t fun k hk => (ht k hk).trans (h k hk)⟩

/-- `n` is the smallest number of draws that decide the computation. -/
def Needs (m : Sim α) (n : ℕ) (r : Rng) : Prop := Decided m n r ∧ ∀ j < n, ¬ Decided m j r

theorem needs_exists {m : Sim α} (h : Finitary m) (r : Rng) : ∃ n, Needs m n r := by
  classical
  exact ⟨Nat.find (decided_of_finitary h r), Nat.find_spec (decided_of_finitary h r), fun j hj => Nat.find_min (decided_of_finitary h r) hj⟩

theorem needs_unique {m : Sim α} {n j : ℕ} {r : Rng} (h1 : Needs m n r) (h2 : Needs m j r) : n = j := by
  by_contra hne
  rcases lt_or_gt_of_ne hne with h | h
  · exact h2.2 n h h1.1
  · exact h1.2 j h h2.1

theorem needs_agree {m : Sim α} {n : ℕ} {r s : Rng} (h : ∀ k < n, s k = r k) (hd : Needs m n r) : Needs m n s :=
  ⟨decided_agree h hd.1, fun j hj hs => hd.2 j hj (decided_agree (fun k hk => (h k (by omega)).symm) hs)⟩

/-- The expected value of a computation in two steps: the second step draws fresh numbers. -/
theorem mean_bind [IsProbabilityMeasure μ] {m : Sim α} {f : α → Sim β} (hm : Finitary m) (hf : ∀ a, Finitary (f a)) (g : Except Err β → ℝ≥0∞) :
    Mean μ (m >>= f) g = Mean μ m (fun e => match e with
      | .ok a => Mean μ (f a) g
      | .error e => g (.error e)) := by
  classical
  set G : Except Err α → ℝ≥0∞ := fun e => match e with
    | .ok a => Mean μ (f a) g
    | .error e => g (.error e) with hG
  -- the indicator of a smallest prefix
  let K : (n : ℕ) × (Fin n → Draw) → Rng → ℝ≥0∞ := fun x r => if Needs m x.1 r ∧ ∀ k : Fin x.1, r k = x.2 k then 1 else 0
  have hKd : ∀ x (r s : Rng), (∀ k < x.1, s k = r k) → K x s = K x r := by
    intro x r s h
    have : (Needs m x.1 s ∧ ∀ k : Fin x.1, s k = x.2 k) ↔ (Needs m x.1 r ∧ ∀ k : Fin x.1, r k = x.2 k) :=
      ⟨fun ⟨h1, h2⟩ => ⟨needs_agree (fun k hk => (h k hk).symm) h1, fun k => (h k k.2).symm.trans (h2 k)⟩,
        fun ⟨h1, h2⟩ => ⟨needs_agree h h1, fun k => (h k k.2).trans (h2 k)⟩⟩
    simp only [K, this]
  have hKl : ∀ x, Local (K x) := fun x r => ⟨x.1, fun s hs => hKd x r s hs⟩
  have hKm : ∀ x, Measurable (K x) := fun x => (hKl x).measurable
  have hone : ∀ (r : Rng), ∃ x, K x r = 1 ∧ ∀ y, y ≠ x → K y r = 0 := by
    intro r
    obtain ⟨n, hn⟩ := needs_exists hm r
    refine ⟨⟨n, fun k => r k⟩, if_pos ⟨hn, fun _ => rfl⟩, fun y hy => if_neg ?_⟩
    rintro ⟨h1, h2⟩
    obtain ⟨j, d⟩ := y
    have := needs_unique h1 hn
    simp only at this
    subst this
    exact hy (by congr; funext k; exact (h2 k).symm)
  have hsum : ∀ (P : Rng → ℝ≥0∞) (r : Rng), P r = ∑' x, K x r * P r := by
    intro P r
    obtain ⟨x, h1, h2⟩ := hone r
    rw [tsum_eq_single x fun y hy => by rw [h2 y hy, zero_mul], h1, one_mul]
  have hlocal : Local (endOf (m >>= f)) := local_endOf (fin_bind hm hf)
  have key : ∀ x, ∫⁻ r, K x r * g (endOf (m >>= f) r) ∂(stream μ) = ∫⁻ r, K x r * G (endOf m r) ∂(stream μ) := by
    intro x
    by_cases hx : ∃ r0, Needs m x.1 r0 ∧ ∀ k : Fin x.1, r0 k = x.2 k
    · obtain ⟨r0, h0, h1⟩ := hx
      have hagree : ∀ r, (Needs m x.1 r ∧ ∀ k : Fin x.1, r k = x.2 k) → ∀ k < x.1, r k = r0 k := fun r hr k hk => (hr.2 ⟨k, hk⟩).trans (h1 ⟨k, hk⟩).symm
      rcases h0.1 with ⟨a, ha⟩ | ⟨e, he⟩
      · have e1 : ∀ r, K x r * g (endOf (m >>= f) r) = K x r * (fun r => g (endOf (f a) r)) (dropDraws x.1 r) := by
          intro r
          simp only [K]
          split_ifs with hr
          · congr 2
            unfold endOf
            show (((match m r with | .ok (a, r') => f a r' | .error e => .error e) : Except Err (β × Rng)).map Prod.fst) = _
            rw [ha r (hagree r hr)]
          · rw [zero_mul, zero_mul]
        have e2 : ∀ r, K x r * G (endOf m r) = K x r * Mean μ (f a) g := by
          intro r
          simp only [K]
          split_ifs with hr
          · congr 1
            unfold endOf
            rw [ha r (hagree r hr)]
            rfl
          · rw [zero_mul, zero_mul]
        simp only [e1, e2]
        rw [lintegral_split (measurable_endOf (hf a) g) x.1 (hKm x) (hKd x), lintegral_mul_const _ (hKm x)]
        rfl
      · have e1 : ∀ r, K x r * g (endOf (m >>= f) r) = K x r * G (endOf m r) := by
          intro r
          simp only [K]
          split_ifs with hr
          · congr 1
            unfold endOf
            have : (m >>= f) r = .error e := by
              show ((match m r with | .ok (a, r') => f a r' | .error e => .error e) : Except Err (β × Rng)) = _
              rw [he r (hagree r hr)]
            rw [this, he r (hagree r hr)]
            rfl
          · rw [zero_mul, zero_mul]
        simp only [e1]
    · have hz : ∀ r, K x r = 0 := fun r => if_neg fun hr => hx ⟨r, hr⟩
      simp only [hz, zero_mul]
  unfold Mean
  rw [lintegral_congr (hsum fun r => g (endOf (m >>= f) r)), lintegral_tsum (f := fun x r => K x r * g (endOf (m >>= f) r)) fun x => ((hKm x).mul (measurable_endOf (fin_bind hm hf) g)).aemeasurable]
  rw [lintegral_congr (hsum fun r => G (endOf m r)), lintegral_tsum (f := fun x r => K x r * G (endOf m r)) fun x => ((hKm x).mul (measurable_endOf hm G)).aemeasurable]
  exact tsum_congr key

/-! ## Returned values -/

theorem meanOf_pure [IsProbabilityMeasure μ] (a : α) (g : α → ℝ≥0∞) : MeanOf μ (pure a) g = g a := mean_pure _ _

theorem meanOf_raise [IsProbabilityMeasure μ] (e : Err) (g : α → ℝ≥0∞) : MeanOf μ (raise e) g = 0 := mean_raise _ _

theorem meanOf_nextDraw [IsProbabilityMeasure μ] (g : Draw → ℝ≥0∞) : MeanOf μ nextDraw g = ∫⁻ d, g d ∂μ := mean_nextDraw _

theorem meanOf_bind [IsProbabilityMeasure μ] {m : Sim α} {f : α → Sim β} (hm : Finitary m) (hf : ∀ a, Finitary (f a)) (g : β → ℝ≥0∞) :
    MeanOf μ (m >>= f) g = MeanOf μ m (fun a => MeanOf μ (f a) g) := by
  unfold MeanOf
  rw [mean_bind hm hf]
  congr 1

theorem meanOf_liftE [IsProbabilityMeasure μ] (x : Except Err α) (g : α → ℝ≥0∞) :
    MeanOf μ (liftE x) g = match x with | .ok a => g a | .error _ => 0 := by
  cases x with
  | ok a => exact meanOf_pure a g
  | error e => exact meanOf_raise e g

theorem measurable_meanOf {m : Sim α} (h : Finitary m) (g : α → ℝ≥0∞) :
    Measurable (fun r => match endOf m r with | .ok a => g a | .error _ => 0) :=
  measurable_endOf h (fun e => match e with | .ok a => g a | .error _ => 0)

theorem meanOf_mul_right {m : Sim α} (h : Finitary m) (g : α → ℝ≥0∞) (c : ℝ≥0∞) : MeanOf μ m (fun a => g a * c) = MeanOf μ m g * c := by
  show (∫⁻ r, (match endOf m r with | .ok a => g a * c | .error _ => 0) ∂(stream μ)) = (∫⁻ r, (match endOf m r with | .ok a => g a | .error _ => 0) ∂(stream μ)) * c
  rw [← lintegral_mul_const _ (measurable_meanOf h g)]
  refine lintegral_congr fun r => ?_
  cases endOf m r <;> simp

theorem meanOf_mul_left {m : Sim α} (h : Finitary m) (g : α → ℝ≥0∞) (c : ℝ≥0∞) : MeanOf μ m (fun a => c * g a) = c * MeanOf μ m g := by
  rw [mul_comm, ← meanOf_mul_right h]
  simp only [mul_comm]

theorem meanOf_add {m : Sim α} (h : Finitary m) (f g : α → ℝ≥0∞) : MeanOf μ m (fun a => f a + g a) = MeanOf μ m f + MeanOf μ m g := by
  show (∫⁻ r, (match endOf m r with | .ok a => f a + g a | .error _ => 0) ∂(stream μ)) =
    (∫⁻ r, (match endOf m r with | .ok a => f a | .error _ => 0) ∂(stream μ)) + ∫⁻ r, (match endOf m r with | .ok a => g a | .error _ => 0) ∂(stream μ)
  rw [← lintegral_add_left (measurable_meanOf h f)]
  refine lintegral_congr fun r => ?_
  cases endOf m r <;> simp

theorem chance_eq {m : Sim α} (h : Finitary m) (φ : Except Err α → Prop) [DecidablePred φ] : Chance μ m φ = Mean μ m (fun e => if φ e then 1 else 0) := by
  unfold Chance Mean
  letI : MeasurableSpace (Except Err α) := ⊤
  have hm : MeasurableSet {r | φ (endOf m r)} := (local_endOf h).measurable (show MeasurableSet {e | φ e} from trivial)
  rw [← lintegral_indicator_one hm]
  refine lintegral_congr fun r => ?_
  simp [Set.indicator]

open Classical in
theorem chanceOf_eq {m : Sim α} (h : Finitary m) (φ : α → Prop) : ChanceOf μ m φ = MeanOf μ m (fun a => if φ a then 1 else 0) := by
  unfold ChanceOf MeanOf
  rw [chance_eq h]
  congr 1
  funext e
  cases e with
  | ok a => simp
  | error e => simp

/-- Two independent computations: their order does not matter for expected values. -/
theorem meanOf_swap [IsProbabilityMeasure μ] {m : Sim α} {n : Sim β} (hm : Finitary m) (hn : Finitary n) (g : α → β → ℝ≥0∞) :
    MeanOf μ m (fun a => MeanOf μ n (g a)) = MeanOf μ n (fun b => MeanOf μ m (fun a => g a b)) := by
  let G : Rng → Rng → ℝ≥0∞ := fun r s => match endOf m r, endOf n s with
    | .ok a, .ok b => g a b
    | _, _ => 0
  have hG : Measurable (Function.uncurry G) := by
    intro A _
    have : Function.uncurry G ⁻¹' A = ⋃ (x : ((n : ℕ) × (Fin n → Draw)) × ((n : ℕ) × (Fin n → Draw))),
        ⋃ (_ : ∀ r s : Rng, (∀ k : Fin x.1.1, r k = x.1.2 k) → (∀ k : Fin x.2.1, s k = x.2.2 k) → G r s ∈ A),
          {r : Rng | ∀ k : Fin x.1.1, r k = x.1.2 k} ×ˢ {s : Rng | ∀ k : Fin x.2.1, s k = x.2.2 k} := by
      ext ⟨r, s⟩
      simp only [Set.mem_preimage, Set.mem_iUnion, Set.mem_setOf_eq, Set.mem_prod]
      constructor
      · intro hr
        obtain ⟨i, hi⟩ := local_endOf hm r
        obtain ⟨j, hj⟩ := local_endOf hn s
        refine ⟨⟨⟨i, fun k => r k⟩, ⟨j, fun k => s k⟩⟩, fun r' s' h1 h2 => ?_, fun k => rfl, fun k => rfl⟩
        have : G r' s' = G r s := by
          simp only [G]
          rw [hi r' fun k hk => h1 ⟨k, hk⟩, hj s' fun k hk => h2 ⟨k, hk⟩]
        rw [this]
        exact hr
      · rintro ⟨x, h1, h2, h3⟩
        exact h1 r s h2 h3
    rw [this]
    have hc : ∀ (x : (n : ℕ) × (Fin n → Draw)), MeasurableSet {r : Rng | ∀ k : Fin x.1, r k = x.2 k} := fun x => by
      rw [Set.setOf_forall]
      exact MeasurableSet.iInter fun k => (measurable_pi_apply (X := fun _ : ℕ => Draw) (k : ℕ)) (MeasurableSet.of_discrete (s := ({x.2 k} : Set Draw)))
    exact MeasurableSet.iUnion fun x => MeasurableSet.iUnion fun _ => (hc x.1).prod (hc x.2)
  have h1 : MeanOf μ m (fun a => MeanOf μ n (g a)) = ∫⁻ r, ∫⁻ s, G r s ∂(stream μ) ∂(stream μ) := by
    unfold MeanOf Mean
    refine lintegral_congr fun r => ?_
    simp only [G]
    cases endOf m r with
    | error e => simp
    | ok a =>
      refine lintegral_congr fun s => ?_
      cases endOf n s <;> rfl
  have h2 : MeanOf μ n (fun b => MeanOf μ m (fun a => g a b)) = ∫⁻ s, ∫⁻ r, G r s ∂(stream μ) ∂(stream μ) := by
    unfold MeanOf Mean
    refine lintegral_congr fun s => ?_
    simp only [G]
    cases endOf n s with
    | error e => simp
    | ok a =>
      refine lintegral_congr fun r => ?_
      cases endOf m r <;> rfl
  rw [h1, h2]
  exact lintegral_lintegral_swap hG.aemeasurable

end Ramp
