import Mathlib.Probability.Moments.SubGaussian
import Verif.Props.Variance

/-! # C110: exponential bounds for the fluctuations of the load -/

set_option autoImplicit false

open MeasureTheory ENNReal

namespace Ramp

variable {μ : Measure Draw}

/-! ## Hoeffding's lemma for a run -/

/-- The quantity of the outcome as a random variable. -/
noncomputable def quantityOf {α : Type} (m : Sim α) (g : α → ℝ≥0∞) (r : Rng) : ℝ := match endOf m r with
  | .ok a => (g a).toReal
  | .error _ => 0

theorem measurable_quantityOf {α : Type} {m : Sim α} (h : Finitary m) (g : α → ℝ≥0∞) : Measurable (quantityOf m g) :=
  ((local_endOf h).comp (fun e => match e with
    | .ok a => (g a).toReal
    | .error _ => 0)).measurable

theorem endOf_never {α : Type} {m : Sim α} (h : NeverRaises m) (r : Rng) : ∃ a, Returns m a ∧ endOf m r = .ok a := by
  unfold endOf
  cases hm : m r with
  | error e => exact absurd ⟨r, hm⟩ (h e)
  | ok x => exact ⟨x.1, ⟨r, x.2, hm⟩, rfl⟩

theorem meanOf_value {α : Type} {m : Sim α} {g : α → ℝ≥0∞} {B : ℝ≥0∞} (h : BoundedRun m g B) (F : ℝ → ℝ) :
    MeanOf μ m (fun a => ENNReal.ofReal (F (g a).toReal)) = ∫⁻ r, ENNReal.ofReal (F (quantityOf m g r)) ∂(stream μ) := by
  unfold MeanOf Mean
  refine lintegral_congr fun r => ?_
  obtain ⟨a, _, ha⟩ := endOf_never h.never r
  unfold quantityOf
  rw [ha]

theorem mean_value [IsProbabilityMeasure μ] {α : Type} {m : Sim α} {g : α → ℝ≥0∞} {B : ℝ≥0∞} (h : BoundedRun m g B) :
    ∫ r, quantityOf m g r ∂(stream μ) = (MeanOf μ m g).toReal := by
  have h0 : ∀ r, 0 ≤ quantityOf m g r := fun r => by
    unfold quantityOf
    cases endOf m r with
    | ok a => exact ENNReal.toReal_nonneg
    | error e => exact le_refl _
  rw [integral_eq_lintegral_of_nonneg_ae (Filter.Eventually.of_forall h0) (measurable_quantityOf h.fin g).aestronglyMeasurable]
  have e := meanOf_value (μ := μ) h (fun x => x)
  rw [← e]
  congr 1
  exact meanOf_congr fun a ha => ENNReal.ofReal_toReal (ne_top_of_le_ne_top h.finite (h.bound a ha))

/-- The distances from the expected value have small exponential moments. -/
def Concentrated (μ : Measure Draw) {α : Type} (m : Sim α) (g : α → ℝ≥0∞) (c : ℝ) : Prop :=
  ∀ t : ℝ, MeanOf μ m (fun a => ENNReal.ofReal (Real.exp (t * ((g a).toReal - (MeanOf μ m g).toReal)))) ≤ ENNReal.ofReal (Real.exp (t ^ 2 * c / 8))

theorem concentrated_bounded [IsProbabilityMeasure μ] {α : Type} {m : Sim α} {g : α → ℝ≥0∞} {B : ℝ≥0∞} (h : BoundedRun m g B) : Concentrated μ m g (B.toReal ^ 2) := by
  intro t
  have hb : ∀ r, quantityOf m g r ∈ Set.Icc 0 B.toReal := fun r => by
    obtain ⟨a, h1, h2⟩ := endOf_never h.never r
    unfold quantityOf
    rw [h2]
    exact ⟨ENNReal.toReal_nonneg, ENNReal.toReal_mono h.finite (h.bound a h1)⟩
  have hs := ProbabilityTheory.hasSubgaussianMGF_of_mem_Icc (μ := stream μ) (measurable_quantityOf h.fin g).aemeasurable (Filter.Eventually.of_forall hb)
  rw [mean_value h] at hs
  have h1 := hs.mgf_le t
  have h2 := hs.integrable_exp_mul t
  rw [meanOf_value h (fun x => Real.exp (t * (x - (MeanOf μ m g).toReal))), ← ofReal_integral_eq_lintegral_ofReal h2 (Filter.Eventually.of_forall fun r => (Real.exp_pos _).le)]
  refine ENNReal.ofReal_le_ofReal ((show _ ≤ _ from h1).trans (le_of_eq ?_))
  congr 1
  have e : (((‖B.toReal - 0‖₊ / 2) ^ 2 : NNReal) : ℝ) = (B.toReal / 2) ^ 2 := by
    push_cast
    rw [_root_.sub_zero, Real.norm_of_nonneg ENNReal.toReal_nonneg]
  rw [e]
  ring

theorem concentrated_pair [IsProbabilityMeasure μ] {α β γ : Type} {m : Sim α} {n : Sim β} {c : α → β → γ} {f : α → ℝ≥0∞} {h : β → ℝ≥0∞} {G : γ → ℝ≥0∞} {B B' : ℝ≥0∞}
    {x y : ℝ} (hm : BoundedRun m f B) (hn : BoundedRun n h B') (hG : ∀ a b, Returns m a → Returns n b → G (c a b) = f a + h b) (hx : Concentrated μ m f x)
    (hy : Concentrated μ n h y) : Concentrated μ (m >>= fun a => n >>= fun b => pure (c a b)) G (x + y) := by
  intro t
  have h1 : MeanOf μ m f ≠ ⊤ := ne_top_of_le_ne_top hm.finite (bounded_mean hm)
  have h2 : MeanOf μ n h ≠ ⊤ := ne_top_of_le_ne_top hn.finite (bounded_mean hn)
  rw [mean_pair hm hn hG, ENNReal.toReal_add h1 h2,
    meanOf_bind (f := fun a => n >>= fun b => pure (c a b)) hm.fin fun _ => fin_bind hn.fin fun _ => fin_pure _]
  generalize hF : (fun a => ENNReal.ofReal (Real.exp (t * ((f a).toReal - (MeanOf μ m f).toReal)))) = F
  generalize hH : (fun b => ENNReal.ofReal (Real.exp (t * ((h b).toReal - (MeanOf μ n h).toReal)))) = H
  have e : ∀ a, Returns m a → MeanOf μ (n >>= fun b => pure (c a b))
      (fun z => ENNReal.ofReal (Real.exp (t * ((G z).toReal - ((MeanOf μ m f).toReal + (MeanOf μ n h).toReal))))) = F a * MeanOf μ n H := by
    intro a ha
    rw [meanOf_bind (f := fun b => pure (c a b)) hn.fin fun _ => fin_pure _, ← meanOf_mul_left hn.fin]
    refine meanOf_congr fun b hb => ?_
    rw [meanOf_pure, hG a b ha hb, ENNReal.toReal_add (ne_top_of_le_ne_top hm.finite (hm.bound a ha)) (ne_top_of_le_ne_top hn.finite (hn.bound b hb)), ← hF, ← hH]
    simp only
    rw [← ENNReal.ofReal_mul (Real.exp_pos _).le, ← Real.exp_add]
    congr 2
    ring
  rw [meanOf_congr e, meanOf_mul_right hm.fin]
  have hx' := hx t
  have hy' := hy t
  rw [hF] at hx'
  rw [hH] at hy'
  refine (mul_le_mul' hx' hy').trans (le_of_eq ?_)
  rw [← ENNReal.ofReal_mul (Real.exp_pos _).le, ← Real.exp_add]
  congr 2
  ring

/-- Chernoff's bound, on one side. -/
theorem chernoff {α : Type} {m : Sim α} (hm : Finitary m) {g : α → ℝ≥0∞} {c : ℝ} (h : Concentrated μ m g c) (s : ℝ) {ε : ℝ} (hε : 0 < ε) (hc : 0 < c)
    (hs : s = 1 ∨ s = -1) :
    ChanceOf μ m (fun a => ε ≤ s * ((g a).toReal - (MeanOf μ m g).toReal)) ≤ ENNReal.ofReal (Real.exp (-(2 * ε ^ 2 / c))) := by
  classical
  have h1 := h (s * (4 * ε / c))
  have h2 : ChanceOf μ m (fun a => ε ≤ s * ((g a).toReal - (MeanOf μ m g).toReal)) * ENNReal.ofReal (Real.exp (4 * ε / c * ε)) ≤
      MeanOf μ m (fun a => ENNReal.ofReal (Real.exp (s * (4 * ε / c) * ((g a).toReal - (MeanOf μ m g).toReal)))) := by
    rw [chanceOf_ind hm, ← meanOf_mul_right hm]
    refine meanOf_le fun a => ?_
    by_cases hy : ε ≤ s * ((g a).toReal - (MeanOf μ m g).toReal)
    · rw [ind_true hy, one_mul]
      refine ENNReal.ofReal_le_ofReal (Real.exp_le_exp.2 ?_)
      calc 4 * ε / c * ε ≤ 4 * ε / c * (s * ((g a).toReal - (MeanOf μ m g).toReal)) := mul_le_mul_of_nonneg_left hy (by positivity)
        _ = _ := by ring
    · rw [ind_false hy, zero_mul]
      exact zero_le
  have hs2 : s ^ 2 = 1 := by rcases hs with rfl | rfl <;> norm_num
  have h3 := h2.trans h1
  have hpos : (0 : ℝ) < Real.exp (4 * ε / c * ε) := Real.exp_pos _
  have h4 : ChanceOf μ m (fun a => ε ≤ s * ((g a).toReal - (MeanOf μ m g).toReal)) ≤
      ENNReal.ofReal (Real.exp ((s * (4 * ε / c)) ^ 2 * c / 8)) / ENNReal.ofReal (Real.exp (4 * ε / c * ε)) := by
    rw [ENNReal.le_div_iff_mul_le (.inl (by rw [Ne, ENNReal.ofReal_eq_zero, not_le]; exact hpos)) (.inl ENNReal.ofReal_ne_top)]
    exact h3
  rw [← ENNReal.ofReal_div_of_pos hpos, ← Real.exp_sub] at h4
  refine h4.trans (ENNReal.ofReal_le_ofReal (Real.exp_le_exp.2 (le_of_eq ?_)))
  rw [mul_pow, hs2]
  field_simp
  ring

theorem chanceOf_or {α : Type} {m : Sim α} (φ ψ : α → Prop) : ChanceOf μ m (fun a => φ a ∨ ψ a) ≤ ChanceOf μ m φ + ChanceOf μ m ψ := by
  unfold ChanceOf Chance
  refine (measure_mono ?_).trans (measure_union_le _ _)
  rintro r ⟨a, h1, h2 | h2⟩
  · exact .inl ⟨a, h1, h2⟩
  · exact .inr ⟨a, h1, h2⟩

theorem hoeffding [IsProbabilityMeasure μ] {α : Type} {m : Sim α} (hm : Finitary m) {g : α → ℝ≥0∞} {c : ℝ} (h : Concentrated μ m g c) {ε : ℝ} (hε : 0 < ε) (hc : 0 ≤ c) :
    ChanceOf μ m (fun a => ε ≤ |(g a).toReal - (MeanOf μ m g).toReal|) ≤ ENNReal.ofReal (2 * Real.exp (-(2 * ε ^ 2 / c))) := by
  rcases hc.eq_or_lt with rfl | hc
  · refine (chanceOf_le_one _).trans ?_
    rw [_root_.div_zero, _root_.neg_zero, Real.exp_zero, ← ENNReal.ofReal_one]
    exact ENNReal.ofReal_le_ofReal (by norm_num)
  have h1 := chernoff hm h 1 hε hc (.inl rfl)
  have h2 := chernoff hm h (-1) hε hc (.inr rfl)
  have h3 : ChanceOf μ m (fun a => ε ≤ |(g a).toReal - (MeanOf μ m g).toReal|) ≤
      ChanceOf μ m (fun a => ε ≤ 1 * ((g a).toReal - (MeanOf μ m g).toReal)) + ChanceOf μ m (fun a => ε ≤ -1 * ((g a).toReal - (MeanOf μ m g).toReal)) := by
    refine (chanceOf_mono fun a ha => ?_).trans (chanceOf_or _ _)
    rcases le_abs.1 ha with h | h
    · exact .inl (by linarith)
    · exact .inr (by linarith)
  refine (h3.trans (add_le_add h1 h2)).trans (le_of_eq ?_)
  rw [← ENNReal.ofReal_add (Real.exp_pos _).le (Real.exp_pos _).le]
  congr 1
  ring

/-! ## Sums -/

theorem concentrated_sum [IsProbabilityMeasure μ] {g : Profile → ℝ≥0∞} (hg : AddsUp g) (hf : ∀ p, g p ≠ ⊤) {ι : Type} {f : ι → Sim Profile} {B : ι → ℚ} :
    ∀ {l : List ι}, (∀ x ∈ l, ProfileRun (f x) (B x)) → Concentrated μ (sumRuns (l.map f)) g ((l.map (fun x => (g (fun _ => B x)).toReal ^ 2)).sum)
  | [], _ => by
    intro t
    rw [List.map_nil, meanOf_sumRuns_nil, meanOf_sumRuns_nil, _root_.sub_self]
    simp
  | x :: l, h => by
    have hx := h x (by simp)
    have hl := profileRun_sum (l := l) fun y hy => h y (by simp [hy])
    rw [List.map_cons, List.map_cons, List.sum_cons]
    exact concentrated_pair (bounded_profile hg hf hx) (bounded_profile hg hf hl) (fun a b ha hb => hg.sum a b (hx.good.nonneg a ha) (hl.good.nonneg b hb))
      (concentrated_bounded (bounded_profile hg hf hx)) (concentrated_sum hg hf (l := l) fun y hy => h y (by simp [hy]))

theorem concentrated_rows [IsProbabilityMeasure μ] {g : Profile → ℝ≥0∞} (hg : AddsUp g) (hf : ∀ p, g p ≠ ⊤) {depth : ℕ} {peak : List ℤ} {us : List User} {C : ℚ} :
    ∀ {ds : List ℤ} {k : ℕ}, (∀ j : Fin ds.length, ProfileRun (caseRun depth (k + j) peak (typeOfDay ds[j]) us) C) →
      Concentrated μ (rowsRun depth peak us k ds) (totalOf g) (ds.length * (g (fun _ => C)).toReal ^ 2)
  | [], _, _ => by
    intro t
    unfold rowsRun
    rw [meanOf_pure, meanOf_pure, _root_.sub_self]
    simp
  | d :: ds, k, h => by
    have h1 := bounded_profile hg hf (h 0)
    have h' : ∀ j : Fin ds.length, ProfileRun (caseRun depth (k + 1 + j) peak (typeOfDay ds[j]) us) C := fun j => by
      have := h j.succ
      rw [show k + 1 + (j : ℕ) = k + (j + 1) by omega]
      exact this
    have h2 := bounded_rows hg hf (ds := ds) (k := k + 1) h'
    rw [List.length_cons, Nat.cast_add, Nat.cast_one, add_mul, one_mul, add_comm]
    exact concentrated_pair (c := fun p ps => p :: ps) h1 h2 (fun p ps _ _ => by simp [totalOf]) (concentrated_bounded h1) (concentrated_rows hg hf h')

/-! ## Users -/

theorem concentrated_runs [IsProbabilityMeasure μ] {g : Profile → ℝ≥0∞} (hg : AddsUp g) (hf : ∀ p, g p ≠ ⊤) {ι : Type} {f : ι → Sim Profile} {B : ι → ℚ} {c : ι → ℝ} :
    ∀ {l : List ι}, (∀ x ∈ l, ProfileRun (f x) (B x)) → (∀ x ∈ l, Concentrated μ (f x) g (c x)) → Concentrated μ (sumRuns (l.map f)) g (l.map c).sum
  | [], _, _ => by
    intro t
    rw [List.map_nil, meanOf_sumRuns_nil, meanOf_sumRuns_nil, _root_.sub_self]
    simp
  | x :: l, h, hc => by
    have hx := h x (by simp)
    have hl := profileRun_sum (l := l) fun y hy => h y (by simp [hy])
    rw [List.map_cons, List.map_cons, List.sum_cons]
    exact concentrated_pair (bounded_profile hg hf hx) (bounded_profile hg hf hl) (fun a b ha hb => hg.sum a b (hx.good.nonneg a ha) (hl.good.nonneg b hb))
      (hc x (by simp)) (concentrated_runs hg hf (l := l) (fun y hy => h y (by simp [hy])) fun y hy => hc y (by simp [hy]))

theorem concentrated_user [IsProbabilityMeasure μ] {g : Profile → ℝ≥0∞} (hg : AddsUp g) (hf : ∀ p, g p ≠ ⊤) {depth k : ℕ} {peak : List ℤ} {dt : ℤ} {u : User}
    {P : Appliance → ℚ} (hn : 0 < u.numUsers.toNat → NeverRaises (memberRun depth k peak dt u)) (hP : ∀ a ∈ u.appList, PowersUpTo (P a) a) :
    Concentrated μ (userRun depth k peak dt u) g (u.numUsers.toNat * (g (fun _ => (u.appList.map (applianceBound P)).sum)).toReal ^ 2) := by
  have h := concentrated_sum (μ := μ) hg hf (f := memberRun depth k peak dt) (B := fun v => (v.appList.map (applianceBound P)).sum) (l := List.replicate u.numUsers.toNat u)
    fun x hx => by
      obtain ⟨h0, rfl⟩ := List.mem_replicate.1 hx
      exact profileRun_member (hn (by omega)) hP
  rw [replicate_map, replicate_map, List.sum_replicate, nsmul_eq_mul] at h
  exact h

theorem concentrated_case [IsProbabilityMeasure μ] {g : Profile → ℝ≥0∞} (hg : AddsUp g) (hf : ∀ p, g p ≠ ⊤) {depth k : ℕ} {peak : List ℤ} {dt : ℤ} {us : List User}
    {P : Appliance → ℚ} (hn : NeverRaises (caseRun depth k peak dt us)) (hP : ∀ u ∈ us, ∀ a ∈ u.appList, PowersUpTo (P a) a) :
    Concentrated μ (caseRun depth k peak dt us) g
      (us.map (fun u => (u.numUsers.toNat : ℝ) * (g (fun _ => (u.appList.map (applianceBound P)).sum)).toReal ^ 2)).sum :=
  concentrated_runs hg hf (B := fun u : User => (u.numUsers.toNat : ℚ) * (u.appList.map (applianceBound P)).sum)
    (fun _ hu => profileRun_user (fun h0 => never_members hn hu h0) (hP _ hu)) fun _ hu => concentrated_user hg hf (fun h0 => never_members hn hu h0) (hP _ hu)

theorem concentrated_row [IsProbabilityMeasure μ] {env : Env} {depth : ℕ} {uc : UseCase} {ds peak : List ℤ} {days : Option (List ℤ)} (hr : Ready uc ds peak)
    (hn : NeverRaises (dailyRows env depth uc days)) {g : Profile → ℝ≥0∞} {c : ℝ} (k : Fin ds.length)
    (h : Concentrated μ (caseRun depth k peak (typeOfDay ds[k]) uc.users) g c) : Concentrated μ (dailyRows env depth uc days) (fun rows => g (rows.getD k zeros)) c := by
  intro t
  rw [mean_row hr hn g k, mean_row hr hn (fun p => ENNReal.ofReal (Real.exp (t * ((g p).toReal - (MeanOf μ (caseRun depth k peak (typeOfDay ds[k]) uc.users) g).toReal)))) k]
  exact h t

theorem bound_toReal {B : ℚ} (h : 0 ≤ B) (i : Fin 1440) : (loadAt i (fun _ => B)).toReal = (B : ℝ) := toReal_load (p := fun _ => B) (fun _ => h) i

/-- **C110.** The load of a minute concentrates around its expected value: if the appliances of one member of the user category `u` can use at most `B u` watts together, the
probability that the load of minute `i` of the day `k` is `ε` or more away from its expected value is at most `2 exp(- 2 ε² / Σ n_u B_u²)`, where `n_u` is the number of
members of `u`. -/
theorem C110_concentration [IsProbabilityMeasure μ] {env : Env} {depth : ℕ} {uc : UseCase} {ds peak : List ℤ} {days : Option (List ℤ)} (hr : Ready uc ds peak)
    (hn : NeverRaises (generateDaily env depth uc days)) {P : Appliance → ℚ} (hP : ∀ u ∈ uc.users, ∀ a ∈ u.appList, PowersUpTo (P a) a) {c : ℚ}
    (hc : c = (uc.users.map (fun u => (u.numUsers.toNat : ℚ) * (u.appList.map (applianceBound P)).sum ^ 2)).sum) {k : ℕ} (hk : k < ds.length) (i : Fin 1440) {ε : ℝ}
    (hε : 0 < ε) :
    ChanceOf μ (dailyRows env depth uc days) (fun rows => ε ≤ |((rows.getD k zeros i : ℚ) : ℝ) - (expectedLoad μ (dailyRows env depth uc days) k i).toReal|) ≤
      ENNReal.ofReal (2 * Real.exp (-(2 * ε ^ 2 / c))) := by
  have hg := C104_load_adds_up i
  have hf := loadAt_finite i
  have h := concentrated_row (μ := μ) hr (never_dailyRows hn) ⟨k, hk⟩ (concentrated_case hg hf (never_case hr hn ⟨k, hk⟩) hP)
  have hb : ∀ u ∈ uc.users, (u.numUsers.toNat : ℝ) * (loadAt i (fun _ => (u.appList.map (applianceBound P)).sum)).toReal ^ 2 =
      (((u.numUsers.toNat : ℚ) * (u.appList.map (applianceBound P)).sum ^ 2 : ℚ) : ℝ) := by
    intro u hu
    by_cases h0 : 0 < u.numUsers.toNat
    · rw [bound_toReal (bound_nonneg (profileRun_member (never_members (never_case hr hn ⟨k, hk⟩) hu h0) (hP u hu))) i]
      push_cast
      rfl
    · rw [Nat.eq_zero_of_not_pos h0]
      push_cast
      rw [zero_mul, zero_mul]
  rw [List.map_congr_left hb] at h
  have hcc : (uc.users.map (fun u => (((u.numUsers.toNat : ℚ) * (u.appList.map (applianceBound P)).sum ^ 2 : ℚ) : ℝ))).sum = (c : ℝ) := by
    rw [hc]
    induction uc.users with
    | nil => simp
    | cons u us ih => rw [List.map_cons, List.sum_cons, List.map_cons, List.sum_cons, Rat.cast_add, ih]
  rw [hcc] at h
  have hc0 : (0 : ℝ) ≤ c := by
    rw [hc]
    refine Rat.cast_nonneg.2 (List.sum_nonneg fun x hx => ?_)
    obtain ⟨u, _, rfl⟩ := List.mem_map.1 hx
    positivity
  refine (le_of_eq (chanceOf_congr fun rows hrows => ?_)).trans (hoeffding (fin_dailyRows (env := env) (depth := depth) days hr) h hε hc0)
  rw [dailyRows_eq days hr] at hrows
  rw [toReal_load (rowOf_nonneg (rows_nonneg (profileRun_rows hr hn hP) hrows) k)]
  rfl

/-- **C110.** The average over many members: for one user category of `n` members whose appliances can use at most `B` watts together, the probability that the load of a
minute, divided by the number of members, is `ε` or more away from that expected of a single member is at most `2 exp(- 2 n ε² / B²)`. -/
theorem C110_many_members_exponential [IsProbabilityMeasure μ] {env : Env} {depth : ℕ} {uc : UseCase} {ds peak : List ℤ} {days : Option (List ℤ)} (hr : Ready uc ds peak)
    (hn : NeverRaises (generateDaily env depth uc days)) {u : User} (hu : uc.users = [u]) {n : ℕ} (hnu : u.numUsers = n) (h1 : 1 ≤ n) {P : Appliance → ℚ}
    (hP : ∀ a ∈ u.appList, PowersUpTo (P a) a) {B : ℚ} (hB : B = (u.appList.map (applianceBound P)).sum) {k : ℕ} (hk : k < ds.length) (i : Fin 1440) {ε : ℝ} (hε : 0 < ε) :
    ChanceOf μ (dailyRows env depth uc days)
        (fun rows => ε ≤ |((rows.getD k zeros i : ℚ) : ℝ) / n - (expectedLoad μ (dailyRows env depth { uc with users := [oneMember u] } days) k i).toReal|) ≤
      ENNReal.ofReal (2 * Real.exp (-(2 * n * ε ^ 2 / (B : ℝ) ^ 2))) := by
  have hnn : u.numUsers.toNat = n := by rw [hnu]; rfl
  have hP1 : ∀ v ∈ uc.users, ∀ a ∈ v.appList, PowersUpTo (P a) a := fun v hv a ha => by
    rw [hu, List.mem_singleton] at hv
    rw [hv] at ha
    exact hP a ha
  have hn0 : (0 : ℝ) < n := by exact_mod_cast h1
  have h := C110_concentration (μ := μ) (c := n * B ^ 2) hr hn hP1 (by rw [hu, List.map_singleton, List.sum_singleton, hnn, hB]) hk i (ε := n * ε) (by positivity)
  have hE : expectedLoad μ (dailyRows env depth uc days) k i = n * expectedLoad μ (dailyRows env depth { uc with users := [oneMember u] } days) k i :=
    mean_many_members (μ := μ) hr hn hu hnn h1 hP hk i
  rw [hE, ENNReal.toReal_mul, ENNReal.toReal_natCast] at h
  refine (le_of_eq (chanceOf_congr fun rows _ => ?_)).trans (h.trans (le_of_eq ?_))
  · generalize ((rows.getD k zeros i : ℚ) : ℝ) = x
    generalize (expectedLoad μ (dailyRows env depth { uc with users := [oneMember u] } days) k i).toReal = y
    have e : x / n - y = (x - n * y) / n := by field_simp
    rw [e, abs_div, abs_of_pos hn0, le_div_iff₀ hn0, mul_comm]
  · congr 4
    push_cast
    by_cases hB0 : (B : ℝ) = 0
    · rw [hB0]
      simp
    · field_simp

/-- **C110.** The average over many days: if the users can use at most `B` watts, the probability that the average of minute `i` over the `n` days of the simulation is `ε` or
more away from its expected value is at most `2 exp(- 2 n ε² / B²)`. -/
theorem C110_many_days_exponential [IsProbabilityMeasure μ] {env : Env} {depth : ℕ} {uc : UseCase} {ds peak : List ℤ} {days : Option (List ℤ)} (hr : Ready uc ds peak)
    (hn : NeverRaises (generateDaily env depth uc days)) {P : Appliance → ℚ} (hP : ∀ u ∈ uc.users, ∀ a ∈ u.appList, PowersUpTo (P a) a) {B : ℚ}
    (hB : B = (uc.users.map (fun u => (u.numUsers.toNat : ℚ) * (u.appList.map (applianceBound P)).sum)).sum) (h1 : ds ≠ []) (i : Fin 1440) {ε : ℝ} (hε : 0 < ε) :
    ChanceOf μ (dailyRows env depth uc days)
        (fun rows => ε ≤ |(((rows.map (fun p => p i)).sum : ℚ) : ℝ) / ds.length - (∑ k : Fin ds.length, expectedLoad μ (dailyRows env depth uc days) k i).toReal / ds.length|) ≤
      ENNReal.ofReal (2 * Real.exp (-(2 * ds.length * ε ^ 2 / (B : ℝ) ^ 2))) := by
  have hlen : 1 ≤ ds.length := List.length_pos_iff.2 h1
  have hg := C104_load_adds_up i
  have hf := loadAt_finite i
  have hrun := profileRun_rows hr hn hP
  rw [← hB] at hrun
  have hB0 : 0 ≤ B := bound_nonneg (hrun ⟨0, hlen⟩)
  have hn0 : (0 : ℝ) < ds.length := by exact_mod_cast hlen
  have hc := concentrated_rows (μ := μ) hg hf hrun
  rw [← dailyRows_eq days hr (env := env), bound_toReal hB0] at hc
  have h := hoeffding (μ := μ) (fin_dailyRows (env := env) (depth := depth) days hr) hc (ε := ds.length * ε) (by positivity) (by positivity)
  rw [mean_many_days hr hn hrun i] at h
  refine (le_of_eq (chanceOf_congr fun rows hrows => ?_)).trans (h.trans (le_of_eq ?_))
  · rw [dailyRows_eq days hr] at hrows
    rw [toReal_total (rows_nonneg hrun hrows)]
    generalize (((rows.map (fun p => p i)).sum : ℚ) : ℝ) = x
    generalize (∑ k : Fin ds.length, expectedLoad μ (dailyRows env depth uc days) k i).toReal = y
    rw [← sub_div, abs_div, abs_of_pos hn0, le_div_iff₀ hn0, mul_comm]
  · congr 4
    by_cases hB0 : (B : ℝ) = 0
    · rw [hB0]
      simp
    · field_simp

/-- A case for C110: the kettles (1000 W) of `n` households.  The load per household at 7:00 of the second day is 100 W or more away from that expected with a probability of
at most `2 exp(- n / 50)`: for 500 households, less than one in ten thousand. -/
example [IsProbabilityMeasure μ] (n : ℕ) (h1 : 1 ≤ n) :
    ChanceOf μ (dailyRows ⟨0, none⟩ 1000 (lampDays [{ numUsers := n, appList := [kettle] }]) none)
        (fun rows => 100 ≤ |((rows.getD 1 zeros ⟨420, by norm_num⟩ : ℚ) : ℝ) / n -
          (expectedLoad μ (dailyRows ⟨0, none⟩ 1000 (lampDays [{ numUsers := 1, appList := [kettle] }]) none) 1 ⟨420, by norm_num⟩).toReal|) ≤
      ENNReal.ofReal (2 * Real.exp (-(n / 50))) := by
  have h := C110_many_members_exponential (μ := μ) (env := ⟨0, none⟩) (depth := 1000) (days := none) (kettles_ready n) (kettles_never n)
    (u := { numUsers := n, appList := [kettle] }) rfl rfl h1
    (P := fun _ => 1000) (fun a ha => by rw [List.mem_singleton.1 ha]; exact kettle_powers) (B := 1000)
    (by
      show _ = ([kettle].map (applianceBound (fun _ => 1000))).sum
      rw [List.map_singleton, List.sum_singleton]
      unfold applianceBound
      rw [show kettle.number = 1 from rfl, show kettle.thermalPVar = 0 from rfl]
      norm_num) (k := 1) (by simp) ⟨420, by norm_num⟩ (ε := 100) (by norm_num)
  refine h.trans (ENNReal.ofReal_le_ofReal (le_of_eq ?_))
  congr 3
  push_cast
  ring

end Ramp
