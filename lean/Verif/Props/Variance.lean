import Verif.Spec10
import Verif.Props.OneUse

/-! # C110: the fluctuations of the load -/

set_option autoImplicit false

open MeasureTheory ENNReal

namespace Ramp

variable {μ : Measure Draw}

/-! ## Variance of independent runs -/

/-- A run that never raises, with a bounded quantity. -/
structure BoundedRun {α : Type} (m : Sim α) (g : α → ℝ≥0∞) (B : ℝ≥0∞) : Prop where
  fin : Finitary m
  never : NeverRaises m
  finite : B ≠ ⊤
  bound : ∀ a, Returns m a → g a ≤ B

theorem bounded_mean [IsProbabilityMeasure μ] {α : Type} {m : Sim α} {g : α → ℝ≥0∞} {B : ℝ≥0∞} (h : BoundedRun m g B) : MeanOf μ m g ≤ B := by
  have e : MeanOf μ m g = MeanOf μ m (fun a => min (g a) B) := meanOf_congr fun a ha => (min_eq_left (h.bound a ha)).symm
  rw [e]
  exact (meanOf_le fun a => min_le_right _ _).trans_eq (meanOf_const h.never B)

theorem bounded_sq {α : Type} {m : Sim α} {g : α → ℝ≥0∞} {B : ℝ≥0∞} (h : BoundedRun m g B) : BoundedRun m (fun a => g a ^ 2) (B ^ 2) :=
  ⟨h.fin, h.never, ENNReal.pow_ne_top h.finite, fun a ha => pow_le_pow_left' (h.bound a ha) 2⟩

theorem variance_eq [IsProbabilityMeasure μ] {α : Type} {m : Sim α} {g : α → ℝ≥0∞} {B : ℝ≥0∞} (h : BoundedRun m g B) :
    varianceOf μ m g + MeanOf μ m g ^ 2 = MeanOf μ m (fun a => g a ^ 2) := by
  have hE : MeanOf μ m g ≠ ⊤ := ne_top_of_le_ne_top h.finite (bounded_mean h)
  have key : varianceOf μ m g + 2 * MeanOf μ m g * MeanOf μ m g = MeanOf μ m (fun a => g a ^ 2) + MeanOf μ m g ^ 2 := by
    unfold varianceOf
    rw [← meanOf_mul_left h.fin g, ← meanOf_add h.fin]
    have e : MeanOf μ m (fun a => g a ^ 2) + MeanOf μ m g ^ 2 = MeanOf μ m (fun a => g a ^ 2 + MeanOf μ m g ^ 2) := by
      rw [meanOf_add h.fin, meanOf_const h.never]
    rw [e]
    refine meanOf_congr fun a ha => ?_
    have hg : g a ≠ ⊤ := ne_top_of_le_ne_top h.finite (h.bound a ha)
    generalize MeanOf μ m g = x at hE ⊢
    obtain ⟨y, hy⟩ : ∃ y, g a = y := ⟨_, rfl⟩
    rw [hy] at hg ⊢
    lift x to NNReal using hE
    lift y to NNReal using hg
    rw [ENNReal.coe_toReal, ENNReal.coe_toReal]
    have e1 : (2 : ℝ≥0∞) * x * y = ENNReal.ofReal (2 * x * y) := by
      rw [ENNReal.ofReal_mul (by positivity), ENNReal.ofReal_mul (by positivity), ENNReal.ofReal_coe_nnreal, ENNReal.ofReal_coe_nnreal, ENNReal.ofReal_ofNat]
    have e2 : (y : ℝ≥0∞) ^ 2 + (x : ℝ≥0∞) ^ 2 = ENNReal.ofReal ((y : ℝ) ^ 2 + (x : ℝ) ^ 2) := by
      rw [ENNReal.ofReal_add (by positivity) (by positivity), ENNReal.ofReal_pow (by positivity), ENNReal.ofReal_pow (by positivity), ENNReal.ofReal_coe_nnreal,
        ENNReal.ofReal_coe_nnreal]
    rw [e1, e2, ← ENNReal.ofReal_add (by positivity) (by positivity)]
    congr 1
    ring
  rw [show (2 : ℝ≥0∞) * MeanOf μ m g * MeanOf μ m g = MeanOf μ m g ^ 2 + MeanOf μ m g ^ 2 by ring, ← add_assoc] at key
  exact (ENNReal.add_left_inj (ENNReal.pow_ne_top hE)).1 key

theorem variance_le [IsProbabilityMeasure μ] {α : Type} {m : Sim α} {g : α → ℝ≥0∞} {B : ℝ≥0∞} (h : BoundedRun m g B) : varianceOf μ m g ≤ B ^ 2 / 4 := by
  have hE := bounded_mean (μ := μ) h
  have hv := variance_eq (μ := μ) h
  have h2 : MeanOf μ m (fun a => g a ^ 2) ≤ B * MeanOf μ m g := by
    rw [← meanOf_mul_left h.fin]
    have e : MeanOf μ m (fun a => g a ^ 2) = MeanOf μ m (fun a => min (g a) B * g a) := meanOf_congr fun a ha => by rw [min_eq_left (h.bound a ha), sq]
    rw [e]
    exact meanOf_le fun a => mul_le_mul_left (min_le_right _ _) _
  rw [← hv] at h2
  have hVt : varianceOf μ m g ≠ ⊤ := by
    refine ne_top_of_le_ne_top (ENNReal.mul_ne_top h.finite (ne_top_of_le_ne_top h.finite hE)) (le_trans ?_ h2)
    exact le_self_add
  have hEt : MeanOf μ m g ≠ ⊤ := ne_top_of_le_ne_top h.finite hE
  have hB := h.finite
  generalize varianceOf μ m g = V at *
  generalize MeanOf μ m g = x at *
  lift V to NNReal using hVt
  lift x to NNReal using hEt
  lift B to NNReal using hB
  rw [ENNReal.le_div_iff_mul_le (by left; norm_num) (by left; norm_num)]
  norm_cast at h2 hE ⊢
  have h3 : (V : ℝ) + (x : ℝ) ^ 2 ≤ B * x := by exact_mod_cast h2
  have h4 : (V : ℝ) * 4 ≤ (B : ℝ) ^ 2 := by nlinarith [sq_nonneg ((B : ℝ) - 2 * x)]
  exact_mod_cast h4

/-- Two runs one after the other, and a quantity that is the sum of one of the first and one of the second. -/
theorem bounded_pair {α β γ : Type} {m : Sim α} {n : Sim β} {c : α → β → γ} {f : α → ℝ≥0∞} {h : β → ℝ≥0∞} {G : γ → ℝ≥0∞} {B B' : ℝ≥0∞}
    (hm : BoundedRun m f B) (hn : BoundedRun n h B') (hG : ∀ a b, Returns m a → Returns n b → G (c a b) = f a + h b) :
    BoundedRun (m >>= fun a => n >>= fun b => pure (c a b)) G (B + B') := by
  refine ⟨fin_bind hm.fin fun _ => fin_bind hn.fin fun _ => fin_pure _,
    never_bind_intro hm.fin hm.never fun _ _ => never_bind_intro hn.fin hn.never fun _ _ => never_pure _, ENNReal.add_ne_top.2 ⟨hm.finite, hn.finite⟩, fun x hx => ?_⟩
  obtain ⟨a, ha, hx⟩ := (returns_bind hm.fin).1 hx
  obtain ⟨b, hb, hx⟩ := (returns_bind hn.fin).1 hx
  obtain ⟨r, r', hr⟩ := hx
  cases hr
  rw [hG a b ha hb]
  exact add_le_add (hm.bound a ha) (hn.bound b hb)

theorem mean_pair [IsProbabilityMeasure μ] {α β γ : Type} {m : Sim α} {n : Sim β} {c : α → β → γ} {f : α → ℝ≥0∞} {h : β → ℝ≥0∞} {G : γ → ℝ≥0∞} {B B' : ℝ≥0∞}
    (hm : BoundedRun m f B) (hn : BoundedRun n h B') (hG : ∀ a b, Returns m a → Returns n b → G (c a b) = f a + h b) :
    MeanOf μ (m >>= fun a => n >>= fun b => pure (c a b)) G = MeanOf μ m f + MeanOf μ n h := by
  rw [meanOf_bind (f := fun a => n >>= fun b => pure (c a b)) hm.fin fun _ => fin_bind hn.fin fun _ => fin_pure _]
  have e : ∀ a, Returns m a → MeanOf μ (n >>= fun b => pure (c a b)) G = f a + MeanOf μ n h := by
    intro a ha
    rw [meanOf_bind (f := fun b => pure (c a b)) hn.fin fun _ => fin_pure _]
    have e2 : MeanOf μ n (fun b => MeanOf μ (pure (c a b)) G) = MeanOf μ n (fun b => f a + h b) := meanOf_congr fun b hb => by
      rw [meanOf_pure, hG a b ha hb]
    rw [e2, meanOf_add hn.fin (fun _ => f a), meanOf_const hn.never]
  rw [meanOf_congr e, meanOf_add hm.fin f (fun _ => MeanOf μ n h), meanOf_const hm.never]

theorem meanSq_pair [IsProbabilityMeasure μ] {α β γ : Type} {m : Sim α} {n : Sim β} {c : α → β → γ} {f : α → ℝ≥0∞} {h : β → ℝ≥0∞} {G : γ → ℝ≥0∞} {B B' : ℝ≥0∞}
    (hm : BoundedRun m f B) (hn : BoundedRun n h B') (hG : ∀ a b, Returns m a → Returns n b → G (c a b) = f a + h b) :
    MeanOf μ (m >>= fun a => n >>= fun b => pure (c a b)) (fun x => G x ^ 2) =
      MeanOf μ m (fun a => f a ^ 2) + 2 * MeanOf μ m f * MeanOf μ n h + MeanOf μ n (fun b => h b ^ 2) := by
  rw [meanOf_bind (f := fun a => n >>= fun b => pure (c a b)) hm.fin fun _ => fin_bind hn.fin fun _ => fin_pure _]
  have e : ∀ a, Returns m a → MeanOf μ (n >>= fun b => pure (c a b)) (fun x => G x ^ 2) =
      f a ^ 2 + f a * (2 * MeanOf μ n h) + MeanOf μ n (fun b => h b ^ 2) := by
    intro a ha
    rw [meanOf_bind (f := fun b => pure (c a b)) hn.fin fun _ => fin_pure _]
    have e2 : MeanOf μ n (fun b => MeanOf μ (pure (c a b)) (fun x => G x ^ 2)) = MeanOf μ n (fun b => (f a ^ 2 + 2 * f a * h b) + h b ^ 2) := meanOf_congr fun b hb => by
      rw [meanOf_pure, hG a b ha hb]
      ring
    rw [e2, meanOf_add hn.fin (fun b => f a ^ 2 + 2 * f a * h b), meanOf_add hn.fin (fun _ => f a ^ 2), meanOf_const hn.never, meanOf_mul_left hn.fin h]
    ring
  rw [meanOf_congr e, meanOf_add hm.fin (fun a => f a ^ 2 + f a * (2 * MeanOf μ n h)) (fun _ => MeanOf μ n (fun b => h b ^ 2)), meanOf_const hm.never,
    meanOf_add hm.fin (fun a => f a ^ 2), meanOf_mul_right hm.fin f]
  ring

theorem variance_pair [IsProbabilityMeasure μ] {α β γ : Type} {m : Sim α} {n : Sim β} {c : α → β → γ} {f : α → ℝ≥0∞} {h : β → ℝ≥0∞} {G : γ → ℝ≥0∞} {B B' : ℝ≥0∞}
    (hm : BoundedRun m f B) (hn : BoundedRun n h B') (hG : ∀ a b, Returns m a → Returns n b → G (c a b) = f a + h b) :
    varianceOf μ (m >>= fun a => n >>= fun b => pure (c a b)) G = varianceOf μ m f + varianceOf μ n h := by
  have e := variance_eq (μ := μ) (bounded_pair hm hn hG)
  rw [mean_pair hm hn hG, meanSq_pair hm hn hG, ← variance_eq hm, ← variance_eq hn] at e
  have h1 : MeanOf μ m f ≠ ⊤ := ne_top_of_le_ne_top hm.finite (bounded_mean hm)
  have h2 : MeanOf μ n h ≠ ⊤ := ne_top_of_le_ne_top hn.finite (bounded_mean hn)
  have h3 : (MeanOf μ m f + MeanOf μ n h) ^ 2 ≠ ⊤ := ENNReal.pow_ne_top (ENNReal.add_ne_top.2 ⟨h1, h2⟩)
  refine (ENNReal.add_left_inj h3).1 (e.trans ?_)
  ring

/-- Chebyshev's inequality. -/
theorem chebyshev {α : Type} {m : Sim α} (hm : Finitary m) (g : α → ℝ≥0∞) {ε : ℝ} (hε : 0 ≤ ε) :
    ChanceOf μ m (fun a => ε ≤ |(g a).toReal - (MeanOf μ m g).toReal|) * ENNReal.ofReal (ε ^ 2) ≤ varianceOf μ m g := by
  classical
  rw [chanceOf_ind hm, ← meanOf_mul_right hm]
  unfold varianceOf
  refine meanOf_le fun a => ?_
  by_cases h : ε ≤ |(g a).toReal - (MeanOf μ m g).toReal|
  · rw [ind_true h, one_mul]
    refine ENNReal.ofReal_le_ofReal ?_
    rw [← sq_abs ((g a).toReal - _)]
    exact pow_le_pow_left₀ hε h 2
  · rw [ind_false h, zero_mul]
    exact zero_le

/-! ## Sums of profiles -/

/-- A run that never raises, with loads between 0 and `B`. -/
structure ProfileRun (m : Sim Profile) (B : ℚ) : Prop where
  good : GoodRun m
  bound : ∀ p, Returns m p → ∀ i, p i ≤ B

theorem profileRun_sum {ι : Type} {f : ι → Sim Profile} {B : ι → ℚ} : ∀ {l : List ι}, (∀ x ∈ l, ProfileRun (f x) (B x)) → ProfileRun (sumRuns (l.map f)) (l.map B).sum
  | [], _ => ⟨goodRun_sum fun m hm => by simp at hm, fun p hp i => by
      obtain ⟨r, r', hr⟩ := hp
      cases hr
      exact le_refl _⟩
  | x :: l, h => by
    have hx := h x (by simp)
    have hl := profileRun_sum (l := l) fun y hy => h y (by simp [hy])
    refine ⟨goodRun_sum fun m hm => ?_, fun p hp i => ?_⟩
    · obtain ⟨y, hy, rfl⟩ := List.mem_map.1 hm
      exact (h y hy).good
    · obtain ⟨a, ha, hp⟩ := (returns_bind hx.good.fin).1 hp
      obtain ⟨b, hb, hp⟩ := (returns_bind hl.good.fin).1 hp
      obtain ⟨r, r', hr⟩ := hp
      cases hr
      rw [List.map_cons, List.sum_cons]
      exact add_le_add (hx.bound a ha i) (hl.bound b hb i)

theorem addsUp_mono {g : Profile → ℝ≥0∞} (hg : AddsUp g) {p q : Profile} (hp : ∀ i, 0 ≤ p i) (hq : ∀ i, p i ≤ q i) : g p ≤ g q := by
  have e := hg.sum p (fun i => q i - p i) hp fun i => sub_nonneg.2 (hq i)
  have e2 : (fun i => p i + (q i - p i)) = q := funext fun i => by ring
  rw [e2] at e
  rw [e]
  exact le_self_add

theorem bounded_profile {g : Profile → ℝ≥0∞} (hg : AddsUp g) (hf : ∀ p, g p ≠ ⊤) {m : Sim Profile} {B : ℚ} (h : ProfileRun m B) : BoundedRun m g (g (fun _ => B)) :=
  ⟨h.good.fin, h.good.never, hf _, fun p hp => addsUp_mono hg (h.good.nonneg p hp) (h.bound p hp)⟩

theorem variance_sum [IsProbabilityMeasure μ] {g : Profile → ℝ≥0∞} (hg : AddsUp g) (hf : ∀ p, g p ≠ ⊤) {ι : Type} {f : ι → Sim Profile} {B : ι → ℚ} :
    ∀ {l : List ι}, (∀ x ∈ l, ProfileRun (f x) (B x)) → varianceOf μ (sumRuns (l.map f)) g = (l.map (fun x => varianceOf μ (f x) g)).sum
  | [], _ => by
    unfold varianceOf
    rw [List.map_nil, meanOf_sumRuns_nil, meanOf_sumRuns_nil, _root_.sub_self]
    simp
  | x :: l, h => by
    have hx := h x (by simp)
    have hl := profileRun_sum (l := l) fun y hy => h y (by simp [hy])
    rw [List.map_cons, List.map_cons, List.sum_cons, ← variance_sum hg hf (l := l) fun y hy => h y (by simp [hy])]
    exact variance_pair (bounded_profile hg hf hx) (bounded_profile hg hf hl) fun a b ha hb => hg.sum a b (hx.good.nonneg a ha) (hl.good.nonneg b hb)

/-! ## Members and users -/

theorem profileRun_member {depth k : ℕ} {peak : List ℤ} {dt : ℤ} {u : User} {P : Appliance → ℚ} (hn : NeverRaises (memberRun depth k peak dt u))
    (hP : ∀ a ∈ u.appList, PowersUpTo (P a) a) : ProfileRun (memberRun depth k peak dt u) (u.appList.map (applianceBound P)).sum := by
  have hP' : ∀ a ∈ u.appList, ∃ P, PowersUpTo P a := fun a ha => ⟨_, hP a ha⟩
  refine ⟨good_member hn hP', fun p hp => ?_⟩
  unfold memberRun at hp
  obtain ⟨pref, h1, h2⟩ := (returns_bind (fin_drawPreference _)).1 hp
  exact (profileRun_sum (B := applianceBound P) fun a ha => ⟨good_appliance hn hP' h1 ha,
    fun q hq i => (applianceDay_bounds (hP a ha) (returns_applianceRun.1 hq) i).2⟩).bound p h2

theorem replicate_map {α β : Type} (n : ℕ) (x : α) (f : α → β) : (List.replicate n x).map f = List.replicate n (f x) := by simp

theorem profileRun_user {depth k : ℕ} {peak : List ℤ} {dt : ℤ} {u : User} {P : Appliance → ℚ} (hn : 0 < u.numUsers.toNat → NeverRaises (memberRun depth k peak dt u))
    (hP : ∀ a ∈ u.appList, PowersUpTo (P a) a) : ProfileRun (userRun depth k peak dt u) (u.numUsers.toNat * (u.appList.map (applianceBound P)).sum) := by
  have h := profileRun_sum (f := memberRun depth k peak dt) (B := fun v => (v.appList.map (applianceBound P)).sum) (l := List.replicate u.numUsers.toNat u) fun x hx => by
    obtain ⟨h0, rfl⟩ := List.mem_replicate.1 hx
    exact profileRun_member (hn (by omega)) hP
  rw [replicate_map, replicate_map, List.sum_replicate, nsmul_eq_mul] at h
  exact h

theorem variance_user [IsProbabilityMeasure μ] {g : Profile → ℝ≥0∞} (hg : AddsUp g) (hf : ∀ p, g p ≠ ⊤) {depth k : ℕ} {peak : List ℤ} {dt : ℤ} {u : User}
    {P : Appliance → ℚ} (hn : 0 < u.numUsers.toNat → NeverRaises (memberRun depth k peak dt u)) (hP : ∀ a ∈ u.appList, PowersUpTo (P a) a) :
    varianceOf μ (userRun depth k peak dt u) g = u.numUsers.toNat * varianceOf μ (memberRun depth k peak dt u) g := by
  have h := variance_sum (μ := μ) hg hf (f := memberRun depth k peak dt) (B := fun v => (v.appList.map (applianceBound P)).sum) (l := List.replicate u.numUsers.toNat u)
    fun x hx => by
      obtain ⟨h0, rfl⟩ := List.mem_replicate.1 hx
      exact profileRun_member (hn (by omega)) hP
  rw [replicate_map, replicate_map, List.sum_replicate, nsmul_eq_mul] at h
  exact h

theorem never_members {depth k : ℕ} {peak : List ℤ} {dt : ℤ} {us : List User} (hn : NeverRaises (caseRun depth k peak dt us)) {u : User} (hu : u ∈ us)
    (h0 : 0 < u.numUsers.toNat) : NeverRaises (memberRun depth k peak dt u) := by
  have h1 := (never_sumRuns fun m hm => by
    obtain ⟨b, _, rfl⟩ := List.mem_map.1 hm
    exact fin_userRun _ _ _ _ _).1 hn _ (List.mem_map.2 ⟨u, hu, rfl⟩)
  exact (never_sumRuns fun m hm => by
    rw [List.eq_of_mem_replicate hm]
    exact fin_memberRun _ _ _ _ _).1 h1 _ (List.mem_replicate.2 ⟨by omega, rfl⟩)

theorem profileRun_case {depth k : ℕ} {peak : List ℤ} {dt : ℤ} {us : List User} {P : Appliance → ℚ} (hn : NeverRaises (caseRun depth k peak dt us))
    (hP : ∀ u ∈ us, ∀ a ∈ u.appList, PowersUpTo (P a) a) :
    ProfileRun (caseRun depth k peak dt us) (us.map (fun u => (u.numUsers.toNat : ℚ) * (u.appList.map (applianceBound P)).sum)).sum :=
  profileRun_sum (B := fun u : User => (u.numUsers.toNat : ℚ) * (u.appList.map (applianceBound P)).sum) fun _ hu =>
    profileRun_user (fun h0 => never_members hn hu h0) (hP _ hu)

theorem variance_case [IsProbabilityMeasure μ] {g : Profile → ℝ≥0∞} (hg : AddsUp g) (hf : ∀ p, g p ≠ ⊤) {depth k : ℕ} {peak : List ℤ} {dt : ℤ} {us : List User}
    {P : Appliance → ℚ} (hn : NeverRaises (caseRun depth k peak dt us)) (hP : ∀ u ∈ us, ∀ a ∈ u.appList, PowersUpTo (P a) a) :
    varianceOf μ (caseRun depth k peak dt us) g = (us.map (fun u => (u.numUsers.toNat : ℝ≥0∞) * varianceOf μ (memberRun depth k peak dt u) g)).sum := by
  unfold caseRun
  rw [variance_sum (μ := μ) hg hf (B := fun u : User => (u.numUsers.toNat : ℚ) * (u.appList.map (applianceBound P)).sum) fun u hu =>
    profileRun_user (fun h0 => never_members hn hu h0) (hP _ hu)]
  congr 1
  exact List.map_congr_left fun u hu => variance_user hg hf (fun h0 => never_members hn hu h0) (hP _ hu)

/-! ## Days -/

theorem variance_row [IsProbabilityMeasure μ] {env : Env} {depth : ℕ} {uc : UseCase} {ds peak : List ℤ} {days : Option (List ℤ)} (hr : Ready uc ds peak)
    (hn : NeverRaises (dailyRows env depth uc days)) (g : Profile → ℝ≥0∞) (k : Fin ds.length) :
    varianceOf μ (dailyRows env depth uc days) (fun rows => g (rows.getD k zeros)) = varianceOf μ (caseRun depth k peak (typeOfDay ds[k]) uc.users) g := by
  unfold varianceOf
  rw [mean_row hr hn g k]
  exact mean_row hr hn (fun p => ENNReal.ofReal (((g p).toReal - (MeanOf μ (caseRun depth k peak (typeOfDay ds[k]) uc.users) g).toReal) ^ 2)) k

theorem never_case {env : Env} {depth : ℕ} {uc : UseCase} {ds peak : List ℤ} {days : Option (List ℤ)} (hr : Ready uc ds peak)
    (hn : NeverRaises (generateDaily env depth uc days)) (j : Fin ds.length) : NeverRaises (caseRun depth j peak (typeOfDay ds[j]) uc.users) := by
  have hn' := never_dailyRows hn
  rw [dailyRows_eq days hr] at hn'
  have := never_rowsRun.1 hn' j
  rwa [zero_add] at this

theorem caseRun_oneMember (depth k : ℕ) (peak : List ℤ) (dt : ℤ) (u : User) :
    caseRun depth k peak dt [oneMember u] = sumRuns [sumRuns [memberRun depth k peak dt u]] := rfl

theorem never_oneMember {env : Env} {depth : ℕ} {uc : UseCase} {ds peak : List ℤ} {days : Option (List ℤ)} (hr : Ready uc ds peak)
    (hn : NeverRaises (generateDaily env depth uc days)) {u : User} (hu : u ∈ uc.users) (h0 : 0 < u.numUsers.toNat) :
    NeverRaises (dailyRows env depth { uc with users := [oneMember u] } days) := by
  rw [dailyRows_eq days (ready_users hr _), never_rowsRun]
  intro j
  rw [zero_add]
  show NeverRaises (caseRun depth j peak (typeOfDay ds[j]) [oneMember u])
  rw [caseRun_oneMember]
  have hf : ∀ m ∈ [memberRun depth j peak (typeOfDay ds[j]) u], Finitary m := fun m hm => by
    rw [List.mem_singleton.1 hm]
    exact fin_memberRun _ _ _ _ _
  refine (never_sumRuns fun m hm => ?_).2 fun m hm => ?_
  · rw [List.mem_singleton.1 hm]
    exact fin_sumRuns hf
  · rw [List.mem_singleton.1 hm, never_sumRuns hf]
    intro m hm
    rw [List.mem_singleton.1 hm]
    exact never_members (never_case hr hn j) hu h0

theorem choose_powers {us : List User} (hP : ∀ u ∈ us, ∀ a ∈ u.appList, ∃ P, PowersUpTo P a) : ∃ P : Appliance → ℚ, ∀ u ∈ us, ∀ a ∈ u.appList, PowersUpTo (P a) a := by
  classical
  refine ⟨fun a => if h : ∃ P, PowersUpTo P a then h.choose else 0, fun u hu a ha => ?_⟩
  have h := hP u hu a ha
  simp only [dif_pos h]
  exact h.choose_spec

theorem variance_oneMember [IsProbabilityMeasure μ] {env : Env} {depth : ℕ} {uc : UseCase} {ds peak : List ℤ} {days : Option (List ℤ)} (hr : Ready uc ds peak)
    (hn : NeverRaises (generateDaily env depth uc days)) (hP : ∀ u ∈ uc.users, ∀ a ∈ u.appList, ∃ P, PowersUpTo P a) {u : User} (hu : u ∈ uc.users)
    (h0 : 0 < u.numUsers.toNat) {g : Profile → ℝ≥0∞} (hg : AddsUp g) (hf : ∀ p, g p ≠ ⊤) (k : Fin ds.length) :
    varianceOf μ (dailyRows env depth { uc with users := [oneMember u] } days) (fun rows => g (rows.getD k zeros)) =
      varianceOf μ (memberRun depth k peak (typeOfDay ds[k]) u) g := by
  obtain ⟨P, hP⟩ := choose_powers hP
  have hn1 := never_oneMember hr hn hu h0
  have hr1 : Ready { uc with users := [oneMember u] } ds peak := ready_users hr [oneMember u]
  rw [variance_row hr1 hn1 g k]
  rw [dailyRows_eq days hr1] at hn1
  have hc := never_rowsRun.1 hn1 k
  rw [zero_add] at hc
  show varianceOf μ (caseRun depth k peak (typeOfDay ds[k]) [oneMember u]) g = _
  rw [variance_case (P := P) hg hf hc fun v hv a ha => by
    rw [List.mem_singleton.1 hv] at ha
    exact hP u hu a ha]
  rw [List.map_singleton, List.sum_singleton]
  show (((1 : ℤ).toNat : ℕ) : ℝ≥0∞) * varianceOf μ (memberRun depth k peak (typeOfDay ds[k]) u) g = _
  rw [show (1 : ℤ).toNat = 1 from rfl, Nat.cast_one, one_mul]

/-- **C110.** In a simulation that cannot fail, of appliances without negative powers, the members of the users fluctuate independently: for any finite quantity that
adds up (the load of a minute, the energy of the day), its variance on day `k` is the sum over the users of `num_users` times its variance in the simulation of one
member. -/
theorem C110_variance_adds_up [IsProbabilityMeasure μ] {env : Env} {depth : ℕ} {uc : UseCase} {ds peak : List ℤ} {days : Option (List ℤ)} (hr : Ready uc ds peak)
    (hn : NeverRaises (generateDaily env depth uc days)) (hP : ∀ u ∈ uc.users, ∀ a ∈ u.appList, ∃ P, PowersUpTo P a) {k : ℕ} (hk : k < ds.length)
    {g : Profile → ℝ≥0∞} (hg : AddsUp g) (hf : ∀ p, g p ≠ ⊤) :
    varianceOf μ (dailyRows env depth uc days) (fun rows => g (rows.getD k zeros)) =
      (uc.users.map (fun u => (u.numUsers.toNat : ℝ≥0∞) *
        varianceOf μ (dailyRows env depth { uc with users := [oneMember u] } days) (fun rows => g (rows.getD k zeros)))).sum := by
  obtain ⟨P, hP'⟩ := choose_powers hP
  rw [variance_row hr (never_dailyRows hn) g ⟨k, hk⟩, variance_case (P := P) hg hf (never_case hr hn ⟨k, hk⟩) hP']
  congr 1
  refine List.map_congr_left fun u hu => ?_
  rcases Nat.eq_zero_or_pos u.numUsers.toNat with h0 | h0
  · rw [h0, Nat.cast_zero, zero_mul, zero_mul]
  · rw [← variance_oneMember hr hn hP hu h0 hg hf ⟨k, hk⟩]

/-! ## Appliances -/

theorem member_noPreference {depth k : ℕ} {peak : List ℤ} {dt : ℤ} {u : User} (hu : u.userPreference = 0) :
    memberRun depth k peak dt u = sumRuns (u.appList.map (applianceRun depth k peak dt 0)) := by
  unfold memberRun drawPreference
  rw [if_pos hu, sim_pure_bind]

theorem variance_member [IsProbabilityMeasure μ] {g : Profile → ℝ≥0∞} (hg : AddsUp g) (hf : ∀ p, g p ≠ ⊤) {depth k : ℕ} {peak : List ℤ} {dt : ℤ} {u : User}
    {P : Appliance → ℚ} (hu : u.userPreference = 0) (hn : NeverRaises (memberRun depth k peak dt u)) (hP : ∀ a ∈ u.appList, PowersUpTo (P a) a) :
    varianceOf μ (memberRun depth k peak dt u) g = (u.appList.map (fun a => varianceOf μ (applianceRun depth k peak dt 0 a) g)).sum := by
  have h0 : Returns (drawPreference u.userPreference) 0 := by
    unfold drawPreference
    rw [if_pos hu]
    exact ⟨fun _ => ⟨0, le_refl _, by norm_num, 0, 0⟩, _, rfl⟩
  rw [member_noPreference hu]
  exact variance_sum hg hf (B := applianceBound P) fun a ha => ⟨good_appliance hn (fun a ha => ⟨_, hP a ha⟩) h0 ha,
    fun q hq i => (applianceDay_bounds (hP a ha) (returns_applianceRun.1 hq) i).2⟩

theorem never_onlyOne {depth k : ℕ} {peak : List ℤ} {dt : ℤ} {u : User} (hu : u.userPreference = 0) (hn : NeverRaises (memberRun depth k peak dt u))
    {a : Appliance} (ha : a ∈ u.appList) : NeverRaises (memberRun depth k peak dt (onlyOne u a)) := by
  rw [member_noPreference hu] at hn
  rw [member_noPreference (u := onlyOne u a) hu]
  have hf : ∀ l : List Appliance, ∀ m ∈ l.map (applianceRun depth k peak dt 0), Finitary m := fun l m hm => by
    obtain ⟨b, _, rfl⟩ := List.mem_map.1 hm
    exact fin_applianceRun _ _ _ _ _ _
  refine (never_sumRuns (hf _)).2 fun m hm => ?_
  obtain ⟨b, hb, rfl⟩ := List.mem_map.1 hm
  rw [List.mem_singleton.1 hb]
  exact (never_sumRuns (hf _)).1 hn _ (List.mem_map.2 ⟨a, ha, rfl⟩)

/-- **C110.** Without user preferences the appliances fluctuate independently as well: the variance is the sum over the users and their appliances of `num_users` times
the variance in the simulation of one member with this appliance alone. -/
theorem C110_variance_of_appliances [IsProbabilityMeasure μ] {env : Env} {depth : ℕ} {uc : UseCase} {ds peak : List ℤ} {days : Option (List ℤ)} (hr : Ready uc ds peak)
    (hn : NeverRaises (generateDaily env depth uc days)) (hP : ∀ u ∈ uc.users, ∀ a ∈ u.appList, ∃ P, PowersUpTo P a) (hu : ∀ u ∈ uc.users, u.userPreference = 0)
    {k : ℕ} (hk : k < ds.length) {g : Profile → ℝ≥0∞} (hg : AddsUp g) (hf : ∀ p, g p ≠ ⊤) :
    varianceOf μ (dailyRows env depth uc days) (fun rows => g (rows.getD k zeros)) =
      (uc.users.map (fun u => (u.numUsers.toNat : ℝ≥0∞) * (u.appList.map (fun a =>
        varianceOf μ (dailyRows env depth { uc with users := [onlyOne u a] } days) (fun rows => g (rows.getD k zeros)))).sum)).sum := by
  obtain ⟨P, hP'⟩ := choose_powers hP
  have hcase := never_case hr hn
  rw [variance_row hr (never_dailyRows hn) g ⟨k, hk⟩, variance_case (P := P) hg hf (hcase ⟨k, hk⟩) hP']
  congr 1
  refine List.map_congr_left fun u hu' => ?_
  rcases Nat.eq_zero_or_pos u.numUsers.toNat with h0 | h0
  · rw [h0, Nat.cast_zero, zero_mul, zero_mul]
  rw [variance_member (P := P) hg hf (hu u hu') (never_members (hcase ⟨k, hk⟩) hu' h0) (hP' u hu')]
  congr 2
  refine List.map_congr_left fun a ha => ?_
  have hr1 : Ready { uc with users := [onlyOne u a] } ds peak := ready_users hr [onlyOne u a]
  have hn1 : ∀ j : Fin ds.length, NeverRaises (caseRun depth j peak (typeOfDay ds[j]) [onlyOne u a]) := by
    intro j
    have h2 := never_onlyOne (hu u hu') (never_members (hcase j) hu' h0) ha
    have hfm : ∀ m ∈ [memberRun depth j peak (typeOfDay ds[j]) (onlyOne u a)], Finitary m := fun m hm => by
      rw [List.mem_singleton.1 hm]
      exact fin_memberRun _ _ _ _ _
    show NeverRaises (sumRuns [sumRuns [memberRun depth j peak (typeOfDay ds[j]) (onlyOne u a)]])
    refine (never_sumRuns fun m hm => ?_).2 fun m hm => ?_
    · rw [List.mem_singleton.1 hm]
      exact fin_sumRuns hfm
    · rw [List.mem_singleton.1 hm, never_sumRuns hfm]
      intro m hm
      rw [List.mem_singleton.1 hm]
      exact h2
  have hn2 : NeverRaises (dailyRows env depth { uc with users := [onlyOne u a] } days) := by
    rw [dailyRows_eq days hr1, never_rowsRun]
    intro j
    rw [zero_add]
    exact hn1 j
  have hPo : ∀ v ∈ [onlyOne u a], ∀ b ∈ v.appList, PowersUpTo (P b) b := fun v hv b hb => by
    rw [List.mem_singleton.1 hv] at hb
    rw [List.mem_singleton.1 hb]
    exact hP' u hu' a ha
  rw [variance_row hr1 hn2 g ⟨k, hk⟩]
  show _ = varianceOf μ (caseRun depth ((⟨k, hk⟩ : Fin ds.length) : ℕ) peak (typeOfDay ds[(⟨k, hk⟩ : Fin ds.length)]) [onlyOne u a]) g
  rw [variance_case (P := P) hg hf (hn1 ⟨k, hk⟩) hPo, List.map_singleton, List.sum_singleton]
  show _ = (((1 : ℤ).toNat : ℕ) : ℝ≥0∞) * varianceOf μ (memberRun depth ((⟨k, hk⟩ : Fin ds.length) : ℕ) peak (typeOfDay ds[(⟨k, hk⟩ : Fin ds.length)]) (onlyOne u a)) g
  rw [show (1 : ℤ).toNat = 1 from rfl, Nat.cast_one, one_mul,
    variance_member (u := onlyOne u a) (P := P) hg hf (hu u hu') (never_onlyOne (hu u hu') (never_members (hcase ⟨k, hk⟩) hu' h0) ha)
      (hPo _ (List.mem_singleton_self _))]
  show _ = ([a].map (fun a => varianceOf μ (applianceRun depth k peak (typeOfDay ds[k]) 0 a) g)).sum
  rw [List.map_singleton, List.sum_singleton]
  rfl

/-! ## The sum over the days -/

theorem bounded_rows {g : Profile → ℝ≥0∞} (hg : AddsUp g) (hf : ∀ p, g p ≠ ⊤) {depth : ℕ} {peak : List ℤ} {us : List User} {C : ℚ} : ∀ {ds : List ℤ} {k : ℕ},
    (∀ j : Fin ds.length, ProfileRun (caseRun depth (k + j) peak (typeOfDay ds[j]) us) C) →
      BoundedRun (rowsRun depth peak us k ds) (totalOf g) (ds.length * g (fun _ => C))
  | [], _, _ => ⟨fin_pure _, never_pure _, by simp, fun a ha => by
      obtain ⟨r, r', hr⟩ := ha
      cases hr
      simp [totalOf]⟩
  | d :: ds, k, h => by
    have h1 := bounded_profile hg hf (h 0)
    have h2 := bounded_rows hg hf (ds := ds) (k := k + 1) fun j => by
      have := h j.succ
      rw [show k + 1 + (j : ℕ) = k + (j + 1) by omega]
      exact this
    have := bounded_pair (c := fun p ps => p :: ps) (G := totalOf g) h1 h2 fun p ps _ _ => by simp [totalOf]
    rw [List.length_cons, Nat.cast_add, Nat.cast_one, add_mul, one_mul, add_comm]
    exact this

theorem variance_rows [IsProbabilityMeasure μ] {g : Profile → ℝ≥0∞} (hg : AddsUp g) (hf : ∀ p, g p ≠ ⊤) {depth : ℕ} {peak : List ℤ} {us : List User} {C : ℚ} :
    ∀ {ds : List ℤ} {k : ℕ}, (∀ j : Fin ds.length, ProfileRun (caseRun depth (k + j) peak (typeOfDay ds[j]) us) C) →
      varianceOf μ (rowsRun depth peak us k ds) (totalOf g) = ∑ j : Fin ds.length, varianceOf μ (caseRun depth (k + j) peak (typeOfDay ds[j]) us) g ∧
      MeanOf μ (rowsRun depth peak us k ds) (totalOf g) = ∑ j : Fin ds.length, MeanOf μ (caseRun depth (k + j) peak (typeOfDay ds[j]) us) g
  | [], _, _ => by
    constructor
    · unfold varianceOf rowsRun
      rw [meanOf_pure, meanOf_pure, _root_.sub_self]
      simp
    · unfold rowsRun
      rw [meanOf_pure]
      simp [totalOf]
  | d :: ds, k, h => by
    have h1 := bounded_profile hg hf (h 0)
    have h' : ∀ j : Fin ds.length, ProfileRun (caseRun depth (k + 1 + j) peak (typeOfDay ds[j]) us) C := fun j => by
      have := h j.succ
      rw [show k + 1 + (j : ℕ) = k + (j + 1) by omega]
      exact this
    have h2 := bounded_rows hg hf (ds := ds) (k := k + 1) h'
    obtain ⟨i1, i2⟩ := variance_rows hg hf (ds := ds) (k := k + 1) h'
    have e1 := variance_pair (μ := μ) (c := fun p ps => p :: ps) (G := totalOf g) h1 h2 fun p ps _ _ => by simp [totalOf]
    have e2 := mean_pair (μ := μ) (c := fun p ps => p :: ps) (G := totalOf g) h1 h2 fun p ps _ _ => by simp [totalOf]
    have hs : ∀ F : ℕ → ℤ → ℝ≥0∞, ∑ j : Fin (d :: ds).length, F (k + j) (d :: ds)[j] = F k d + ∑ j : Fin ds.length, F (k + 1 + j) ds[j] := by
      intro F
      show ∑ j : Fin (ds.length + 1), F (k + j) (d :: ds)[j] = _
      rw [Fin.sum_univ_succ]
      congr 1
      refine Finset.sum_congr rfl fun j _ => ?_
      rw [show k + 1 + (j : ℕ) = k + (j + 1) by omega]
      rfl
    constructor
    · rw [hs (fun n d => varianceOf μ (caseRun depth n peak (typeOfDay d) us) g), ← i1]
      exact e1
    · rw [hs (fun n d => MeanOf μ (caseRun depth n peak (typeOfDay d) us) g), ← i2]
      exact e2

/-- The largest possible load of the users. -/
theorem profileRun_rows {env : Env} {depth : ℕ} {uc : UseCase} {ds peak : List ℤ} {days : Option (List ℤ)} (hr : Ready uc ds peak)
    (hn : NeverRaises (generateDaily env depth uc days)) {P : Appliance → ℚ} (hP : ∀ u ∈ uc.users, ∀ a ∈ u.appList, PowersUpTo (P a) a) (j : Fin ds.length) :
    ProfileRun (caseRun depth (0 + j) peak (typeOfDay ds[j]) uc.users) (uc.users.map (fun u => (u.numUsers.toNat : ℚ) * (u.appList.map (applianceBound P)).sum)).sum := by
  rw [zero_add]
  exact profileRun_case (never_case hr hn j) hP

/-- **C110.** The days fluctuate independently: the variance of the sum of a quantity over the days is the sum of its variances on the days. -/
theorem C110_variance_of_days [IsProbabilityMeasure μ] {env : Env} {depth : ℕ} {uc : UseCase} {ds peak : List ℤ} {days : Option (List ℤ)} (hr : Ready uc ds peak)
    (hn : NeverRaises (generateDaily env depth uc days)) (hP : ∀ u ∈ uc.users, ∀ a ∈ u.appList, ∃ P, PowersUpTo P a)
    {g : Profile → ℝ≥0∞} (hg : AddsUp g) (hf : ∀ p, g p ≠ ⊤) :
    varianceOf μ (dailyRows env depth uc days) (totalOf g) =
      ∑ k : Fin ds.length, varianceOf μ (dailyRows env depth uc days) (fun rows => g (rows.getD k zeros)) := by
  obtain ⟨P, hP'⟩ := choose_powers hP
  have e := (variance_rows (μ := μ) hg hf (profileRun_rows hr hn hP')).1
  rw [← dailyRows_eq days hr (env := env)] at e
  rw [e]
  refine Finset.sum_congr rfl fun k _ => ?_
  rw [variance_row hr (never_dailyRows hn) g k, zero_add]

/-! ## Large deviations -/

/-- **C110.** Chebyshev's inequality: the probability that the quantity is `ε` or more away from its expected value is at most its variance divided by `ε²`. -/
theorem C110_chebyshev {env : Env} {depth : ℕ} {uc : UseCase} {ds peak : List ℤ} {days : Option (List ℤ)} (hr : Ready uc ds peak) (g : List Profile → ℝ≥0∞) {ε : ℝ} (hε : 0 < ε) :
    ChanceOf μ (dailyRows env depth uc days) (fun rows => ε ≤ |(g rows).toReal - (MeanOf μ (dailyRows env depth uc days) g).toReal|) ≤
      varianceOf μ (dailyRows env depth uc days) g / ENNReal.ofReal (ε ^ 2) := by
  have h0 : ENNReal.ofReal (ε ^ 2) ≠ 0 := by
    rw [Ne, ENNReal.ofReal_eq_zero, not_le]
    positivity
  rw [ENNReal.le_div_iff_mul_le (.inl h0) (.inl ENNReal.ofReal_ne_top)]
  exact chebyshev (fin_dailyRows days hr) g hε.le

theorem toReal_load {p : Profile} (h : ∀ i, 0 ≤ p i) (i : Fin 1440) : (loadAt i p).toReal = ((p i : ℚ) : ℝ) :=
  ENNReal.toReal_ofReal (by exact_mod_cast h i)

theorem rows_nonneg {depth : ℕ} {peak : List ℤ} {us : List User} {C : ℚ} : ∀ {ds : List ℤ} {k : ℕ} {rows : List Profile},
    (∀ j : Fin ds.length, ProfileRun (caseRun depth (k + j) peak (typeOfDay ds[j]) us) C) → Returns (rowsRun depth peak us k ds) rows → ∀ p ∈ rows, ∀ i, 0 ≤ p i
  | [], _, rows, _, hr => by
    obtain ⟨r, r', hr⟩ := hr
    cases hr
    intro p hp
    cases hp
  | d :: ds, k, rows, h, hr => by
    obtain ⟨p, hp, hr⟩ := (returns_bind (fin_caseRun _ _ _ _ _)).1 hr
    obtain ⟨ps, hps, hr⟩ := (returns_bind (fin_rowsRun _ _ _ _ _)).1 hr
    obtain ⟨r, r', hr⟩ := hr
    cases hr
    intro q hq
    rcases List.mem_cons.1 hq with rfl | hq
    · exact (h 0).good.nonneg q hp
    · refine rows_nonneg (C := C) (ds := ds) (k := k + 1) (fun j => ?_) hps q hq
      have := h j.succ
      rw [show k + 1 + (j : ℕ) = k + (j + 1) by omega]
      exact this

theorem rowOf_nonneg {rows : List Profile} (h : ∀ p ∈ rows, ∀ i, 0 ≤ p i) (k : ℕ) (i : Fin 1440) : 0 ≤ rows.getD k zeros i := by
  rw [List.getD_eq_getElem?_getD]
  cases hk : rows[k]? with
  | none => exact le_refl _
  | some p => exact h p (List.mem_of_getElem? hk) i

theorem loadAt_finite (i : Fin 1440) (p : Profile) : loadAt i p ≠ ⊤ := ENNReal.ofReal_ne_top

theorem toReal_total {rows : List Profile} (h : ∀ p ∈ rows, ∀ i, 0 ≤ p i) (i : Fin 1440) : (totalOf (loadAt i) rows).toReal = (((rows.map (fun p => p i)).sum : ℚ) : ℝ) := by
  induction rows with
  | nil => simp [totalOf]
  | cons p rows ih =>
    have e : totalOf (loadAt i) (p :: rows) = loadAt i p + totalOf (loadAt i) rows := by simp [totalOf]
    have hfin : totalOf (loadAt i) rows ≠ ⊤ := by
      unfold totalOf
      clear ih h e
      induction rows with
      | nil => simp
      | cons q rows ih =>
        rw [List.map_cons, List.sum_cons]
        exact ENNReal.add_ne_top.2 ⟨loadAt_finite i q, ih⟩
    rw [e, ENNReal.toReal_add (loadAt_finite i p) hfin, ih fun q hq => h q (by simp [hq]), toReal_load (h p (by simp)), List.map_cons, List.sum_cons, Rat.cast_add]

theorem bound_nonneg {m : Sim Profile} {B : ℚ} (h : ProfileRun m B) : 0 ≤ B := by
  cases hm : m (fun _ => ⟨0, le_refl _, by norm_num, 0, 0⟩) with
  | error e => exact absurd ⟨_, hm⟩ (h.good.never e)
  | ok x =>
    have hx : Returns m x.1 := ⟨_, x.2, hm⟩
    exact (h.good.nonneg _ hx 0).trans (h.bound _ hx 0)

/-- From a variance of at most `n · B² / 4` for a sum of `n` runs to a bound for their average. -/
theorem average_bound {V : ℝ≥0∞} {p : ℝ≥0∞} {n : ℕ} (hn : 1 ≤ n) {B ε : ℝ} (hB : 0 ≤ B) (hε : 0 < ε) (h : p * ENNReal.ofReal ((n * ε) ^ 2) ≤ V)
    (hV : V ≤ n * (ENNReal.ofReal B ^ 2 / 4)) : p ≤ ENNReal.ofReal (B ^ 2 / (4 * n * ε ^ 2)) := by
  have hn' : (0 : ℝ) < n := by exact_mod_cast hn
  have e1 : (n : ℝ≥0∞) * (ENNReal.ofReal B ^ 2 / 4) = ENNReal.ofReal (n * (B ^ 2 / 4)) := by
    rw [ENNReal.ofReal_mul hn'.le, ENNReal.ofReal_natCast, ENNReal.ofReal_div_of_pos (by norm_num), ENNReal.ofReal_pow hB, ENNReal.ofReal_ofNat]
  have h1 : p * ENNReal.ofReal ((n * ε) ^ 2) ≤ ENNReal.ofReal (n * (B ^ 2 / 4)) := by
    rw [← e1]
    exact h.trans hV
  have hpos : (0 : ℝ) < (n * ε) ^ 2 := by positivity
  have h2 : p ≤ ENNReal.ofReal (n * (B ^ 2 / 4)) / ENNReal.ofReal ((n * ε) ^ 2) := by
    rw [ENNReal.le_div_iff_mul_le (.inl (by rw [Ne, ENNReal.ofReal_eq_zero, not_le]; exact hpos)) (.inl ENNReal.ofReal_ne_top)]
    exact h1
  rw [← ENNReal.ofReal_div_of_pos hpos] at h2
  refine h2.trans (ENNReal.ofReal_le_ofReal (le_of_eq ?_))
  field_simp

theorem mean_many_members [IsProbabilityMeasure μ] {env : Env} {depth : ℕ} {uc : UseCase} {ds peak : List ℤ} {days : Option (List ℤ)} (hr : Ready uc ds peak)
    (hn : NeverRaises (generateDaily env depth uc days)) {u : User} (hu : uc.users = [u]) {n : ℕ} (hnn : u.numUsers.toNat = n) (h1 : 1 ≤ n) {P : Appliance → ℚ}
    (hP : ∀ a ∈ u.appList, PowersUpTo (P a) a) {k : ℕ} (hk : k < ds.length) (i : Fin 1440) :
    MeanOf μ (dailyRows env depth uc days) (fun rows => loadAt i (rows.getD k zeros)) =
      n * expectedLoad μ (dailyRows env depth { uc with users := [oneMember u] } days) k i := by
  have huu : u ∈ uc.users := by rw [hu]; exact List.mem_singleton_self u
  have h0 : 0 < u.numUsers.toNat := by omega
  have hg := C104_load_adds_up i
  have hmem := never_members (never_case hr hn ⟨k, hk⟩) huu h0
  have hpm := profileRun_member (P := P) hmem hP
  have hn1 := never_oneMember hr hn huu h0
  have hr1 : Ready { uc with users := [oneMember u] } ds peak := ready_users hr [oneMember u]
  have e2 := mean_row (μ := μ) hr1 hn1 (loadAt i) ⟨k, hk⟩
  have e1 := mean_row (μ := μ) hr (never_dailyRows hn) (loadAt i) ⟨k, hk⟩
  have eu : uc.users.map (userRun depth k peak (typeOfDay ds[k])) = [userRun depth k peak (typeOfDay ds[k]) u] := by rw [hu]; rfl
  have hgm : ∀ m ∈ List.replicate n (memberRun depth k peak (typeOfDay ds[k]) u), GoodRun m := fun m hm => by
    rw [List.eq_of_mem_replicate hm]
    exact hpm.good
  have hgu : GoodRun (userRun depth k peak (typeOfDay ds[k]) u) := by
    unfold userRun
    rw [hnn]
    exact goodRun_sum hgm
  have hg1 : ∀ m ∈ [memberRun depth k peak (typeOfDay ds[k]) u], GoodRun m := fun m hm => by
    rw [List.mem_singleton.1 hm]
    exact hpm.good
  have e3 : MeanOf μ (caseRun depth k peak (typeOfDay ds[k]) uc.users) (loadAt i) = n * MeanOf μ (memberRun depth k peak (typeOfDay ds[k]) u) (loadAt i) := by
    unfold caseRun
    rw [eu, mean_sum hg fun m hm => by rw [List.mem_singleton.1 hm]; exact hgu, List.map_singleton, List.sum_singleton]
    unfold userRun
    rw [hnn, mean_sum hg hgm, List.map_replicate, List.sum_replicate, nsmul_eq_mul]
  have e4 : MeanOf μ (caseRun depth k peak (typeOfDay ds[k]) [oneMember u]) (loadAt i) = MeanOf μ (memberRun depth k peak (typeOfDay ds[k]) u) (loadAt i) := by
    rw [caseRun_oneMember, mean_sum hg fun m hm => by rw [List.mem_singleton.1 hm]; exact goodRun_sum hg1, List.map_singleton, List.sum_singleton,
      mean_sum hg hg1, List.map_singleton, List.sum_singleton]
  have e2' : expectedLoad μ (dailyRows env depth { uc with users := [oneMember u] } days) k i = MeanOf μ (memberRun depth k peak (typeOfDay ds[k]) u) (loadAt i) :=
    e2.trans e4
  rw [e2', ← e3]
  exact e1

/-- **C110.** The more members, the smaller the fluctuations of the load per member: for a user category of `n` members each of which can use at most `B` watts, the
probability that the load per member in minute `i` of day `k` is `ε` or more away from the expected load of one member is at most `B² / (4 n ε²)`. -/
theorem C110_many_members [IsProbabilityMeasure μ] {env : Env} {depth : ℕ} {uc : UseCase} {ds peak : List ℤ} {days : Option (List ℤ)} (hr : Ready uc ds peak)
    (hn : NeverRaises (generateDaily env depth uc days)) {u : User} (hu : uc.users = [u]) {n : ℕ} (hnu : u.numUsers = n) (h1 : 1 ≤ n) {P : Appliance → ℚ}
    (hP : ∀ a ∈ u.appList, PowersUpTo (P a) a) {B : ℚ} (hB : B = (u.appList.map (applianceBound P)).sum) {k : ℕ} (hk : k < ds.length) (i : Fin 1440) {ε : ℝ} (hε : 0 < ε) :
    ChanceOf μ (dailyRows env depth uc days)
        (fun rows => ε ≤ |((rows.getD k zeros i : ℚ) : ℝ) / n - (expectedLoad μ (dailyRows env depth { uc with users := [oneMember u] } days) k i).toReal|) ≤
      ENNReal.ofReal ((B : ℝ) ^ 2 / (4 * n * ε ^ 2)) := by
  have huu : u ∈ uc.users := by rw [hu]; exact List.mem_singleton_self u
  have hnn : u.numUsers.toNat = n := by rw [hnu]; rfl
  have h0 : 0 < u.numUsers.toNat := by omega
  have hP1 : ∀ v ∈ uc.users, ∀ a ∈ v.appList, PowersUpTo (P a) a := fun v hv a ha => by
    rw [hu, List.mem_singleton] at hv
    rw [hv] at ha
    exact hP a ha
  have hg := C104_load_adds_up i
  have hf := loadAt_finite i
  have hmem := never_members (never_case hr hn ⟨k, hk⟩) huu h0
  have hpm := profileRun_member (P := P) hmem hP
  rw [← hB] at hpm
  have hB0 : (0 : ℝ) ≤ B := by exact_mod_cast bound_nonneg hpm
  -- the variance
  have hV := C110_variance_adds_up (μ := μ) hr hn (fun v hv a ha => ⟨_, hP1 v hv a ha⟩) hk hg hf
  rw [hu, List.map_singleton, List.sum_singleton, hnn] at hV
  have hV1 : varianceOf μ (dailyRows env depth { uc with users := [oneMember u] } days) (fun rows => loadAt i (rows.getD k zeros)) ≤ ENNReal.ofReal (B : ℝ) ^ 2 / 4 := by
    rw [variance_oneMember hr hn (fun v hv a ha => ⟨_, hP1 v hv a ha⟩) huu h0 hg hf ⟨k, hk⟩]
    exact variance_le (bounded_profile hg hf hpm)
  -- the expected value
  have hE := mean_many_members (μ := μ) hr hn hu hnn h1 hP hk i
  -- the deviation
  have hn0 : (0 : ℝ) < n := by exact_mod_cast h1
  have hc := chebyshev (μ := μ) (fin_dailyRows (env := env) (depth := depth) days hr) (fun rows => loadAt i (rows.getD k zeros)) (ε := n * ε) (by positivity)
  rw [hE, ENNReal.toReal_mul, ENNReal.toReal_natCast, hV] at hc
  refine average_bound h1 hB0 hε ((mul_le_mul_left (le_of_eq (chanceOf_congr fun rows hrows => ?_)) _).trans hc) (mul_le_mul_right hV1 _)
  rw [dailyRows_eq days hr] at hrows
  rw [toReal_load (rowOf_nonneg (rows_nonneg (profileRun_rows hr hn hP1) hrows) k)]
  generalize ((rows.getD k zeros i : ℚ) : ℝ) = x
  generalize (expectedLoad μ (dailyRows env depth { uc with users := [oneMember u] } days) k i).toReal = y
  have e : x / n - y = (x - n * y) / n := by field_simp
  rw [e, abs_div, abs_of_pos hn0, le_div_iff₀ hn0, mul_comm]

theorem mean_many_days [IsProbabilityMeasure μ] {env : Env} {depth : ℕ} {uc : UseCase} {ds peak : List ℤ} {days : Option (List ℤ)} (hr : Ready uc ds peak)
    (hn : NeverRaises (generateDaily env depth uc days)) {C : ℚ} (hrun : ∀ j : Fin ds.length, ProfileRun (caseRun depth (0 + j) peak (typeOfDay ds[j]) uc.users) C) (i : Fin 1440) :
    MeanOf μ (dailyRows env depth uc days) (totalOf (loadAt i)) = ∑ k : Fin ds.length, expectedLoad μ (dailyRows env depth uc days) k i := by
  have hg := C104_load_adds_up i
  have hf := loadAt_finite i
  have e := (variance_rows (μ := μ) hg hf hrun).2
  rw [← dailyRows_eq days hr (env := env)] at e
  rw [e]
  refine Finset.sum_congr rfl fun k _ => ?_
  rw [zero_add]
  exact (mean_row (μ := μ) hr (never_dailyRows hn) (loadAt i) k).symm

/-- **C110.** The more days, the smaller the fluctuations of their average: if the users can use at most `B` watts, the probability that the average of minute `i` over the
`n` days of the simulation is `ε` or more away from its expected value is at most `B² / (4 n ε²)`. -/
theorem C110_many_days [IsProbabilityMeasure μ] {env : Env} {depth : ℕ} {uc : UseCase} {ds peak : List ℤ} {days : Option (List ℤ)} (hr : Ready uc ds peak)
    (hn : NeverRaises (generateDaily env depth uc days)) {P : Appliance → ℚ} (hP : ∀ u ∈ uc.users, ∀ a ∈ u.appList, PowersUpTo (P a) a) {B : ℚ}
    (hB : B = (uc.users.map (fun u => (u.numUsers.toNat : ℚ) * (u.appList.map (applianceBound P)).sum)).sum) (h1 : ds ≠ []) (i : Fin 1440) {ε : ℝ} (hε : 0 < ε) :
    ChanceOf μ (dailyRows env depth uc days)
        (fun rows => ε ≤ |(((rows.map (fun p => p i)).sum : ℚ) : ℝ) / ds.length - (∑ k : Fin ds.length, expectedLoad μ (dailyRows env depth uc days) k i).toReal / ds.length|) ≤
      ENNReal.ofReal ((B : ℝ) ^ 2 / (4 * ds.length * ε ^ 2)) := by
  have hlen : 1 ≤ ds.length := List.length_pos_iff.2 h1
  have hg := C104_load_adds_up i
  have hf := loadAt_finite i
  have hrun := profileRun_rows hr hn hP
  rw [← hB] at hrun
  have hB0 : (0 : ℝ) ≤ B := by exact_mod_cast bound_nonneg (hrun ⟨0, hlen⟩)
  have hP1 : ∀ u ∈ uc.users, ∀ a ∈ u.appList, ∃ P, PowersUpTo P a := fun u hu a ha => ⟨_, hP u hu a ha⟩
  have hV := C110_variance_of_days (μ := μ) hr hn hP1 hg hf
  have hV1 : ∀ k : Fin ds.length, varianceOf μ (dailyRows env depth uc days) (fun rows => loadAt i (rows.getD k zeros)) ≤ ENNReal.ofReal (B : ℝ) ^ 2 / 4 := by
    intro k
    rw [variance_row hr (never_dailyRows hn) _ k]
    have := hrun k
    rw [zero_add] at this
    exact variance_le (bounded_profile hg hf this)
  have hE := mean_many_days (μ := μ) hr hn hrun i
  have hn0 : (0 : ℝ) < ds.length := by exact_mod_cast hlen
  have hc := chebyshev (μ := μ) (fin_dailyRows (env := env) (depth := depth) days hr) (totalOf (loadAt i)) (ε := ds.length * ε) (by positivity)
  rw [hE] at hc
  refine average_bound hlen hB0 hε ((mul_le_mul_left (le_of_eq (chanceOf_congr fun rows hrows => ?_)) _).trans hc) ?_
  · rw [dailyRows_eq days hr] at hrows
    rw [toReal_total (rows_nonneg hrun hrows)]
    generalize (((rows.map (fun p => p i)).sum : ℚ) : ℝ) = x
    generalize (∑ k : Fin ds.length, expectedLoad μ (dailyRows env depth uc days) k i).toReal = y
    rw [← sub_div, abs_div, abs_of_pos hn0, le_div_iff₀ hn0, mul_comm]
  · rw [hV]
    refine (Finset.sum_le_sum fun k _ => hV1 k).trans_eq ?_
    rw [Finset.sum_const, Finset.card_univ, Fintype.card_fin, nsmul_eq_mul]

/-! ## A case -/

theorem kettles_ready (n : ℤ) : Ready (lampDays [{ numUsers := n, appList := [kettle] }]) [0, 1, 2] [700] := ⟨rfl, rfl, rfl⟩

theorem kettles_never (n : ℤ) : NeverRaises (generateDaily ⟨0, none⟩ 1000 (lampDays [{ numUsers := n, appList := [kettle] }]) none) := by
  have hmem : ∀ u ∈ (lampDays [{ numUsers := n, appList := [kettle] }]).users, u.userPreference = 0 ∧ ∀ a ∈ u.appList, a = kettle := by
    intro u hu
    rw [List.mem_singleton.1 hu]
    exact ⟨rfl, fun a ha => List.mem_singleton.1 ha⟩
  exact C82_sensible_never_fails (depth := 999) none (kettles_ready n) (by simp)
    (fun u hu => ⟨by rw [(hmem u hu).1], fun a ha => by rw [(hmem u hu).2 a ha]; exact kettle_sensible⟩)
    (fun u hu a ha => by
      rw [(hmem u hu).2 a ha]
      show 3 ≤ (List.replicate 367 (1000 : ℚ)).length
      rw [List.length_replicate]
      norm_num)

/-- A case for C110: the kettles (1000 W) of `n` households.  The load per household at 7:00 of the second day is 100 W or more away from that expected with a probability of
at most `25 / n`. -/
example [IsProbabilityMeasure μ] (n : ℕ) (h1 : 1 ≤ n) :
    ChanceOf μ (dailyRows ⟨0, none⟩ 1000 (lampDays [{ numUsers := n, appList := [kettle] }]) none)
        (fun rows => 100 ≤ |((rows.getD 1 zeros ⟨420, by norm_num⟩ : ℚ) : ℝ) / n -
          (expectedLoad μ (dailyRows ⟨0, none⟩ 1000 (lampDays [{ numUsers := 1, appList := [kettle] }]) none) 1 ⟨420, by norm_num⟩).toReal|) ≤
      ENNReal.ofReal (25 / n) := by
  have h := C110_many_members (μ := μ) (env := ⟨0, none⟩) (depth := 1000) (days := none) (kettles_ready n) (kettles_never n) (u := { numUsers := n, appList := [kettle] }) rfl rfl h1
    (P := fun _ => 1000) (fun a ha => by rw [List.mem_singleton.1 ha]; exact kettle_powers) (B := 1000)
    (by
      show _ = ([kettle].map (applianceBound (fun _ => 1000))).sum
      rw [List.map_singleton, List.sum_singleton]
      unfold applianceBound
      rw [show kettle.number = 1 from rfl, show kettle.thermalPVar = 0 from rfl]
      norm_num) (k := 1) (by simp) ⟨420, by norm_num⟩ (ε := 100) (by norm_num)
  refine h.trans (ENNReal.ofReal_le_ofReal (le_of_eq ?_))
  have hn0 : (n : ℝ) ≠ 0 := by
    have : (0 : ℝ) < n := by exact_mod_cast h1
    exact this.ne'
  field_simp
  norm_num

end Ramp
