import Verif.Lemmas.Runs

/-! # Distributions of sums of runs -/

set_option autoImplicit false

open MeasureTheory ENNReal

namespace Ramp

variable {α β γ : Type} {μ : Measure Draw}

theorem SameLaw.refl (m : Sim α) : SameLaw μ m m := fun _ => rfl
theorem SameLaw.symm {m n : Sim α} (h : SameLaw μ m n) : SameLaw μ n m := fun g => (h g).symm
theorem SameLaw.trans {m n o : Sim α} (h : SameLaw μ m n) (h' : SameLaw μ n o) : SameLaw μ m o := fun g => (h g).trans (h' g)

theorem meanOf_congr {m : Sim α} {g g' : α → ℝ≥0∞} (h : ∀ a, Returns m a → g a = g' a) : MeanOf μ m g = MeanOf μ m g' := by
  unfold MeanOf Mean
  refine lintegral_congr fun r => ?_
  unfold endOf
  cases hr : m r with
  | error e => rfl
  | ok x => exact h x.1 ⟨r, x.2, hr⟩

theorem sameLaw_bind [IsProbabilityMeasure μ] {m n : Sim α} {f f' : α → Sim β} (hm : Finitary m) (hn : Finitary n) (hf : ∀ a, Finitary (f a)) (hf' : ∀ a, Finitary (f' a))
    (h : SameLaw μ m n) (h' : ∀ a, SameLaw μ (f a) (f' a)) : SameLaw μ (m >>= f) (n >>= f') := fun g => by
  rw [meanOf_bind hm hf, meanOf_bind hn hf', h]
  simp only [h' _ g]

theorem meanOf_sumRuns_nil [IsProbabilityMeasure μ] (g : Profile → ℝ≥0∞) : MeanOf μ (sumRuns []) g = g (fun _ => 0) := meanOf_pure _ _

theorem meanOf_sumRuns_cons [IsProbabilityMeasure μ] {m : Sim Profile} {ms : List (Sim Profile)} (hm : Finitary m) (h : ∀ n ∈ ms, Finitary n) (g : Profile → ℝ≥0∞) :
    MeanOf μ (sumRuns (m :: ms)) g = MeanOf μ m (fun p => MeanOf μ (sumRuns ms) (fun q => g (fun i => p i + q i))) := by
  show MeanOf μ (m >>= fun p => sumRuns ms >>= fun q => pure (fun i => p i + q i)) g = _
  rw [meanOf_bind hm fun p => fin_bind (fin_sumRuns h) fun q => fin_pure _]
  congr 1
  funext p
  rw [meanOf_bind (fin_sumRuns h) fun q => fin_pure _]
  congr 1
  funext q
  exact meanOf_pure _ _

theorem meanOf_sumRuns_append [IsProbabilityMeasure μ] {l l' : List (Sim Profile)} (h : ∀ n ∈ l, Finitary n) (h' : ∀ n ∈ l', Finitary n) (g : Profile → ℝ≥0∞) :
    MeanOf μ (sumRuns (l ++ l')) g = MeanOf μ (sumRuns l) (fun p => MeanOf μ (sumRuns l') (fun q => g (fun i => p i + q i))) := by
  induction l generalizing g with
  | nil => rw [meanOf_sumRuns_nil, List.nil_append]; simp only [zero_add]
  | cons m l ih =>
    have hl : ∀ n ∈ l, Finitary n := fun n hn => h n (by simp [hn])
    have hm := h m (by simp)
    rw [List.cons_append, meanOf_sumRuns_cons hm fun n hn => (List.mem_append.1 hn).elim (hl n) (h' n), meanOf_sumRuns_cons hm hl]
    congr 1
    funext p
    rw [ih hl]
    congr 1
    funext q
    simp only [add_assoc]

theorem sameLaw_sumRuns [IsProbabilityMeasure μ] {l l' : List (Sim Profile)} (h : List.Forall₂ (fun m n => Finitary m ∧ Finitary n ∧ SameLaw μ m n) l l') :
    SameLaw μ (sumRuns l) (sumRuns l') := by
  have hfin : (∀ n ∈ l, Finitary n) ∧ ∀ n ∈ l', Finitary n := by
    induction h with
    | nil => simp
    | cons h1 _ ih => exact ⟨by simpa using ⟨h1.1, ih.1⟩, by simpa using ⟨h1.2.1, ih.2⟩⟩
  induction h with
  | nil => exact SameLaw.refl _
  | @cons m n l l' h1 _ ih =>
    intro g
    rw [meanOf_sumRuns_cons h1.1 fun x hx => hfin.1 x (by simp [hx]), meanOf_sumRuns_cons h1.2.1 fun x hx => hfin.2 x (by simp [hx]), h1.2.2]
    congr 1
    funext p
    exact ih ⟨fun x hx => hfin.1 x (by simp [hx]), fun x hx => hfin.2 x (by simp [hx])⟩ _

theorem sameLaw_perm [IsProbabilityMeasure μ] {l l' : List (Sim Profile)} (hp : l.Perm l') (h : ∀ n ∈ l, Finitary n) : SameLaw μ (sumRuns l) (sumRuns l') := by
  induction hp with
  | nil => exact SameLaw.refl _
  | @cons m l l' hp ih =>
    intro g
    have hl : ∀ n ∈ l, Finitary n := fun n hn => h n (by simp [hn])
    rw [meanOf_sumRuns_cons (h m (by simp)) hl, meanOf_sumRuns_cons (h m (by simp)) fun n hn => hl n (hp.mem_iff.2 hn)]
    congr 1
    funext p
    exact ih hl _
  | swap m n l =>
    intro g
    have hl : ∀ x ∈ l, Finitary x := fun x hx => h x (by simp [hx])
    have hm := h m (by simp)
    have hn := h n (by simp)
    rw [meanOf_sumRuns_cons hn (by simpa using ⟨hm, hl⟩), meanOf_sumRuns_cons hm (by simpa using ⟨hn, hl⟩)]
    have e1 : ∀ p : Profile, MeanOf μ (sumRuns (m :: l)) (fun q => g (fun i => p i + q i)) = MeanOf μ m (fun q => MeanOf μ (sumRuns l) (fun s => g (fun i => p i + (q i + s i)))) :=
      fun p => meanOf_sumRuns_cons hm hl _
    have e2 : ∀ p : Profile, MeanOf μ (sumRuns (n :: l)) (fun q => g (fun i => p i + q i)) = MeanOf μ n (fun q => MeanOf μ (sumRuns l) (fun s => g (fun i => p i + (q i + s i)))) :=
      fun p => meanOf_sumRuns_cons hn hl _
    simp only [e1, e2]
    rw [meanOf_swap hn hm]
    congr 1
    funext p
    congr 1
    funext q
    congr 1
    funext s
    congr 1
    funext i
    ring
  | trans hp1 _ ih1 ih2 => exact (ih1 h).trans (ih2 fun n hn => h n (hp1.mem_iff.2 hn))

theorem sameLaw_flatten [IsProbabilityMeasure μ] {ls : List (List (Sim Profile))} (h : ∀ l ∈ ls, ∀ n ∈ l, Finitary n) :
    SameLaw μ (sumRuns (ls.map sumRuns)) (sumRuns ls.flatten) := by
  induction ls with
  | nil => exact SameLaw.refl _
  | cons l ls ih =>
    intro g
    have hls : ∀ l ∈ ls, ∀ n ∈ l, Finitary n := fun l hl => h l (by simp [hl])
    rw [List.map_cons, List.flatten_cons, meanOf_sumRuns_cons (fin_sumRuns (h l (by simp))) (by
        intro n hn
        obtain ⟨l', hl', rfl⟩ := List.mem_map.1 hn
        exact fin_sumRuns (hls l' hl')), meanOf_sumRuns_append (h l (by simp)) (by
        intro n hn
        obtain ⟨l', hl', hn⟩ := List.mem_flatten.1 hn
        exact hls l' hl' n hn)]
    congr 1
    funext p
    exact ih hls _

theorem meanOf_le {m : Sim α} {g g' : α → ℝ≥0∞} (h : ∀ a, g a ≤ g' a) : MeanOf μ m g ≤ MeanOf μ m g' := by
  unfold MeanOf Mean
  refine lintegral_mono fun r => ?_
  simp only
  cases endOf m r with
  | ok a => exact h a
  | error e => exact le_rfl

theorem meanOf_const_le [IsProbabilityMeasure μ] {m : Sim α} (c : ℝ≥0∞) : MeanOf μ m (fun _ => c) ≤ c := by
  unfold MeanOf Mean
  calc _ ≤ ∫⁻ _, c ∂(stream μ) := lintegral_mono fun r => by
        simp only
        cases endOf m r with
        | ok a => exact le_rfl
        | error e => exact zero_le
    _ = c := by rw [lintegral_const]; unfold stream; rw [measure_univ, mul_one]

theorem chanceOf_le_one [IsProbabilityMeasure μ] {m : Sim α} (φ : α → Prop) : ChanceOf μ m φ ≤ 1 := by
  unfold ChanceOf Chance stream
  exact prob_le_one

theorem chanceOf_mono {m : Sim α} {φ ψ : α → Prop} (h : ∀ a, φ a → ψ a) : ChanceOf μ m φ ≤ ChanceOf μ m ψ :=
  measure_mono fun _ ⟨a, h1, h2⟩ => ⟨a, h1, h a h2⟩

theorem chanceOf_congr {m : Sim α} {φ ψ : α → Prop} (h : ∀ a, Returns m a → (φ a ↔ ψ a)) : ChanceOf μ m φ = ChanceOf μ m ψ := by
  unfold ChanceOf Chance
  congr 1
  ext r
  have : ∀ a, endOf m r = .ok a → Returns m a := by
    intro a ha
    unfold endOf at ha
    cases hr : m r with
    | error e => rw [hr] at ha; cases ha
    | ok x => rw [hr] at ha; cases ha; exact ⟨r, x.2, hr⟩
  exact ⟨fun ⟨a, h1, h2⟩ => ⟨a, h1, (h a (this a h1)).1 h2⟩, fun ⟨a, h1, h2⟩ => ⟨a, h1, (h a (this a h1)).2 h2⟩⟩

theorem chanceOf_never [IsProbabilityMeasure μ] {m : Sim α} (h : NeverRaises m) : ChanceOf μ m (fun _ => True) = 1 := by
  unfold ChanceOf Chance
  have : {r | ∃ a, endOf m r = .ok a ∧ True} = Set.univ := by
    ext r
    refine ⟨fun _ => trivial, fun _ => ?_⟩
    show ∃ a, endOf m r = .ok a ∧ True
    unfold endOf
    cases hr : m r with
    | error e => exact absurd ⟨r, hr⟩ (h e)
    | ok x => exact ⟨x.1, rfl, trivial⟩
  rw [this]
  unfold stream
  exact measure_univ

theorem chanceOf_sameLaw {m n : Sim α} (hm : Finitary m) (hn : Finitary n) (h : SameLaw μ m n) (φ : α → Prop) : ChanceOf μ m φ = ChanceOf μ n φ := by
  rw [chanceOf_eq hm, chanceOf_eq hn, h]

end Ramp
