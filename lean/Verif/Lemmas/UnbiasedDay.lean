import Verif.Lemmas.Unbiased
import Verif.Lemmas.Runs

/-! # A variable power can be replaced by its average: a day of an appliance -/

set_option autoImplicit false

open MeasureTheory ENNReal

namespace Ramp

variable {μ : Measure Draw} {α : Type}

/-- The beginning of a day: whether the appliance is used, its windows, its time of use. -/
def beginRun (a : Appliance) (pref dt : ℤ) : Sim (Option ((ℤ × ℤ) × (ℤ × ℤ) × (ℤ × ℤ) × ℤ)) := do
  let x ← uniform 0 1
  if x > a.occasionalUse ∨ (a.prefIndex ≠ 0 ∧ pref ≠ a.prefIndex) ∨ ¬ (a.wdWeType = dt ∨ a.wdWeType = 2) ∨ a.funcTime = 0 then pure none
  else do
    let w1 ← calcRandWindow a.window1 a.randomVar1
    let w2 ← calcRandWindow a.window2 a.randomVar2
    let w3 ← calcRandWindow a.window3 a.randomVar3
    let rt ← randTotalTimeOfUse { a with dailyUse := zeros } w1 w2 w3
    pure (some (w1, w2, w3, rt))

/-- The events of a day. -/
def eventsRun (a : Appliance) (depth : ℕ) (peak : List ℤ) (power : ℚ) (s : List Spot) (rt : ℤ) : Sim Appliance :=
  assignRandomCycles a >>= fun b => switchOnLoop depth peak power rt (rt.toNat + 2) { b with freeSpots := s } 0 [] >>= fun p => pure p.1

/-- The rest of the day. -/
def restRun (a : Appliance) (depth : ℕ) (peak : List ℤ) (power : ℚ) : Option ((ℤ × ℤ) × (ℤ × ℤ) × (ℤ × ℤ) × ℤ) → Sim Appliance
  | none => pure { a with dailyUse := zeros }
  | some (w1, w2, w3, rt) => liftE (fillWindows w1 w2 w3 (1 / 1000)) >>= fun d => eventsRun { a with dailyUse := d } depth peak power (initialSpots [w1, w2, w3]) rt

theorem fin_beginRun (a : Appliance) (pref dt : ℤ) : Finitary (beginRun a pref dt) :=
  fin_bind (fin_uniform _ _) fun _ => fin_ite (fin_pure _) (fin_bind (fin_calcRandWindow _ _) fun _ => fin_bind (fin_calcRandWindow _ _) fun _ =>
    fin_bind (fin_calcRandWindow _ _) fun _ => fin_bind (fin_randTotalTimeOfUse _ _ _ _) fun _ => fin_pure _)

theorem fin_eventsRun (a : Appliance) (depth : ℕ) (peak : List ℤ) (power : ℚ) (s : List Spot) (rt : ℤ) : Finitary (eventsRun a depth peak power s rt) :=
  fin_bind (fin_assignRandomCycles _) fun _ => fin_bind (fin_switchOnLoop _ _ _ _ _ _ _ _) fun _ => fin_pure _

theorem fin_restRun (a : Appliance) (depth : ℕ) (peak : List ℤ) (power : ℚ) (o : Option ((ℤ × ℤ) × (ℤ × ℤ) × (ℤ × ℤ) × ℤ)) : Finitary (restRun a depth peak power o) := by
  cases o with
  | none => exact fin_pure _
  | some o => exact fin_bind (fin_liftE _) fun _ => fin_eventsRun _ _ _ _ _ _

theorem ite_bind' {β : Type} (c : Prop) [Decidable c] (x y : Sim α) (f : α → Sim β) : (if c then x else y) >>= f = if c then x >>= f else y >>= f := by
  split_ifs <;> rfl

theorem generate_split {a : Appliance} (hfl : a.flat ≠ "yes") (depth : ℕ) (pref : ℤ) (k : ℕ) (peak : List ℤ) (dt : ℤ) (p : ℚ) :
    generateLoadProfile a depth pref k peak dt p = beginRun a pref dt >>= restRun a depth peak p := by
  unfold generateLoadProfile generateLoadProfileInfo beginRun
  simp only
  rw [sim_bind_assoc, sim_bind_assoc]
  congr 1
  funext x
  rw [ite_bind', ite_bind']
  by_cases hs : x > a.occasionalUse ∨ (a.prefIndex ≠ 0 ∧ pref ≠ a.prefIndex) ∨ ¬ (a.wdWeType = dt ∨ a.wdWeType = 2) ∨ a.funcTime = 0
  · rw [if_pos hs, if_pos hs]
    rfl
  · rw [if_neg hs, if_neg hs]
    simp only [sim_bind_assoc, if_neg hfl]
    congr 1

theorem mean_events [IsProbabilityMeasure μ] (a : Appliance) (depth : ℕ) (peak : List ℤ) (power : ℚ) (s : List Spot) (rt : ℤ) (H : Appliance → ℝ≥0∞) :
    MeanOf μ (eventsRun a depth peak power s rt) H = MeanOf μ (assignRandomCycles a) (fun b =>
      MeanOf μ (switchOnLoop depth peak power rt (rt.toNat + 2) { b with freeSpots := s } 0 []) (fun p => H p.1)) := by
  unfold eventsRun
  rw [meanOf_bind (fin_assignRandomCycles _) fun _ => fin_bind (fin_switchOnLoop _ _ _ _ _ _ _ _) fun _ => fin_pure _]
  congr 1
  funext b
  rw [meanOf_bind (fin_switchOnLoop _ _ _ _ _ _ _ _) fun _ => fin_pure _]
  simp only [meanOf_pure]

theorem replace_events [IsProbabilityMeasure μ] {m : ℚ} (hμ : MeanIs μ m) {a : Appliance} (ha : Powers a) (hn : 1 ≤ a.number) (hd : ∀ i, 0 ≤ a.dailyUse i)
    (h1 : a.randomCycle1 = []) (h2 : a.randomCycle2 = []) (h3 : a.randomCycle3 = []) {power : ℚ} (hp : 0 ≤ power) {H H' : Appliance → ℝ≥0∞} (hL : Lifts H)
    (hH : ∀ b, OKA a.thermalPVar b → H' (calm (factorMean m a.thermalPVar) b) = H b) (depth : ℕ) (peak : List ℤ) (s : List Spot) (rt : ℤ) :
    MeanOf μ (eventsRun a depth peak power s rt) H =
      MeanOf μ (eventsRun (calm (factorMean m a.thermalPVar) a) depth peak (factorMean m a.thermalPVar * power) s rt) H' := by
  rw [mean_events, mean_events]
  refine replace_assign hμ ha (fun c1 c2 c3 n1 n2 n3 => ?_) (fun c1 c2 c3 n1 n2 n3 => ?_) fun _ => ?_
  · refine aff_congr (fun t _ => ?_) (lifts_loop (μ := μ) hL depth peak hp rt (rt.toNat + 2) 0 [] { a with freeSpots := s } a.dailyUse zeros c1 c2 c3
      ⟨hn, ha.v0, ha.v1⟩ ⟨hd, fun _ => le_refl _, n1, n2, n3⟩)
    unfold st
    rw [fam_zero]
  · exact replace_loop hμ ha.v0 ha.v1 hL hH depth peak hp rt _ 0 [] (a := { a with randomCycle1 := c1, randomCycle2 := c2, randomCycle3 := c3, freeSpots := s })
      ⟨hn, rfl, hd, n1, n2, n3⟩
  · refine replace_loop hμ ha.v0 ha.v1 hL hH depth peak hp rt _ 0 [] (a := { a with freeSpots := s }) ⟨hn, rfl, hd, ?_, ?_, ?_⟩
    · intro x hx
      rw [show ({ a with freeSpots := s } : Appliance).randomCycle1 = a.randomCycle1 from rfl, h1] at hx
      cases hx
    · intro x hx
      rw [show ({ a with freeSpots := s } : Appliance).randomCycle2 = a.randomCycle2 from rfl, h2] at hx
      cases hx
    · intro x hx
      rw [show ({ a with freeSpots := s } : Appliance).randomCycle3 = a.randomCycle3 from rfl, h3] at hx
      cases hx

theorem replace_clean [IsProbabilityMeasure μ] {m : ℚ} (hμ : MeanIs μ m) {a : Appliance} (ha : Powers a) (hn : 1 ≤ a.number) (hfl : a.flat ≠ "yes")
    (h1 : a.randomCycle1 = []) (h2 : a.randomCycle2 = []) (h3 : a.randomCycle3 = []) {power : ℚ} (hp : 0 ≤ power) (depth : ℕ) (pref : ℤ) (k : ℕ) (peak : List ℤ)
    (dt : ℤ) (i : Fin 1440) :
    MeanOf μ (generateLoadProfile a depth pref k peak dt power) (fun b => ENNReal.ofReal ((b.dailyUse i : ℚ) : ℝ)) =
      MeanOf μ (generateLoadProfile (calm (factorMean m a.thermalPVar) a) depth pref k peak dt (factorMean m a.thermalPVar * power))
        (fun b => ENNReal.ofReal ((b.dailyUse i : ℚ) : ℝ)) := by
  rw [generate_split hfl, generate_split (a := calm (factorMean m a.thermalPVar) a) hfl, meanOf_bind (fin_beginRun _ _ _) fun _ => fin_restRun _ _ _ _ _,
    meanOf_bind (fin_beginRun _ _ _) fun _ => fin_restRun _ _ _ _ _]
  have e : beginRun (calm (factorMean m a.thermalPVar) a) pref dt = beginRun a pref dt := rfl
  rw [e]
  refine meanOf_congr fun o _ => ?_
  cases o with
  | none =>
    unfold restRun
    rw [meanOf_pure, meanOf_pure]
  | some o =>
    obtain ⟨w1, w2, w3, rt⟩ := o
    unfold restRun
    simp only
    rw [meanOf_bind (fin_liftE _) fun _ => fin_eventsRun _ _ _ _ _ _, meanOf_bind (fin_liftE _) fun _ => fin_eventsRun _ _ _ _ _ _, meanOf_liftE, meanOf_liftE]
    cases hw : fillWindows w1 w2 w3 (1 / 1000) with
    | error e => rfl
    | ok d =>
      simp only
      exact replace_events hμ (a := { a with dailyUse := d }) ⟨ha.v0, ha.v1, ha.p11, ha.p12, ha.p21, ha.p22, ha.p31, ha.p32⟩ hn
        (fun j => by rcases fillWindows_values hw j with h | h <;> rw [show ({ a with dailyUse := d } : Appliance).dailyUse j = d j from rfl, h] <;> norm_num)
        h1 h2 h3 hp (lifts_load i) (fun b _ => rfl) depth peak _ rt

theorem mean_of_rel {β : Type} {m : Sim α} {m' : Sim β} {P : α → β → Prop} (h : Rel m m' P) {g : α → ℝ≥0∞} {g' : β → ℝ≥0∞} (hg : ∀ x y, P x y → g x = g' y) :
    MeanOf μ m g = MeanOf μ m' g' := by
  unfold MeanOf Mean
  refine lintegral_congr fun r => ?_
  unfold endOf
  rcases h r with ⟨e, h1, h2⟩ | ⟨p, q, r', h1, h2, h3⟩
  · rw [h1, h2]
    rfl
  · rw [h1, h2]
    exact hg _ _ h3

theorem mean_le_of_rel {β : Type} {m : Sim α} {m' : Sim β} {P : α → β → Prop} (h : Rel m m' P) {g : α → ℝ≥0∞} {g' : β → ℝ≥0∞} (hg : ∀ x y, P x y → g x ≤ g' y) :
    MeanOf μ m g ≤ MeanOf μ m' g' := by
  unfold MeanOf Mean
  refine lintegral_mono fun r => ?_
  unfold endOf
  rcases h r with ⟨e, h1, h2⟩ | ⟨p, q, r', h1, h2, h3⟩
  · simp only [h1, h2]
    exact le_refl _
  · simp only [h1, h2]
    exact hg _ _ h3

/-- The appliance before its first day. -/
def fresh (a : Appliance) : Appliance := { a with randomCycle1 := [], randomCycle2 := [], randomCycle3 := [] }

/-- **A variable power can be replaced by its average.** -/
theorem replace_generate [IsProbabilityMeasure μ] {m : ℚ} (hμ : MeanIs μ m) {a : Appliance} (ha : Powers a) (hn : 1 ≤ a.number) (hfl : a.flat ≠ "yes")
    {power : ℚ} (hp : 0 ≤ power) (depth : ℕ) (pref : ℤ) (k : ℕ) (peak : List ℤ) (dt : ℤ) (i : Fin 1440) :
    MeanOf μ (generateLoadProfile a depth pref k peak dt power) (fun b => ENNReal.ofReal ((b.dailyUse i : ℚ) : ℝ)) =
      MeanOf μ (generateLoadProfile (calm (factorMean m a.thermalPVar) a) depth pref k peak dt (factorMean m a.thermalPVar * power))
        (fun b => ENNReal.ofReal ((b.dailyUse i : ℚ) : ℝ)) := by
  have h1 : SameDefinition a (fresh a) := rfl
  have h2 : SameDefinition (calm (factorMean m a.thermalPVar) (fresh a)) (calm (factorMean m a.thermalPVar) a) := rfl
  have hg : ∀ x y : Appliance, SameDefinition x y ∧ y.dailyUse = x.dailyUse → ENNReal.ofReal ((x.dailyUse i : ℚ) : ℝ) = ENNReal.ofReal ((y.dailyUse i : ℚ) : ℝ) := by
    intro x y h
    rw [h.2]
  rw [mean_of_rel (rel_generate h1 depth pref k peak dt power) hg,
    replace_clean hμ (a := fresh a) ⟨ha.v0, ha.v1, ha.p11, ha.p12, ha.p21, ha.p22, ha.p31, ha.p32⟩ hn hfl rfl rfl rfl hp]
  exact mean_of_rel (rel_generate h2 depth pref k peak dt _) hg

end Ramp
