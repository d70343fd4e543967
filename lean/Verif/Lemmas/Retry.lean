import Verif.Spec16
import Verif.Lemmas.SumRuns
import Verif.Lemmas.AsOne
import Verif.Lemmas.Warnings
import Verif.Lemmas.Cli
import Verif.Props.Chances
import Verif.Props.OneUse
import Verif.Props.Switch

/-! # Trying again: the recursion of `rand_switch_on_window` -/

set_option autoImplicit false

open MeasureTheory ENNReal

namespace Ramp

variable {α β : Type} {μ : Measure Draw}

/-- One try of `rand_switch_on_window` after the start minute and its range are known; `none`: the event overlaps no duty cycle window. -/
def tryStart (app : Appliance) (randTime : ℤ) (switchOn : ℤ) (spot : Spot) : Sim (Option (Appliance × Option SwitchOn)) := do
  let indexes ← drawIndexes app.funcCycle (min randTime (spot.stop - switchOn)) switchOn
  if app.fixedCycle > 0 then
    match indexes.head?, indexes.getLast? with
    | some lo, some hi =>
      match selectDutyCycle app lo hi with
      | some (i, cycle) =>
        if indexes.length > cycle.length ∧ app.continuousDutyCycle = 0 then
          pure (some ({ app with currentDutyCycleId := i }, some ⟨indexes, indexes.take cycle.length⟩))
        else pure (some ({ app with currentDutyCycleId := i }, some ⟨indexes, indexes⟩))
      | none => pure none
    | _, _ => raise .indexError
  else pure (some (app, some ⟨indexes, indexes⟩))

/-- One try of `rand_switch_on_window`. -/
def oneTry (app : Appliance) (randTime : ℤ) : Sim (Option (Appliance × Option SwitchOn)) :=
  if ((switchOnChoices app.freeSpots app.funcCycle).length : ℤ) > 0 then do
    let k ← randint 0 (((switchOnChoices app.freeSpots app.funcCycle).length : ℤ) - 1)
    match (switchOnChoices app.freeSpots app.funcCycle)[k.toNat]? with
    | none => raise .indexError
    | some switchOn =>
      match app.freeSpots.find? (fun fs => fs.start ≤ switchOn && switchOn ≤ fs.stop - app.funcCycle) with
      | none => raise .typeError
      | some spot => tryStart app randTime switchOn spot
  else pure (some (app, none))

/-- The end of a try: done, or try again. -/
def orAgain (depth : ℕ) (app : Appliance) (randTime : ℤ) (o : Option (Appliance × Option SwitchOn)) : Sim (Appliance × Option SwitchOn) :=
  match o with
  | some x => pure x
  | none => randSwitchOnWindow depth app randTime

theorem sim_raise_bind (e : Err) (f : α → Sim β) : ((raise e : Sim α) >>= f) = raise e := rfl

theorem sim_bind_congr {m : Sim α} {f g : α → Sim β} (h : ∀ a, f a = g a) : (m >>= f) = m >>= g := by rw [funext h]

theorem afterStart_try (depth : ℕ) (app : Appliance) (rt m : ℤ) (s : Spot) : afterStart depth app rt m s = tryStart app rt m s >>= orAgain depth app rt := by
  unfold afterStart tryStart
  rw [sim_bind_assoc]
  refine sim_bind_congr fun l => ?_
  by_cases h : app.fixedCycle > 0
  · rw [if_pos h, if_pos h]
    cases l.head? with
    | none => rfl
    | some lo =>
      cases l.getLast? with
      | none => rfl
      | some hi =>
        simp only
        cases selectDutyCycle app lo hi with
        | none => rfl
        | some x =>
          obtain ⟨i, c⟩ := x
          simp only
          by_cases h2 : l.length > c.length ∧ app.continuousDutyCycle = 0
          · rw [if_pos h2, if_pos h2]; rfl
          · rw [if_neg h2, if_neg h2]; rfl
  · rw [if_neg h, if_neg h]; rfl

theorem rand_try (depth : ℕ) (app : Appliance) (rt : ℤ) : randSwitchOnWindow (depth + 1) app rt = oneTry app rt >>= orAgain depth app rt := by
  rw [randSwitchOnWindow_succ]
  unfold oneTry
  by_cases h : ((switchOnChoices app.freeSpots app.funcCycle).length : ℤ) > 0
  · rw [if_pos h, if_pos h, sim_bind_assoc]
    refine sim_bind_congr fun k => ?_
    cases (switchOnChoices app.freeSpots app.funcCycle)[k.toNat]? with
    | none => rfl
    | some m =>
      simp only
      cases app.freeSpots.find? (fun fs => fs.start ≤ m && m ≤ fs.stop - app.funcCycle) with
      | none => rfl
      | some s => exact afterStart_try depth app rt m s
  · rw [if_neg h, if_neg h]; rfl

theorem fin_tryStart (app : Appliance) (rt m : ℤ) (s : Spot) : Finitary (tryStart app rt m s) := by
  unfold tryStart
  refine fin_bind (fin_drawIndexes _ _ _) fun l => ?_
  refine fin_ite ?_ (fin_pure _)
  cases l.head? with
  | none => exact fin_raise _
  | some lo =>
    cases l.getLast? with
    | none => exact fin_raise _
    | some hi =>
      simp only
      cases selectDutyCycle app lo hi with
      | none => exact fin_pure _
      | some x => exact fin_ite (fin_pure _) (fin_pure _)

theorem fin_oneTry (app : Appliance) (rt : ℤ) : Finitary (oneTry app rt) := by
  unfold oneTry
  refine fin_ite (fin_bind (fin_randint _ _) fun k => ?_) (fin_pure _)
  cases (switchOnChoices app.freeSpots app.funcCycle)[k.toNat]? with
  | none => exact fin_raise _
  | some m =>
    simp only
    cases app.freeSpots.find? (fun fs => fs.start ≤ m && m ≤ fs.stop - app.funcCycle) with
    | none => exact fin_raise _
    | some s => exact fin_tryStart _ _ _ _

theorem fin_orAgain (depth : ℕ) (app : Appliance) (rt : ℤ) (o : Option (Appliance × Option SwitchOn)) : Finitary (orAgain depth app rt o) := by
  cases o with
  | none => exact fin_randSwitchOnWindow _ _ _
  | some x => exact fin_pure _

theorem calm_oneTry (app : Appliance) (rt : ℤ) : Calm (oneTry app rt) := by
  unfold oneTry
  refine calm_ite (calm_bind (calm_randint _ _) fun k => ?_) (calm_pure _)
  cases (switchOnChoices app.freeSpots app.funcCycle)[k.toNat]? with
  | none => exact calm_raise (by decide)
  | some m =>
    simp only
    cases app.freeSpots.find? (fun fs => fs.start ≤ m && m ≤ fs.stop - app.funcCycle) with
    | none => exact calm_raise (by decide)
    | some s =>
      refine calm_bind (calm_indexes _ _ _) fun l => ?_
      refine calm_ite ?_ (calm_pure _)
      cases l.head? with
      | none => exact calm_raise (by decide)
      | some lo =>
        cases l.getLast? with
        | none => exact calm_raise (by decide)
        | some hi =>
          simp only
          cases selectDutyCycle app lo hi with
          | none => exact calm_pure _
          | some x => exact calm_ite (calm_pure _) (calm_pure _)

/-- The expected value of a quantity that ignores the exceptions other than `RecursionError`. -/
noncomputable def quantity (c : ℝ≥0∞) (g : α → ℝ≥0∞) : Except Err α → ℝ≥0∞ := fun e => match e with
  | .ok a => g a
  | .error e => if e = .recursionError then c else 0

theorem endOf_calm {m : Sim α} (h : Calm m) (r : Rng) : endOf m r ≠ .error .recursionError := by
  intro h1
  unfold endOf at h1
  cases hr : m r with
  | ok x => rw [hr] at h1; cases h1
  | error e =>
    rw [hr] at h1
    cases h1
    exact (sat_iff.1 h).2 _ ⟨r, hr⟩ rfl

theorem mean_try [IsProbabilityMeasure μ] (depth : ℕ) (app : Appliance) (rt : ℤ) (c : ℝ≥0∞) (g : Appliance × Option SwitchOn → ℝ≥0∞) :
    Mean μ (randSwitchOnWindow (depth + 1) app rt) (quantity c g) = MeanOf μ (oneTry app rt) (fun o => match o with
      | some x => g x
      | none => Mean μ (randSwitchOnWindow depth app rt) (quantity c g)) := by
  rw [rand_try, mean_bind (fin_oneTry _ _) (fin_orAgain _ _ _)]
  unfold MeanOf Mean
  congr 1
  funext r
  have hc := endOf_calm (calm_oneTry app rt) r
  cases he : endOf (oneTry app rt) r with
  | error e =>
    show quantity c g (.error e) = 0
    exact if_neg fun h => hc (by rw [he, h])
  | ok o =>
    cases o with
    | none => rfl
    | some x => exact mean_pure x _

/-! ## The law of the retries -/

/-- The probability that a try fails. -/
noncomputable def missing (μ : Measure Draw) (app : Appliance) (rt : ℤ) : ℝ≥0∞ := MeanOf μ (oneTry app rt) (fun o => if o = none then 1 else 0)

/-- The expected value of a quantity of the event of a try; failed tries count 0. -/
noncomputable def hitting (μ : Measure Draw) (app : Appliance) (rt : ℤ) (g : Appliance × Option SwitchOn → ℝ≥0∞) : ℝ≥0∞ :=
  MeanOf μ (oneTry app rt) (fun o => match o with
    | some x => g x
    | none => 0)

theorem mean_split [IsProbabilityMeasure μ] (app : Appliance) (rt : ℤ) (F : ℝ≥0∞) (g : Appliance × Option SwitchOn → ℝ≥0∞) :
    MeanOf μ (oneTry app rt) (fun o => match o with
      | some x => g x
      | none => F) = hitting μ app rt g + missing μ app rt * F := by
  unfold hitting missing
  rw [← meanOf_mul_right (fin_oneTry _ _), ← meanOf_add (fin_oneTry _ _)]
  congr 1
  funext o
  cases o with
  | none => simp
  | some x => simp

theorem mean_rand [IsProbabilityMeasure μ] (app : Appliance) (rt : ℤ) (c : ℝ≥0∞) (g : Appliance × Option SwitchOn → ℝ≥0∞) : ∀ depth : ℕ,
    Mean μ (randSwitchOnWindow depth app rt) (quantity c g) =
      missing μ app rt ^ depth * c + (∑ i ∈ Finset.range depth, missing μ app rt ^ i) * hitting μ app rt g
  | 0 => by
    rw [show randSwitchOnWindow 0 app rt = raise .recursionError from rfl, mean_raise]
    simp [quantity]
  | depth + 1 => by
    rw [mean_try, mean_split, mean_rand app rt c g depth, Finset.sum_range_succ']
    simp only [pow_succ, ← Finset.sum_mul, pow_zero]
    ring

theorem crash_eq {m : Sim α} (h : Finitary m) : Crash μ m = Mean μ m (quantity 1 (fun _ => 0)) := by
  classical
  unfold Crash
  rw [chance_eq h]
  congr 1
  funext e
  cases e with
  | ok a => rw [if_neg (by simp)]; rfl
  | error e =>
    show _ = if e = .recursionError then 1 else 0
    by_cases he : e = .recursionError
    · rw [if_pos he, if_pos (by rw [he])]
    · rw [if_neg he, if_neg (by simpa using he)]

theorem meanOf_quantity (m : Sim α) (g : α → ℝ≥0∞) : MeanOf μ m g = Mean μ m (quantity 0 g) := by
  unfold MeanOf
  congr 1
  funext e
  cases e with
  | ok a => rfl
  | error e =>
    show 0 = if e = .recursionError then 0 else 0
    simp

theorem crash_rand [IsProbabilityMeasure μ] (app : Appliance) (rt : ℤ) (depth : ℕ) : Crash μ (randSwitchOnWindow depth app rt) = missing μ app rt ^ depth := by
  rw [crash_eq (fin_randSwitchOnWindow _ _ _), mean_rand]
  have : hitting μ app rt (fun _ => 0) = 0 := by
    unfold hitting
    rw [show (fun o : Option (Appliance × Option SwitchOn) => (match o with
      | some _ => 0
      | none => 0 : ℝ≥0∞)) = fun _ => 0 from funext fun o => by cases o <;> rfl]
    exact meanOf_zero _
  rw [this, mul_zero, add_zero, mul_one]

theorem meanOf_rand [IsProbabilityMeasure μ] (app : Appliance) (rt : ℤ) (g : Appliance × Option SwitchOn → ℝ≥0∞) (depth : ℕ) :
    MeanOf μ (randSwitchOnWindow depth app rt) g = (∑ i ∈ Finset.range depth, missing μ app rt ^ i) * hitting μ app rt g := by
  rw [meanOf_quantity, mean_rand, mul_zero, zero_add]

/-! ## The risk of a computation from that of its parts -/

theorem crash_calm [IsProbabilityMeasure μ] {m : Sim α} (h : Calm m) : Crash μ m = 0 := by
  unfold Crash Chance
  rw [show {r | endOf m r = .error .recursionError} = ∅ from Set.eq_empty_iff_forall_notMem.2 fun r => endOf_calm h r]
  exact measure_empty

theorem returns_endOf {m : Sim α} {r : Rng} {a : α} (h : endOf m r = .ok a) : Returns m a := by
  unfold endOf at h
  cases hr : m r with
  | error e => rw [hr] at h; cases h
  | ok x => rw [hr] at h; cases h; exact ⟨r, x.2, hr⟩

theorem crash_bind [IsProbabilityMeasure μ] {m : Sim α} {f : α → Sim β} (hm : Finitary m) (hf : ∀ a, Finitary (f a)) {p q : ℝ≥0∞} (h1 : Crash μ m ≤ p)
    (h2 : ∀ a, Returns m a → Crash μ (f a) ≤ q) : Crash μ (m >>= f) ≤ p + q := by
  rw [crash_eq (fin_bind hm hf), mean_bind hm hf]
  rw [crash_eq hm] at h1
  refine le_trans (b := ∫⁻ r, quantity 1 (fun _ => 0) (endOf m r) + q ∂(stream μ)) ?_ ?_
  · unfold Mean
    refine lintegral_mono fun r => ?_
    cases he : endOf m r with
    | error e => exact le_add_right (le_refl _)
    | ok a =>
      refine le_trans ?_ (le_add_self)
      have := h2 a (returns_endOf he)
      rwa [crash_eq (hf a)] at this
  · rw [lintegral_add_right _ measurable_const, lintegral_const, measure_univ, mul_one]
    exact add_le_add_left h1 _

theorem crash_after [IsProbabilityMeasure μ] {m : Sim α} {f : α → Sim β} (hm : Finitary m) (hc : Calm m) (hf : ∀ a, Finitary (f a)) {q : ℝ≥0∞}
    (h2 : ∀ a, Returns m a → Crash μ (f a) ≤ q) : Crash μ (m >>= f) ≤ q := by
  have := crash_bind hm hf (le_of_eq (crash_calm (μ := μ) hc)) h2
  rwa [zero_add] at this

theorem crash_and_ok [IsProbabilityMeasure μ] {m : Sim α} (hm : Finitary m) : MeanOf μ m (fun _ => 1) + Crash μ m ≤ 1 := by
  rw [crash_eq hm, meanOf_quantity]
  unfold Mean
  rw [← lintegral_add_left (measurable_endOf hm (quantity 0 fun _ => 1))]
  refine le_trans (lintegral_mono (g := fun _ => 1) fun r => ?_) (by rw [lintegral_const, measure_univ, mul_one])
  show _ + _ ≤ (1 : ℝ≥0∞)
  cases endOf m r with
  | ok a => show (1 : ℝ≥0∞) + 0 ≤ 1; simp
  | error e =>
    show (if e = .recursionError then 0 else 0 : ℝ≥0∞) + (if e = .recursionError then 1 else 0) ≤ 1
    split_ifs <;> simp

theorem calm_bookEvent (a : Appliance) (peak : List ℤ) (power : ℚ) (l : List ℤ) : Calm (bookEvent a peak power l) := by
  unfold bookEvent
  split
  · refine calm_bind (calm_number _ _) fun c => calm_bind ?_ fun _ => calm_pure _
    unfold updateDailyUse
    refine calm_bind ?_ fun x => calm_bind (calm_liftE available_calm) fun _ => calm_pure _
    unfold putEvent
    refine calm_ite (calm_ite (calm_bind (calm_liftE put_calm) fun _ => calm_pure _) (calm_ite (calm_bind (calm_liftE put_calm) fun _ => calm_pure _)
      (calm_ite (calm_bind (calm_liftE put_calm) fun _ => calm_pure _) (calm_pure _)))) ?_
    exact calm_bind (calm_variation _ _) fun _ => calm_bind (calm_liftE put_calm) fun _ => calm_pure _
  · exact calm_raise (by decide)

/-! ## One try -/

/-- The event that starts at a given minute, with one try. -/
def tryAt (a : Appliance) (rt : ℤ) (m : ℤ) : Sim (Appliance × Option SwitchOn) :=
  match a.freeSpots.find? (fun fs => fs.start ≤ m && m ≤ fs.stop - a.funcCycle) with
  | none => raise .typeError
  | some spot => afterStart 0 a rt m spot

theorem fin_tryAt (a : Appliance) (rt m : ℤ) : Finitary (tryAt a rt m) := by
  unfold tryAt
  cases a.freeSpots.find? (fun fs => fs.start ≤ m && m ≤ fs.stop - a.funcCycle) with
  | none => exact fin_raise _
  | some s =>
    show Finitary (afterStart 0 a rt m s)
    rw [afterStart_try]
    exact fin_bind (fin_tryStart _ _ _ _) fun _ => fin_orAgain _ _ _ _

theorem rand_choice {a : Appliance} {rt : ℤ} {n : ℕ} (hn : (switchOnChoices a.freeSpots a.funcCycle).length = n) (h0 : 0 < n) :
    randSwitchOnWindow 1 a rt = nextDraw >>= fun d => match (switchOnChoices a.freeSpots a.funcCycle)[d.k % n]? with
      | none => raise .indexError
      | some m => tryAt a rt m := by
  rw [randSwitchOnWindow_succ, hn, if_pos (by omega)]
  unfold randint
  rw [if_neg (by omega), sim_bind_assoc]
  refine sim_bind_congr fun d => ?_
  rw [sim_pure_bind]
  have e : (0 + (d.k : ℤ) % ((n : ℤ) - 1 - 0 + 1)).toNat = d.k % n := by
    rw [zero_add, show (n : ℤ) - 1 - 0 + 1 = (n : ℤ) by ring, ← Int.natCast_mod, Int.toNat_natCast]
  rw [e]
  cases (switchOnChoices a.freeSpots a.funcCycle)[d.k % n]? with
  | none => rfl
  | some m => rfl

/-- The minute belongs to a duty cycle window. -/
def Covered (a : Appliance) (m : ℤ) : Prop :=
  InWindow a.cw11 m ∨ InWindow a.cw12 m ∨ InWindow a.cw21 m ∨ InWindow a.cw22 m ∨ InWindow a.cw31 m ∨ InWindow a.cw32 m

theorem covered_select {a : Appliance} (ho : OrderedCycleWindows a) {m hi : ℤ} (h : m ≤ hi) (hc : Covered a m) : selectDutyCycle a m hi ≠ none := by
  rw [Ne, selectDutyCycle_none_iff ho h]
  unfold Overlaps1 Overlaps2 Overlaps3 ShareMinute
  unfold Covered InWindow at hc
  rintro ⟨h1, h2, h3⟩
  rcases hc with hc | hc | hc | hc | hc | hc
  · exact h1 (.inl ⟨m, by omega, by omega⟩)
  · exact h1 (.inr ⟨m, by omega, by omega⟩)
  · exact h2 (.inl ⟨m, by omega, by omega⟩)
  · exact h2 (.inr ⟨m, by omega, by omega⟩)
  · exact h3 (.inl ⟨m, by omega, by omega⟩)
  · exact h3 (.inr ⟨m, by omega, by omega⟩)

theorem never_tryAt {a : Appliance} {rt m : ℤ} (hf : 1 ≤ a.funcCycle) (hrt : a.funcCycle ≤ rt) (hsp : SpotsDisjoint a.freeSpots) (ho : OrderedCycleWindows a)
    (hm : m ∈ possibleStarts a.freeSpots a.funcCycle) (hc : Covered a m) : NeverRaises (tryAt a rt m) := by
  obtain ⟨s, hs, h1, h2⟩ := hm
  have : Sat (tryAt a rt m) (fun _ => True) (fun _ => False) := by
    unfold tryAt
    rw [find_spot hf h1 h2 hsp hs]
    show Sat (afterStart 0 a rt m s) _ _
    unfold afterStart
    have hdur := sat_duration (fc := a.funcCycle) (L := min rt (s.stop - m)) (a := m) hf (by omega)
    refine sat_bind' (hdur.mono (fun _ h => h) (fun _ h => h.elim)) ?_
    rintro _ ⟨d, rfl, hd1, hd2⟩
    refine sat_ite (fun hfc => ?_) (fun hfc => sat_pure trivial)
    rw [head?_arange (by omega), getLast?_arange (by omega)]
    simp only
    cases hsel : selectDutyCycle a m (m + d - 1) with
    | none => exact absurd hsel (covered_select ho (by omega) hc)
    | some x => exact sat_ite (fun _ => sat_pure trivial) (fun _ => sat_pure trivial)
  exact fun e he => this.err he

theorem crash_one {N T : ℕ} (h : PythonRandom N μ) (hN : 1440 ≤ N) {a : Appliance} {rt : ℤ} (hf : 1 ≤ a.funcCycle) (hrt : a.funcCycle ≤ rt) (hsp : SpotsDisjoint a.freeSpots)
    (hday : ∀ s ∈ a.freeSpots, 0 ≤ s.start ∧ s.stop ≤ 1440) {W : Set ℤ} (hfin : W.Finite) (hW : ∀ s ∈ a.freeSpots, ∀ m, s.start ≤ m → m < s.stop → m ∈ W) (hT : W.ncard ≤ T) (ho : OrderedCycleWindows a) {c : ℕ}
    (hc : c ≤ ({m | m ∈ possibleStarts a.freeSpots a.funcCycle ∧ Covered a m}).ncard) : Crash μ (randSwitchOnWindow 1 a rt) ≤ 1 - c / T := by
  classical
  have := h.probability
  set l := switchOnChoices a.freeSpots a.funcCycle with hl
  have hnd : l.Nodup := nodup_choices hf hsp
  have hstarts : possibleStarts a.freeSpots a.funcCycle = {m | m ∈ l} := starts_eq
  have hlen : l.length ≤ 1440 := by
    have h1 : l.toFinset ⊆ Finset.Ico 0 1440 := by
      intro m hm
      have hm' : m ∈ possibleStarts a.freeSpots a.funcCycle := by rw [hstarts]; exact List.mem_toFinset.1 hm
      obtain ⟨s, hs, h1, h2⟩ := hm'
      have := hday s hs
      rw [Finset.mem_Ico]
      omega
    have h2 := Finset.card_le_card h1
    rw [List.toFinset_card_of_nodup hnd] at h2
    simpa using h2
  have hlenT : l.length ≤ T := by
    have h1 : ((l.toFinset : Finset ℤ) : Set ℤ) ⊆ W := by
      intro m hm
      have hm' : m ∈ possibleStarts a.freeSpots a.funcCycle := by rw [hstarts]; exact List.mem_toFinset.1 (Finset.mem_coe.1 hm)
      obtain ⟨s, hs, h1, h2⟩ := hm'
      exact hW s hs m h1 (by omega)
    have h2 := Set.ncard_le_ncard h1 hfin
    rw [Set.ncard_coe_finset, List.toFinset_card_of_nodup hnd] at h2
    omega
  have hset : {m | m ∈ possibleStarts a.freeSpots a.funcCycle ∧ Covered a m} = ((l.toFinset.filter (Covered a) : Finset ℤ) : Set ℤ) := by
    ext m
    rw [hstarts]
    simp
  rw [hset, Set.ncard_coe_finset] at hc
  rcases Nat.eq_zero_or_pos l.length with h0 | h0
  · have h1 : (l.toFinset.filter (Covered a)).card = 0 := by
      rw [List.length_eq_zero_iff.1 h0]
      rfl
    have h2 : c = 0 := by omega
    rw [h2]
    simp only [Nat.cast_zero, ENNReal.zero_div, tsub_zero]
    exact prob_le_one
  · have hok : (c : ℝ≥0∞) / T ≤ MeanOf μ (randSwitchOnWindow 1 a rt) (fun _ => 1) := by
      rw [rand_choice (n := l.length) rfl h0]
      refine le_of_le_of_eq ?_ (mean_choice h hnd h0 (by omega) (fin_tryAt a rt) (fun _ => 1)).symm
      calc (c : ℝ≥0∞) / T = (T : ℝ≥0∞)⁻¹ * c := by rw [ENNReal.div_eq_inv_mul]
        _ ≤ (l.length : ℝ≥0∞)⁻¹ * ∑ m ∈ l.toFinset.filter (Covered a), MeanOf μ (tryAt a rt m) (fun _ => 1) := by
          refine mul_le_mul' (ENNReal.inv_le_inv.2 (by exact_mod_cast hlenT)) ?_
          rw [Finset.sum_congr rfl (g := fun _ => 1)]
          · rw [Finset.sum_const, nsmul_eq_mul, mul_one]
            exact_mod_cast hc
          · intro m hm
            obtain ⟨h1, h2⟩ := Finset.mem_filter.1 hm
            exact meanOf_const (never_tryAt hf hrt hsp ho (by rw [hstarts]; exact List.mem_toFinset.1 h1) h2) 1
        _ ≤ _ := mul_le_mul' (le_refl _) (Finset.sum_le_sum_of_subset (Finset.filter_subset _ _))
    have h1 := crash_and_ok (μ := μ) (fin_randSwitchOnWindow 1 a rt)
    refine ENNReal.le_sub_of_add_le_left ?_ (le_trans (add_le_add_left hok _) h1)
    exact ENNReal.div_ne_top (by simp) (by simp only [ne_eq, Nat.cast_eq_zero]; omega)

/-! ## The minutes that are left -/

theorem free_run {spots : List Spot} (h : SpotsApart spots) {m : ℤ} : ∀ n : ℕ, (∀ x, m ≤ x → x ≤ m + n → Avail spots x) → ∃ s ∈ spots, s.start ≤ m ∧ m + n < s.stop
  | 0, hx => by
    obtain ⟨s, hs, h1, h2⟩ := hx m (le_refl _) (by simp)
    exact ⟨s, hs, h1, by simpa using h2⟩
  | n + 1, hx => by
    obtain ⟨s, hs, h1, h2⟩ := free_run h n fun x g1 g2 => hx x g1 (by push_cast; omega)
    obtain ⟨t, ht, h3, h4⟩ := hx (m + n + 1) (by omega) (by push_cast; omega)
    by_cases hst : s = t
    · subst hst
      exact ⟨s, hs, h1, by push_cast; omega⟩
    · exfalso
      have hsym : Std.Symm (fun s t : Spot => Apart (s.start, s.stop) (t.start, t.stop)) := ⟨fun _ _ h => h.symm⟩
      have := h.2.forall hs ht hst
      unfold Apart at this
      simp only at this
      omega

/-- The minutes at which an event of `c` minutes would meet one of the bookings. -/
def inTheWay (c : ℤ) (log : List Booking) : Set ℤ := {m | ∃ b ∈ log, ∃ x ∈ b.indexes, m ≤ x ∧ x < m + c}

theorem inTheWay_card {c : ℤ} (hc : 1 ≤ c) : ∀ {log : List Booking}, (∀ b ∈ log, ∃ a n : ℤ, b.indexes = arange a (a + n) ∧ c ≤ n) →
    (inTheWay c log).Finite ∧ ((inTheWay c log).ncard : ℤ) ≤ 2 * bookedTime log
  | [], _ => by
    have : inTheWay c [] = ∅ := by unfold inTheWay; simp
    rw [this]
    simp [bookedTime]
  | b :: log, h => by
    obtain ⟨hfin, hcard⟩ := inTheWay_card hc (log := log) fun b hb => h b (List.mem_cons_of_mem _ hb)
    obtain ⟨a, n, hb, hn⟩ := h b List.mem_cons_self
    have hsub : inTheWay c (b :: log) ⊆ ((Finset.Icc (a - c + 1) (a + n - 1) : Finset ℤ) : Set ℤ) ∪ inTheWay c log := by
      rintro m ⟨b', hb', x, hx, h1, h2⟩
      rcases List.mem_cons.1 hb' with rfl | hb'
      · left
        rw [hb, mem_arange] at hx
        rw [Finset.coe_Icc, Set.mem_Icc]
        omega
      · exact .inr ⟨b', hb', x, hx, h1, h2⟩
    have hfin2 : (((Finset.Icc (a - c + 1) (a + n - 1) : Finset ℤ) : Set ℤ) ∪ inTheWay c log).Finite := (Finset.finite_toSet _).union hfin
    refine ⟨hfin2.subset hsub, ?_⟩
    have h1 := Set.ncard_le_ncard hsub hfin2
    have h2 := Set.ncard_union_le ((Finset.Icc (a - c + 1) (a + n - 1) : Finset ℤ) : Set ℤ) (inTheWay c log)
    rw [Set.ncard_coe_finset, Int.card_Icc] at h2
    rw [bookedTime_cons, hb, length_arange]
    omega

/-- The last minutes of the windows, too late for an event of `c` minutes. -/
def tooLate (c : ℤ) (ws : List (ℤ × ℤ)) : Set ℤ := {m | ∃ w ∈ ws, w.2 - c < m ∧ m < w.2}

theorem tooLate_card {c : ℤ} (hc : 1 ≤ c) : ∀ {ws : List (ℤ × ℤ)}, (tooLate c ws).Finite ∧ ((tooLate c ws).ncard : ℤ) ≤ ws.length * c
  | [] => by
    have : tooLate c [] = ∅ := by unfold tooLate; simp
    rw [this]
    simp
  | w :: ws => by
    obtain ⟨hfin, hcard⟩ := tooLate_card hc (ws := ws)
    have hsub : tooLate c (w :: ws) ⊆ ((Finset.Ioo (w.2 - c) w.2 : Finset ℤ) : Set ℤ) ∪ tooLate c ws := by
      rintro m ⟨w', hw', h1, h2⟩
      rcases List.mem_cons.1 hw' with rfl | hw'
      · left
        rw [Finset.coe_Ioo, Set.mem_Ioo]
        exact ⟨h1, h2⟩
      · exact .inr ⟨w', hw', h1, h2⟩
    have hfin2 : (((Finset.Ioo (w.2 - c) w.2 : Finset ℤ) : Set ℤ) ∪ tooLate c ws).Finite := (Finset.finite_toSet _).union hfin
    refine ⟨hfin2.subset hsub, ?_⟩
    have h1 := Set.ncard_le_ncard hsub hfin2
    have h2 := Set.ncard_union_le ((Finset.Ioo (w.2 - c) w.2 : Finset ℤ) : Set ℤ) (tooLate c ws)
    rw [Set.ncard_coe_finset, Int.card_Ioo] at h2
    rw [List.length_cons]
    push_cast
    have : ((ws.length : ℤ) + 1) * c = ws.length * c + c := by ring
    omega

theorem starts_left {c : ℤ} (hc : 1 ≤ c) {ws : List (ℤ × ℤ)} {spots : List Spot} {log : List Booking} (hap : SpotsApart spots)
    (hav : ∀ m, Avail spots m ↔ (∃ w ∈ ws, InWindow w m) ∧ ∀ b ∈ log, m ∉ b.indexes) (hlog : ∀ b ∈ log, ∃ a n : ℤ, b.indexes = arange a (a + n) ∧ c ≤ n)
    {S : Set ℤ} (hS : S.Finite) (hw : ∀ m ∈ S, ∃ w ∈ ws, InWindow w m) :
    (S.ncard : ℤ) ≤ ({m | m ∈ possibleStarts spots c ∧ m ∈ S}).ncard + 2 * bookedTime log + ws.length * c := by
  obtain ⟨f1, c1⟩ := inTheWay_card hc hlog
  obtain ⟨f2, c2⟩ := tooLate_card (ws := ws) hc
  have f0 : ({m | m ∈ possibleStarts spots c ∧ m ∈ S}).Finite := hS.subset fun m hm => hm.2
  have hsub : S ⊆ {m | m ∈ possibleStarts spots c ∧ m ∈ S} ∪ inTheWay c log ∪ tooLate c ws := by
    intro m hm
    obtain ⟨w, hww, h1, h2⟩ := hw m hm
    by_cases g1 : m ∈ inTheWay c log
    · exact .inl (.inr g1)
    by_cases g2 : w.2 - c < m
    · exact .inr ⟨w, hww, g2, h2⟩
    refine .inl (.inl ⟨?_, hm⟩)
    obtain ⟨s, hs, h3, h4⟩ := free_run hap (m := m) (c - 1).toNat fun x x1 x2 => (hav x).2 ⟨⟨w, hww, by omega, by omega⟩, fun b hb hx => g1 ⟨b, hb, x, hx, x1, by omega⟩⟩
    exact ⟨s, hs, h3, by omega⟩
  have h1 := Set.ncard_le_ncard hsub ((f0.union f1).union f2)
  have h2 := Set.ncard_union_le ({m | m ∈ possibleStarts spots c ∧ m ∈ S} ∪ inTheWay c log) (tooLate c ws)
  have h3 := Set.ncard_union_le {m | m ∈ possibleStarts spots c ∧ m ∈ S} (inTheWay c log)
  omega

end Ramp
