import Verif.Lemmas.Sat
import Verif.Lemmas.Gen
import Verif.Spec2

/-! # Runs that start from different leftovers

Two runs with the same random numbers are compared: an appliance fresh from its definition and the same appliance after earlier
simulations. -/

set_option autoImplicit false

namespace Ramp

variable {α β γ δ : Type}

/-- With the same random numbers, the two computations raise the same exception, or return related results and consume the same
random numbers. -/
def Rel (m : Sim α) (m' : Sim β) (Q : α → β → Prop) : Prop :=
  ∀ r, (∃ e, m r = .error e ∧ m' r = .error e) ∨ ∃ a b r', m r = .ok (a, r') ∧ m' r = .ok (b, r') ∧ Q a b

theorem rel_pure {a : α} {b : β} {Q : α → β → Prop} (h : Q a b) : Rel (pure a : Sim α) (pure b : Sim β) Q :=
  fun r => .inr ⟨a, b, r, rfl, rfl, h⟩

theorem rel_raise {e : Err} {Q : α → β → Prop} : Rel (raise e : Sim α) (raise e : Sim β) Q := fun _ => .inl ⟨e, rfl, rfl⟩

theorem rel_refl {m : Sim α} : Rel m m (fun a b => a = b) := by
  intro r
  cases h : m r with
  | error e => exact .inl ⟨e, rfl, rfl⟩
  | ok p => exact .inr ⟨p.1, p.1, p.2, rfl, rfl, rfl⟩

theorem rel_bind {m : Sim α} {m' : Sim β} {P : α → β → Prop} {f : α → Sim γ} {f' : β → Sim δ} {Q : γ → δ → Prop} (h : Rel m m' P)
    (hf : ∀ a b, P a b → Rel (f a) (f' b) Q) : Rel (m >>= f) (m' >>= f') Q := by
  intro r
  rcases h r with ⟨e, h1, h2⟩ | ⟨a, b, r', h1, h2, hp⟩
  · left
    exact ⟨e, by show (match m r with | .ok (a, r') => f a r' | .error e => .error e) = _; rw [h1],
      by show (match m' r with | .ok (a, r') => f' a r' | .error e => .error e) = _; rw [h2]⟩
  · have e1 : (m >>= f) r = f a r' := by
      show (match m r with | .ok (a, r') => f a r' | .error e => .error e) = _; rw [h1]
    have e2 : (m' >>= f') r = f' b r' := by
      show (match m' r with | .ok (a, r') => f' a r' | .error e => .error e) = _; rw [h2]
    rw [e1, e2]
    exact hf a b hp r'

/-- Bind rule when the first parts are the same. -/
theorem rel_bind_same {m : Sim α} {f : α → Sim γ} {f' : α → Sim δ} {Q : γ → δ → Prop} (hf : ∀ a, Rel (f a) (f' a) Q) :
    Rel (m >>= f) (m >>= f') Q := rel_bind rel_refl (fun a b h => by subst h; exact hf a)

theorem rel_ite {c : Prop} [Decidable c] {m n : Sim α} {m' n' : Sim β} {Q : α → β → Prop} (h1 : c → Rel m m' Q) (h2 : ¬ c → Rel n n' Q) :
    Rel (if c then m else n) (if c then m' else n') Q := by
  split_ifs with h
  · exact h1 h
  · exact h2 h

/-- The appliance with other leftovers. -/
def leftovers (a : Appliance) (d : Profile) (f : List Spot) (c1 c2 c3 : List ℚ) (i : ℤ) : Appliance :=
  { a with dailyUse := d, freeSpots := f, randomCycle1 := c1, randomCycle2 := c2, randomCycle3 := c3, currentDutyCycleId := i }

theorem SameDefinition.refl (a : Appliance) : SameDefinition a a := rfl

theorem SameDefinition.symm {a b : Appliance} (h : SameDefinition a b) : SameDefinition b a := by
  unfold SameDefinition at *
  rw [h]

theorem SameDefinition.trans {a b c : Appliance} (h : SameDefinition a b) (h' : SameDefinition b c) : SameDefinition a c := by
  unfold SameDefinition at *
  rw [h', h]

/-- In the middle of two runs: everything agrees but the duty cycles when they are not used, and the last selected cycle. -/
def Matched (a b : Appliance) : Prop :=
  ∃ c1 c2 c3 i, b = { a with randomCycle1 := c1, randomCycle2 := c2, randomCycle3 := c3, currentDutyCycleId := i } ∧
    (0 < a.fixedCycle → c1 = a.randomCycle1 ∧ c2 = a.randomCycle2 ∧ c3 = a.randomCycle3)

theorem rel_randSwitchOn (depth : ℕ) (rt : ℤ) : ∀ {a b : Appliance}, Matched a b →
    Rel (randSwitchOnWindow depth a rt) (randSwitchOnWindow depth b rt)
      (fun p q => p.2 = q.2 ∧ Matched p.1 q.1 ∧ (0 < p.1.fixedCycle → p.2 ≠ none → q.1 = p.1)) := by
  induction depth with
  | zero => intro a b _; exact rel_raise
  | succ depth ih =>
    rintro a b ⟨c1, c2, c3, i, rfl, hc⟩
    unfold randSwitchOnWindow
    simp only
    refine rel_ite (fun _ => ?_) (fun _ => rel_pure ⟨rfl, ⟨_, _, _, _, rfl, hc⟩, fun _ h => absurd rfl h⟩)
    refine rel_bind_same fun k => ?_
    cases (switchOnChoices a.freeSpots a.funcCycle)[k.toNat]? with
    | none => exact rel_raise
    | some s =>
      simp only
      cases (a.freeSpots.find? (fun fs => fs.start ≤ s && s ≤ fs.stop - a.funcCycle)) with
      | none => exact rel_raise
      | some spot =>
        simp only
        refine rel_bind_same fun idx => ?_
        refine rel_ite (fun hf => ?_) (fun hf => rel_pure ⟨rfl, ⟨_, _, _, _, rfl, hc⟩, fun h => absurd h hf⟩)
        obtain ⟨rfl, rfl, rfl⟩ := hc hf
        cases idx.head? with
        | none => exact rel_raise
        | some lo =>
          cases idx.getLast? with
          | none => exact rel_raise
          | some hi =>
            simp only
            have hsel : selectDutyCycle { a with currentDutyCycleId := i } lo hi = selectDutyCycle a lo hi := rfl
            rw [hsel]
            cases selectDutyCycle a lo hi with
            | none =>
              simp only
              exact ih ⟨_, _, _, i, rfl, fun _ => ⟨rfl, rfl, rfl⟩⟩
            | some p =>
              obtain ⟨j, c⟩ := p
              simp only
              exact rel_ite (fun _ => rel_pure ⟨rfl, ⟨_, _, _, _, rfl, fun _ => ⟨rfl, rfl, rfl⟩⟩, fun _ _ => rfl⟩)
                (fun _ => rel_pure ⟨rfl, ⟨_, _, _, _, rfl, fun _ => ⟨rfl, rfl, rfl⟩⟩, fun _ _ => rfl⟩)

theorem rel_putEvent {a b : Appliance} (h : Matched a b) (hf : 0 < a.fixedCycle → b = a) (c : ℤ) (p : ℚ) (l : List ℤ) :
    Rel (putEvent a c p l) (putEvent b c p l) (fun x y => Matched x y ∧ x.freeSpots = a.freeSpots ∧ y.freeSpots = a.freeSpots) := by
  by_cases hfix : 0 < a.fixedCycle
  · have := hf hfix
    subst this
    intro r
    cases hm : putEvent b c p l r with
    | error e => exact .inl ⟨e, rfl, rfl⟩
    | ok q =>
      refine .inr ⟨q.1, q.1, q.2, rfl, rfl, ⟨_, _, _, _, rfl, fun _ => ⟨rfl, rfl, rfl⟩⟩, ?_⟩
      have hs : Sat (putEvent b c p l) (fun x => x.freeSpots = b.freeSpots) (fun _ => True) := by
        unfold putEvent
        rw [if_pos hfix]
        split_ifs
        · exact sat_bind' sat_true fun _ _ => sat_pure rfl
        · exact sat_bind' sat_true fun _ _ => sat_pure rfl
        · exact sat_bind' sat_true fun _ _ => sat_pure rfl
        · exact sat_pure rfl
      have := hs r
      rw [hm] at this
      exact ⟨this, this⟩
  · obtain ⟨c1, c2, c3, i, rfl, hc⟩ := h
    unfold putEvent
    rw [if_neg hfix, if_neg hfix]
    refine rel_bind_same fun v => ?_
    refine rel_bind_same fun d => ?_
    exact rel_pure ⟨⟨_, _, _, _, rfl, fun h => absurd h hfix⟩, rfl, rfl⟩

theorem rel_updateDailyUse {a b : Appliance} (h : Matched a b) (hf : 0 < a.fixedCycle → b = a) (c : ℤ) (p : ℚ) (l : List ℤ) :
    Rel (updateDailyUse a c p l) (updateDailyUse b c p l) Matched := by
  unfold updateDailyUse
  refine rel_bind (rel_putEvent h hf c p l) ?_
  rintro x y ⟨⟨c1, c2, c3, i, rfl, hc⟩, h1, h2⟩
  simp only
  refine rel_bind_same fun s => rel_pure ⟨c1, c2, c3, i, rfl, hc⟩

theorem rel_bookEvent {a b : Appliance} (h : Matched a b) (hf : 0 < a.fixedCycle → b = a) (peak : List ℤ) (p : ℚ) (l : List ℤ) :
    Rel (bookEvent a peak p l) (bookEvent b peak p l) (fun x y => x.2 = y.2 ∧ Matched x.1 y.1) := by
  unfold bookEvent
  cases l.head? with
  | none => exact rel_raise
  | some i0 =>
    cases l.getLast? with
    | none => exact rel_raise
    | some i1 =>
      cases peak.head? with
      | none => exact rel_raise
      | some q0 =>
        cases peak.getLast? with
        | none => exact rel_raise
        | some q1 =>
          simp only
          have hc : calcCoincidentSwitchOn b = calcCoincidentSwitchOn a := by
            obtain ⟨c1, c2, c3, i, rfl, _⟩ := h; rfl
          rw [hc]
          refine rel_bind_same fun c => ?_
          refine rel_bind (rel_updateDailyUse h hf c p l) ?_
          intro x y hxy
          exact rel_pure ⟨rfl, hxy⟩

theorem rel_switchOnLoop (depth : ℕ) (peak : List ℤ) (power : ℚ) (rt : ℤ) : ∀ (fuel : ℕ) {a b : Appliance} (tot : ℤ)
    (l l' : List Booking), Matched a b → Rel (switchOnLoop depth peak power rt fuel a tot l) (switchOnLoop depth peak power rt fuel b tot l')
      (fun x y => Matched x.1 y.1)
  | 0, a, b, tot, l, l', _ => rel_raise
  | fuel + 1, a, b, tot, l, l', h => by
    unfold switchOnLoop
    refine rel_ite (fun _ => ?_) (fun _ => rel_pure h)
    refine rel_bind (rel_randSwitchOn depth rt h) ?_
    rintro ⟨x, ev⟩ ⟨y, ev'⟩ ⟨he, hm, hf⟩
    simp only at he hm hf
    subst he
    cases ev with
    | none => exact rel_pure hm
    | some ev =>
      obtain ⟨drawn, idx⟩ := ev
      have hb : 0 < x.fixedCycle → y = x := fun hx => hf hx (by simp)
      simp only
      refine rel_ite (fun _ => ?_) (fun _ => ?_)
      · refine rel_ite (fun _ => ?_) (fun _ => rel_pure hm)
        refine rel_bind (rel_bookEvent hm hb peak power _) ?_
        rintro ⟨x', c⟩ ⟨y', c'⟩ ⟨_, h2⟩
        exact rel_pure h2
      · refine rel_bind (rel_bookEvent hm hb peak power _) ?_
        rintro ⟨x', c⟩ ⟨y', c'⟩ ⟨_, h2⟩
        exact rel_switchOnLoop depth peak power rt fuel _ _ _ h2

theorem rel_assign {a b : Appliance} (h : SameDefinition a b) (hd : b.dailyUse = a.dailyUse) :
    Rel (assignRandomCycles a) (assignRandomCycles b) (fun x y => ∀ s, Matched { x with freeSpots := s } { y with freeSpots := s }) := by
  have hb : b = leftovers a a.dailyUse b.freeSpots b.randomCycle1 b.randomCycle2 b.randomCycle3 b.currentDutyCycleId := by
    unfold SameDefinition at h
    rw [hd] at h
    exact h
  rw [hb]
  unfold leftovers
  generalize b.freeSpots = f; generalize b.randomCycle1 = c1; generalize b.randomCycle2 = c2; generalize b.randomCycle3 = c3
  generalize b.currentDutyCycleId = i
  unfold assignRandomCycles
  simp only
  refine rel_ite (fun hf => ?_) (fun hf => rel_pure (fun s => ⟨_, _, _, _, rfl, fun h => absurd h (by simp only; omega)⟩))
  refine rel_bind_same fun p11 => rel_bind_same fun p12 => rel_bind_same fun k1 => ?_
  refine rel_ite (fun _ => ?_) (fun _ => rel_pure (fun s => ⟨_, _, _, _, rfl, fun _ => ⟨rfl, rfl, rfl⟩⟩))
  refine rel_bind_same fun p21 => rel_bind_same fun p22 => rel_bind_same fun k2 => ?_
  refine rel_ite (fun _ => ?_) (fun _ => rel_pure (fun s => ⟨_, _, _, _, rfl, fun _ => ⟨rfl, rfl, rfl⟩⟩))
  refine rel_bind_same fun p31 => rel_bind_same fun p32 => rel_bind_same fun d1 => rel_bind_same fun d2 => rel_bind_same fun d3 => ?_
  exact rel_pure (fun s => ⟨_, _, _, _, rfl, fun _ => ⟨rfl, rfl, rfl⟩⟩)

theorem Matched.same {a b : Appliance} (h : Matched a b) : SameDefinition a b ∧ b.dailyUse = a.dailyUse := by
  obtain ⟨c1, c2, c3, i, rfl, _⟩ := h
  exact ⟨rfl, rfl⟩

/-- A day of an appliance does not depend on what earlier simulations left in it. -/
theorem rel_generate {a b : Appliance} (h : SameDefinition a b) (depth : ℕ) (pref : ℤ) (profI : ℕ) (peak : List ℤ) (dayType : ℤ) (power : ℚ) :
    Rel (generateLoadProfile a depth pref profI peak dayType power) (generateLoadProfile b depth pref profI peak dayType power)
      (fun x y => SameDefinition x y ∧ y.dailyUse = x.dailyUse) := by
  unfold generateLoadProfile
  refine rel_bind (P := fun x y => SameDefinition x.1 y.1 ∧ y.1.dailyUse = x.1.dailyUse) ?_ (fun x y hxy => rel_pure hxy)
  obtain ⟨d, f, c1, c2, c3, i, rfl⟩ : ∃ d f c1 c2 c3 i, b = leftovers a d f c1 c2 c3 i := ⟨_, _, _, _, _, _, h⟩
  clear h
  unfold leftovers
  unfold generateLoadProfileInfo
  simp only
  refine rel_bind_same fun x => ?_
  refine rel_ite (fun _ => rel_pure ⟨rfl, rfl⟩) (fun _ => ?_)
  refine rel_bind_same fun w1 => rel_bind_same fun w2 => rel_bind_same fun w3 => ?_
  have hrt : randTotalTimeOfUse (leftovers a zeros f c1 c2 c3 i) w1 w2 w3 = randTotalTimeOfUse { a with dailyUse := zeros } w1 w2 w3 := rfl
  unfold leftovers at hrt
  rw [hrt]
  refine rel_bind_same fun rt => ?_
  refine rel_ite (fun _ => ?_) (fun _ => ?_)
  · cases a.power[profI]? with
    | none => exact rel_raise
    | some pw => exact rel_bind_same fun d => rel_pure ⟨rfl, rfl⟩
  · refine rel_bind_same fun d => ?_
    refine rel_bind (rel_assign (a := { a with dailyUse := d }) rfl rfl) ?_
    intro x y hxy
    refine rel_bind (rel_switchOnLoop depth peak power rt _ 0 [] [] (hxy _)) ?_
    intro p q hpq
    exact rel_pure hpq.same

end Ramp
