import Verif.Lemmas.Days
import Verif.Props.Build

/-! # Runs of appliances that differ in identity and in the powers of other days -/

set_option autoImplicit false

namespace Ramp

/-- The appliance as another object, with other powers. -/
def relabel (a : Appliance) (o : ℕ) (pw : List ℚ) (cp : Bool) : Appliance := { a with oid := o, power := pw, constantPower := cp }

section
variable (o : ℕ) (pw : List ℚ) (cp : Bool)

theorem relabel_randSwitchOn (depth : ℕ) (rt : ℤ) : ∀ a : Appliance,
    Rel (randSwitchOnWindow depth a rt) (randSwitchOnWindow depth (relabel a o pw cp) rt)
      (fun p q => q.2 = p.2 ∧ q.1 = relabel p.1 o pw cp) := by
  induction depth with
  | zero => intro a; exact rel_raise
  | succ depth ih =>
    intro a
    unfold randSwitchOnWindow
    have e1 : (relabel a o pw cp).freeSpots = a.freeSpots := rfl
    have e2 : (relabel a o pw cp).funcCycle = a.funcCycle := rfl
    have e3 : (relabel a o pw cp).fixedCycle = a.fixedCycle := rfl
    have e4 : selectDutyCycle (relabel a o pw cp) = selectDutyCycle a := rfl
    simp only [e1, e2, e3, e4]
    refine rel_ite (fun _ => ?_) (fun _ => rel_pure ⟨rfl, rfl⟩)
    refine rel_bind_same fun k => ?_
    cases (switchOnChoices a.freeSpots a.funcCycle)[k.toNat]? with
    | none => exact rel_raise
    | some s =>
      simp only
      cases (a.freeSpots.find? (fun fs => fs.start ≤ s && s ≤ fs.stop - a.funcCycle)) with
      | none => exact rel_raise
      | some spot =>
        simp only
        refine rel_bind_same fun idx => ?_
        refine rel_ite (fun hf => ?_) (fun hf => rel_pure ⟨rfl, rfl⟩)
        cases idx.head? with
        | none => exact rel_raise
        | some lo =>
          cases idx.getLast? with
          | none => exact rel_raise
          | some hi =>
            simp only
            cases selectDutyCycle a lo hi with
            | none => exact ih a
            | some p =>
              obtain ⟨j, c⟩ := p
              simp only
              exact rel_ite (fun _ => rel_pure ⟨rfl, rfl⟩) (fun _ => rel_pure ⟨rfl, rfl⟩)

theorem relabel_putEvent (a : Appliance) (c : ℤ) (p : ℚ) (l : List ℤ) :
    Rel (putEvent a c p l) (putEvent (relabel a o pw cp) c p l) (fun x y => y = relabel x o pw cp) := by
  unfold putEvent
  refine rel_ite (fun _ => ?_) (fun _ => ?_)
  · refine rel_ite (fun _ => rel_bind_same fun d => rel_pure rfl) (fun _ => ?_)
    refine rel_ite (fun _ => rel_bind_same fun d => rel_pure rfl) (fun _ => ?_)
    exact rel_ite (fun _ => rel_bind_same fun d => rel_pure rfl) (fun _ => rel_pure rfl)
  · exact rel_bind_same fun v => rel_bind_same fun d => rel_pure rfl

theorem relabel_bookEvent (a : Appliance) (peak : List ℤ) (p : ℚ) (l : List ℤ) :
    Rel (bookEvent a peak p l) (bookEvent (relabel a o pw cp) peak p l) (fun x y => y.2 = x.2 ∧ y.1 = relabel x.1 o pw cp) := by
  unfold bookEvent
  cases l.head? with
  | none => exact rel_raise
  | some i0 =>
    cases l.getLast? with
    | none => exact rel_raise
    | some i1 =>
      cases peak.head? with
      | none => exact rel_raise
      | some q0 =>
        cases peak.getLast? with
        | none => exact rel_raise
        | some q1 =>
          simp only
          have hc : calcCoincidentSwitchOn (relabel a o pw cp) = calcCoincidentSwitchOn a := rfl
          rw [hc]
          refine rel_bind_same fun c => ?_
          refine rel_bind (P := fun x y => y = relabel x o pw cp) ?_ ?_
          · unfold updateDailyUse
            refine rel_bind (relabel_putEvent o pw cp a c p l) ?_
            rintro x y rfl
            exact rel_bind_same fun s => rel_pure rfl
          · rintro x y rfl
            exact rel_pure ⟨rfl, rfl⟩

theorem relabel_switchOnLoop (depth : ℕ) (peak : List ℤ) (power : ℚ) (rt : ℤ) : ∀ (fuel : ℕ) (a : Appliance) (tot : ℤ)
    (l l' : List Booking), Rel (switchOnLoop depth peak power rt fuel a tot l)
      (switchOnLoop depth peak power rt fuel (relabel a o pw cp) tot l') (fun x y => y.1 = relabel x.1 o pw cp)
  | 0, a, tot, l, l' => rel_raise
  | fuel + 1, a, tot, l, l' => by
    unfold switchOnLoop
    refine rel_ite (fun _ => ?_) (fun _ => rel_pure rfl)
    refine rel_bind (relabel_randSwitchOn o pw cp depth rt a) ?_
    rintro ⟨x, ev⟩ ⟨y, ev'⟩ ⟨he, hm⟩
    simp only at he hm
    subst he hm
    cases ev' with
    | none => exact rel_pure rfl
    | some ev =>
      obtain ⟨drawn, idx⟩ := ev
      simp only
      refine rel_ite (fun _ => ?_) (fun _ => ?_)
      · refine rel_ite (fun _ => ?_) (fun _ => rel_pure rfl)
        refine rel_bind (relabel_bookEvent o pw cp x peak power _) ?_
        rintro ⟨x', c⟩ ⟨y', c'⟩ ⟨_, h2⟩
        exact rel_pure h2
      · refine rel_bind (relabel_bookEvent o pw cp x peak power _) ?_
        rintro ⟨x', c⟩ ⟨y', c'⟩ ⟨_, h2⟩
        simp only at h2
        subst h2
        exact relabel_switchOnLoop depth peak power rt fuel _ _ _ _

theorem relabel_assign (a : Appliance) :
    Rel (assignRandomCycles a) (assignRandomCycles (relabel a o pw cp)) (fun x y => y = relabel x o pw cp) := by
  unfold assignRandomCycles
  refine rel_ite (fun hf => ?_) (fun hf => rel_pure rfl)
  refine rel_bind_same fun p11 => rel_bind_same fun p12 => rel_bind_same fun k1 => ?_
  refine rel_ite (fun _ => ?_) (fun _ => rel_pure rfl)
  refine rel_bind_same fun p21 => rel_bind_same fun p22 => rel_bind_same fun k2 => ?_
  refine rel_ite (fun _ => ?_) (fun _ => rel_pure rfl)
  refine rel_bind_same fun p31 => rel_bind_same fun p32 => rel_bind_same fun d1 => rel_bind_same fun d2 => rel_bind_same fun d3 => ?_
  exact rel_pure rfl

/-- A day of an appliance depends on its powers only through the power of the day. -/
theorem relabel_generate (a : Appliance) (depth : ℕ) (pref : ℤ) (profI : ℕ) (peak : List ℤ) (dayType : ℤ) (power : ℚ)
    (hp : pw[profI]? = a.power[profI]?) :
    Rel (generateLoadProfile a depth pref profI peak dayType power) (generateLoadProfile (relabel a o pw cp) depth pref profI peak dayType power)
      (fun x y => y = relabel x o pw cp) := by
  unfold generateLoadProfile
  refine rel_bind (P := fun x y => y.1 = relabel x.1 o pw cp) ?_ (fun x y hxy => rel_pure hxy)
  unfold generateLoadProfileInfo
  refine rel_bind_same fun x => ?_
  refine rel_ite (fun _ => rel_pure rfl) (fun _ => ?_)
  refine rel_bind_same fun w1 => rel_bind_same fun w2 => rel_bind_same fun w3 => ?_
  refine rel_bind_same fun rt => ?_
  refine rel_ite (fun _ => ?_) (fun _ => ?_)
  · have e : ({ relabel a o pw cp with dailyUse := zeros } : Appliance).power = pw := rfl
    have e' : ({ a with dailyUse := zeros } : Appliance).power = a.power := rfl
    rw [e, e', hp]
    cases a.power[profI]? with
    | none => exact rel_raise
    | some pw => exact rel_bind_same fun d => rel_pure rfl
  · refine rel_bind_same fun d => ?_
    refine rel_bind (relabel_assign o pw cp { a with dailyUse := d }) ?_
    rintro x y rfl
    refine rel_bind (relabel_switchOnLoop o pw cp depth peak power rt _ { x with freeSpots := _ } 0 [] []) ?_
    intro p q hpq
    exact rel_pure hpq

end

theorem applianceDay_relabel {a : Appliance} {o : ℕ} {pw : List ℚ} {cp : Bool} {k : ℕ} (hp : pw[k]? = a.power[k]?) {depth : ℕ}
    {peak : List ℤ} {dt pref : ℤ} {p : Profile} :
    ApplianceDay depth k peak dt pref (relabel a o pw cp) p ↔ ApplianceDay depth k peak dt pref a p := by
  have key : ∀ {a : Appliance} {o : ℕ} {pw : List ℚ} {cp : Bool}, pw[k]? = a.power[k]? → ApplianceDay depth k peak dt pref (relabel a o pw cp) p →
      ApplianceDay depth k peak dt pref a p := by
    intro a o pw cp hp h
    obtain ⟨q, b', h1, ⟨r, r', h2⟩, rfl⟩ := h
    rcases relabel_generate o pw cp a depth pref k peak dt q hp r with ⟨e, -, h3⟩ | ⟨x, y, r'', h3, h4, h5⟩
    · rw [h2] at h3; cases h3
    · rw [h2] at h4
      injection h4 with h4
      injection h4 with h4 h6
      refine ⟨q, x, ?_, ⟨r, r'', h3⟩, ?_⟩
      · rw [← hp]; exact h1
      · rw [h4, h5]; rfl
  constructor
  · exact key hp
  · intro h
    apply key (a := relabel a o pw cp) (o := a.oid) (pw := a.power) (cp := a.constantPower) hp.symm
    exact h

/-- The appliances have the same saved attributes, the same window variability in minutes and the same power on day `k`: the same
profiles are possible on day `k`. -/
theorem applianceDay_saved {a b : Appliance} {k : ℕ} (hs : savedAttributes a = savedAttributes b) (h1 : b.randomVar1 = a.randomVar1)
    (h2 : b.randomVar2 = a.randomVar2) (h3 : b.randomVar3 = a.randomVar3) (hp : b.power[k]? = a.power[k]?) {depth : ℕ}
    {peak : List ℤ} {dt pref : ℤ} {p : Profile} : ApplianceDay depth k peak dt pref b p ↔ ApplianceDay depth k peak dt pref a p := by
  have hd : SameDefinition (relabel a b.oid b.power b.constantPower) b := by
    unfold savedAttributes at hs
    simp only [SavedAttributes.mk.injEq, List.cons.injEq, and_true] at hs
    unfold SameDefinition relabel
    cases b
    cases a
    simp only at hs h1 h2 h3
    simp only [hs, h1, h2, h3]
  rw [← applianceDay_relabel (o := b.oid) (pw := b.power) (cp := b.constantPower) hp]
  exact ⟨applianceDay_same hd, applianceDay_same hd.symm⟩

end Ramp
