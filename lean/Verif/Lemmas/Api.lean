import Verif.Model.Api
import Verif.Lemmas.Build
import Verif.Props.Build

/-! # Invariants of histories of the construction API -/

set_option autoImplicit false

namespace Ramp

/-- The identities of the appliances of a user, in order. -/
def oids (u : User) : List ℕ := u.appList.map Appliance.oid

/-- No appliance object twice, and every appliance has a name. -/
def UserInv (u : User) : Prop := (oids u).Nodup ∧ ∀ a ∈ u.appList, a.name ≠ ""

/-- What one method call on the object `app` does to the user: `app'` is the object afterwards. -/
structure Grown (u : User) (app : Appliance) (u' : User) (app' : Appliance) : Prop where
  inv : UserInv u'
  named : app'.oid ∈ oids u' → app'.name ≠ ""
  grows : oids u <+: oids u'
  only : ∀ o ∈ oids u', o ∈ oids u ∨ o = app.oid
  oid : app'.oid = app.oid

theorem Grown.trans {u u' u'' : User} {a a' a'' : Appliance} (h1 : Grown u a u' a') (h2 : Grown u' a' u'' a'') : Grown u a u'' a'' := by
  refine ⟨h2.inv, h2.named, h1.grows.trans h2.grows, ?_, h2.oid.trans h1.oid⟩
  intro o ho
  rcases h2.only o ho with h | h
  · exact h1.only o h
  · exact .inr (h.trans h1.oid)

theorem grown_sync {u : User} {app app' : Appliance} (hu : UserInv u) (hn : app.oid ∈ oids u → app.name ≠ "")
    (ho : app'.oid = app.oid) (hnm : app'.name = app.name) : Grown u app (u.sync app') app' := by
  have he : oids (u.sync app') = oids u := sync_oids u app'
  refine ⟨⟨by rw [he]; exact hu.1, ?_⟩, ?_, he ▸ List.prefix_rfl, fun o h => .inl (by rwa [he] at h), ho⟩
  · intro a ha
    rcases mem_sync ha with ⟨h, _⟩ | ⟨rfl, b, hb, hbo⟩
    · exact hu.2 a h
    · rw [hnm]
      exact hn (by rw [← ho, ← hbo]; exact List.mem_map_of_mem hb)
  · rw [he, ho, hnm]; exact hn

theorem grown_addInstance {strict : Bool} {u u' : User} {app app' : Appliance} (hu : UserInv u) (hn : app.oid ∈ oids u → app.name ≠ "")
    (h : addInstance strict u app = .ok (u', app')) : Grown u app u' app' := by
  rcases addInstance_cases h with ⟨rfl, rfl, _⟩ | ⟨hu', ha', hnew⟩
  · exact ⟨hu, hn, List.prefix_rfl, fun o h => .inl h, rfl⟩
  · have ho : app'.oid = app.oid := by rw [ha']
    have hnm : app'.name ≠ "" := by
      rw [ha']
      simp only
      split_ifs with hc
      · exact appliance_name_ne _
      · exact hc
    have hoids : oids u' = oids u ++ [app.oid] := by rw [hu']; unfold oids; simp [ho]
    refine ⟨⟨?_, ?_⟩, fun _ => hnm, ?_, ?_, ho⟩
    · rw [hoids, List.nodup_append]
      refine ⟨hu.1, by simp, ?_⟩
      intro o h1 o' h2
      simp only [List.mem_singleton] at h2
      subst h2
      obtain ⟨a, ha, rfl⟩ := List.mem_map.1 h1
      exact (hnew a ha).1
    · rw [hu']
      intro a ha
      simp only [List.mem_append, List.mem_singleton] at ha
      rcases ha with ha | rfl
      · exact hu.2 a ha
      · exact hnm
    · rw [hoids]; exact List.prefix_append _ _
    · intro o h
      rw [hoids] at h
      simpa using h

theorem grown_windows {strict : Bool} {u u' : User} {app app' : Appliance} {w : WindowsArgs} {r : Except Err Unit} (hu : UserInv u)
    (hn : app.oid ∈ oids u → app.name ≠ "") (h : windows strict u app w = (u', app', r)) : Grown u app u' app' := by
  unfold windows at h
  have hch := windowsBody_changed app w
  cases hb : windowsBody app w with
  | mk app1 r1 =>
    rw [hb] at h hch
    have g1 := grown_sync hu hn hch.oid hch.name
    cases r1 with
    | error e => simp only [Prod.mk.injEq] at h; obtain ⟨rfl, rfl, _⟩ := h; exact g1
    | ok x =>
      simp only at h
      cases ha : addInstance strict (u.sync app1) app1 with
      | error e => rw [ha] at h; simp only [Prod.mk.injEq] at h; obtain ⟨rfl, rfl, _⟩ := h; exact g1
      | ok p =>
        obtain ⟨u2, app2⟩ := p
        rw [ha] at h
        simp only [Prod.mk.injEq] at h
        obtain ⟨rfl, rfl, _⟩ := h
        have g2 := grown_addInstance g1.inv g1.named ha
        exact g1.trans (g2.trans (grown_sync g2.inv g2.named (windowsTail_oid _) (windowsTail_name _)))

theorem grown_userCycle {u u' : User} {app app' : Appliance} {n : ℤ} {c : CycleArgs} {r : Except Err Unit} (hu : UserInv u)
    (hn : app.oid ∈ oids u → app.name ≠ "") (h : userCycle u app n c = (u', app', r)) : Grown u app u' app' := by
  unfold userCycle at h
  simp only [Prod.mk.injEq] at h
  obtain ⟨rfl, rfl, _⟩ := h
  exact grown_sync hu hn (specificCycle_oid _ _ _) (specificCycle_name _ _ _)

theorem grown_refl {u : User} {app : Appliance} (hu : UserInv u) (hn : app.oid ∈ oids u → app.name ≠ "") : Grown u app u app :=
  ⟨hu, hn, List.prefix_rfl, fun _ h => .inl h, rfl⟩

theorem grown_addCycles : ∀ (l : List (ℤ × CycleArgs)) {u u' : User} {app app' : Appliance} {r : Except Err Unit}, UserInv u →
    (app.oid ∈ oids u → app.name ≠ "") → addCycles u app l = (u', app', r) → Grown u app u' app'
  | [], u, u', app, app', r, hu, hn, h => by
    simp only [addCycles, Prod.mk.injEq] at h
    obtain ⟨rfl, rfl, _⟩ := h
    exact grown_refl hu hn
  | (i, c) :: l, u, u', app, app', r, hu, hn, h => by
    unfold addCycles at h
    cases hc : userCycle u app i c with
    | mk u1 p =>
      obtain ⟨app1, r1⟩ := p
      have g := grown_userCycle hu hn hc
      rw [hc] at h
      cases r1 with
      | error e => simp only [Prod.mk.injEq] at h; obtain ⟨rfl, rfl, _⟩ := h; exact g
      | ok x => exact g.trans (grown_addCycles l g.inv g.named h)

/-- The `windows()` call of `add_appliance`, if any. -/
def optWindows (strict : Bool) (u : User) (app : Appliance) : Option WindowsArgs → User × Appliance × Except Err Unit
  | none => (u, app, .ok ())
  | some w => windows strict u app w

theorem addAppliance_eq (strict : Bool) (oid : ℕ) (nd : ℤ) (u : User) (a : AddArgs) : addAppliance strict oid nd u a =
    match mkAppliance oid nd a.app with
    | .error e => (u, .error e)
    | .ok app =>
      match optWindows strict u app a.windows with
      | (u, _, .error e) => (u, .error e)
      | (u, app, .ok ()) =>
        match addCycles u app a.cycles with
        | (u, _, .error e) => (u, .error e)
        | (u, app, .ok ()) =>
          match addInstance strict u app with
          | .error e => (u, .error e)
          | .ok (u, app) => (u, .ok app) := by
  unfold addAppliance
  cases a.windows <;> rfl

/-- `add_appliance` with arguments. -/
theorem grown_add {strict : Bool} {oid : ℕ} {nd : ℤ} {u u' : User} {a : AddArgs} {r : Except Err Appliance} (hu : UserInv u)
    (hf : oid ∉ oids u) (h : addAppliance strict oid nd u a = (u', r)) :
    UserInv u' ∧ oids u <+: oids u' ∧ (∀ o ∈ oids u', o ∈ oids u ∨ o = oid) ∧ ∀ app, r = .ok app → app.oid = oid := by
  rw [addAppliance_eq] at h
  cases hm : mkAppliance oid nd a.app with
  | error e =>
    rw [hm] at h
    simp only [Prod.mk.injEq] at h
    obtain ⟨rfl, rfl⟩ := h
    exact ⟨hu, List.prefix_rfl, fun o h => .inl h, fun _ h => by cases h⟩
  | ok app =>
    rw [hm] at h
    have ho := mkAppliance_oid hm
    have hn : app.oid ∈ oids u → app.name ≠ "" := by rw [ho]; exact fun h => absurd h hf
    simp only at h
    cases hw : optWindows strict u app a.windows with
    | mk u1 p =>
      obtain ⟨app1, r1⟩ := p
      have g1 : Grown u app u1 app1 := by
        cases ha : a.windows with
        | none => rw [ha] at hw; simp only [optWindows, Prod.mk.injEq] at hw; obtain ⟨rfl, rfl, _⟩ := hw; exact grown_refl hu hn
        | some w => rw [ha] at hw; exact grown_windows hu hn hw
      rw [hw] at h
      cases r1 with
      | error e =>
        simp only [Prod.mk.injEq] at h
        obtain ⟨rfl, rfl⟩ := h
        exact ⟨g1.inv, g1.grows, by rw [← ho]; exact g1.only, fun _ h => by cases h⟩
      | ok x =>
        simp only at h
        cases hc : addCycles u1 app1 a.cycles with
        | mk u2 p2 =>
          obtain ⟨app2, r2⟩ := p2
          have g2 := g1.trans (grown_addCycles _ g1.inv g1.named hc)
          rw [hc] at h
          cases r2 with
          | error e =>
            simp only [Prod.mk.injEq] at h
            obtain ⟨rfl, rfl⟩ := h
            exact ⟨g2.inv, g2.grows, by rw [← ho]; exact g2.only, fun _ h => by cases h⟩
          | ok x =>
            simp only at h
            cases hi : addInstance strict u2 app2 with
            | error e =>
              rw [hi] at h
              simp only [Prod.mk.injEq] at h
              obtain ⟨rfl, rfl⟩ := h
              exact ⟨g2.inv, g2.grows, by rw [← ho]; exact g2.only, fun _ h => by cases h⟩
            | ok p3 =>
              obtain ⟨u3, app3⟩ := p3
              rw [hi] at h
              simp only [Prod.mk.injEq] at h
              obtain ⟨rfl, rfl⟩ := h
              have g3 := g2.trans (grown_addInstance g2.inv g2.named hi)
              refine ⟨g3.inv, g3.grows, by rw [← ho]; exact g3.only, ?_⟩
              intro app' h
              cases h
              exact g3.oid.trans ho

/-- The invariant of programs. -/
structure ApiInv (s : ApiState) : Prop where
  user : UserInv s.user
  old : ∀ o ∈ oids s.user, o < s.next
  loose : ∀ a ∈ s.loose, a.oid < s.next

theorem apiInv_start : ApiInv {} := ⟨⟨by simp [oids], by simp⟩, by simp [oids], by simp⟩

theorem lookup_spec {s : ApiState} {o : ℕ} {app : Appliance} (h : s.lookup o = some app) :
    app.oid = o ∧ ((app ∈ s.user.appList) ∨ (app ∈ s.loose ∧ o ∉ oids s.user)) := by
  unfold ApiState.lookup at h
  cases h1 : s.user.appList.find? (fun a => a.oid = o) with
  | some b =>
    rw [h1] at h
    simp at h
    subst h
    exact ⟨by simpa using List.find?_some h1, .inl (List.mem_of_find?_eq_some h1)⟩
  | none =>
    rw [h1] at h
    simp at h
    refine ⟨by simpa using List.find?_some h, .inr ⟨List.mem_of_find?_eq_some h, ?_⟩⟩
    intro hm
    obtain ⟨b, hb, rfl⟩ := List.mem_map.1 hm
    simpa using (List.find?_eq_none.1 h1) b hb

theorem lookup_named {s : ApiState} (hs : ApiInv s) {o : ℕ} {app : Appliance} (h : s.lookup o = some app) :
    app.oid ∈ oids s.user → app.name ≠ "" := by
  obtain ⟨ho, h1 | ⟨_, h2⟩⟩ := lookup_spec h
  · exact fun _ => hs.user.2 app h1
  · rw [ho]; exact fun h => absurd h h2

theorem lookup_lt {s : ApiState} (hs : ApiInv s) {o : ℕ} {app : Appliance} (h : s.lookup o = some app) : app.oid < s.next := by
  obtain ⟨ho, h1 | ⟨h2, _⟩⟩ := lookup_spec h
  · exact hs.old _ (List.mem_map_of_mem h1)
  · exact hs.loose _ h2

theorem storeLoose_mem {s : ApiState} {app b : Appliance} (h : b ∈ (s.storeLoose app).loose) :
    b ∈ s.loose ∨ b = app ∧ ∃ c ∈ s.loose, c.oid = app.oid := by
  unfold ApiState.storeLoose at h
  simp only [List.mem_map] at h
  obtain ⟨a, ha, rfl⟩ := h
  split_ifs with hc
  · exact .inr ⟨rfl, a, ha, hc⟩
  · exact .inl ha

/-- One call keeps the invariant and only extends the list. -/
theorem apiStep_inv (strict : Bool) (s : ApiState) (hs : ApiInv s) (op : ApiOp) :
    ApiInv (apiStep strict s op).1 ∧ oids s.user <+: oids (apiStep strict s op).1.user := by
  have grown : ∀ {app app' : Appliance} {u' : User}, app.oid < s.next → Grown s.user app u' app' →
      ApiInv ({ s with user := u' }.storeLoose app') ∧ oids s.user <+: oids ({ s with user := u' }.storeLoose app').user := by
    intro app app' u' hlt g
    refine ⟨⟨g.inv, ?_, ?_⟩, g.grows⟩
    · intro o ho
      rcases g.only o ho with h | h
      · exact hs.old o h
      · rw [h]; exact hlt
    · intro b hb
      rcases storeLoose_mem hb with h | ⟨rfl, _⟩
      · exact hs.loose b h
      · rw [g.oid]; exact hlt
  have hself : ApiInv s ∧ oids s.user <+: oids s.user := ⟨hs, List.prefix_rfl⟩
  cases op with
  | construct nd a =>
    unfold apiStep
    simp only
    cases hm : mkAppliance s.next nd a with
    | error e => exact hself
    | ok app =>
      refine ⟨⟨hs.user, fun o h => Nat.lt_succ_of_lt (hs.old o h), ?_⟩, List.prefix_rfl⟩
      intro b hb
      simp only [List.mem_append, List.mem_singleton] at hb
      rcases hb with hb | rfl
      · exact Nat.lt_succ_of_lt (hs.loose b hb)
      · rw [mkAppliance_oid hm]; exact Nat.lt_succ_self _
  | windows o w =>
    unfold apiStep
    simp only
    cases hl : s.lookup o with
    | none => exact hself
    | some app =>
      simp only
      cases hw : windows strict s.user app w with
      | mk u' p => exact grown (lookup_lt hs hl) (grown_windows hs.user (lookup_named hs hl) (r := p.2) (app' := p.1) hw)
  | cycle o n c =>
    unfold apiStep
    simp only
    cases hl : s.lookup o with
    | none => exact hself
    | some app =>
      simp only
      cases hw : userCycle s.user app n c with
      | mk u' p => exact grown (lookup_lt hs hl) (grown_userCycle hs.user (lookup_named hs hl) (r := p.2) (app' := p.1) hw)
  | behaviour o c1 c2 c3 c4 c5 c6 =>
    unfold apiStep
    simp only
    cases hl : s.lookup o with
    | none => exact hself
    | some app => exact grown (lookup_lt hs hl) (grown_sync hs.user (lookup_named hs hl) rfl rfl)
  | addObjects os =>
    unfold apiStep
    simp only
    obtain ⟨l, h1, h2, h3, _⟩ := C31_extends strict (os.map s.argument) s.user
      hs.user.1
    have hoids : oids (addInstances strict s.user (os.map s.argument)).1 =
        oids s.user ++ l.map Appliance.oid := by rw [h1]; unfold oids; simp
    refine ⟨⟨⟨h2, ?_⟩, ?_, hs.loose⟩, ?_⟩
    · show ∀ a ∈ (addInstances strict s.user _).1.appList, _
      rw [h1]
      intro a ha
      rcases List.mem_append.1 ha with ha | ha
      · exact hs.user.2 a ha
      · exact (h3 a ha).1
    · show ∀ o ∈ oids (addInstances strict s.user _).1, _
      rw [hoids]
      intro o ho
      rcases List.mem_append.1 ho with ho | ho
      · exact hs.old o ho
      · obtain ⟨b, hb, rfl⟩ := List.mem_map.1 ho
        obtain ⟨_, a, ha, hba, _⟩ := h3 b hb
        obtain ⟨o', _, ho'⟩ := List.mem_map.1 ha
        unfold ApiState.argument at ho'
        cases hl : s.lookup o' with
        | none => rw [hl] at ho'; cases ho'
        | some c =>
          rw [hl] at ho'
          injection ho' with ho'
          subst ho'
          rw [hba]; exact lookup_lt hs hl
    · show oids s.user <+: oids (addInstances strict s.user _).1
      rw [hoids]; exact List.prefix_append _ _
  | add nd a =>
    unfold apiStep
    simp only
    cases hadd : addAppliance strict s.next nd s.user a with
    | mk u' r =>
      obtain ⟨g1, g2, g3, g4⟩ := grown_add hs.user (fun h => lt_irrefl _ (hs.old _ h)) hadd
      have hold : ∀ o ∈ oids u', o < s.next + 1 := by
        intro o ho
        rcases g3 o ho with h | h
        · exact Nat.lt_succ_of_lt (hs.old o h)
        · omega
      cases r with
      | error e => exact ⟨⟨g1, hold, fun b hb => Nat.lt_succ_of_lt (hs.loose b hb)⟩, g2⟩
      | ok app =>
        refine ⟨⟨g1, hold, ?_⟩, g2⟩
        intro b hb
        simp only [List.mem_append, List.mem_singleton] at hb
        rcases hb with hb | rfl
        · exact Nat.lt_succ_of_lt (hs.loose b hb)
        · rw [g4 _ rfl]; exact Nat.lt_succ_self _
  | legacy nd a =>
    unfold apiStep
    simp only
    cases hadd : legacyAppliance strict s.next nd s.user a with
    | mk u' r =>
      obtain ⟨g1, g2, g3, g4⟩ := grown_add hs.user (fun h => lt_irrefl _ (hs.old _ h)) hadd
      have hold : ∀ o ∈ oids u', o < s.next + 1 := by
        intro o ho
        rcases g3 o ho with h | h
        · exact Nat.lt_succ_of_lt (hs.old o h)
        · omega
      cases r with
      | error e => exact ⟨⟨g1, hold, fun b hb => Nat.lt_succ_of_lt (hs.loose b hb)⟩, g2⟩
      | ok app =>
        refine ⟨⟨g1, hold, ?_⟩, g2⟩
        intro b hb
        simp only [List.mem_append, List.mem_singleton] at hb
        rcases hb with hb | rfl
        · exact Nat.lt_succ_of_lt (hs.loose b hb)
        · rw [g4 _ rfl]; exact Nat.lt_succ_self _

/-- The invariant of every program. -/
theorem apiRun_inv (strict : Bool) : ∀ (ops : List ApiOp) (s : ApiState), ApiInv s →
    ApiInv (apiRun strict s ops) ∧ oids s.user <+: oids (apiRun strict s ops).user
  | [], s, hs => ⟨hs, List.prefix_rfl⟩
  | op :: ops, s, hs => by
    obtain ⟨h1, h2⟩ := apiStep_inv strict s hs op
    obtain ⟨h3, h4⟩ := apiRun_inv strict ops _ h1
    exact ⟨h3, h2.trans h4⟩

/-! ## Invariants of the appliances themselves -/

/-- A property of appliances kept by everything a successful call does. -/
structure Kept (P : Appliance → Prop) : Prop where
  rename : ∀ a n, P a → P { a with name := n }
  tail : ∀ a, P a → P (windowsTail a)

/-- Successful calls of `windows()` with these arguments keep `P`. -/
def KeptByWindows (P : Appliance → Prop) (w : WindowsArgs) : Prop := ∀ a a', P a → windowsBody a w = (a', .ok ()) → P a'

/-- Successful calls of `specific_cycle` with these arguments keep `P`. -/
def KeptByCycle (P : Appliance → Prop) (n : ℤ) (c : CycleArgs) : Prop := ∀ a, P a → (specificCycle a n c).2 = .ok () →
  P (specificCycle a n c).1

/-- Appliances constructed with these arguments satisfy `P`. -/
def MadeBy (P : Appliance → Prop) (nd : ℤ) (a : AppArgs) : Prop := ∀ oid app, mkAppliance oid nd a = .ok app → P app

/-- The arguments of `add_appliance` for a legacy call. -/
def LegacyArgs.toAppArgs (a : LegacyArgs) : AppArgs :=
  { number := a.number, power := a.power, numWindows := a.numWindows, funcTime := a.funcTime,
    timeFractionRandomVariability := a.timeFractionRandomVariability, funcCycle := a.funcCycle,
    fixed := a.fixed, fixedCycle := a.fixedCycle, occasionalUse := a.occasionalUse, flat := a.flat,
    thermalPVar := a.thermalPVar, prefIndex := a.prefIndex, wdWeType := a.wdWeType, name := a.name }

/-- The arguments of a call keep `P`. -/
def KeptByOp (P : Appliance → Prop) : ApiOp → Prop
  | .construct nd a => MadeBy P nd a
  | .windows _ w => KeptByWindows P w
  | .cycle _ n c => KeptByCycle P n c
  | .behaviour _ c1 c2 c3 c4 c5 c6 => ∀ a, P a → P (cycleBehaviour a c1 c2 c3 c4 c5 c6)
  | .addObjects _ => True
  | .add nd a => MadeBy P nd a.app ∧ (∀ w, a.windows = some w → KeptByWindows P w) ∧ ∀ p ∈ a.cycles, KeptByCycle P p.1 p.2
  | .legacy nd a => MadeBy P nd a.toAppArgs

/-- All appliances of a user. -/
def AllApps (P : Appliance → Prop) (u : User) : Prop := ∀ a ∈ u.appList, P a

theorem all_sync {P : Appliance → Prop} {u : User} {app : Appliance} (h : AllApps P u) (ha : P app) : AllApps P (u.sync app) := by
  intro b hb
  rcases mem_sync hb with ⟨h1, _⟩ | ⟨rfl, _⟩
  · exact h b h1
  · exact ha

theorem all_addInstance {P : Appliance → Prop} (hP : Kept P) {strict : Bool} {u u' : User} {app app' : Appliance} (h : AllApps P u)
    (ha : P app) (hi : addInstance strict u app = .ok (u', app')) : AllApps P u' ∧ P app' := by
  rcases addInstance_cases hi with ⟨rfl, rfl, _⟩ | ⟨hu, ha', _⟩
  · exact ⟨h, ha⟩
  · have : P app' := by rw [ha']; exact hP.rename _ _ ha
    refine ⟨?_, this⟩
    rw [hu]
    intro b hb
    rcases List.mem_append.1 hb with hb | hb
    · exact h b hb
    · simp only [List.mem_singleton] at hb; subst hb; exact this

theorem all_windows {P : Appliance → Prop} (hP : Kept P) {strict : Bool} {u u' : User} {app app' : Appliance} {w : WindowsArgs}
    (hw : KeptByWindows P w) (h : AllApps P u) (ha : P app) (hi : windows strict u app w = (u', app', .ok ())) :
    AllApps P u' ∧ P app' := by
  obtain ⟨app1, hb, u2, app2, hadd, heq⟩ := windows_ok (by rw [hi] : (windows strict u app w).2.2 = .ok ())
  rw [hi] at heq
  simp only [Prod.mk.injEq] at heq
  obtain ⟨rfl, rfl, _⟩ := heq
  have p1 := hw _ _ ha hb
  obtain ⟨h2, p2⟩ := all_addInstance hP (all_sync h p1) p1 hadd
  exact ⟨all_sync h2 (hP.tail _ p2), hP.tail _ p2⟩

theorem all_addCycles {P : Appliance → Prop} : ∀ (l : List (ℤ × CycleArgs)) {u u' : User} {app app' : Appliance},
    (∀ p ∈ l, KeptByCycle P p.1 p.2) → AllApps P u → P app → addCycles u app l = (u', app', .ok ()) → AllApps P u' ∧ P app'
  | [], u, u', app, app', hc, h, ha, hi => by
    simp only [addCycles, Prod.mk.injEq] at hi
    obtain ⟨rfl, rfl, _⟩ := hi
    exact ⟨h, ha⟩
  | (i, c) :: l, u, u', app, app', hc, h, ha, hi => by
    unfold addCycles userCycle at hi
    simp only at hi
    cases hs : specificCycle app i c with
    | mk app1 r =>
      rw [hs] at hi
      cases r with
      | error e => simp at hi
      | ok x =>
        simp only at hi
        have p1 : P app1 := by
          have := hc (i, c) (by simp) app ha (by simp only; rw [hs])
          simp only [hs] at this
          exact this
        exact all_addCycles l (fun p hp => hc p (by simp [hp])) (all_sync h p1) p1 hi

theorem all_add {P : Appliance → Prop} (hP : Kept P) {strict : Bool} {oid : ℕ} {nd : ℤ} {u u' : User} {a : AddArgs} {app : Appliance}
    (hm : MadeBy P nd a.app) (hw : ∀ w, a.windows = some w → KeptByWindows P w) (hc : ∀ p ∈ a.cycles, KeptByCycle P p.1 p.2)
    (h : AllApps P u) (hi : addAppliance strict oid nd u a = (u', .ok app)) : AllApps P u' ∧ P app := by
  rw [addAppliance_eq] at hi
  cases hmk : mkAppliance oid nd a.app with
  | error e => rw [hmk] at hi; simp at hi
  | ok app0 =>
    rw [hmk] at hi
    simp only at hi
    have p0 := hm _ _ hmk
    cases hww : optWindows strict u app0 a.windows with
    | mk u1 p =>
      obtain ⟨app1, r1⟩ := p
      rw [hww] at hi
      cases r1 with
      | error e => simp at hi
      | ok x =>
        simp only at hi
        obtain ⟨h1, p1⟩ : AllApps P u1 ∧ P app1 := by
          cases ha : a.windows with
          | none => rw [ha] at hww; simp only [optWindows, Prod.mk.injEq] at hww; obtain ⟨rfl, rfl, _⟩ := hww; exact ⟨h, p0⟩
          | some w => rw [ha] at hww; exact all_windows hP (hw w ha) h p0 hww
        cases hcc : addCycles u1 app1 a.cycles with
        | mk u2 p2 =>
          obtain ⟨app2, r2⟩ := p2
          rw [hcc] at hi
          cases r2 with
          | error e => simp at hi
          | ok x =>
            simp only at hi
            obtain ⟨h2, p2⟩ := all_addCycles _ hc h1 p1 hcc
            cases hadd : addInstance strict u2 app2 with
            | error e => rw [hadd] at hi; simp at hi
            | ok q =>
              obtain ⟨u3, app3⟩ := q
              rw [hadd] at hi
              simp only [Prod.mk.injEq, Except.ok.injEq] at hi
              obtain ⟨rfl, rfl⟩ := hi
              exact all_addInstance hP h2 p2 hadd

theorem all_addInstances {P : Appliance → Prop} (hP : Kept P) {strict : Bool} : ∀ (args : List InstArg) (u : User), AllApps P u →
    (∀ a, InstArg.app a ∈ args → P a) → AllApps P (addInstances strict u args).1
  | [], u, h, _ => h
  | .other :: _, u, h, _ => h
  | .app a :: args, u, h, ha => by
    unfold addInstances
    cases hi : addInstance strict u a with
    | error e => exact h
    | ok p => exact all_addInstances hP args p.1 (all_addInstance hP h (ha a (by simp)) hi).1 (fun b hb => ha b (by simp [hb]))

/-- Successful programs keep a property of their appliances that the arguments of all their calls keep. -/
theorem apiRun_kept {P : Appliance → Prop} (hP : Kept P) (strict : Bool) : ∀ (ops : List ApiOp) (s s' : ApiState),
    (∀ op ∈ ops, KeptByOp P op) → AllApps P s.user → (∀ a ∈ s.loose, P a) → apiRunUncaught strict s ops = (s', .ok ()) →
    AllApps P s'.user ∧ ∀ a ∈ s'.loose, P a
  | [], s, s', _, h1, h2, h => by simp only [apiRunUncaught, Prod.mk.injEq] at h; rw [← h.1]; exact ⟨h1, h2⟩
  | op :: ops, s, s', hk, h1, h2, h => by
    unfold apiRunUncaught at h
    cases hst : apiStep strict s op with
    | mk s1 r =>
      rw [hst] at h
      cases r with
      | error e => simp at h
      | ok x =>
        simp only at h
        suffices hs1 : AllApps P s1.user ∧ ∀ a ∈ s1.loose, P a from
          apiRun_kept hP strict ops s1 s' (fun o ho => hk o (by simp [ho])) hs1.1 hs1.2 h
        have hop := hk op (by simp)
        have hlk : ∀ {o app}, s.lookup o = some app → P app := by
          intro o app hl
          obtain ⟨_, h | ⟨h, _⟩⟩ := lookup_spec hl
          · exact h1 _ h
          · exact h2 _ h
        have store : ∀ {u' : User} {app' : Appliance}, AllApps P u' → P app' →
            AllApps P ({ s with user := u' }.storeLoose app').user ∧ ∀ a ∈ ({ s with user := u' }.storeLoose app').loose, P a := by
          intro u' app' g1 g2
          refine ⟨g1, ?_⟩
          intro b hb
          rcases storeLoose_mem hb with h | ⟨rfl, _⟩
          · exact h2 b h
          · exact g2
        cases op with
        | construct nd a =>
          unfold apiStep at hst
          simp only at hst
          cases hm : mkAppliance s.next nd a with
          | error e => rw [hm] at hst; simp at hst
          | ok app =>
            rw [hm] at hst
            simp only [Prod.mk.injEq] at hst
            rw [← hst.1]
            refine ⟨h1, ?_⟩
            intro b hb
            simp only [List.mem_append, List.mem_singleton] at hb
            rcases hb with hb | rfl
            · exact h2 b hb
            · exact hop _ _ hm
        | windows o w =>
          unfold apiStep at hst
          simp only at hst
          cases hl : s.lookup o with
          | none => rw [hl] at hst; simp at hst
          | some app =>
            rw [hl] at hst
            simp only at hst
            cases hw : windows strict s.user app w with
            | mk u' p =>
              obtain ⟨app', r'⟩ := p
              rw [hw] at hst
              simp only [Prod.mk.injEq] at hst
              obtain ⟨rfl, rfl⟩ := hst
              obtain ⟨g1, g2⟩ := all_windows hP hop h1 (hlk hl) hw
              exact store g1 g2
        | cycle o n c =>
          unfold apiStep at hst
          simp only at hst
          cases hl : s.lookup o with
          | none => rw [hl] at hst; simp at hst
          | some app =>
            rw [hl] at hst
            simp only [userCycle, Prod.mk.injEq] at hst
            obtain ⟨rfl, hr⟩ := hst
            have := hop app (hlk hl) hr
            exact store (all_sync h1 this) this
        | behaviour o c1 c2 c3 c4 c5 c6 =>
          unfold apiStep at hst
          simp only at hst
          cases hl : s.lookup o with
          | none => rw [hl] at hst; simp at hst
          | some app =>
            rw [hl] at hst
            simp only [Prod.mk.injEq] at hst
            obtain ⟨rfl, _⟩ := hst
            have := hop app (hlk hl)
            exact store (all_sync h1 this) this
        | addObjects os =>
          unfold apiStep at hst
          simp only [Prod.mk.injEq] at hst
          obtain ⟨rfl, _⟩ := hst
          refine ⟨all_addInstances hP _ _ h1 ?_, h2⟩
          intro a ha
          obtain ⟨o', _, ho'⟩ := List.mem_map.1 ha
          unfold ApiState.argument at ho'
          cases hl : s.lookup o' with
          | none => rw [hl] at ho'; cases ho'
          | some c =>
            rw [hl] at ho'
            injection ho' with ho'
            subst ho'
            exact hlk hl
        | add nd a =>
          unfold apiStep at hst
          simp only at hst
          cases hadd : addAppliance strict s.next nd s.user a with
          | mk u' r =>
            rw [hadd] at hst
            cases r with
            | error e => simp at hst
            | ok app =>
              simp only [Prod.mk.injEq] at hst
              rw [← hst.1]
              obtain ⟨g1, g2⟩ := all_add hP hop.1 hop.2.1 hop.2.2 h1 hadd
              refine ⟨g1, ?_⟩
              intro b hb
              simp only [List.mem_append, List.mem_singleton] at hb
              rcases hb with hb | rfl
              · exact h2 b hb
              · exact g2
        | legacy nd a =>
          unfold apiStep at hst
          simp only at hst
          cases hadd : legacyAppliance strict s.next nd s.user a with
          | mk u' r =>
            rw [hadd] at hst
            cases r with
            | error e => simp at hst
            | ok app =>
              simp only [Prod.mk.injEq] at hst
              rw [← hst.1]
              obtain ⟨g1, g2⟩ := all_add hP (a := { app := a.toAppArgs }) hop (by simp) (by simp [AddArgs.cycles]) h1 hadd
              refine ⟨g1, ?_⟩
              intro b hb
              simp only [List.mem_append, List.mem_singleton] at hb
              rcases hb with hb | rfl
              · exact h2 b hb
              · exact g2

end Ramp
