import Verif.Props.History
import Verif.Props.Restored

/-! # Property C57: what can be saved and loaded -/

set_option autoImplicit false

namespace Ramp

/-! ## Users built by programs -/

/-- A power argument that can be stored in a spreadsheet: a number, or a series of 366 values that does not end with its first value,
or a series of equal values. -/
def SaveablePower (numDays : ℤ) : PowerArg → Prop
  | .number _ => 0 ≤ numDays
  | .series l => (∃ p, ConstantPower l p) ∨ (l.length = 366 ∧ l.getLast? ≠ l.head?)
  | .other => False

/-- Calls with sensible arguments, powers that can be stored and non-empty texts. -/
def SaveableOp (op : ApiOp) : Prop := SensibleOp op ∧ match op with
  | .construct nd a => SaveablePower nd a.power ∧ a.fixed ≠ "" ∧ a.flat ≠ ""
  | .add nd a => SaveablePower nd a.app.power ∧ a.app.fixed ≠ "" ∧ a.app.flat ≠ ""
  | .legacy nd a => SaveablePower nd a.power ∧ a.fixed ≠ "" ∧ a.flat ≠ ""
  | _ => True

/-- What calls keep besides `Simulable`. -/
structure Storable (a : Appliance) : Prop where
  fixed : a.fixed ≠ ""
  flat : a.flat ≠ ""
  power : (∃ p, ConstantPower a.power p) ∨ (a.power.length = 366 ∧ a.power.getLast? ≠ a.power.head?)
  variability : WindowVariability a
  windows : (a.numWindows ≤ 3 ∧ a.funcTime ≤ declaredTime a.numWindows a.window1 a.window2 a.window3) ∨ a.window1 = (0, 0)

theorem storable_made {nd : ℤ} {a : AppArgs} (h : SaveablePower nd a.power ∧ a.fixed ≠ "" ∧ a.flat ≠ "") : MadeBy Storable nd a := by
  intro oid app hm
  obtain ⟨hp, hf, hl⟩ := h
  have hpow : (∃ p, ConstantPower app.power p) ∨ (app.power.length = 366 ∧ app.power.getLast? ≠ app.power.head?) := by
    unfold mkAppliance at hm
    cases hpa : a.power with
    | number p =>
      rw [hpa] at hp hm
      have hp : 0 ≤ nd := hp
      simp only [onesTimes] at hm
      rw [if_neg (by omega)] at hm
      cases hm
      refine .inl ⟨p, ?_, fun x hx => List.eq_of_mem_replicate hx⟩
      intro h0
      have := congrArg List.length h0
      simp at this
      omega
    | series l =>
      rw [hpa] at hp hm
      cases hm
      exact hp
    | other => rw [hpa] at hp; exact hp.elim
  obtain ⟨p, c, rfl⟩ := mkAppliance_fields hm
  have hz : pyInt 0 = 0 := by decide +kernel
  refine ⟨hf, hl, hpow, ⟨?_, ?_, ?_⟩, .inr rfl⟩ <;> (simp only [newAppliance]; norm_num; exact hz.symm)

theorem storable_windows (w : WindowsArgs) : KeptByWindows Storable w := by
  intro a a' ha hb
  have hout := windowsBody_outcome a w
  rw [hb] at hout
  obtain ⟨d, rfl, _⟩ := windowsBody_ok hb
  refine ⟨ha.fixed, ha.flat, ha.power, ⟨rfl, rfl, rfl⟩, .inl ?_⟩
  have h1 : ¬ MissingWindow a w := fun h => by rw [if_pos h] at hout; cases hout
  rw [if_neg h1] at hout
  have h2 : ¬ 3 < a.numWindows := fun h => by rw [if_pos h] at hout; cases hout
  rw [if_neg h2] at hout
  have h3 : ¬ declaredTime a.numWindows (windowsAfter a w).1 (windowsAfter a w).2.1 (windowsAfter a w).2.2 < a.funcTime :=
    fun h => by rw [if_pos h] at hout; cases hout
  exact ⟨by simpa using h2, by simpa using h3⟩

theorem storable_cycle (n : ℤ) (c : CycleArgs) : KeptByCycle Storable n c := by
  rintro a ⟨h1, h2, h3, ⟨v1, v2, v3⟩, h5⟩ _
  unfold specificCycle
  split_ifs
  · exact ⟨h1, h2, h3, ⟨v1, v2, v3⟩, h5⟩
  · exact ⟨h1, h2, h3, ⟨v1, v2, v3⟩, h5⟩
  · exact ⟨h1, h2, h3, ⟨v1, v2, v3⟩, h5⟩
  · exact ⟨h1, h2, h3, ⟨v1, v2, v3⟩, h5⟩

theorem storable_kept : Kept Storable where
  rename := by
    rintro a n ⟨h1, h2, h3, ⟨v1, v2, v3⟩, h5⟩
    exact ⟨h1, h2, h3, ⟨v1, v2, v3⟩, h5⟩
  tail := by
    rintro a ⟨h1, h2, h3, ⟨v1, v2, v3⟩, h5⟩
    unfold windowsTail
    split_ifs
    · exact ⟨h1, h2, h3, ⟨v1, v2, v3⟩, h5⟩
    · exact ⟨h1, h2, h3, ⟨v1, v2, v3⟩, h5⟩

theorem storable_op {op : ApiOp} (h : SaveableOp op) : KeptByOp Storable op := by
  obtain ⟨-, h⟩ := h
  cases op with
  | construct nd a => exact storable_made h
  | windows o w => exact storable_windows w
  | cycle o n c => exact storable_cycle n c
  | behaviour o c1 c2 c3 c4 c5 c6 =>
    rintro a ⟨h1, h2, h3, ⟨v1, v2, v3⟩, h5⟩
    exact ⟨h1, h2, h3, ⟨v1, v2, v3⟩, h5⟩
  | addObjects os => trivial
  | add nd a => exact ⟨storable_made h, fun w _ => storable_windows w, fun p _ => storable_cycle p.1 p.2⟩
  | legacy nd a => exact storable_made (a := a.toAppArgs) h

/-- The user was built by a program of API calls with sensible arguments that raised no exception. -/
def BuiltByProgram (strict : Bool) (u : User) : Prop := ∃ ops s, (∀ op ∈ ops, SaveableOp op) ∧ apiRunUncaught strict {} ops = (s, .ok ()) ∧
  u.appList = s.user.appList

theorem program_valid {strict : Bool} {u : User} (h : BuiltByProgram strict u) (hw : ∀ a ∈ u.appList, a.window1 ≠ (0, 0)) :
    (∀ a ∈ u.appList, ValidToSave a) ∧ ∀ a ∈ u.appList, WindowVariability a := by
  obtain ⟨ops, s, h1, h2, h3⟩ := h
  have hs := (apiRun_kept simulable_kept strict ops {} s (fun op hop => simulable_op (h1 op hop).1) (by simp [AllApps]) (by simp) h2).1
  have ht := (apiRun_kept storable_kept strict ops {} s (fun op hop => storable_op (h1 op hop)) (by simp [AllApps]) (by simp) h2).1
  have hrun : ∀ (ops : List ApiOp) (s s' : ApiState), apiRunUncaught strict s ops = (s', .ok ()) → apiRun strict s ops = s' := by
    intro ops
    induction ops with
    | nil => intro s s' h; simp only [apiRunUncaught, Prod.mk.injEq, and_true] at h; exact h
    | cons op ops ih =>
      intro s s' h
      unfold apiRunUncaught at h
      unfold apiRun
      cases hst : apiStep strict s op with
      | mk s1 r =>
        rw [hst] at h
        cases r with
        | error e => cases h
        | ok x => exact ih _ _ h
  have hn := (apiRun_inv strict ops {} apiInv_start).1.user.2
  rw [hrun ops {} s h2] at hn
  rw [h3] at hw ⊢
  refine ⟨fun a ha => ?_, fun a ha => (ht a ha).variability⟩
  have k1 := hs a ha
  have k2 := ht a ha
  have k3 := k2.windows.resolve_right (hw a ha)
  refine ⟨hn a ha, k2.fixed, k2.flat, k2.power, k3.1, k3.2, k1.windows.w1, k1.windows.w2, k1.windows.w3, ?_⟩
  have kc := k1.cycles
  intro t hts
  simp only [List.mem_cons, List.not_mem_nil, or_false] at hts
  rcases hts with rfl | rfl | rfl | rfl | rfl | rfl
  · exact kc.t11
  · exact kc.t12
  · exact kc.t21
  · exact kc.t22
  · exact kc.t31
  · exact kc.t32

/-- **C57, partial.** Users built by programs of API calls with sensible arguments — names that are not empty and differ, at least one
appliance each, the windows of every appliance set, no two equal appliances, powers given as a number or as 366 values that do not end
with the first one — can be saved and loaded again, and the loaded users are equal to the saved ones and simulate like them.  Missing:
the use cases outside these hypotheses, for which it is false (the theorems below). -/
theorem C57_programs_partial (strict strict' : Bool) (uc uc0 : UseCase) (hne : uc.users ≠ [])
    (hn : (uc.users.map (fun u => u.userName)).Nodup) (hb : ∀ u ∈ uc.users, BuiltByProgram strict' u)
    (hname : ∀ u ∈ uc.users, u.userName ≠ "") (hsome : ∀ u ∈ uc.users, u.appList ≠ [])
    (hw : ∀ u ∈ uc.users, ∀ a ∈ u.appList, a.window1 ≠ (0, 0))
    (hdis : ∀ u ∈ uc.users, u.appList.Pairwise (fun a b => ¬ SameSaved a b))
    (hc : ∀ u ∈ uc.users, ComparableUser strict uc0.userDays u) (hd : 0 ≤ uc0.userDays) :
    ∃ t uc' us, saveUseCase uc = .ok t ∧ loadUseCase strict uc0 (toExcel t) = (uc', .ok ()) ∧ uc'.users = uc0.users ++ us ∧
      List.Forall₂ SameSavedUser uc.users us ∧
      ∀ (one other : UseCase) (ds peak : List ℤ), one.users = uc.users → other.users = us → Ready one ds peak → Ready other ds peak →
        (∀ u ∈ uc.users, ∀ a ∈ u.appList, ds.length ≤ a.power.length) → (ds.length : ℤ) ≤ uc0.userDays + 1 →
        ∀ (env : Env) (depth : ℕ) (rows : List Profile),
          (∃ fin, Returns (generateDaily env depth other none) (fin, rows)) ↔ (∃ fin, Returns (generateDaily env depth one none) (fin, rows)) := by
  have hv : ∀ u ∈ uc.users, ValidUserToSave u := fun u hu =>
    ⟨hname u hu, hsome u hu, (program_valid (hb u hu) (hw u hu)).1, hdis u hu⟩
  have hvar : ∀ u ∈ uc.users, ∀ a ∈ u.appList, WindowVariability a := fun u hu => (program_valid (hb u hu) (hw u hu)).2
  obtain ⟨t, uc', us, h1, h2, h3, h4⟩ := C53_save_then_load strict uc uc0 hne hn hv hc hd
  obtain ⟨t', uc'', us', g1, g2, g3, g4⟩ := C76_loaded_users_simulate_alike strict uc uc0 hne hn hv hc hd hvar
  rw [h1] at g1
  injection g1 with g1
  subst g1
  rw [h2] at g2
  injection g2 with g2
  subst g2
  have : us' = us := List.append_cancel_left (g3.symm.trans h3)
  subst this
  exact ⟨t, uc', us', h1, h2, h3, h4, g4⟩

end Ramp
