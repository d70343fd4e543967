import Verif.Lemmas.Prob
import Verif.Lemmas.Days
import Verif.Lemmas.Cli

/-! # A simulation is a sequence of runs, each of which starts from the definitions -/

set_option autoImplicit false

open MeasureTheory ENNReal

namespace Ramp

variable {α β γ : Type} {μ : Measure Draw}

theorem rel_sat_left {m : Sim α} {m' : Sim β} {Q : α → β → Prop} {P : α → Prop} {E : Err → Prop} (h : Rel m m' Q) (hs : Sat m P E) :
    Rel m m' (fun a b => Q a b ∧ P a) := by
  intro r
  rcases h r with ⟨e, h1, h2⟩ | ⟨a, b, r', h1, h2, hp⟩
  · exact .inl ⟨e, h1, h2⟩
  · refine .inr ⟨a, b, r', h1, h2, hp, ?_⟩
    have := hs r
    rw [h1] at this
    exact this

theorem rel_weaken {m : Sim α} {m' : Sim β} {Q Q' : α → β → Prop} (h : Rel m m' Q) (hq : ∀ a b, Q a b → Q' a b) : Rel m m' Q' := by
  intro r
  rcases h r with h | ⟨a, b, r', h1, h2, hp⟩
  · exact .inl h
  · exact .inr ⟨a, b, r', h1, h2, hq a b hp⟩

theorem eq_of_rel {m n : Sim α} (h : Rel m n (fun a b => a = b)) : m = n := by
  funext r
  rcases h r with ⟨e, h1, h2⟩ | ⟨a, b, r', h1, h2, rfl⟩
  · rw [h1, h2]
  · rw [h1, h2]

/-! ## Finitary runs -/

theorem fin_sumRuns : ∀ {ms : List (Sim Profile)}, (∀ m ∈ ms, Finitary m) → Finitary (sumRuns ms)
  | [], _ => fin_pure _
  | m :: ms, h => fin_bind (h m (by simp)) fun _ => fin_bind (fin_sumRuns fun n hn => h n (by simp [hn])) fun _ => fin_pure _

theorem fin_applianceRun (depth k : ℕ) (peak : List ℤ) (dt pref : ℤ) (a : Appliance) : Finitary (applianceRun depth k peak dt pref a) := by
  unfold applianceRun
  cases a.power[k]? with
  | none => exact fin_raise _
  | some p => exact fin_bind (fin_generate _ _ _ _ _ _ _) fun _ => fin_pure _

theorem fin_memberRun (depth k : ℕ) (peak : List ℤ) (dt : ℤ) (u : User) : Finitary (memberRun depth k peak dt u) :=
  fin_bind (fin_drawPreference _) fun _ => fin_sumRuns fun m hm => by
    obtain ⟨a, _, rfl⟩ := List.mem_map.1 hm
    exact fin_applianceRun _ _ _ _ _ _

theorem fin_userRun (depth k : ℕ) (peak : List ℤ) (dt : ℤ) (u : User) : Finitary (userRun depth k peak dt u) :=
  fin_sumRuns fun m hm => by
    rw [List.eq_of_mem_replicate hm]
    exact fin_memberRun _ _ _ _ _

theorem fin_caseRun (depth k : ℕ) (peak : List ℤ) (dt : ℤ) (us : List User) : Finitary (caseRun depth k peak dt us) :=
  fin_sumRuns fun m hm => by
    obtain ⟨u, _, rfl⟩ := List.mem_map.1 hm
    exact fin_userRun _ _ _ _ _

theorem fin_rowsRun (depth : ℕ) (peak : List ℤ) (us : List User) : ∀ (k : ℕ) (ds : List ℤ), Finitary (rowsRun depth peak us k ds)
  | _, [] => fin_pure _
  | k, _ :: ds => fin_bind (fin_caseRun _ _ _ _ _) fun _ => fin_bind (fin_rowsRun depth peak us (k + 1) ds) fun _ => fin_pure _

/-! ## The simulation and the runs -/

theorem rel_singleLoop_runs (depth k : ℕ) (peak : List ℤ) (dt pref : ℤ) {apps apps' : List Appliance} (h : List.Forall₂ SameDefinition apps apps') :
    ∀ (load : Profile), Rel (singleLoop depth k peak dt pref apps' load) (sumRuns (apps.map (applianceRun depth k peak dt pref)))
      (fun x p => List.Forall₂ SameDefinition apps x.1 ∧ x.2 = fun i => load i + p i) := by
  induction h with
  | nil => exact fun load => rel_pure ⟨.nil, by funext i; simp⟩
  | @cons a a' apps apps' h1 _ ih =>
    intro load
    unfold singleLoop
    rw [List.map_cons]
    unfold sumRuns applianceRun
    rw [h1.power]
    cases a.power[k]? with
    | none => exact fun r => .inl ⟨_, rfl, rfl⟩
    | some p =>
      simp only
      rw [sim_bind_assoc]
      refine rel_bind (rel_sat_left (rel_generate h1.symm depth pref k peak dt p) (sat_generate_same _ depth pref k peak dt p)) ?_
      rintro x y ⟨⟨h2, h3⟩, h4⟩
      rw [sim_pure_bind]
      refine rel_bind (ih _) ?_
      rintro ⟨rest, l⟩ q ⟨h5, h6⟩
      refine rel_pure ⟨.cons (h1.trans h4) h5, ?_⟩
      simp only at h6 ⊢
      rw [h6, h3]
      funext i
      ring

theorem rel_single_runs (depth k : ℕ) (peak : List ℤ) (dt : ℤ) {u u' : User} (h : SameUser u u') :
    Rel (generateSingleLoadProfile depth u' k peak dt) (memberRun depth k peak dt u) (fun x p => SameUser u x.1 ∧ x.2 = p) := by
  unfold generateSingleLoadProfile memberRun
  rw [h.preference]
  refine rel_bind_same fun pref => ?_
  have := rel_singleLoop_runs depth k peak dt pref h.appliances zeros
  refine fun r => ?_
  rcases this r with ⟨e, h1, h2⟩ | ⟨⟨apps, l⟩, p, r', h1, h2, h3, h4⟩
  · exact .inl ⟨e, bind_error h1, h2⟩
  · refine .inr ⟨_, p, r', (bind_ok h1).trans rfl, h2, ⟨h.name, h.number, rfl, h3⟩, ?_⟩
    simp only at h4 ⊢
    rw [h4]
    funext i
    simp [zeros]

theorem rel_aggregatedLoop_runs (depth k : ℕ) (peak : List ℤ) (dt : ℤ) {u : User} : ∀ (n : ℕ) {u' : User} (_ : SameUser u u') (load : Profile),
    Rel (aggregatedLoop depth k peak dt n u' load) (sumRuns (List.replicate n (memberRun depth k peak dt u)))
      (fun x p => SameUser u x.1 ∧ x.2 = fun i => load i + p i)
  | 0, u', h, load => rel_pure ⟨h, by funext i; simp⟩
  | n + 1, u', h, load => by
    unfold aggregatedLoop
    rw [List.replicate_succ]
    unfold sumRuns
    refine rel_bind (rel_single_runs depth k peak dt h) ?_
    rintro ⟨v, p⟩ p' ⟨h1, rfl⟩ r
    rcases rel_aggregatedLoop_runs depth k peak dt n h1 (fun i => load i + p i) r with ⟨e, e1, e2⟩ | ⟨x, q, r', e1, e2, e3, e4⟩
    · exact .inl ⟨e, e1, bind_error e2⟩
    · refine .inr ⟨x, _, r', e1, (bind_ok e2).trans rfl, e3, ?_⟩
      rw [e4]
      funext i
      ring

theorem rel_usersOfDay_runs (depth k : ℕ) (peak : List ℤ) (dt : ℤ) {us us' : List User} (h : List.Forall₂ SameUser us us') :
    ∀ (load : Profile), Rel (usersOfDay depth k peak dt us' load) (caseRun depth k peak dt us)
      (fun x p => List.Forall₂ SameUser us x.1 ∧ x.2 = fun i => load i + p i) := by
  unfold caseRun
  induction h with
  | nil => exact fun load => rel_pure ⟨.nil, by funext i; simp⟩
  | @cons u u' us us' h1 _ ih =>
    intro load
    unfold usersOfDay generateAggregatedLoadProfile
    rw [List.map_cons]
    unfold sumRuns userRun
    rw [sim_bind_assoc, h1.number]
    refine rel_bind (rel_aggregatedLoop_runs depth k peak dt _ h1 zeros) ?_
    rintro ⟨v, l⟩ p ⟨h2, h3⟩
    simp only at h3 ⊢
    rw [sim_pure_bind]
    refine rel_bind (ih _) ?_
    rintro ⟨vs, l'⟩ q ⟨h4, h5⟩
    refine rel_pure ⟨.cons ⟨h2.name, h2.number, h2.preference, h2.appliances⟩ h4, ?_⟩
    simp only at h5 ⊢
    rw [h5, h3]
    funext i
    simp only [zeros]
    ring

theorem rel_daysLoop_runs (depth : ℕ) (peak : List ℤ) {us : List User} : ∀ (ds : List ℤ) (k : ℕ) {us' : List User} (_ : List.Forall₂ SameUser us us')
    (rows : List Profile) (_ : k + ds.length ≤ rows.length),
    Rel (daysLoop depth peak k ds us' rows) (rowsRun depth peak us k ds) (fun x ps => x.2 = setRows rows k ps)
  | [], k, us', h, rows, _ => rel_pure rfl
  | d :: ds, k, us', h, rows, hl => by
    unfold daysLoop rowsRun
    rw [dayType_spec]
    refine rel_bind (rel_usersOfDay_runs depth k peak _ h zeros) ?_
    rintro ⟨vs, l⟩ p ⟨h1, h2⟩
    simp only [List.length_cons] at hl
    simp only at h2 ⊢
    rw [if_pos (by omega)]
    obtain rfl : l = p := by rw [h2]; funext i; simp [zeros]
    intro r
    rcases rel_daysLoop_runs depth peak ds (k + 1) h1 (rows.set k l) (by rw [List.length_set]; omega) r with ⟨e, e1, e2⟩ | ⟨x, q, r', e1, e2, e3⟩
    · exact .inl ⟨e, e1, bind_error e2⟩
    · exact .inr ⟨x, _, r', e1, (bind_ok e2).trans rfl, e3⟩

theorem rowsRun_length (depth : ℕ) (peak : List ℤ) (us : List User) : ∀ (ds : List ℤ) (k : ℕ),
    Sat (rowsRun depth peak us k ds) (fun ps => ps.length = ds.length) (fun _ => True)
  | [], _ => sat_pure rfl
  | _ :: ds, k => sat_bind' sat_true fun _ _ => sat_bind' (rowsRun_length depth peak us ds (k + 1)) fun ps h => sat_pure (by simp [h])

/-- The rows of a simulation are the runs of its days, one after the other. -/
theorem dailyRows_eq {env : Env} {depth : ℕ} {uc : UseCase} {ds peak : List ℤ} (days : Option (List ℤ)) (hr : Ready uc ds peak) :
    dailyRows env depth uc days = rowsRun depth peak uc.users 0 ds := by
  have r1 : resolveDays uc days = (uc, .ok ()) := by unfold resolveDays; rw [hr.days]
  have n1 : numDaysProperty env uc = pure (uc, .ok (ds.length : ℤ)) := by unfold numDaysProperty; rw [hr.numDays]
  refine eq_of_rel fun r => ?_
  have hl := rowsRun_length depth peak uc.users ds 0 r
  have hsame : List.Forall₂ SameUser uc.users uc.users := List.forall₂_same.2 fun u _ => SameUser.refl u
  have hz : emptyRows (ds.length : ℤ) = .ok (List.replicate ds.length zeros) := by
    unfold emptyRows
    rw [if_neg (by omega), Int.toNat_natCast]
  unfold dailyRows generateDaily
  rw [r1]
  simp only [n1, sim_pure_bind, hr.days, hr.peak, Option.getD_some, hz]
  rw [sim_bind_assoc, sim_liftE_ok_bind, sim_bind_assoc]
  rcases rel_daysLoop_runs depth peak ds 0 hsame (List.replicate ds.length zeros) (by simp) r with ⟨e, e1, e2⟩ | ⟨x, q, r', e1, e2, e3⟩
  · exact .inl ⟨e, bind_error e1, e2⟩
  · refine .inr ⟨x.2, q, r', (bind_ok e1).trans rfl, e2, ?_⟩
    rw [e2] at hl
    simp only at hl
    rw [e3]
    refine List.ext_getElem (by rw [setRows_length, List.length_replicate, hl]) fun j h1 h2 => ?_
    have := setRows_get q (List.replicate ds.length zeros) 0 j (by simp [hl])
    rw [List.getElem?_eq_getElem h1] at this
    simpa [h2] using this

end Ramp
