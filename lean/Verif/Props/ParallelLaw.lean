import Verif.Props.Expected
import Verif.Props.Parallel
import Verif.Lemmas.Cli

/-! # C105: parallel mode has the distribution of sequential mode -/

set_option autoImplicit false

open MeasureTheory ENNReal

namespace Ramp

variable {μ : Measure Draw}

/-! ## A chunk is a sequence of runs -/

/-- The run of a task with the appliance as it was defined. -/
def taskRun (depth : ℕ) (peak : List ℤ) (t : Task) : Sim Profile := applianceRun depth t.dayIdx peak t.dayType t.pref t.app

/-- The tasks one after the other, each with the appliance as it was defined. -/
def seqTasks (depth : ℕ) (peak : List ℤ) : List Task → Sim (List (ℕ × Profile))
  | [] => pure []
  | t :: ts => do
    let p ← taskRun depth peak t
    let rest ← seqTasks depth peak ts
    pure ((t.dayIdx, p) :: rest)

theorem fin_taskRun (depth : ℕ) (peak : List ℤ) (t : Task) : Finitary (taskRun depth peak t) := fin_applianceRun _ _ _ _ _ _

theorem fin_seqTasks (depth : ℕ) (peak : List ℤ) : ∀ ts, Finitary (seqTasks depth peak ts)
  | [] => fin_pure _
  | t :: ts => fin_bind (fin_taskRun _ _ _) fun _ => fin_bind (fin_seqTasks depth peak ts) fun _ => fin_pure _

theorem rel_runChunk {depth : ℕ} {peak : List ℤ} (n : ℕ) : ∀ {ts ts' : List Task}, ts.length = n → Coherent ts' → List.Forall₂ SameTask ts ts' →
    Rel (runChunk depth peak ts') (seqTasks depth peak ts) (fun a b => a = b) := by
  induction n with
  | zero =>
    intro ts ts' hl _ h
    rw [List.length_eq_zero_iff.1 hl] at h ⊢
    cases h
    rw [runChunk_nil]
    exact rel_pure rfl
  | succ n ih =>
    intro ts ts' hl hc h
    cases h with
    | nil => simp at hl
    | @cons t t' ts ts' h1 h2 =>
      rw [runChunk_cons]
      unfold seqTasks taskRun applianceRun
      obtain ⟨b, hb, rfl⟩ := h1
      simp only
      rw [hb.power]
      cases t.app.power[t.dayIdx]? with
      | none => exact fun r => .inl ⟨_, rfl, rfl⟩
      | some p =>
        simp only
        rw [sim_bind_assoc]
        refine rel_bind (rel_sat_left (rel_generate hb.symm depth t.pref t.dayIdx peak t.dayType p) (sat_generate_same _ depth t.pref t.dayIdx peak t.dayType p)) ?_
        rintro x y ⟨⟨h3, h4⟩, h5⟩
        rw [sim_pure_bind]
        have hc' := coherent_passOn hc h5
        have hpass := fun s hs => passOn_same hc h5 s hs
        refine rel_bind (ih (ts := ts) (by simpa using hl) hc' ?_) ?_
        · clear ih hc' hl
          have hmem : ∀ s ∈ ts', SameTask s (passOn { t with app := b } x s) := fun s hs => hpass s hs
          clear hpass hc
          induction h2 with
          | nil => exact .nil
          | @cons s s' ss ss' h6 _ ih =>
            refine .cons ?_ (ih fun s hs => hmem s (by simp [hs]))
            obtain ⟨b1, hb1, rfl⟩ := h6
            obtain ⟨b2, hb2, e⟩ := hmem { s with app := b1 } (List.mem_cons_self ..)
            exact ⟨b2, hb1.trans hb2, e.trans rfl⟩
        · rintro l m rfl
          refine rel_pure ?_
          simp only [h4]

theorem runChunk_eq {depth : ℕ} {peak : List ℤ} {ts : List Task} (hc : Coherent ts) : runChunk depth peak ts = seqTasks depth peak ts :=
  eq_of_rel (rel_runChunk _ rfl hc (List.forall₂_same.2 fun t _ => ⟨t.app, SameDefinition.refl _, rfl⟩))

/-- The chunks one after the other. -/
def seqChunks (depth : ℕ) (peak : List ℤ) : List (List Task) → Sim (List (ℕ × Profile))
  | [] => pure []
  | c :: cs => do
    let l ← runChunk depth peak c
    let rest ← seqChunks depth peak cs
    pure (l ++ rest)

theorem fin_seqChunks (depth : ℕ) (peak : List ℤ) : ∀ cs, Finitary (seqChunks depth peak cs)
  | [] => fin_pure _
  | c :: cs => fin_bind (fin_runChunk _ _ _ _ rfl) fun _ => fin_bind (fin_seqChunks depth peak cs) fun _ => fin_pure _

theorem seqTasks_append (depth : ℕ) (peak : List ℤ) : ∀ l m, seqTasks depth peak (l ++ m) = seqTasks depth peak l >>= fun a => seqTasks depth peak m >>= fun b => pure (a ++ b)
  | [], m => by
    rw [List.nil_append]
    show seqTasks depth peak m = (pure [] >>= fun a => seqTasks depth peak m >>= fun b => pure (a ++ b))
    rw [sim_pure_bind]
    funext r
    cases h : seqTasks depth peak m r with
    | error e => exact (bind_error h).symm
    | ok x => exact ((bind_ok (f := fun b => (pure ([] ++ b) : Sim (List (ℕ × Profile)))) h).trans rfl).symm
  | t :: l, m => by
    rw [List.cons_append]
    show (taskRun depth peak t >>= fun p => seqTasks depth peak (l ++ m) >>= fun rest => pure ((t.dayIdx, p) :: rest)) =
      (taskRun depth peak t >>= fun p => seqTasks depth peak l >>= fun rest => pure ((t.dayIdx, p) :: rest)) >>= fun a => seqTasks depth peak m >>= fun b => pure (a ++ b)
    rw [sim_bind_assoc, seqTasks_append depth peak l m]
    congr 1
    funext p
    rw [sim_bind_assoc, sim_bind_assoc]
    congr 1
    funext a
    rw [sim_bind_assoc, sim_pure_bind]
    rfl

theorem seqChunks_eq {depth : ℕ} {peak : List ℤ} : ∀ {cs : List (List Task)}, (∀ c ∈ cs, Coherent c) → seqChunks depth peak cs = seqTasks depth peak cs.flatten
  | [], _ => rfl
  | c :: cs, h => by
    rw [List.flatten_cons, seqTasks_append, ← seqChunks_eq fun d hd => h d (by simp [hd]), ← runChunk_eq (h c (by simp))]
    rfl

/-! ## Independent workers -/

/-- What the parent process collects, without the exceptions. -/
def collected (depth : ℕ) (peak : List ℤ) (cs : List (List Task)) (rngs : ℕ → Rng) : Option (List (ℕ × Profile)) :=
  (collectChunks depth peak cs rngs (List.range cs.length)).toOption

theorem collect_shift {depth : ℕ} {peak : List ℤ} {c : List Task} {cs : List (List Task)} {rngs : ℕ → Rng} : ∀ order : List ℕ,
    collectChunks depth peak (c :: cs) rngs (order.map Nat.succ) = collectChunks depth peak cs (fun k => rngs (k + 1)) order
  | [] => rfl
  | k :: order => by
    rw [List.map_cons]
    unfold collectChunks
    rw [collect_shift order]
    rfl

/-- The returned value of a computation, if any. -/
def returnedOf {α : Type} (m : Sim α) (r : Rng) : Option α := (endOf m r).toOption

theorem collected_cons (depth : ℕ) (peak : List ℤ) (c : List Task) (cs : List (List Task)) (rngs : ℕ → Rng) :
    collected depth peak (c :: cs) rngs = (returnedOf (runChunk depth peak c) (rngs 0)).bind fun l => (collected depth peak cs (fun k => rngs (k + 1))).map (l ++ ·) := by
  unfold collected returnedOf endOf
  rw [List.length_cons, List.range_succ_eq_map, ← collect_shift (c := c)]
  conv_lhs => unfold collectChunks
  simp only [List.getElem?_cons_zero, Option.getD_some]
  cases runChunk depth peak c (rngs 0) with
  | error e => rfl
  | ok x =>
    obtain ⟨l, r⟩ := x
    simp only
    cases collectChunks depth peak (c :: cs) rngs ((List.range cs.length).map Nat.succ) with
    | error e => rfl
    | ok y => rfl

instance : MeasurableSpace (Option (List (ℕ × Profile))) := ⊤

instance : Countable Profile := by unfold Profile; infer_instance

theorem measurable_returnedOf {m : Sim (List (ℕ × Profile))} (h : Finitary m) : Measurable (returnedOf m) := ((local_endOf h).comp Except.toOption).measurable

theorem measurable_collected (depth : ℕ) (peak : List ℤ) : ∀ cs, Measurable (collected depth peak cs)
  | [] => measurable_const
  | c :: cs => by
    have h1 : Measurable (fun rngs : ℕ → Rng => (returnedOf (runChunk depth peak c) (rngs 0), collected depth peak cs (fun k => rngs (k + 1)))) :=
      ((measurable_returnedOf (fin_runChunk _ _ _ _ rfl)).comp (measurable_pi_apply 0)).prodMk
        ((measurable_collected depth peak cs).comp (measurable_pi_iff.2 fun k => measurable_pi_apply (k + 1)))
    have h2 : collected depth peak (c :: cs) = (fun x : Option (List (ℕ × Profile)) × Option (List (ℕ × Profile)) => x.1.bind fun l => x.2.map (l ++ ·)) ∘
        (fun rngs : ℕ → Rng => (returnedOf (runChunk depth peak c) (rngs 0), collected depth peak cs (fun k => rngs (k + 1)))) := by
      funext rngs
      rw [collected_cons]
      rfl
    rw [h2]
    exact (Measurable.of_discrete).comp h1

/-- The expected value of a quantity of what is collected. -/
theorem mean_collected [IsProbabilityMeasure μ] (depth : ℕ) (peak : List ℤ) : ∀ (cs : List (List Task)) (g : List (ℕ × Profile) → ℝ≥0∞),
    ∫⁻ rngs, ((collected depth peak cs rngs).elim 0 g) ∂(workers μ) = MeanOf μ (seqChunks depth peak cs) g
  | [], g => by
    unfold seqChunks
    rw [meanOf_pure]
    show ∫⁻ _, g [] ∂(workers μ) = g []
    unfold workers
    rw [lintegral_const, measure_univ, mul_one]
  | c :: cs, g => by
    show _ = MeanOf μ (runChunk depth peak c >>= fun l => seqChunks depth peak cs >>= fun rest => pure (l ++ rest)) g
    rw [meanOf_bind (fin_runChunk _ _ _ _ rfl) fun l => fin_bind (fin_seqChunks _ _ _) fun _ => fin_pure _]
    unfold workers
    rw [lintegral_consPi (F := fun rngs => (collected depth peak (c :: cs) rngs).elim 0 g)
      ((Measurable.of_discrete (f := fun o : Option (List (ℕ × Profile)) => o.elim 0 g)).comp (measurable_collected depth peak (c :: cs)))]
    unfold MeanOf Mean
    refine lintegral_congr fun r => ?_
    simp only [collected_cons]
    show ∫⁻ rngs, ((returnedOf (runChunk depth peak c) r).bind fun l => (collected depth peak cs rngs).map (l ++ ·)).elim 0 g ∂(workers μ) = _
    unfold returnedOf
    cases endOf (runChunk depth peak c) r with
    | error e =>
      show ∫⁻ _, 0 ∂(workers μ) = 0
      exact lintegral_zero
    | ok l =>
      have e1 : ∀ rngs, ((some l).bind fun l => (collected depth peak cs rngs).map (l ++ ·)).elim 0 g = (collected depth peak cs rngs).elim 0 (fun rest => g (l ++ rest)) := by
        intro rngs
        cases collected depth peak cs rngs <;> rfl
      show ∫⁻ rngs, ((some l).bind fun l => (collected depth peak cs rngs).map (l ++ ·)).elim 0 g ∂(workers μ) = MeanOf μ (seqChunks depth peak cs >>= fun rest => pure (l ++ rest)) g
      rw [lintegral_congr e1, mean_collected depth peak cs, meanOf_bind (fin_seqChunks _ _ _) fun _ => fin_pure _]
      simp only [meanOf_pure]

/-! ## The rows -/

/-- The days one after the other, each the sum of its tasks. -/
def rowsOfTasks (depth : ℕ) (peak : List ℤ) : List (List Task) → Sim (List Profile)
  | [] => pure []
  | l :: ls => do
    let p ← sumRuns (l.map (taskRun depth peak))
    let ps ← rowsOfTasks depth peak ls
    pure (p :: ps)

theorem fin_taskRuns (depth : ℕ) (peak : List ℤ) (l : List Task) : ∀ m ∈ l.map (taskRun depth peak), Finitary m := by
  intro m hm
  obtain ⟨t, _, rfl⟩ := List.mem_map.1 hm
  exact fin_taskRun _ _ _

theorem fin_rowsOfTasks (depth : ℕ) (peak : List ℤ) : ∀ ls, Finitary (rowsOfTasks depth peak ls)
  | [] => fin_pure _
  | _ :: ls => fin_bind (fin_sumRuns (fin_taskRuns _ _ _)) fun _ => fin_bind (fin_rowsOfTasks depth peak ls) fun _ => fin_pure _

theorem rel_dayTasks (depth : ℕ) (peak : List ℤ) (k : ℕ) : ∀ (l : List Task), (∀ t ∈ l, t.dayIdx = k) →
    Rel (seqTasks depth peak l) (sumRuns (l.map (taskRun depth peak)))
      (fun res p => sumProfiles (res.map Prod.snd) = p ∧ (∀ x ∈ res, x.1 = k) ∧ res.length = l.length)
  | [], _ => rel_pure ⟨rfl, by simp, rfl⟩
  | t :: l, h => by
    show Rel (taskRun depth peak t >>= fun p => seqTasks depth peak l >>= fun rest => pure ((t.dayIdx, p) :: rest))
      (taskRun depth peak t >>= fun p => sumRuns (l.map (taskRun depth peak)) >>= fun q => pure (fun i => p i + q i)) _
    refine rel_bind_same fun p => rel_bind (rel_dayTasks depth peak k l fun t ht => h t (by simp [ht])) ?_
    rintro res q ⟨rfl, h2, h3⟩
    refine rel_pure ⟨?_, ?_, by simp [h3]⟩
    · funext i
      simp [sumProfiles]
    · intro x hx
      rcases List.mem_cons.1 hx with rfl | hx
      · exact h t (by simp)
      · exact h2 x hx

theorem parallelRows_skip {l res : List (ℕ × Profile)} {j : ℕ} (h : ∀ x ∈ l, x.1 < j) : ∀ (n k : ℕ), j ≤ k → parallelRows (l ++ res) k n = parallelRows res k n
  | 0, _, _ => by unfold parallelRows; rfl
  | n + 1, k, hk => by
    have : (l ++ res).filter (fun r => decide (r.1 = k)) = res.filter (fun r => decide (r.1 = k)) := by
      rw [List.filter_append, List.filter_eq_nil_iff.2, List.nil_append]
      intro x hx
      have := h x hx
      simp
      omega
    unfold parallelRows
    rw [this, parallelRows_skip h n (k + 1) (by omega)]

theorem rel_rowsOfTasks (depth : ℕ) (peak : List ℤ) : ∀ (ls : List (List Task)) (k : ℕ),
    (∀ (j : ℕ) l, ls[j]? = some l → l ≠ [] ∧ ∀ t ∈ l, t.dayIdx = k + j) →
    Rel (seqTasks depth peak ls.flatten) (rowsOfTasks depth peak ls) (fun res rows => (∀ x ∈ res, k ≤ x.1) ∧ parallelRows res k ls.length = .ok rows)
  | [], k, _ => rel_pure ⟨by simp, by unfold parallelRows; rfl⟩
  | l :: ls, k, h => by
    rw [List.flatten_cons, seqTasks_append]
    obtain ⟨hne, hk⟩ := h 0 l (by simp)
    show Rel _ (sumRuns (l.map (taskRun depth peak)) >>= fun p => rowsOfTasks depth peak ls >>= fun ps => pure (p :: ps)) _
    refine rel_bind (rel_dayTasks depth peak k l (by simpa using hk)) ?_
    rintro res p ⟨rfl, h2, h3⟩
    refine rel_bind (rel_rowsOfTasks depth peak ls (k + 1) fun j l hl => ?_) ?_
    · obtain ⟨h4, h5⟩ := h (j + 1) l (by simpa using hl)
      exact ⟨h4, fun t ht => by rw [h5 t ht]; omega⟩
    · rintro rest rows ⟨h4, h5⟩
      refine rel_pure ⟨?_, ?_⟩
      · intro x hx
        rcases List.mem_append.1 hx with hx | hx
        · rw [h2 x hx]
        · have := h4 x hx
          omega
      · have e1 : (res ++ rest).filter (fun r => decide (r.1 = k)) = res := by
          rw [List.filter_append, List.filter_eq_self.2 (by simpa using h2), List.filter_eq_nil_iff.2, List.append_nil]
          intro x hx
          have := h4 x hx
          simp
          omega
        rw [List.length_cons]
        unfold parallelRows
        rw [e1, parallelRows_skip (j := k + 1) (fun x hx => by rw [h2 x hx]; omega) _ _ le_rfl, h5]
        cases res with
        | nil => exact absurd (List.length_eq_zero_iff.1 h3.symm) hne
        | cons x res => rfl

/-! ## A day -/

theorem perm_replicate_flatten {α : Type} (n : ℕ) : ∀ l : List α, ((l.map (List.replicate n)).flatten).Perm (List.replicate n l).flatten
  | [] => by simp
  | a :: l => by
    rw [List.map_cons, List.flatten_cons]
    refine (List.Perm.append_left _ (perm_replicate_flatten n l)).trans ?_
    clear perm_replicate_flatten
    induction n with
    | zero => simp
    | succ n ih =>
      rw [List.replicate_succ, List.replicate_succ, List.flatten_cons, List.replicate_succ, List.flatten_cons, List.cons_append, List.cons_append]
      refine List.Perm.cons a ?_
      rw [← List.append_assoc]
      refine (List.Perm.append_right _ List.perm_append_comm).trans ?_
      rw [List.append_assoc]
      exact List.Perm.append_left _ ih

theorem memberRun_noPreference (depth k : ℕ) (peak : List ℤ) (dt : ℤ) (u : User) :
    memberRun depth k peak dt { u with userPreference := 0 } = sumRuns (u.appList.map (applianceRun depth k peak dt 0)) := by
  show (drawPreference 0 >>= fun pref => sumRuns (u.appList.map (applianceRun depth k peak dt pref))) = _
  have : drawPreference 0 = pure 0 := rfl
  rw [this, sim_pure_bind]

theorem sameLaw_day [IsProbabilityMeasure μ] (depth k : ℕ) (peak : List ℤ) (dt : ℤ) (us : List User) (h : ∀ u ∈ us, u.randDailyPref = 0) :
    SameLaw μ (sumRuns ((dayTasks us k dt).map (taskRun depth peak))) (caseRun depth k peak dt (noPreferences us)) := by
  have e : (dayTasks us k dt).map (taskRun depth peak) =
      (us.map (fun u => ((u.appList.map (applianceRun depth k peak dt 0)).map (List.replicate u.numUsers.toNat)).flatten)).flatten := by
    unfold dayTasks
    rw [List.map_flatten, List.map_map]
    congr 1
    refine List.ext_getElem (by simp) fun j h1 h2 => ?_
    have hj : j < us.length := by simpa using h2
    simp only [List.getElem_map, List.getElem_zipIdx, Function.comp_apply, List.map_flatten, List.map_map]
    congr 1
    refine List.map_congr_left fun a _ => ?_
    simp only [Function.comp_apply, List.map_replicate]
    unfold taskRun
    simp only
    rw [h _ (List.getElem_mem hj)]
  have hf : ∀ u : User, ∀ m ∈ u.appList.map (applianceRun depth k peak dt 0), Finitary m := by
    intro u m hm
    obtain ⟨a, _, rfl⟩ := List.mem_map.1 hm
    exact fin_applianceRun _ _ _ _ _ _
  have hf2 : ∀ u : User, ∀ m ∈ ((u.appList.map (applianceRun depth k peak dt 0)).map (List.replicate u.numUsers.toNat)).flatten, Finitary m := by
    intro u m hm
    obtain ⟨l, hl, hm⟩ := List.mem_flatten.1 hm
    obtain ⟨x, hx, rfl⟩ := List.mem_map.1 hl
    rw [List.eq_of_mem_replicate hm]
    exact hf u x hx
  rw [e]
  refine (sameLaw_flatten (by
    intro l hl m hm
    obtain ⟨u, _, rfl⟩ := List.mem_map.1 hl
    exact hf2 u m hm)).symm.trans ?_
  unfold caseRun noPreferences
  rw [List.map_map, List.map_map]
  refine sameLaw_sumRuns ?_
  rw [List.forall₂_map_left_iff, List.forall₂_map_right_iff]
  refine List.forall₂_same.2 fun u _ => ⟨fin_sumRuns (hf2 u), fin_userRun _ _ _ _ _, ?_⟩
  show SameLaw μ (sumRuns _) (sumRuns (List.replicate u.numUsers.toNat (memberRun depth k peak dt { u with userPreference := 0 })))
  rw [memberRun_noPreference]
  refine (sameLaw_perm (perm_replicate_flatten _ _) (hf2 u)).trans ?_
  have : List.replicate u.numUsers.toNat (sumRuns (u.appList.map (applianceRun depth k peak dt 0))) =
      (List.replicate u.numUsers.toNat (u.appList.map (applianceRun depth k peak dt 0))).map sumRuns := by
    rw [List.map_replicate]
  rw [this]
  refine (sameLaw_flatten (by
    intro l hl m hm
    rw [List.eq_of_mem_replicate hl] at hm
    exact hf u m hm)).symm

theorem sameLaw_rows [IsProbabilityMeasure μ] (depth : ℕ) (peak : List ℤ) (us : List User) (h : ∀ u ∈ us, u.randDailyPref = 0) : ∀ (ds : List ℤ) (k : ℕ),
    SameLaw μ (rowsOfTasks depth peak ((ds.zipIdx k).map (fun d => dayTasks us d.2 (getDayType (dayOf d.1))))) (rowsRun depth peak (noPreferences us) k ds)
  | [], _ => SameLaw.refl _
  | d :: ds, k => by
    rw [List.zipIdx_cons, List.map_cons]
    refine sameLaw_bind (fin_sumRuns (fin_taskRuns _ _ _)) (fin_caseRun _ _ _ _ _) (fun _ => fin_bind (fin_rowsOfTasks _ _ _) fun _ => fin_pure _)
      (fun _ => fin_bind (fin_rowsRun _ _ _ _ _) fun _ => fin_pure _) ?_ fun p =>
        sameLaw_bind (fin_rowsOfTasks _ _ _) (fin_rowsRun _ _ _ _ _) (fun _ => fin_pure _) (fun _ => fin_pure _) (sameLaw_rows depth peak us h ds (k + 1)) fun _ => SameLaw.refl _
    rw [dayType_spec]
    exact sameLaw_day depth k peak _ us h

/-! ## C105 -/

/-- The rows of parallel mode, without the exceptions, as a function of what is collected in order. -/
def rowsFrom (n : ℕ) (o : Option (List (ℕ × Profile))) : Option (List Profile) := o.bind fun res => (parallelRows res 0 n).toOption

theorem parallel_collected {depth : ℕ} {uc : UseCase} {ds peak : List ℤ} (hr : Ready uc ds peak) {order : List ℕ}
    (ho : ArrivalOrder uc.users ds order) (rngs : ℕ → Rng) :
    (generateParallel depth uc rngs order).toOption = rowsFrom ds.length (collected depth peak (chunks 3 (parallelTasks uc ds).length (parallelTasks uc ds)) rngs) := by
  have hl : (chunks 3 (parallelTasks uc ds).length (parallelTasks uc ds)).length = (runsPerDay uc.users * ds.length + 3) / 4 := by
    rw [chunks_length 3 _ _ le_rfl, parallelTasks_length]
  have h1 : (generateParallel depth uc rngs order).toOption = (generateParallel depth uc rngs (List.range ((runsPerDay uc.users * ds.length + 3) / 4))).toOption := by
    cases h : generateParallel depth uc rngs order with
    | error e =>
      obtain ⟨e', he⟩ := (C51_schedule_independent depth uc rngs ho).2 ⟨e, h⟩
      rw [he]
      rfl
    | ok rows => rw [(C51_schedule_independent depth uc rngs ho).1 rows h]
  rw [h1]
  unfold generateParallel collected
  rw [hr.days, hr.numDays, hr.peak, hl]
  simp only
  cases collectChunks depth peak (chunks 3 (parallelTasks uc ds).length (parallelTasks uc ds)) rngs (List.range ((runsPerDay uc.users * ds.length + 3) / 4)) with
  | error e => rfl
  | ok res =>
    simp only
    rw [if_neg (by omega), Int.toNat_natCast]
    rfl

theorem mean_parallel [IsProbabilityMeasure μ] {depth : ℕ} {uc : UseCase} {ds peak : List ℤ} (hr : Ready uc ds peak) (hd : DistinctAppliances uc.users)
    (ht : 0 < runsPerDay uc.users) (hp : ∀ u ∈ uc.users, u.randDailyPref = 0) (g : List Profile → ℝ≥0∞) :
    ∫⁻ rngs, (rowsFrom ds.length (collected depth peak (chunks 3 (parallelTasks uc ds).length (parallelTasks uc ds)) rngs)).elim 0 g ∂(workers μ) =
      MeanOf μ (rowsRun depth peak (noPreferences uc.users) 0 ds) g := by
  have e1 : ∀ o : Option (List (ℕ × Profile)), (rowsFrom ds.length o).elim 0 g = o.elim 0 (fun res => (parallelRows res 0 ds.length).toOption.elim 0 g) := by
    rintro (_ | res) <;> rfl
  rw [lintegral_congr fun rngs => e1 _, mean_collected, seqChunks_eq, chunks_flatten 3 _ _ le_rfl, parallelTasks_eq, ← sameLaw_rows depth peak uc.users hp ds 0 g]
  · have hlen : (ds.zipIdx.map (fun d => dayTasks uc.users d.2 (getDayType (dayOf d.1)))).length = ds.length := by simp
    have key := rel_rowsOfTasks depth peak (ds.zipIdx.map (fun d => dayTasks uc.users d.2 (getDayType (dayOf d.1)))) 0 (by
      intro j l hl
      rw [List.getElem?_map, List.getElem?_zipIdx] at hl
      cases hj : ds[j]? with
      | none => simp [hj] at hl
      | some d =>
        simp only [hj, Option.map_some, Option.some.injEq] at hl
        subst hl
        refine ⟨fun h0 => ?_, fun t ht => (mem_dayTasks ht).1⟩
        have := dayTasks_length uc.users (0 + j) (getDayType (dayOf d))
        rw [h0, List.length_nil] at this
        omega)
    rw [hlen] at key
    unfold MeanOf Mean
    refine lintegral_congr fun r => ?_
    unfold endOf
    rcases key r with ⟨e, h1, h2⟩ | ⟨res, rows, r', h1, h2, h3, h4⟩
    · rw [h1, h2]
      rfl
    · rw [h1, h2]
      show (parallelRows res 0 ds.length).toOption.elim 0 g = g rows
      rw [h4]
      rfl
  · intro c hc s hs t ht'
    exact coherent_tasks hd ds s (mem_chunks 3 _ _ le_rfl hc hs) t (mem_chunks 3 _ _ le_rfl hc ht')

/-- **C105.** The expected value of any quantity of the rows is the same in parallel mode and in sequential mode without preferences, whatever the order in which
the chunks arrive: the number and the independence of the workers' random numbers have no influence on the statistics. -/
theorem C105_same_means [IsProbabilityMeasure μ] {env : Env} {depth : ℕ} {uc : UseCase} {ds peak : List ℤ} (days : Option (List ℤ)) (hr : Ready uc ds peak)
    (hd : DistinctAppliances uc.users) (ht : 0 < runsPerDay uc.users) (hp : ∀ u ∈ uc.users, u.randDailyPref = 0)
    {order : List ℕ} (ho : ArrivalOrder uc.users ds order) (g : List Profile → ℝ≥0∞) :
    ParallelMean μ depth uc order g = MeanOf μ (dailyRows env depth { uc with users := noPreferences uc.users } days) g := by
  rw [dailyRows_eq days (uc := { uc with users := noPreferences uc.users }) ⟨hr.days, hr.numDays, hr.peak⟩, ← mean_parallel hr hd ht hp g]
  unfold ParallelMean
  refine lintegral_congr fun rngs => ?_
  rw [← parallel_collected hr ho rngs]
  cases generateParallel depth uc rngs order <;> rfl

/-- **C105.** Every event has the same probability in both modes. -/
theorem C105_same_chances [IsProbabilityMeasure μ] {env : Env} {depth : ℕ} {uc : UseCase} {ds peak : List ℤ} (days : Option (List ℤ)) (hr : Ready uc ds peak)
    (hd : DistinctAppliances uc.users) (ht : 0 < runsPerDay uc.users) (hp : ∀ u ∈ uc.users, u.randDailyPref = 0)
    {order : List ℕ} (ho : ArrivalOrder uc.users ds order) (φ : List Profile → Prop) :
    ParallelChance μ depth uc order φ = ChanceOf μ (dailyRows env depth { uc with users := noPreferences uc.users } days) φ := by
  classical
  rw [dailyRows_eq days (uc := { uc with users := noPreferences uc.users }) ⟨hr.days, hr.numDays, hr.peak⟩, chanceOf_eq (fin_rowsRun _ _ _ _ _), ← mean_parallel hr hd ht hp]
  unfold ParallelChance
  have hs : {rngs | ∃ rows, generateParallel depth uc rngs order = .ok rows ∧ φ rows} =
      (collected depth peak (chunks 3 (parallelTasks uc ds).length (parallelTasks uc ds))) ⁻¹' {o | ∃ rows, rowsFrom ds.length o = some rows ∧ φ rows} := by
    ext rngs
    show (∃ rows, generateParallel depth uc rngs order = .ok rows ∧ φ rows) ↔ ∃ rows, rowsFrom ds.length (collected depth peak _ rngs) = some rows ∧ φ rows
    rw [← parallel_collected hr ho rngs]
    cases generateParallel depth uc rngs order with
    | error e => simp [Except.toOption]
    | ok rows => simp [Except.toOption]
  have hm : MeasurableSet {rngs | ∃ rows, generateParallel depth uc rngs order = .ok rows ∧ φ rows} := by
    rw [hs]
    exact measurable_collected depth peak _ (MeasurableSpace.measurableSet_top)
  rw [← lintegral_indicator_one hm]
  refine lintegral_congr fun rngs => ?_
  rw [← parallel_collected hr ho rngs]
  by_cases hin : ∃ rows, generateParallel depth uc rngs order = .ok rows ∧ φ rows
  · rw [Set.indicator_of_mem (show rngs ∈ {rngs | ∃ rows, generateParallel depth uc rngs order = .ok rows ∧ φ rows} from hin)]
    obtain ⟨rows, h1, h2⟩ := hin
    rw [h1]
    show (1 : ℝ≥0∞) = if φ rows then 1 else 0
    rw [if_pos h2]
  · rw [Set.indicator_of_notMem (show rngs ∉ {rngs | ∃ rows, generateParallel depth uc rngs order = .ok rows ∧ φ rows} from hin)]
    cases h : generateParallel depth uc rngs order with
    | error e => rfl
    | ok rows =>
      show 0 = if φ rows then (1 : ℝ≥0∞) else 0
      rw [if_neg fun h2 => hin ⟨rows, h, h2⟩]

/-- **C105.** A use case whose users have no preferences has the same distribution in both modes. -/
theorem C105_same_distribution [IsProbabilityMeasure μ] {env : Env} {depth : ℕ} {uc : UseCase} {ds peak : List ℤ} (days : Option (List ℤ)) (hr : Ready uc ds peak)
    (hd : DistinctAppliances uc.users) (ht : 0 < runsPerDay uc.users) (hp : ∀ u ∈ uc.users, u.userPreference = 0 ∧ u.randDailyPref = 0)
    {order : List ℕ} (ho : ArrivalOrder uc.users ds order) :
    (∀ φ, ParallelChance μ depth uc order φ = ChanceOf μ (dailyRows env depth uc days) φ) ∧
    ∀ g, ParallelMean μ depth uc order g = MeanOf μ (dailyRows env depth uc days) g := by
  have e : noPreferences uc.users = uc.users := by
    unfold noPreferences
    refine (List.map_congr_left (g := id) fun u hu => ?_).trans (List.map_id _)
    have := (hp u hu).1
    cases u
    simp only at this
    rw [this]
    rfl
  have e2 : ({ uc with users := noPreferences uc.users } : UseCase) = uc := by rw [e]
  refine ⟨fun φ => ?_, fun g => ?_⟩
  · rw [C105_same_chances days hr hd ht (fun u hu => (hp u hu).2) ho φ, e2]
  · rw [C105_same_means days hr hd ht (fun u hu => (hp u hu).2) ho g, e2]

/-- A case for C105: in parallel mode too, whatever the order in which the chunks arrive, the lamp used three days out of ten has a binomial number of days
of use. -/
example [IsProbabilityMeasure μ] {order : List ℕ} (ho : order.Perm [0]) (j : ℕ) :
    ParallelChance μ 1000 (lampDays [{ numUsers := 1, appList := [sometimesLamp] }]) order (fun rows => daysWithLoad rows = j) =
      binomial 3 j (μ {d | d.u ≤ 3 / 10}) (μ {d | 3 / 10 < d.u}) := by
  rw [(C105_same_distribution (env := ⟨0, none⟩) (ds := [0, 1, 2]) (peak := [700]) none ⟨rfl, rfl, rfl⟩ (by simp [lampDays, DistinctAppliances])
    (by simp [lampDays, runsPerDay]) (by simp [lampDays]) (by simpa [lampDays, ArrivalOrder, runsPerDay] using ho)).1]
  exact C102_one_appliance (depth := 999) (ds := [0, 1, 2]) (peak := [700]) none ⟨rfl, rfl, rfl⟩ (by simp) rfl rfl rfl (by norm_num) sometimes_sensible sometimes_powers
    sometimes_visible (fun d _ pref _ h => by
      rcases h with h | h | h
      · exact h.1 rfl
      · exact h.2 rfl
      · exact absurd h (by norm_num [sometimesLamp])) j

/-- A case with preferences: parallel mode has the distribution of users without preferences. -/
example [IsProbabilityMeasure μ] {order : List ℕ} (ho : order.Perm [0, 1]) (φ : List Profile → Prop) :
    ParallelChance μ 1000 (lampDays [{ numUsers := 2, userPreference := 3, appList := [{ sometimesLamp with prefIndex := 1 }] }]) order φ =
      ChanceOf μ (dailyRows ⟨0, none⟩ 1000 (lampDays [{ numUsers := 2, userPreference := 0, appList := [{ sometimesLamp with prefIndex := 1 }] }]) none) φ :=
  C105_same_chances (env := ⟨0, none⟩) (ds := [0, 1, 2]) (peak := [700]) none ⟨rfl, rfl, rfl⟩ (by simp [lampDays, DistinctAppliances])
    (by simp [lampDays, runsPerDay]) (by simp [lampDays]) (by simpa [lampDays, ArrivalOrder, runsPerDay, List.range_succ] using ho) φ

end Ramp
