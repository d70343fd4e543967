import Verif.Lemmas.SumRuns
import Verif.Props.Algebra
import Verif.Props.NeverFails
import Mathlib.Algebra.BigOperators.Fin

/-! # C101 (the days of a simulation are independent) and C103 (order and grouping of the users do not change the distribution)

The random numbers are independent and each has the distribution `μ`, any probability distribution on draws. -/

set_option autoImplicit false

open MeasureTheory ENNReal

namespace Ramp

variable {μ : Measure Draw}

/-! ## C101 -/

theorem meanOf_rowsRun [IsProbabilityMeasure μ] (depth : ℕ) (peak : List ℤ) (us : List User) : ∀ (ds : List ℤ) (k : ℕ) (g : ℕ → Profile → ℝ≥0∞),
    MeanOf μ (rowsRun depth peak us k ds) (fun rows => ∏ j : Fin ds.length, g j (rows.getD j zeros)) =
      ∏ j : Fin ds.length, MeanOf μ (caseRun depth (k + j) peak (typeOfDay ds[j]) us) (g j)
  | [], k, g => by
    unfold rowsRun
    rw [meanOf_pure]
    rfl
  | d :: ds, k, g => by
    show MeanOf μ (caseRun depth k peak (typeOfDay d) us >>= fun p => rowsRun depth peak us (k + 1) ds >>= fun ps => pure (p :: ps)) _ = _
    rw [meanOf_bind (fin_caseRun _ _ _ _ _) fun p => fin_bind (fin_rowsRun _ _ _ _ _) fun ps => fin_pure _]
    have e1 : ∀ p : Profile, MeanOf μ (rowsRun depth peak us (k + 1) ds >>= fun ps => pure (p :: ps)) (fun rows => ∏ j : Fin (d :: ds).length, g j (rows.getD j zeros)) =
        g 0 p * MeanOf μ (rowsRun depth peak us (k + 1) ds) (fun rows => ∏ j : Fin ds.length, g (j + 1) (rows.getD j zeros)) := by
      intro p
      rw [meanOf_bind (fin_rowsRun _ _ _ _ _) fun ps => fin_pure _, ← meanOf_mul_left (fin_rowsRun _ _ _ _ _)]
      congr 1
      funext ps
      rw [meanOf_pure]
      show ∏ j : Fin (ds.length + 1), g j ((p :: ps).getD j zeros) = _
      rw [Fin.prod_univ_succ]
      rfl
    simp only [e1]
    rw [meanOf_mul_right (fin_caseRun _ _ _ _ _), meanOf_rowsRun depth peak us ds (k + 1) (fun j => g (j + 1))]
    show _ = ∏ j : Fin (ds.length + 1), MeanOf μ (caseRun depth (k + j) peak (typeOfDay (d :: ds)[j]) us) (g j)
    rw [Fin.prod_univ_succ]
    congr 1
    refine Finset.prod_congr rfl fun j _ => ?_
    rw [show k + 1 + (j : ℕ) = k + (j + 1) by omega]
    rfl

/-- **C101.** The rows of a simulation are those of a program that runs, one after the other and each with fresh random numbers, the days, on each day
the users, for each user the members, and for each member its appliances, every run starting from the appliances as they were defined: the same
rows or the same exception, whatever the random numbers. -/
theorem C101_runs {env : Env} {depth : ℕ} {uc : UseCase} {ds peak : List ℤ} (days : Option (List ℤ)) (hr : Ready uc ds peak) (rng : Rng) :
    dailyRows env depth uc days rng = rowsRun depth peak uc.users 0 ds rng := by rw [dailyRows_eq days hr]

/-- **C101.** The expected value of a product of quantities of the days is the product of the expected values, each that of the run of one day. -/
theorem C101_expected_products [IsProbabilityMeasure μ] {env : Env} {depth : ℕ} {uc : UseCase} {ds peak : List ℤ} (days : Option (List ℤ)) (hr : Ready uc ds peak)
    (g : ℕ → Profile → ℝ≥0∞) :
    MeanOf μ (dailyRows env depth uc days) (fun rows => ∏ k : Fin ds.length, g k (rows.getD k zeros)) =
      ∏ k : Fin ds.length, MeanOf μ (caseRun depth k peak (typeOfDay ds[k]) uc.users) (g k) := by
  rw [dailyRows_eq days hr, meanOf_rowsRun]
  simp only [zero_add]

theorem fin_dailyRows {env : Env} {depth : ℕ} {uc : UseCase} {ds peak : List ℤ} (days : Option (List ℤ)) (hr : Ready uc ds peak) :
    Finitary (dailyRows env depth uc days) := by
  rw [dailyRows_eq days hr]
  exact fin_rowsRun _ _ _ _ _

theorem returns_length {env : Env} {depth : ℕ} {uc : UseCase} {ds peak : List ℤ} {days : Option (List ℤ)} (hr : Ready uc ds peak) {rows : List Profile}
    (h : Returns (dailyRows env depth uc days) rows) : rows.length = ds.length := by
  rw [dailyRows_eq days hr] at h
  exact ((sat_iff.1 (rowsRun_length depth peak uc.users ds 0)).1 rows h)

open Classical in
/-- **C101.** The probability that every row `k` has a property `φ k` (and no exception is raised) is the product of the probabilities for the days. -/
theorem C101_days [IsProbabilityMeasure μ] {env : Env} {depth : ℕ} {uc : UseCase} {ds peak : List ℤ} (days : Option (List ℤ)) (hr : Ready uc ds peak)
    (φ : ℕ → Profile → Prop) :
    ChanceOf μ (dailyRows env depth uc days) (fun rows => ∀ k p, rows[k]? = some p → φ k p) =
      ∏ k : Fin ds.length, ChanceOf μ (caseRun depth k peak (typeOfDay ds[k]) uc.users) (φ k) := by
  rw [chanceOf_eq (fin_dailyRows days hr)]
  have e1 : MeanOf μ (dailyRows env depth uc days) (fun rows => if (∀ k p, rows[k]? = some p → φ k p) then 1 else 0) =
      MeanOf μ (dailyRows env depth uc days) (fun rows => ∏ k : Fin ds.length, if φ k (rows.getD k zeros) then 1 else 0) := by
    refine meanOf_congr fun rows h => ?_
    have hl := returns_length hr h
    by_cases hall : ∀ k p, rows[k]? = some p → φ k p
    · rw [if_pos hall, Finset.prod_eq_one]
      intro k _
      rw [if_pos]
      refine hall k _ ?_
      rw [List.getD_eq_getElem?_getD, List.getElem?_eq_getElem (by rw [hl]; exact k.2)]
      rfl
    · rw [if_neg hall]
      simp only [not_forall] at hall
      obtain ⟨k, p, hk, hφ⟩ := hall
      obtain ⟨hk1, hk2⟩ := List.getElem?_eq_some_iff.1 hk
      refine (Finset.prod_eq_zero (Finset.mem_univ (⟨k, by rw [← hl]; exact hk1⟩ : Fin ds.length)) ?_).symm
      rw [if_neg]
      rw [List.getD_eq_getElem?_getD]
      simp only [hk]
      exact hφ
  rw [e1, C101_expected_products days hr (fun k p => if φ k p then 1 else 0)]
  refine Finset.prod_congr rfl fun k _ => ?_
  rw [chanceOf_eq (fin_caseRun _ _ _ _ _)]

/-- **C101.** If the simulation almost surely does not raise, the days are independent: the probability that every row `k` has the property `φ k` is the
product of the probabilities that row `k` has it. -/
theorem C101_independent_days [IsProbabilityMeasure μ] {env : Env} {depth : ℕ} {uc : UseCase} {ds peak : List ℤ} {days : Option (List ℤ)} (hr : Ready uc ds peak)
    (hn : ChanceOf μ (dailyRows env depth uc days) (fun _ => True) = 1) (φ : ℕ → Profile → Prop) :
    ChanceOf μ (dailyRows env depth uc days) (fun rows => ∀ k p, rows[k]? = some p → φ k p) =
      ∏ k : Fin ds.length, ChanceOf μ (dailyRows env depth uc days) (fun rows => ∀ p, rows[(k : ℕ)]? = some p → φ k p) := by
  have hone : ∀ k : Fin ds.length, ChanceOf μ (caseRun depth k peak (typeOfDay ds[k]) uc.users) (fun _ => True) = 1 := by
    have h := C101_days (μ := μ) (env := env) (depth := depth) days hr (fun _ _ => True)
    simp only [implies_true] at h
    rw [hn] at h
    intro k
    exact (Finset.prod_eq_one_iff_of_le_one' fun k _ => chanceOf_le_one _).1 h.symm k (Finset.mem_univ k)
  rw [C101_days days hr]
  refine Finset.prod_congr rfl fun k _ => ?_
  have h := C101_days (μ := μ) (env := env) (depth := depth) days hr (fun j p => j = k → φ k p)
  rw [Finset.prod_eq_single k] at h
  · simp only [forall_const] at h
    rw [← h]
    refine chanceOf_congr fun rows _ => ⟨fun h p hp => h k p hp rfl, fun h j p hj hjk => ?_⟩
    exact h p (hjk ▸ hj)
  · intro j _ hjk
    rw [← hone j]
    refine chanceOf_congr fun p _ => ⟨fun _ => trivial, fun _ h => absurd (Fin.ext h) hjk⟩
  · exact fun h => absurd (Finset.mem_univ k) h

theorem applianceRun_index {depth j k : ℕ} {peak : List ℤ} {dt pref : ℤ} {a : Appliance} (h : a.power[j]? = a.power[k]?) :
    applianceRun depth j peak dt pref a = applianceRun depth k peak dt pref a := by
  unfold applianceRun generateLoadProfile generateLoadProfileInfo
  simp only [h]

theorem caseRun_index {depth j k : ℕ} {peak : List ℤ} {dt : ℤ} {us : List User} (h : ∀ u ∈ us, ∀ a ∈ u.appList, a.power[j]? = a.power[k]?) :
    caseRun depth j peak dt us = caseRun depth k peak dt us := by
  unfold caseRun
  congr 1
  refine List.map_congr_left fun u hu => ?_
  have : memberRun depth j peak dt u = memberRun depth k peak dt u := by
    unfold memberRun
    refine congrArg _ (funext fun pref => congrArg sumRuns ?_)
    exact List.map_congr_left fun a ha => applianceRun_index (h u hu a ha)
  unfold userRun
  rw [this]

/-- **C101.** The days are identically distributed as far as their type and the powers allow: if the powers of day `k` are those of day 0, the row of day
`k` has the distribution of the row of a simulation of a single day, any date of the same type. -/
theorem C101_one_day [IsProbabilityMeasure μ] {env : Env} {depth : ℕ} {uc : UseCase} {ds peak : List ℤ} {days : Option (List ℤ)} (hr : Ready uc ds peak)
    (hn : ChanceOf μ (dailyRows env depth uc days) (fun _ => True) = 1) {k : ℕ} {d d' : ℤ} (hd : ds[k]? = some d) (ht : typeOfDay d' = typeOfDay d)
    (hp : ∀ u ∈ uc.users, ∀ a ∈ u.appList, a.power[k]? = a.power[0]?) (φ : Profile → Prop) :
    ChanceOf μ (dailyRows env depth uc days) (fun rows => ∀ p, rows[k]? = some p → φ p) =
      ChanceOf μ (dailyRows env depth { uc with days := some [d'], numDays := some 1 } days) (fun rows => ∀ p, rows[0]? = some p → φ p) := by
  have hr' : Ready { uc with days := some [d'], numDays := some 1 } [d'] peak := ⟨rfl, rfl, hr.peak⟩
  obtain ⟨hk, rfl⟩ := List.getElem?_eq_some_iff.1 hd
  have e1 : ChanceOf μ (dailyRows env depth { uc with days := some [d'], numDays := some 1 } days) (fun rows => ∀ p, rows[0]? = some p → φ p) =
      ChanceOf μ (caseRun depth 0 peak (typeOfDay d') uc.users) φ := by
    have h := C101_days (μ := μ) (env := env) (depth := depth) days hr' (fun _ => φ)
    have h2 : ∏ k : Fin [d'].length, ChanceOf μ (caseRun depth k peak (typeOfDay [d'][k]) uc.users) φ = ChanceOf μ (caseRun depth 0 peak (typeOfDay d') uc.users) φ :=
      Fin.prod_univ_one _
    rw [← h2, ← h]
    refine chanceOf_congr fun rows hrows => ⟨fun h k p hp => ?_, fun h p hp => h 0 p hp⟩
    have hl := returns_length hr' hrows
    have := (List.getElem?_eq_some_iff.1 hp).1
    rw [hl] at this
    simp only [List.length_cons, List.length_nil] at this
    obtain rfl : k = 0 := by omega
    exact h p hp
  have hone : ∀ k : Fin ds.length, ChanceOf μ (caseRun depth k peak (typeOfDay ds[k]) uc.users) (fun _ => True) = 1 := by
    have h := C101_days (μ := μ) (env := env) (depth := depth) days hr (fun _ _ => True)
    simp only [implies_true] at h
    rw [hn] at h
    intro k
    exact (Finset.prod_eq_one_iff_of_le_one' fun k _ => chanceOf_le_one _).1 h.symm k (Finset.mem_univ k)
  have h := C101_days (μ := μ) (env := env) (depth := depth) days hr (fun j p => j = k → φ p)
  rw [Finset.prod_eq_single (⟨k, hk⟩ : Fin ds.length)] at h
  · simp only [forall_const] at h
    rw [e1, ht, ← caseRun_index hp]
    refine Eq.trans ?_ h
    refine chanceOf_congr fun rows _ => ⟨fun h j p hj hjk => ?_, fun h p hp => h k p hp rfl⟩
    exact h p (hjk ▸ hj)
  · intro j _ hjk
    rw [← hone j]
    refine chanceOf_congr fun p _ => ⟨fun _ => trivial, fun _ h => absurd (Fin.ext h) hjk⟩
  · exact fun h => absurd (Finset.mem_univ _) h

/-! ## C103 -/

theorem ready_users {uc : UseCase} {ds peak : List ℤ} (hr : Ready uc ds peak) (vs : List User) : Ready { uc with users := vs } ds peak :=
  ⟨hr.days, hr.numDays, hr.peak⟩

theorem sameLaw_rowsRun [IsProbabilityMeasure μ] (depth : ℕ) (peak : List ℤ) {us vs : List User}
    (h : ∀ k dt, SameLaw μ (caseRun depth k peak dt us) (caseRun depth k peak dt vs)) : ∀ (ds : List ℤ) (k : ℕ), SameLaw μ (rowsRun depth peak us k ds) (rowsRun depth peak vs k ds)
  | [], _ => SameLaw.refl _
  | _ :: ds, k => sameLaw_bind (fin_caseRun _ _ _ _ _) (fin_caseRun _ _ _ _ _) (fun _ => fin_bind (fin_rowsRun _ _ _ _ _) fun _ => fin_pure _)
      (fun _ => fin_bind (fin_rowsRun _ _ _ _ _) fun _ => fin_pure _) (h k _) fun _ =>
        sameLaw_bind (fin_rowsRun _ _ _ _ _) (fin_rowsRun _ _ _ _ _) (fun _ => fin_pure _) (fun _ => fin_pure _) (sameLaw_rowsRun depth peak h ds (k + 1)) fun _ => SameLaw.refl _

theorem sameLaw_dailyRows [IsProbabilityMeasure μ] {env : Env} {depth : ℕ} {uc : UseCase} {ds peak : List ℤ} (days : Option (List ℤ)) (hr : Ready uc ds peak) {vs : List User}
    (h : ∀ k dt, SameLaw μ (caseRun depth k peak dt uc.users) (caseRun depth k peak dt vs)) :
    SameLaw μ (dailyRows env depth uc days) (dailyRows env depth { uc with users := vs } days) := by
  have hr' : Ready { uc with users := vs } ds peak := ⟨hr.days, hr.numDays, hr.peak⟩
  rw [dailyRows_eq days hr, dailyRows_eq days hr']
  exact sameLaw_rowsRun depth peak h ds 0

theorem sameLaw_member [IsProbabilityMeasure μ] (depth k : ℕ) (peak : List ℤ) (dt : ℤ) {u v : User} (h : SameAppliances u v) :
    SameLaw μ (memberRun depth k peak dt u) (memberRun depth k peak dt v) := by
  unfold memberRun
  rw [h.preference]
  have hf : ∀ (w : User) pref, ∀ m ∈ w.appList.map (applianceRun depth k peak dt pref), Finitary m := by
    intro w pref m hm
    obtain ⟨a, _, rfl⟩ := List.mem_map.1 hm
    exact fin_applianceRun _ _ _ _ _ _
  exact sameLaw_bind (fin_drawPreference _) (fin_drawPreference _) (fun p => fin_sumRuns (hf u p)) (fun p => fin_sumRuns (hf v p)) (SameLaw.refl _) fun p =>
    sameLaw_perm (h.appliances.map _) (hf u p)

theorem sameLaw_user [IsProbabilityMeasure μ] (depth k : ℕ) (peak : List ℤ) (dt : ℤ) {u v : User} (h : SameAppliances u v) :
    SameLaw μ (userRun depth k peak dt u) (userRun depth k peak dt v) := by
  unfold userRun
  rw [h.number]
  refine sameLaw_sumRuns ?_
  induction u.numUsers.toNat with
  | zero => exact .nil
  | succ n ih => exact .cons ⟨fin_memberRun _ _ _ _ _, fin_memberRun _ _ _ _ _, sameLaw_member depth k peak dt h⟩ ih

theorem sameLaw_case [IsProbabilityMeasure μ] (depth k : ℕ) (peak : List ℤ) (dt : ℤ) {us vs : List User} (h : SameUpToOrder us vs) :
    SameLaw μ (caseRun depth k peak dt us) (caseRun depth k peak dt vs) := by
  obtain ⟨ws, h1, h2⟩ := h
  refine (sameLaw_perm (h1.map _) ?_).trans (sameLaw_sumRuns ?_)
  · intro m hm
    obtain ⟨u, _, rfl⟩ := List.mem_map.1 hm
    exact fin_userRun _ _ _ _ _
  · clear h1
    induction h2 with
    | nil => exact .nil
    | cons h _ ih => exact .cons ⟨fin_userRun _ _ _ _ _, fin_userRun _ _ _ _ _, sameLaw_user depth k peak dt h⟩ ih

/-- **C103.** The order of the users and of the appliances of each user does not change the distribution of the rows: every set of rows is returned with
the same probability, every quantity of the rows has the same expected value. -/
theorem C103_order [IsProbabilityMeasure μ] {env : Env} {depth : ℕ} {uc : UseCase} {ds peak : List ℤ} (days : Option (List ℤ)) (hr : Ready uc ds peak)
    {vs : List User} (h : SameUpToOrder uc.users vs) :
    (∀ φ, ChanceOf μ (dailyRows env depth uc days) φ = ChanceOf μ (dailyRows env depth { uc with users := vs } days) φ) ∧
    ∀ g, MeanOf μ (dailyRows env depth uc days) g = MeanOf μ (dailyRows env depth { uc with users := vs } days) g := by
  have hs := sameLaw_dailyRows (μ := μ) (env := env) (depth := depth) days hr fun k dt => sameLaw_case depth k peak dt h
  exact ⟨fun φ => chanceOf_sameLaw (fin_dailyRows days hr) (fin_dailyRows days (ready_users hr _)) hs φ, hs⟩

theorem sameLaw_split [IsProbabilityMeasure μ] (depth k : ℕ) (peak : List ℤ) (dt : ℤ) {before after : List User} {u : User} {n m : ℤ} (hn : 0 ≤ n) (hm : 0 ≤ m) :
    SameLaw μ (caseRun depth k peak dt (before ++ { u with numUsers := n + m } :: after))
      (caseRun depth k peak dt (before ++ { u with numUsers := n } :: { u with numUsers := m } :: after)) := by
  have hf : ∀ us : List User, ∀ x ∈ us.map (userRun depth k peak dt), Finitary x := by
    intro us x hx
    obtain ⟨v, _, rfl⟩ := List.mem_map.1 hx
    exact fin_userRun _ _ _ _ _
  have hrun : ∀ j : ℤ, userRun depth k peak dt { u with numUsers := j } = sumRuns (List.replicate j.toNat (memberRun depth k peak dt u)) := fun _ => rfl
  have hrep : ∀ j : ℕ, ∀ x ∈ List.replicate j (memberRun depth k peak dt u), Finitary x := fun j x hx => by
    rw [List.eq_of_mem_replicate hx]
    exact fin_memberRun _ _ _ _ _
  intro g
  unfold caseRun
  rw [List.map_append, List.map_append, meanOf_sumRuns_append (hf _) (hf _), meanOf_sumRuns_append (hf _) (hf _)]
  congr 1
  funext p
  rw [List.map_cons, List.map_cons, List.map_cons, meanOf_sumRuns_cons (fin_userRun _ _ _ _ _) (hf _), meanOf_sumRuns_cons (fin_userRun _ _ _ _ _) (by
    intro x hx
    rcases List.mem_cons.1 hx with rfl | hx
    · exact fin_userRun _ _ _ _ _
    · exact hf _ x hx)]
  rw [hrun, hrun, Int.toNat_add hn hm, List.replicate_add, meanOf_sumRuns_append (hrep _) (hrep _)]
  congr 1
  funext q
  rw [meanOf_sumRuns_cons (fin_userRun _ _ _ _ _) (hf _), hrun]
  congr 1
  funext s
  congr 1
  funext t
  congr 1
  funext i
  ring

/-- **C103.** Splitting a user category of `n + m` members into two categories of `n` and `m` members does not change the distribution of the rows. -/
theorem C103_split [IsProbabilityMeasure μ] {env : Env} {depth : ℕ} {uc : UseCase} {ds peak : List ℤ} (days : Option (List ℤ)) (hr : Ready uc ds peak)
    {before after : List User} {u : User} {n m : ℤ} (hn : 0 ≤ n) (hm : 0 ≤ m) (hu : uc.users = before ++ { u with numUsers := n + m } :: after) :
    (∀ φ, ChanceOf μ (dailyRows env depth uc days) φ =
      ChanceOf μ (dailyRows env depth { uc with users := before ++ { u with numUsers := n } :: { u with numUsers := m } :: after } days) φ) ∧
    ∀ g, MeanOf μ (dailyRows env depth uc days) g =
      MeanOf μ (dailyRows env depth { uc with users := before ++ { u with numUsers := n } :: { u with numUsers := m } :: after } days) g := by
  have hs := sameLaw_dailyRows (μ := μ) (env := env) (depth := depth) days hr (vs := before ++ { u with numUsers := n } :: { u with numUsers := m } :: after) fun k dt => by
    rw [hu]
    exact sameLaw_split depth k peak dt hn hm
  exact ⟨fun φ => chanceOf_sameLaw (fin_dailyRows days hr) (fin_dailyRows days (ready_users hr _)) hs φ, hs⟩

end Ramp
