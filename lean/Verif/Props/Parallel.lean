import Verif.Lemmas.Parallel
import Verif.Props.Days

/-! # C51, C52: parallel mode -/

set_option autoImplicit false

namespace Ramp

/-! ## The tasks -/

/-- The tasks of one day. -/
def dayTasks (us : List User) (k : ℕ) (dt : ℤ) : List Task :=
  (us.zipIdx.map (fun u => (u.1.appList.map (fun a => List.replicate u.1.numUsers.toNat (⟨u.2, a, u.1.randDailyPref, k, dt⟩ : Task))).flatten)).flatten

theorem parallelTasks_eq (uc : UseCase) (ds : List ℤ) :
    parallelTasks uc ds = (ds.zipIdx.map (fun d => dayTasks uc.users d.2 (getDayType (dayOf d.1)))).flatten := rfl

theorem mem_dayTasks {us : List User} {k : ℕ} {dt : ℤ} {t : Task} (h : t ∈ dayTasks us k dt) :
    t.dayIdx = k ∧ t.dayType = dt ∧ ∃ u, us[t.user]? = some u ∧ t.app ∈ u.appList ∧ t.pref = u.randDailyPref ∧ 0 < u.numUsers.toNat := by
  unfold dayTasks at h
  simp only [List.mem_flatten, List.mem_map] at h
  obtain ⟨l, ⟨⟨u, i⟩, hu, rfl⟩, h2⟩ := h
  simp only [List.mem_flatten, List.mem_map] at h2
  obtain ⟨l', ⟨a, ha, rfl⟩, h3⟩ := h2
  rw [List.mem_replicate] at h3
  obtain ⟨h3, rfl⟩ := h3
  exact ⟨rfl, rfl, u, by simpa using List.mem_zipIdx_iff_getElem?.1 hu, ha, rfl, by omega⟩

theorem dayTasks_length (us : List User) (k : ℕ) (dt : ℤ) : (dayTasks us k dt).length = runsPerDay us := by
  unfold dayTasks runsPerDay
  rw [List.length_flatten, List.map_map]
  have : (List.length ∘ fun (u : User × ℕ) => (u.1.appList.map (fun a => List.replicate u.1.numUsers.toNat (⟨u.2, a, u.1.randDailyPref, k, dt⟩ : Task))).flatten)
      = (fun (u : User) => u.numUsers.toNat * u.appList.length) ∘ Prod.fst := by
    funext u
    simp only [Function.comp_apply, List.length_flatten, List.map_map]
    rw [show (List.length ∘ fun a => List.replicate u.1.numUsers.toNat (⟨u.2, a, u.1.randDailyPref, k, dt⟩ : Task)) = fun _ => u.1.numUsers.toNat by
      funext a; simp]
    simp [Nat.mul_comm]
  rw [this, ← List.map_map, List.zipIdx_map_fst]

theorem parallelTasks_length (uc : UseCase) (ds : List ℤ) : (parallelTasks uc ds).length = runsPerDay uc.users * ds.length := by
  rw [parallelTasks_eq, List.length_flatten, List.map_map]
  rw [show (List.length ∘ fun (d : ℤ × ℕ) => dayTasks uc.users d.2 (getDayType (dayOf d.1))) = fun _ => runsPerDay uc.users by
    funext d; exact dayTasks_length _ _ _]
  simp [Nat.mul_comm]

theorem eq_of_oid {apps : List Appliance} (hn : (apps.map Appliance.oid).Nodup) {a b : Appliance} (ha : a ∈ apps) (hb : b ∈ apps)
    (h : a.oid = b.oid) : a = b := List.inj_on_of_nodup_map hn ha hb h

theorem coherent_tasks {uc : UseCase} (hd : DistinctAppliances uc.users) (ds : List ℤ) : Coherent (parallelTasks uc ds) := by
  intro s hs t ht hu ho
  rw [parallelTasks_eq] at hs ht
  simp only [List.mem_flatten, List.mem_map] at hs ht
  obtain ⟨_, ⟨d, _, rfl⟩, hs⟩ := hs
  obtain ⟨_, ⟨d', _, rfl⟩, ht⟩ := ht
  obtain ⟨_, _, u, h1, h2, _⟩ := mem_dayTasks hs
  obtain ⟨_, _, v, h3, h4, _⟩ := mem_dayTasks ht
  rw [hu, h3] at h1
  cases h1
  rw [eq_of_oid (hd _ (List.mem_of_getElem? h3)) h2 h4 ho]
  exact SameDefinition.refl _

theorem filter_flatten {α : Type} (f : α → ℕ) : ∀ (ls : List (List α)) (off k : ℕ), (∀ (j : ℕ) l, ls[j]? = some l → ∀ x ∈ l, f x = off + j) →
    ls.flatten.filter (fun x => f x = off + k) = (ls[k]?).getD []
  | [], off, k, _ => by simp
  | l :: ls, off, k, h => by
    rw [List.flatten_cons, List.filter_append]
    have h0 := h 0 l rfl
    cases k with
    | zero =>
      have h2 : ls.flatten.filter (fun x => f x = off + 0) = [] := by
        rw [List.filter_eq_nil_iff]
        intro x hx
        obtain ⟨m, hm, hx⟩ := List.mem_flatten.1 hx
        obtain ⟨j, hj⟩ := List.mem_iff_getElem?.1 hm
        have := h (j + 1) m (by simpa using hj) x hx
        simp
        omega
      rw [h2, List.append_nil]
      simp only [List.getElem?_cons_zero, Option.getD_some]
      rw [List.filter_eq_self]
      intro x hx
      simp [h0 x hx]
    | succ k =>
      have h2 : l.filter (fun x => f x = off + (k + 1)) = [] := by
        rw [List.filter_eq_nil_iff]
        intro x hx
        have := h0 x hx
        simp
        omega
      rw [h2, List.nil_append]
      have := filter_flatten f ls (off + 1) k (fun j l hl x hx => by
        have := h (j + 1) l (by simpa using hl) x hx
        omega)
      rw [show off + (k + 1) = off + 1 + k by omega, this]
      simp

/-! ## The possible results -/

theorem sumOver {α : Type} {TD : Task → Profile → Prop} {R : α → Profile → Prop} (f : α → List Task) : ∀ (l : List α)
    (_ : ∀ a ∈ l, ∀ p, R a p ↔ ∃ ps, List.Forall₂ TD (f a) ps ∧ p = total ps) (p : Profile),
    (∃ qs, List.Forall₂ R l qs ∧ p = total qs) ↔ ∃ ps, List.Forall₂ TD (l.map f).flatten ps ∧ p = total ps
  | [], _, p => by
    constructor
    · rintro ⟨qs, h, rfl⟩; cases h; exact ⟨[], .nil, rfl⟩
    · rintro ⟨qs, h, rfl⟩
      rw [List.map_nil, List.flatten_nil] at h
      cases h; exact ⟨[], .nil, rfl⟩
  | a :: l, h, p => by
    have ih := sumOver (R := R) f l fun b hb => h b (by simp [hb])
    rw [List.map_cons, List.flatten_cons]
    have total_append : ∀ (xs ys : List Profile), total (xs ++ ys) = fun i => total xs i + total ys i := fun xs ys => by
      funext i; simp [total]
    constructor
    · rintro ⟨qs, hq, rfl⟩
      cases hq with
      | @cons _ q _ qs h1 h2 =>
        obtain ⟨ps, h3, rfl⟩ := (h a (by simp) q).1 h1
        obtain ⟨ps', h4, h5⟩ := (ih (total qs)).1 ⟨qs, h2, rfl⟩
        refine ⟨ps ++ ps', List.rel_append h3 h4, ?_⟩
        rw [total_cons, total_append, h5]
    · rintro ⟨ps, hp, rfl⟩
      have h1 : List.Forall₂ TD (f a) (ps.take (f a).length) := by
        have := List.forall₂_take (f a).length hp
        rwa [List.take_left] at this
      have h2 : List.Forall₂ TD (l.map f).flatten (ps.drop (f a).length) := by
        have := List.forall₂_drop (f a).length hp
        rwa [List.drop_left] at this
      obtain ⟨qs, h3, h4⟩ := (ih _).2 ⟨_, h2, rfl⟩
      refine ⟨total (ps.take (f a).length) :: qs, .cons ((h a (by simp) _).2 ⟨_, h1, rfl⟩) h3, ?_⟩
      rw [total_cons, ← h4, ← total_append, List.take_append_drop]

theorem forall₂_replicate {α β : Type} {R : α → β → Prop} {a : α} : ∀ {n : ℕ} {l : List β},
    List.Forall₂ R (List.replicate n a) l ↔ l.length = n ∧ ∀ b ∈ l, R a b
  | 0, l => by
    rw [List.replicate_zero]
    constructor
    · intro h; cases h; simp
    · rintro ⟨h, _⟩; rw [List.length_eq_zero_iff.1 h]; exact .nil
  | n + 1, [] => by
    rw [List.replicate_succ]
    constructor
    · intro h; cases h
    · rintro ⟨h, _⟩; simp at h
  | n + 1, b :: l => by
    rw [List.replicate_succ, List.forall₂_cons, forall₂_replicate]
    simp only [List.length_cons, List.mem_cons, forall_eq_or_imp]
    constructor
    · rintro ⟨h1, h2, h3⟩; exact ⟨by omega, h1, h3⟩
    · rintro ⟨h1, h2, h3⟩; exact ⟨h2, by omega, h3⟩

/-- The run of a task. -/
def TaskDay (depth : ℕ) (peak : List ℤ) (t : Task) (p : Profile) : Prop := ApplianceDay depth t.dayIdx peak t.dayType t.pref t.app p

theorem parallelDay_iff {depth k : ℕ} {peak : List ℤ} {dt : ℤ} {us : List User} {p : Profile} :
    ParallelDay depth k peak dt us p ↔ ∃ ps, List.Forall₂ (TaskDay depth peak) (dayTasks us k dt) ps ∧ p = total ps := by
  unfold dayTasks
  rw [← sumOver (R := fun (u : User × ℕ) q => ParallelUserDay depth k peak dt u.1 q)]
  · unfold ParallelDay
    have : ∀ qs, List.Forall₂ (fun (u : User × ℕ) q => ParallelUserDay depth k peak dt u.1 q) us.zipIdx qs ↔
        List.Forall₂ (ParallelUserDay depth k peak dt) us qs := by
      intro qs
      have := List.forall₂_map_left_iff (R := ParallelUserDay depth k peak dt) (f := (Prod.fst : User × ℕ → User)) (l := us.zipIdx) (u := qs)
      rw [List.zipIdx_map_fst] at this
      exact this.symm
    simp only [this]
  · rintro ⟨u, i⟩ _ q
    simp only
    unfold ParallelUserDay
    rw [← sumOver]
    intro a _ q
    simp only [forall₂_replicate]
    constructor
    · rintro ⟨rs, h1, h2, h3⟩; exact ⟨rs, ⟨h1, h2⟩, h3⟩
    · rintro ⟨rs, ⟨h1, h2⟩, h3⟩; exact ⟨rs, h1, h2, h3⟩

theorem taskResults_iff {depth k : ℕ} {peak : List ℤ} {ts : List Task} (hk : ∀ t ∈ ts, t.dayIdx = k) : ∀ (p : Profile),
    (∃ l, List.Forall₂ (TaskResult depth peak) ts l ∧ p = total (l.map (fun r => r.2))) ↔ ∃ ps, List.Forall₂ (TaskDay depth peak) ts ps ∧ p = total ps := by
  intro p
  constructor
  · rintro ⟨l, h, rfl⟩
    exact ⟨l.map (fun r => r.2), List.forall₂_map_right_iff.2 (h.imp fun t r hr => hr.2), rfl⟩
  · rintro ⟨ps, h, rfl⟩
    refine ⟨ps.map (fun q => (k, q)), ?_, by simp [List.map_map, Function.comp_def]⟩
    rw [List.forall₂_map_right_iff]
    induction h with
    | nil => exact .nil
    | cons h1 h2 ih => exact .cons ⟨(hk _ (by simp)).symm, h1⟩ (ih fun t ht => hk t (by simp [ht]))

/-- **C51.** The result does not depend on the order in which the chunks of results arrive: for the same draws in the workers, if one order
gives an array then every order gives that array; if one order fails every order fails.  (Sums are exact in the model; the sums of
floats depend on the order in their last digits.) -/
theorem C51_schedule_independent (depth : ℕ) (uc : UseCase) (rngs : ℕ → Rng) {order order' : List ℕ} (h : order.Perm order') :
    (∀ rows, generateParallel depth uc rngs order = .ok rows → generateParallel depth uc rngs order' = .ok rows) ∧
    ((∃ e, generateParallel depth uc rngs order = .error e) → ∃ e, generateParallel depth uc rngs order' = .error e) := by
  have key : ∀ {o o' : List ℕ} (_ : o.Perm o') (rows), generateParallel depth uc rngs o = .ok rows → generateParallel depth uc rngs o' = .ok rows := by
    intro o o' h rows hr
    unfold generateParallel at hr ⊢
    split at hr
    · rename_i ds n peak e1 e2 e3
      simp only at hr ⊢
      split at hr
      · cases hr
      · rename_i res hres
        obtain ⟨res', h1, h2⟩ := collect_perm h hres
        rw [h1]
        simp only
        split_ifs at hr ⊢ with hn
        rw [← parallelRows_perm h2]
        exact hr
    · cases hr
  refine ⟨key h, ?_⟩
  rintro ⟨e, he⟩
  cases hr : generateParallel depth uc rngs order' with
  | error e' => exact ⟨e', rfl⟩
  | ok rows => rw [key h.symm rows hr] at he; cases he

/-- **C51.** What the result is: for a use case ready to simulate the days `ds` with at least one run per day, the possible arrays are
exactly the lists of one profile per day in which the profile of day `k` is the sum over users, appliances and `num_users` runs of
profiles of one run of `generate_load_profile` each. -/
theorem C51_per_day_sums {depth : ℕ} {uc : UseCase} {ds peak : List ℤ} (hr : Ready uc ds peak) (hd : DistinctAppliances uc.users)
    (ht : 0 < runsPerDay uc.users) (rows : List Profile) :
    (∃ rngs order, ArrivalOrder uc.users ds order ∧ generateParallel depth uc rngs order = .ok rows) ↔
      rows.length = ds.length ∧ ∀ k d p, ds[k]? = some d → rows[k]? = some p → ParallelDay depth k peak (typeOfDay d) uc.users p := by
  have hchunks : (chunks 3 (parallelTasks uc ds).length (parallelTasks uc ds)).length = (runsPerDay uc.users * ds.length + 3) / 4 := by
    rw [chunks_length 3 _ _ le_rfl, parallelTasks_length]
  have hgen : ∀ rngs order rows, generateParallel depth uc rngs order = .ok rows ↔ ∃ res,
      collectChunks depth peak (chunks 3 (parallelTasks uc ds).length (parallelTasks uc ds)) rngs order = .ok res ∧
      parallelRows res 0 ds.length = .ok rows := by
    intro rngs order rows
    unfold generateParallel
    rw [hr.days, hr.numDays, hr.peak]
    simp only
    cases collectChunks depth peak (chunks 3 (parallelTasks uc ds).length (parallelTasks uc ds)) rngs order with
    | error e => constructor
                 · intro h; cases h
                 · rintro ⟨_, h, _⟩; cases h
    | ok res =>
      simp only
      rw [if_neg (by omega), Int.toNat_natCast]
      exact ⟨fun h => ⟨res, rfl, h⟩, fun ⟨_, h1, h2⟩ => by cases h1; exact h2⟩
  have htl : ∀ (k : ℕ), (ds.zipIdx.map (fun d => dayTasks uc.users d.2 (getDayType (dayOf d.1))))[k]? =
      (ds[k]?).map (fun d => dayTasks uc.users k (typeOfDay d)) := by
    intro k
    rw [List.getElem?_map, List.getElem?_zipIdx]
    cases ds[k]? with
    | none => rfl
    | some d => simp [dayType_spec]
  have hidx : ∀ {ls : List (List (ℕ × Profile))}, List.Forall₂ (List.Forall₂ (TaskResult depth peak))
      (ds.zipIdx.map (fun d => dayTasks uc.users d.2 (getDayType (dayOf d.1)))) ls →
      (∀ (k : ℕ) d l, ds[k]? = some d → ls[k]? = some l → List.Forall₂ (TaskResult depth peak) (dayTasks uc.users k (typeOfDay d)) l) := by
    intro ls h k d l hd hl
    rw [List.forall₂_iff_get] at h
    obtain ⟨hk, rfl⟩ := List.getElem?_eq_some_iff.1 hl
    have hk' : k < (ds.zipIdx.map (fun d => dayTasks uc.users d.2 (getDayType (dayOf d.1)))).length := by omega
    have h1 := htl k
    rw [hd, List.getElem?_eq_getElem hk'] at h1
    simp only [Option.map_some, Option.some.injEq] at h1
    have := h.2 k hk' hk
    rw [List.get_eq_getElem, List.get_eq_getElem, h1] at this
    exact this
  have hfst : ∀ {ls : List (List (ℕ × Profile))}, List.Forall₂ (List.Forall₂ (TaskResult depth peak))
      (ds.zipIdx.map (fun d => dayTasks uc.users d.2 (getDayType (dayOf d.1)))) ls →
      ∀ k : ℕ, ls.flatten.filter (fun r => r.1 = 0 + k) = (ls[k]?).getD [] := by
    intro ls h k
    refine filter_flatten Prod.fst ls 0 k fun j l hl x hx => ?_
    have hj : j < ds.length := by
      have := h.length_eq
      simp only [List.length_map, List.length_zipIdx] at this
      rw [this]
      exact (List.getElem?_eq_some_iff.1 hl).1
    have h2 := hidx h j _ l (List.getElem?_eq_getElem hj) hl
    obtain ⟨i, hi⟩ := List.mem_iff_getElem?.1 hx
    obtain ⟨hil, rfl⟩ := List.getElem?_eq_some_iff.1 hi
    rw [List.forall₂_iff_get] at h2
    have hi' : i < (dayTasks uc.users j (typeOfDay ds[j])).length := by omega
    have := (h2.2 i hi' hil).1
    rw [List.get_eq_getElem, List.get_eq_getElem] at this
    rw [this, (mem_dayTasks (List.getElem_mem hi')).1, Nat.zero_add]
  constructor
  · rintro ⟨rngs, order, ho, h⟩
    unfold ArrivalOrder at ho
    rw [← hchunks] at ho
    have h1 := (C51_schedule_independent depth uc rngs ho).1 rows h
    obtain ⟨res, h2, h3⟩ := (hgen _ _ _).1 h1
    have h4 := (collect_range (coherent_tasks hd ds)).1 ⟨rngs, h2⟩
    rw [parallelTasks_eq] at h4
    obtain ⟨ls, h5, rfl⟩ := flatten_forall₂ h4
    obtain ⟨h6, h7⟩ := parallelRows_ok.1 h3
    refine ⟨h6, fun k d p hk hp => ?_⟩
    obtain ⟨h8, h9⟩ := h7 k p hp
    rw [hfst h5] at h8 h9
    cases hl : ls[k]? with
    | none => rw [hl] at h8; exact absurd rfl h8
    | some l =>
      rw [hl, Option.getD_some] at h9
      rw [parallelDay_iff, ← taskResults_iff (k := k) (fun t ht => (mem_dayTasks ht).1)]
      exact ⟨l, hidx h5 k d l hk hl, h9⟩
  · rintro ⟨h1, h2⟩
    have : ∃ ls, List.Forall₂ (fun (k : ℕ) l => ∀ d p, ds[k]? = some d → rows[k]? = some p →
        List.Forall₂ (TaskResult depth peak) (dayTasks uc.users k (typeOfDay d)) l ∧ p = total (l.map (fun r => r.2))) (List.range ds.length) ls := by
      refine forall₂_of_all fun k hk => ?_
      have hk := List.mem_range.1 hk
      have hd := List.getElem?_eq_getElem hk
      have hp := List.getElem?_eq_getElem (h1 ▸ hk : k < rows.length)
      have := h2 k _ _ hd hp
      rw [parallelDay_iff, ← taskResults_iff (k := k) (fun t ht => (mem_dayTasks ht).1)] at this
      obtain ⟨l, hl⟩ := this
      refine ⟨l, fun d p h3 h4 => ?_⟩
      rw [hd] at h3
      rw [hp] at h4
      cases h3
      cases h4
      exact hl
    obtain ⟨ls, hls⟩ := this
    have hlen : ls.length = ds.length := by rw [← hls.length_eq, List.length_range]
    rw [← hlen, forall₂_range] at hls
    have hF : List.Forall₂ (List.Forall₂ (TaskResult depth peak)) (ds.zipIdx.map (fun d => dayTasks uc.users d.2 (getDayType (dayOf d.1)))) ls := by
      rw [List.forall₂_iff_get]
      refine ⟨by simp [hlen], fun k hk hk' => ?_⟩
      have hd := List.getElem?_eq_getElem (show k < ds.length by omega)
      have hp := List.getElem?_eq_getElem (show k < rows.length by omega)
      have h3 := (hls k _ (List.getElem?_eq_getElem hk') _ _ hd hp).1
      have h4 := htl k
      rw [hd, List.getElem?_eq_getElem hk] at h4
      simp only [Option.map_some, Option.some.injEq] at h4
      rw [List.get_eq_getElem, List.get_eq_getElem, h4]
      exact h3
    have hT : List.Forall₂ (TaskResult depth peak) (parallelTasks uc ds) ls.flatten := by
      rw [parallelTasks_eq]
      exact forall₂_flatten hF
    obtain ⟨rngs, hrngs⟩ := (collect_range (n := 3) (coherent_tasks hd ds)).2 hT
    refine ⟨rngs, _, ?_, (hgen _ _ _).2 ⟨_, hrngs, parallelRows_ok.2 ⟨h1, fun k p hp => ?_⟩⟩⟩
    · unfold ArrivalOrder
      rw [hchunks]
    · rw [hfst hF]
      have hk : k < ds.length := h1 ▸ (List.getElem?_eq_some_iff.1 hp).1
      have hd := List.getElem?_eq_getElem hk
      have hl := List.getElem?_eq_getElem (show k < ls.length by omega)
      rw [hl, Option.getD_some]
      obtain ⟨h3, h4⟩ := hls k _ hl _ _ hd hp
      refine ⟨fun h => ?_, h4⟩
      have := h3.length_eq
      rw [dayTasks_length, h] at this
      simp at this
      omega

/-! ## C52: parallel and sequential mode -/

theorem splitRuns {R : Appliance → Profile → Prop} {n : ℕ} : ∀ {apps : List Appliance} {p : Profile},
    (∃ qs, List.Forall₂ (fun a q => ∃ rs : List Profile, rs.length = n + 1 ∧ (∀ r ∈ rs, R a r) ∧ q = total rs) apps qs ∧ p = total qs) ↔
      ∃ p1 p2, (∃ rs, List.Forall₂ R apps rs ∧ p1 = total rs) ∧
        (∃ qs, List.Forall₂ (fun a q => ∃ rs : List Profile, rs.length = n ∧ (∀ r ∈ rs, R a r) ∧ q = total rs) apps qs ∧ p2 = total qs) ∧
        p = fun i => p1 i + p2 i
  | [], p => by
    constructor
    · rintro ⟨qs, h, rfl⟩
      cases h
      exact ⟨_, _, ⟨[], .nil, rfl⟩, ⟨[], .nil, rfl⟩, by funext i; simp [total]⟩
    · rintro ⟨p1, p2, ⟨rs, h1, rfl⟩, ⟨qs, h2, rfl⟩, rfl⟩
      cases h1
      cases h2
      exact ⟨[], .nil, by funext i; simp [total]⟩
  | a :: apps, p => by
    constructor
    · rintro ⟨qs, h, rfl⟩
      cases h with
      | @cons _ q _ qs h1 h2 =>
        obtain ⟨rs, h3, h4, rfl⟩ := h1
        obtain ⟨r, rs, rfl⟩ := List.exists_cons_of_length_eq_add_one h3
        obtain ⟨p1, p2, ⟨us, h5, rfl⟩, ⟨vs, h6, rfl⟩, h7⟩ := splitRuns.1 ⟨qs, h2, rfl⟩
        refine ⟨_, _, ⟨r :: us, .cons (h4 r (by simp)) h5, rfl⟩, ⟨total rs :: vs, .cons ⟨rs, by simpa using h3, fun x hx => h4 x (by simp [hx]), rfl⟩ h6, rfl⟩, ?_⟩
        rw [total_cons, h7, total_cons, total_cons, total_cons]
        funext i
        ring
    · rintro ⟨p1, p2, ⟨rs, h1, rfl⟩, ⟨qs, h2, rfl⟩, rfl⟩
      cases h1 with
      | @cons _ r _ rs h3 h4 => cases h2 with
        | @cons _ q _ qs h5 h6 =>
          obtain ⟨xs, h7, h8, rfl⟩ := h5
          obtain ⟨ys, h9, h10⟩ := splitRuns.2 ⟨_, _, ⟨rs, h4, rfl⟩, ⟨qs, h6, rfl⟩, rfl⟩
          refine ⟨total (r :: xs) :: ys, .cons ⟨r :: xs, by simp [h7], ?_, rfl⟩ h9, ?_⟩
          · intro x hx
            rcases List.mem_cons.1 hx with rfl | hx
            · exact h3
            · exact h8 x hx
          · rw [total_cons r rs, total_cons (total xs) qs, total_cons (total (r :: xs)) ys, ← h10, total_cons r xs]
            funext i
            ring

theorem swapRuns {R : Appliance → Profile → Prop} {apps : List Appliance} : ∀ {n : ℕ} {p : Profile},
    (∃ qs, List.Forall₂ (fun a q => ∃ rs : List Profile, rs.length = n ∧ (∀ r ∈ rs, R a r) ∧ q = total rs) apps qs ∧ p = total qs) ↔
      ∃ ps : List Profile, ps.length = n ∧ (∀ q ∈ ps, ∃ rs, List.Forall₂ R apps rs ∧ q = total rs) ∧ p = total ps
  | 0, p => by
    constructor
    · rintro ⟨qs, h, rfl⟩
      refine ⟨[], rfl, by simp, ?_⟩
      induction h with
      | nil => rfl
      | @cons a q l qs h1 h2 ih =>
        obtain ⟨rs, h3, _, rfl⟩ := h1
        rw [List.length_eq_zero_iff.1 h3, total_cons, ih]
        funext i
        simp [total]
    · rintro ⟨ps, h1, _, rfl⟩
      rw [List.length_eq_zero_iff.1 h1]
      refine ⟨apps.map (fun _ => total []), ?_, ?_⟩
      · rw [List.forall₂_map_right_iff, List.forall₂_same]
        exact fun a _ => ⟨[], rfl, by simp, rfl⟩
      · funext i
        simp [total]
  | n + 1, p => by
    rw [splitRuns]
    constructor
    · rintro ⟨p1, p2, h1, h2, rfl⟩
      obtain ⟨ps, h3, h4, rfl⟩ := swapRuns.1 h2
      refine ⟨p1 :: ps, by simp [h3], ?_, by rw [total_cons]⟩
      intro q hq
      rcases List.mem_cons.1 hq with rfl | hq
      · exact h1
      · exact h4 q hq
    · rintro ⟨ps, h1, h2, rfl⟩
      obtain ⟨q, ps, rfl⟩ := List.exists_cons_of_length_eq_add_one h1
      exact ⟨q, total ps, h2 q (by simp), swapRuns.2 ⟨ps, by simpa using h1, fun x hx => h2 x (by simp [hx]), rfl⟩, by rw [total_cons]⟩

theorem parallelUserDay_iff {depth k : ℕ} {peak : List ℤ} {dt : ℤ} {u : User} {p : Profile} (h1 : u.userPreference = 0) (h2 : u.randDailyPref = 0) :
    ParallelUserDay depth k peak dt u p ↔ UserDay depth k peak dt u p := by
  unfold ParallelUserDay UserDay
  rw [swapRuns, h2]
  have : ∀ q, MemberDay depth k peak dt u q ↔ ∃ rs, List.Forall₂ (ApplianceDay depth k peak dt 0) u.appList rs ∧ q = total rs := by
    intro q
    unfold MemberDay PreferenceOf
    simp only [if_pos h1]
    constructor
    · rintro ⟨pref, ps, rfl, h3, h4⟩; exact ⟨ps, h3, h4⟩
    · rintro ⟨ps, h3, h4⟩; exact ⟨0, ps, rfl, h3, h4⟩
  simp only [this]

theorem parallelDay_caseDay {depth k : ℕ} {peak : List ℤ} {dt : ℤ} {us : List User} {p : Profile}
    (h : ∀ u ∈ us, u.userPreference = 0 ∧ u.randDailyPref = 0) : ParallelDay depth k peak dt us p ↔ CaseDay depth k peak dt us p := by
  unfold ParallelDay CaseDay
  have : ∀ {us : List User} {ps : List Profile}, (∀ u ∈ us, u.userPreference = 0 ∧ u.randDailyPref = 0) →
      (List.Forall₂ (ParallelUserDay depth k peak dt) us ps ↔ List.Forall₂ (UserDay depth k peak dt) us ps) := by
    intro us
    induction us with
    | nil => intro ps _; constructor <;> (intro h; cases h; exact .nil)
    | cons u us ih =>
      intro ps h
      cases ps with
      | nil => constructor <;> (intro h; cases h)
      | cons p ps =>
        rw [List.forall₂_cons, List.forall₂_cons, parallelUserDay_iff (h u (by simp)).1 (h u (by simp)).2, ih fun v hv => h v (by simp [hv])]
  simp only [this h]

/-- **C52 (partial).** When no user has preferences and every day has at least one run, parallel and sequential mode have exactly the
same possible results.  Missing: users with preferences and days without runs, for which the statement is false. -/
theorem C52_same_results_partial {env : Env} {depth : ℕ} {uc : UseCase} {ds peak : List ℤ} (days : Option (List ℤ)) (hr : Ready uc ds peak)
    (hd : DistinctAppliances uc.users) (ht : 0 < runsPerDay uc.users) (hp : ∀ u ∈ uc.users, u.userPreference = 0 ∧ u.randDailyPref = 0)
    (rows : List Profile) :
    (∃ rngs order, ArrivalOrder uc.users ds order ∧ generateParallel depth uc rngs order = .ok rows) ↔
      ∃ uc', Returns (generateDaily env depth uc days) (uc', rows) := by
  rw [C51_per_day_sums hr hd ht, C45_superposition days hr]
  simp only [parallelDay_caseDay hp]

/-! ### Failures -/

theorem never_bind {α β : Type} {m : Sim α} {f : α → Sim β} (hm : Finitary m) (h : NeverRaises (m >>= f)) :
    NeverRaises m ∧ (∃ a, Returns m a) ∧ ∀ a, Returns m a → NeverRaises (f a) := by
  have h1 : NeverRaises m := fun e he => h e ((raises_bind hm).2 (.inl he))
  refine ⟨h1, ?_, fun a ha e he => h e ((raises_bind hm).2 (.inr ⟨a, ha, he⟩))⟩
  cases hr : m (fun _ => draw0) with
  | error e => exact absurd ⟨_, hr⟩ (h1 e)
  | ok p => exact ⟨p.1, _, p.2, hr⟩

theorem not_never_raise {α : Type} {e : Err} : ¬ NeverRaises (raise e : Sim α) := fun h => h e ⟨fun _ => draw0, rfl⟩

/-- The appliance can be run on day `k` without failing, whatever the draws. -/
def RunsSafely (depth k : ℕ) (peak : List ℤ) (dt pref : ℤ) (a : Appliance) : Prop :=
  ∃ p, a.power[k]? = some p ∧ NeverRaises (generateLoadProfile a depth pref k peak dt p)

theorem runsSafely_same {depth k : ℕ} {peak : List ℤ} {dt pref : ℤ} {a b : Appliance} (h : SameDefinition a b)
    (ha : RunsSafely depth k peak dt pref b) : RunsSafely depth k peak dt pref a := by
  obtain ⟨p, h1, h2⟩ := ha
  refine ⟨p, by rw [← h.power]; exact h1, fun e he => ?_⟩
  obtain ⟨r, hr⟩ := he
  rcases rel_generate h depth pref k peak dt p r with ⟨e', h3, h4⟩ | ⟨x, y, s, h3, _, _⟩
  · exact h2 e' ⟨r, h4⟩
  · rw [hr] at h3; cases h3

theorem safe_singleLoop {depth k : ℕ} {peak : List ℤ} {dt pref : ℤ} : ∀ {apps : List Appliance} {load : Profile},
    NeverRaises (singleLoop depth k peak dt pref apps load) → ∀ a ∈ apps, RunsSafely depth k peak dt pref a
  | [], _, _ => by simp
  | a :: apps, load, h => by
    unfold singleLoop at h
    cases hp : a.power[k]? with
    | none => rw [hp] at h; exact absurd h not_never_raise
    | some p =>
      rw [hp] at h
      simp only at h
      obtain ⟨h1, ⟨x, hx⟩, h2⟩ := never_bind (fin_generate _ _ _ _ _ _ _) h
      obtain ⟨h3, _, _⟩ := never_bind (fin_singleLoop _ _ _ _ _ _ _) (h2 x hx)
      intro b hb
      rcases List.mem_cons.1 hb with rfl | hb
      · exact ⟨p, hp, h1⟩
      · exact safe_singleLoop h3 b hb

theorem safe_aggregated {depth k : ℕ} {peak : List ℤ} {dt : ℤ} {u : User} (hn : 0 < u.numUsers.toNat)
    (h : NeverRaises (generateAggregatedLoadProfile depth u k peak dt)) (pref : ℤ) (hp : PreferenceOf u pref) :
    ∀ a ∈ u.appList, RunsSafely depth k peak dt pref a := by
  unfold generateAggregatedLoadProfile at h
  obtain ⟨h1, _, _⟩ := never_bind (fin_aggregatedLoop _ _ _ _ _ _ _) h
  obtain ⟨n, hn⟩ : ∃ n, u.numUsers.toNat = n + 1 := ⟨u.numUsers.toNat - 1, by omega⟩
  rw [hn] at h1
  unfold aggregatedLoop at h1
  obtain ⟨h2, _, _⟩ := never_bind (fin_single _ _ _ _ _) h1
  unfold generateSingleLoadProfile at h2
  obtain ⟨_, _, h3⟩ := never_bind (fin_drawPreference _) h2
  obtain ⟨h4, _, _⟩ := never_bind (fin_singleLoop _ _ _ _ _ _ _) (h3 pref (returns_drawPreference.2 hp))
  exact safe_singleLoop h4

theorem safe_usersOfDay {depth k : ℕ} {peak : List ℤ} {dt : ℤ} : ∀ {us : List User} {load : Profile},
    NeverRaises (usersOfDay depth k peak dt us load) → ∀ u ∈ us, 0 < u.numUsers.toNat → ∀ pref, PreferenceOf u pref →
      ∀ a ∈ u.appList, RunsSafely depth k peak dt pref a
  | [], _, _ => by simp
  | u :: us, load, h => by
    unfold usersOfDay at h
    obtain ⟨h1, ⟨x, hx⟩, h2⟩ := never_bind (fin_aggregated _ _ _ _ _) h
    obtain ⟨h3, _, _⟩ := never_bind (fin_usersOfDay _ _ _ _ _ _) (h2 x hx)
    intro v hv
    rcases List.mem_cons.1 hv with rfl | hv
    · exact fun hn => safe_aggregated hn h1
    · exact safe_usersOfDay h3 v hv

theorem safe_of_sameUsers {depth k : ℕ} {peak : List ℤ} {dt : ℤ} {us vs : List User} (h : List.Forall₂ SameUser us vs)
    (hv : ∀ u ∈ vs, 0 < u.numUsers.toNat → ∀ pref, PreferenceOf u pref → ∀ a ∈ u.appList, RunsSafely depth k peak dt pref a) :
    ∀ u ∈ us, 0 < u.numUsers.toNat → ∀ pref, PreferenceOf u pref → ∀ a ∈ u.appList, RunsSafely depth k peak dt pref a := by
  induction h with
  | nil => simp
  | @cons u v us vs h1 h2 ih =>
    intro w hw
    rcases List.mem_cons.1 hw with rfl | hw
    · intro hn pref hp a ha
      obtain ⟨i, hi⟩ := List.mem_iff_getElem?.1 ha
      obtain ⟨hil, rfl⟩ := List.getElem?_eq_some_iff.1 hi
      have hf := h1.appliances
      rw [List.forall₂_iff_get] at hf
      have hi' : i < v.appList.length := by omega
      have := hf.2 i hil hi'
      rw [List.get_eq_getElem, List.get_eq_getElem] at this
      refine runsSafely_same this (hv v (by simp) (by rw [h1.number]; exact hn) pref ?_ _ (List.getElem_mem hi'))
      unfold PreferenceOf at hp ⊢
      rw [h1.preference]
      exact hp
    · exact ih (fun x hx => hv x (by simp [hx])) w hw

theorem safe_daysLoop {depth : ℕ} {peak : List ℤ} : ∀ {k : ℕ} {ds : List ℤ} {us : List User} {rows : List Profile},
    NeverRaises (daysLoop depth peak k ds us rows) → ∀ (j : ℕ) d, ds[j]? = some d → ∀ u ∈ us, 0 < u.numUsers.toNat → ∀ pref, PreferenceOf u pref →
      ∀ a ∈ u.appList, RunsSafely depth (k + j) peak (typeOfDay d) pref a
  | _, [], _, _, _ => by simp
  | k, d :: ds, us, rows, h => by
    unfold daysLoop at h
    obtain ⟨h1, ⟨x, hx⟩, h2⟩ := never_bind (fin_usersOfDay _ _ _ _ _ _) h
    have h3 := h2 x hx
    obtain ⟨us', load⟩ := x
    have hsame := (returns_usersOfDay hx).1
    simp only at h3
    rw [dayType_spec] at h1
    rintro (_ | j) d' hd
    · simp at hd
      subst hd
      exact safe_usersOfDay h1
    · split_ifs at h3 with hk
      · have := safe_daysLoop h3 j d' (by simpa using hd)
        rw [show k + (j + 1) = k + 1 + j by omega]
        exact safe_of_sameUsers hsame this
      · exact absurd h3 not_never_raise

/-- **C52 (partial).** Under the same hypotheses, if sequential mode cannot fail then parallel mode cannot fail, whatever the draws in the
workers and the order in which the results arrive. -/
theorem C52_no_new_failures_partial {env : Env} {depth : ℕ} {uc : UseCase} {ds peak : List ℤ} (days : Option (List ℤ)) (hr : Ready uc ds peak)
    (hd : DistinctAppliances uc.users) (ht : 0 < runsPerDay uc.users) (hp : ∀ u ∈ uc.users, u.userPreference = 0 ∧ u.randDailyPref = 0)
    (hs : NeverRaises (generateDaily env depth uc days)) (rngs : ℕ → Rng) (order : List ℕ) (ho : ArrivalOrder uc.users ds order) :
    ∃ rows, generateParallel depth uc rngs order = .ok rows := by
  have h0 : NeverRaises (daysLoop depth peak 0 ds uc.users (List.replicate ds.length zeros)) := by
    intro e he
    obtain ⟨r, hrr⟩ := he
    refine hs e ⟨r, ?_⟩
    have e0 : resolveDays uc days = (uc, .ok ()) := by unfold resolveDays; rw [hr.days]
    have e1 : numDaysProperty env uc = pure (uc, .ok (ds.length : ℤ)) := by unfold numDaysProperty; rw [hr.numDays]
    have e2 : emptyRows (ds.length : ℤ) = .ok (List.replicate ds.length zeros) := by
      unfold emptyRows; rw [if_neg (by omega)]; simp
    unfold generateDaily
    rw [e0]
    simp only
    rw [e1, bind_ok (show (pure (uc, Except.ok (ds.length : ℤ)) : Sim (UseCase × Except Err ℤ)) r = .ok ((uc, .ok (ds.length : ℤ)), r) from rfl)]
    simp only
    rw [bind_ok (show liftE (emptyRows (ds.length : ℤ)) r = .ok (List.replicate ds.length zeros, r) by rw [e2]; rfl)]
    rw [hr.peak, hr.days]
    simp only [Option.getD_some]
    rw [bind_error hrr]
  have hsafe : ∀ t ∈ parallelTasks uc ds, RunsSafely depth t.dayIdx peak t.dayType t.pref t.app := by
    intro t htt
    rw [parallelTasks_eq] at htt
    simp only [List.mem_flatten, List.mem_map] at htt
    obtain ⟨_, ⟨⟨d, k⟩, hdk, rfl⟩, htt⟩ := htt
    obtain ⟨h1, h2, u, h3, h4, h5, h6⟩ := mem_dayTasks htt
    have hu := List.mem_of_getElem? h3
    have hk : ds[k]? = some d := by simpa using List.mem_zipIdx_iff_getElem?.1 hdk
    have := safe_daysLoop h0 k d hk u hu h6 0 (by unfold PreferenceOf; rw [if_pos (hp u hu).1]) t.app h4
    rw [Nat.zero_add] at this
    rw [h1, h2, h5, (hp u hu).2]
    simp only [dayType_spec]
    exact this
  have hcoh := coherent_tasks hd ds
  have hchunk : ∀ k ∈ order, ∃ r, chunkResult depth peak (chunks 3 (parallelTasks uc ds).length (parallelTasks uc ds)) rngs k = .ok r := by
    intro k _
    have hmem : ∀ t ∈ (((chunks 3 (parallelTasks uc ds).length (parallelTasks uc ds))[k]?).getD []), t ∈ parallelTasks uc ds := by
      intro t htm
      cases hc : (chunks 3 (parallelTasks uc ds).length (parallelTasks uc ds))[k]? with
      | none => rw [hc] at htm; simp at htm
      | some c =>
        rw [hc, Option.getD_some] at htm
        exact mem_chunks 3 _ _ le_rfl (List.mem_of_getElem? hc) htm
    obtain ⟨res, r', h⟩ := runChunk_total (depth := depth) (peak := peak) _ rfl (fun s hs' t ht' => hcoh s (hmem s hs') t (hmem t ht'))
      (fun t htm => hsafe t (hmem t htm)) (rngs k)
    exact ⟨res, by unfold chunkResult; rw [h]⟩
  obtain ⟨ls, hls⟩ := forall₂_of_all hchunk
  have hcol := collect_ok.2 ⟨ls, hls, rfl⟩
  have hperm := ho
  unfold ArrivalOrder at hperm
  rw [← show (chunks 3 (parallelTasks uc ds).length (parallelTasks uc ds)).length = (runsPerDay uc.users * ds.length + 3) / 4 by
    rw [chunks_length 3 _ _ le_rfl, parallelTasks_length]] at hperm
  obtain ⟨res, hres, hpp⟩ := collect_perm hperm hcol
  have hres2 := (collect_range hcoh).1 ⟨rngs, hres⟩
  have hrows : ∃ rows, parallelRows res 0 ds.length = .ok rows := by
    refine ⟨(List.range ds.length).map (fun k => total ((res.filter (fun r => r.1 = 0 + k)).map (fun r => r.2))), ?_⟩
    rw [parallelRows_ok]
    refine ⟨by simp, fun k p hkp => ?_⟩
    rw [List.getElem?_map] at hkp
    cases hkr : (List.range ds.length)[k]? with
    | none => rw [hkr] at hkp; cases hkp
    | some k' =>
      rw [hkr] at hkp
      obtain ⟨hk1, hk2⟩ := List.getElem?_eq_some_iff.1 hkr
      rw [List.getElem_range] at hk2
      subst hk2
      simp only [Option.map_some, Option.some.injEq] at hkp
      subst hkp
      refine ⟨?_, rfl⟩
      -- some task belongs to day `k`
      have hkd : k < ds.length := by simpa using hk1
      have hlen : 0 < (dayTasks uc.users k (getDayType (dayOf ds[k]))).length := by rw [dayTasks_length]; exact ht
      obtain ⟨t, htt⟩ := List.exists_mem_of_length_pos hlen
      have htp : t ∈ parallelTasks uc ds := by
        rw [parallelTasks_eq]
        refine List.mem_flatten.2 ⟨_, List.mem_map.2 ⟨(ds[k], k), ?_, rfl⟩, htt⟩
        rw [List.mem_zipIdx_iff_getElem?]
        simp
      obtain ⟨i, hi⟩ := List.mem_iff_getElem?.1 htp
      obtain ⟨hil, rfl⟩ := List.getElem?_eq_some_iff.1 hi
      rw [List.forall₂_iff_get] at hres2
      have hir : i < res.length := by omega
      have := (hres2.2 i hil hir).1
      rw [List.get_eq_getElem, List.get_eq_getElem, (mem_dayTasks htt).1] at this
      intro hnil
      rw [List.filter_eq_nil_iff] at hnil
      exact hnil _ (List.getElem_mem hir) (by simp [this])
  obtain ⟨rows, hrows⟩ := hrows
  refine ⟨rows, ?_⟩
  unfold generateParallel
  rw [hr.days, hr.numDays, hr.peak]
  simp only
  rw [hcol]
  simp only
  rw [if_neg (by omega), Int.toNat_natCast, parallelRows_perm hpp]
  exact hrows

/-! ### The full statement is false -/

/-- The lamp of `weekendCase`, for members whose preference of the day is 1, and a use case of users that always have that
preference. -/
def preferredLamp : Appliance := { flatLamp with prefIndex := 1 }

def preferenceCase : UseCase :=
  { users := [{ userName := "u", numUsers := 3, userPreference := 1, appList := [preferredLamp] }], days := some [5760], numDays := some 1,
    peakTimeRange := some [] }

theorem preferredLamp_friday : ApplianceDay 1000 0 [] 0 1 preferredLamp lampLoad := by
  obtain ⟨app', rng', h, hi⟩ := C23_flat_deterministic (app := preferredLamp)
    (depth := 1000) (pref := 1) (profI := 0) (peak := []) (dayType := 0) (power := 50) (pw := 50)
    (by constructor <;> (try unfold DayWindow) <;> simp [preferredLamp, flatLamp]) (by decide) rfl
    ⟨rfl, rfl, rfl⟩ le_rfl (by rintro (h | h | h) <;> revert h <;> decide) rfl (by decide) le_rfl (by simp [preferredLamp, flatLamp])
    (by norm_num [totalTime, preferredLamp, flatLamp]) (constantDraws 0)
  refine ⟨50, app', rfl, ⟨_, _, h⟩, ?_⟩
  funext i
  rw [hi]
  unfold lampLoad
  have hin : (InWindow preferredLamp.window1 i ∨ InWindow preferredLamp.window2 i ∨ InWindow preferredLamp.window3 i) ↔ (100 ≤ (i : ℤ) ∧ (i : ℤ) < 200) := by
    simp only [InWindow, preferredLamp, flatLamp]
    omega
  by_cases hc : 100 ≤ (i : ℤ) ∧ (i : ℤ) < 200
  · rw [if_pos hc, if_pos (hin.2 hc)]; norm_num [preferredLamp, flatLamp]
  · rw [if_neg hc, if_neg (fun h => hc (hin.1 h))]

/-- **C52 (partial).** Negation of the full statement, first part: three users whose preference of the day is always 1, with a lamp of
that preference: 300 W in sequential mode, and in parallel mode always 0 W everywhere. -/
theorem C52_preferences_lost_partial :
    (∃ uc' p, Returns (generateDaily ⟨0, none⟩ 1000 preferenceCase none) (uc', [p]) ∧ p 150 = 300) ∧
    (∀ rngs order rows, ArrivalOrder preferenceCase.users [5760] order → generateParallel 1000 preferenceCase rngs order = .ok rows → rows = [zeros]) := by
  have hready : Ready preferenceCase [5760] [] := ⟨rfl, rfl, rfl⟩
  constructor
  · have h : ∃ uc', Returns (generateDaily ⟨0, none⟩ 1000 preferenceCase none) (uc', [total [total (List.replicate 3 (total [lampLoad]))]]) := by
      rw [C45_superposition none hready]
      refine ⟨rfl, fun k d p hd hp => ?_⟩
      rcases k with _ | k
      · simp only [List.getElem?_cons_zero, Option.some.injEq] at hd hp
        subst hd hp
        refine ⟨_, .cons ⟨List.replicate 3 (total [lampLoad]), by simp, fun q hq => ?_, rfl⟩ .nil, rfl⟩
        rw [List.eq_of_mem_replicate hq]
        exact ⟨1, [lampLoad], by unfold PreferenceOf; simp, .cons preferredLamp_friday .nil, rfl⟩
      · simp at hd
    obtain ⟨uc', h⟩ := h
    refine ⟨uc', _, h, ?_⟩
    norm_num [total, lampLoad]
  · intro rngs order rows ho h
    have hd : DistinctAppliances preferenceCase.users := by
      intro u hu
      simp only [preferenceCase, List.mem_singleton] at hu
      subst hu
      simp
    obtain ⟨h1, h2⟩ := (C51_per_day_sums hready hd (by decide) rows).1 ⟨rngs, order, ho, h⟩
    obtain ⟨p, rfl⟩ := List.length_eq_one_iff.1 h1
    obtain ⟨ps, h3, h4⟩ := h2 0 5760 p rfl rfl
    cases h3 with
    | cons h5 h6 =>
      cases h6
      obtain ⟨qs, h7, h8⟩ := h5
      cases h7 with
      | cons h9 h10 =>
        cases h10
        obtain ⟨rs, h11, h12, h13⟩ := h9
        have hz : ∀ r ∈ rs, r = zeros := fun r hr' => applianceDay_skipped (.inl ⟨by decide, by decide⟩) (h12 r hr')
        congr 1
        rw [h4, h8, h13]
        funext i
        simp only [total, List.map_cons, List.map_nil, List.sum_cons, List.sum_nil, add_zero, zeros]
        apply List.sum_eq_zero
        intro x hx
        obtain ⟨r, hr', rfl⟩ := List.mem_map.1 hx
        rw [hz r hr']
        rfl

/-- **C52 (partial).** Negation of the full statement, second part: without appliances sequential mode returns a day of zeros, parallel mode
always raises `KeyError`. -/
theorem C52_key_error_partial (rngs : ℕ → Rng) :
    (∃ uc', Returns (generateDaily ⟨0, none⟩ 1000 { days := some [0], numDays := some 1, peakTimeRange := some [] } none) (uc', [zeros])) ∧
    (∀ order, ArrivalOrder [] [0] order → generateParallel 1000 { days := some [0], numDays := some 1, peakTimeRange := some [] } rngs order = .error .keyError) := by
  constructor
  · rw [C45_superposition none (ds := [0]) (peak := []) ⟨rfl, rfl, rfl⟩]
    refine ⟨rfl, fun k d p hd hp => ?_⟩
    rcases k with _ | k
    · simp only [List.getElem?_cons_zero, Option.some.injEq] at hp
      subst hp
      exact ⟨[], .nil, by funext i; simp [total, zeros]⟩
    · simp at hd
  · intro order ho
    have : order = [] := by
      unfold ArrivalOrder at ho
      exact ho.eq_nil
    subst this
    rfl

/-- A case for the partial theorems: the use case of `weekendCase_runs`. -/
example : DistinctAppliances weekendCase.users ∧ 0 < runsPerDay weekendCase.users ∧
    (∀ u ∈ weekendCase.users, u.userPreference = 0 ∧ u.randDailyPref = 0) ∧
    ∃ rngs order rows, ArrivalOrder weekendCase.users [5760, 7200] order ∧ generateParallel 1000 weekendCase rngs order = .ok rows := by
  have hd : DistinctAppliances weekendCase.users := by
    intro u hu
    simp only [weekendCase, List.mem_singleton] at hu
    subst hu
    simp
  have hp : ∀ u ∈ weekendCase.users, u.userPreference = 0 ∧ u.randDailyPref = 0 := by
    intro u hu
    simp only [weekendCase, List.mem_singleton] at hu
    subst hu
    exact ⟨rfl, rfl⟩
  obtain ⟨uc', p, q, h, _⟩ := weekendCase_runs
  obtain ⟨rngs, order, h1, h2⟩ := (C52_same_results_partial none weekendCase_ready hd (by decide) hp _).2 ⟨uc', h⟩
  exact ⟨hd, by decide, hp, rngs, order, _, h1, h2⟩

end Ramp
