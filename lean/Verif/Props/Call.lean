import Verif.Model.Call
import Verif.Props.Build

/-! # C85: how the arguments of `add_appliance` are matched with the parameters -/

set_option autoImplicit false

namespace Ramp

/-! ## Specification -/

/-- The parameter names in their documented order. -/
def parameterNames : List String :=
  ["number", "power", "num_windows", "func_time", "time_fraction_random_variability", "func_cycle", "fixed", "fixed_cycle",
   "continuous_duty_cycle", "occasional_use", "flat", "thermal_p_var", "pref_index", "wd_we_type", "name"]

/-- The names of the parameters of windows and duty cycles. -/
def otherParameterNames : List String :=
  ["window_1", "window_2", "window_3", "random_var_w", "p_11", "t_11", "cw11", "p_12", "t_12", "cw12", "r_c1",
   "p_21", "t_21", "cw21", "p_22", "t_22", "cw22", "r_c2", "p_31", "t_31", "cw31", "p_32", "t_32", "cw32", "r_c3"]

/-- The value of the argument `k` of a call with positional arguments `pos` and keyword arguments `kw`: the positional argument in the place
of `k`, else the keyword argument. -/
def argument (pos : List Val) (kw : Kwargs) (k : String) : Option Val :=
  ((parameterNames.zip pos).lookup k) <|> kw.lookup k

/-! ## Dictionaries -/

theorem lookup_cons' (k a : String) (b : Val) (d : Kwargs) : List.lookup k ((a, b) :: d) = if k = a then some b else d.lookup k := by
  rw [List.lookup_cons]
  by_cases h : k = a
  · subst h; simp
  · have : (k == a) = false := by simpa using h
    rw [this, if_neg h]

theorem lookup_none_iff {k : String} {d : Kwargs} : d.lookup k = none ↔ ∀ p ∈ d, p.1 ≠ k := by
  induction d with
  | nil => simp
  | cons p d ih =>
    obtain ⟨a, b⟩ := p
    rw [lookup_cons']
    by_cases h : k = a
    · subst h; simp
    · rw [if_neg h, ih]
      simp only [List.mem_cons, forall_eq_or_imp]
      exact ⟨fun h' => ⟨fun e => h e.symm, h'⟩, fun h' => h'.2⟩

theorem lookup_dictSet (k : String) (v : Val) (k' : String) : ∀ d : Kwargs,
    (dictSet d k v).lookup k' = if k' = k then some v else d.lookup k'
  | [] => by unfold dictSet; rw [lookup_cons']
  | (a, b) :: d => by
    unfold dictSet
    by_cases h : a = k
    · subst h
      rw [if_pos rfl, lookup_cons', lookup_cons']
      split_ifs <;> rfl
    · rw [if_neg h, lookup_cons', lookup_cons', lookup_dictSet k v k' d]
      by_cases h2 : k' = a
      · subst h2; rw [if_pos rfl, if_neg h, if_pos rfl]
      · rw [if_neg h2, if_neg h2]

theorem lookup_fold (k : String) : ∀ (l : List (String × Val)) (d : Kwargs), (l.map Prod.fst).Nodup →
    (l.foldl (fun d p => dictSet d p.1 p.2) d).lookup k = (l.lookup k <|> d.lookup k)
  | [], d, _ => by simp
  | (a, b) :: l, d, h => by
    simp only [List.map_cons, List.nodup_cons] at h
    rw [List.foldl_cons, lookup_fold k l _ h.2, lookup_dictSet, lookup_cons']
    by_cases hk : k = a
    · subst hk
      have : l.lookup k = none := lookup_none_iff.2 fun p hp he => h.1 (by rw [← he]; exact List.mem_map_of_mem hp)
      rw [this, if_pos rfl, if_pos rfl]
      rfl
    · rw [if_neg hk, if_neg hk]

theorem zip_fst_sublist {α β : Type} : ∀ (l : List α) (m : List β), ((l.zip m).map Prod.fst).Sublist l
  | [], _ => by simp
  | a :: l, [] => by simp
  | a :: l, b :: m => by simpa using zip_fst_sublist l m

theorem fst_zip {α β : Type} : ∀ (l : List α) (m : List β), (l.zip m).map Prod.fst = l.take m.length
  | [], m => by simp
  | a :: l, [] => by simp
  | a :: l, b :: m => by simpa using fst_zip l m

theorem lookup_merge (pos : List Val) (kw : Kwargs) (k : String) : (mergeArgs pos kw).lookup k = argument pos kw k := by
  unfold mergeArgs argument
  exact lookup_fold k _ kw (List.Nodup.sublist (zip_fst_sublist _ _) (by decide))

theorem lookup_filter (k k' : String) : ∀ d : Kwargs, (d.filter (fun p => p.1 ≠ k)).lookup k' = if k' = k then none else d.lookup k'
  | [] => by simp
  | (a, b) :: d => by
    rw [List.filter_cons]
    by_cases h : a = k
    · subst h
      simp only [ne_eq, not_true_eq_false, decide_false, Bool.false_eq_true, if_false]
      rw [lookup_filter a k' d, lookup_cons']
      split_ifs <;> rfl
    · simp only [ne_eq, h, not_false_eq_true, decide_true, if_true]
      rw [lookup_cons', lookup_cons', lookup_filter k k' d]
      by_cases h2 : k' = a
      · subst h2; rw [if_pos rfl, if_neg h, if_pos rfl]
      · rw [if_neg h2, if_neg h2]

theorem lookup_pop (k : String) : ∀ (ks : List String) (kw : Kwargs),
    (popArgs ks kw).1.lookup k = (if k ∈ ks then kw.lookup k else none) ∧
    (popArgs ks kw).2.lookup k = (if k ∈ ks then none else kw.lookup k)
  | [], kw => by simp [popArgs]
  | a :: ks, kw => by
    unfold popArgs
    cases h : kw.lookup a with
    | some v =>
      simp only
      obtain ⟨h1, h2⟩ := lookup_pop k ks (kw.filter (fun p => p.1 ≠ a))
      rw [lookup_filter] at h1 h2
      rw [lookup_cons', h1, h2]
      by_cases hk : k = a
      · subst hk; simp [h]
      · simp [hk]
    | none =>
      simp only
      obtain ⟨h1, h2⟩ := lookup_pop k ks kw
      rw [h1, h2]
      by_cases hk : k = a
      · subst hk; simp [h]
      · simp [hk]

/-! ## The conversions look at the values only -/

theorem kwInt_congr {kw kw' : Kwargs} {k : String} {d : ℤ} (h : kw.lookup k = kw'.lookup k) : kwInt kw k d = kwInt kw' k d := by
  unfold kwInt; rw [h]

theorem kwRat_congr {kw kw' : Kwargs} {k : String} {d : ℚ} (h : kw.lookup k = kw'.lookup k) : kwRat kw k d = kwRat kw' k d := by
  unfold kwRat; rw [h]

theorem kwText_congr {kw kw' : Kwargs} {k d : String} (h : kw.lookup k = kw'.lookup k) : kwText kw k d = kwText kw' k d := by
  unfold kwText; rw [h]

theorem kwPair_congr {kw kw' : Kwargs} {k : String} (h : kw.lookup k = kw'.lookup k) : kwPair kw k = kwPair kw' k := by
  unfold kwPair; rw [h]

theorem kwAppArgs_congr {kw kw' : Kwargs} (h : ∀ k ∈ parameterNames, kw.lookup k = kw'.lookup k) : kwAppArgs kw = kwAppArgs kw' := by
  unfold kwAppArgs kwPower
  rw [kwInt_congr (h "number" (by decide)), kwInt_congr (h "num_windows" (by decide)), kwInt_congr (h "func_time" (by decide)),
    kwRat_congr (h "time_fraction_random_variability" (by decide)), kwInt_congr (h "func_cycle" (by decide)),
    kwText_congr (h "fixed" (by decide)), kwInt_congr (h "fixed_cycle" (by decide)), kwInt_congr (h "continuous_duty_cycle" (by decide)),
    kwRat_congr (h "occasional_use" (by decide)), kwText_congr (h "flat" (by decide)), kwRat_congr (h "thermal_p_var" (by decide)),
    kwInt_congr (h "pref_index" (by decide)), kwInt_congr (h "wd_we_type" (by decide)), kwText_congr (h "name" (by decide)),
    h "power" (by decide)]

theorem any_congr' {α : Type} {l : List α} {p q : α → Bool} (h : ∀ a ∈ l, p a = q a) : l.any p = l.any q := by
  rw [Bool.eq_iff_iff, List.any_eq_true, List.any_eq_true]
  exact exists_congr fun a => and_congr_right fun ha => by rw [h a ha]

theorem kwWindows_congr {kw kw' : Kwargs} (h : ∀ k ∈ windowsParameters, kw.lookup k = kw'.lookup k) : kwWindows kw = kwWindows kw' := by
  unfold kwWindows
  rw [kwPair_congr (h "window_1" (by decide)), kwPair_congr (h "window_2" (by decide)), kwPair_congr (h "window_3" (by decide)),
    kwRat_congr (h "random_var_w" (by decide)), any_congr' (fun k hk => by rw [h k hk])]

theorem kwCycle_congr {kw kw' : Kwargs} {names : List String} (h : ∀ k ∈ names, kw.lookup k = kw'.lookup k) :
    kwCycle kw names = kwCycle kw' names := by
  unfold kwCycle
  split
  · rename_i p1 t1 cwa p2 t2 cwb rc
    rw [kwRat_congr (h p1 (by simp)), kwInt_congr (h t1 (by simp)), kwPair_congr (h cwa (by simp)), kwRat_congr (h p2 (by simp)),
      kwInt_congr (h t2 (by simp)), kwPair_congr (h cwb (by simp)), kwRat_congr (h rc (by simp)), any_congr' (fun k hk => by rw [h k hk])]
  · rfl

theorem any_key {kw : Kwargs} {p : String → Bool} : kw.any (fun x => p x.1) = true ↔ ∃ k, (kw.lookup k).isSome ∧ p k = true := by
  rw [List.any_eq_true]
  constructor
  · rintro ⟨x, hx, hp⟩
    refine ⟨x.1, ?_, hp⟩
    rw [← Option.ne_none_iff_isSome]
    intro h
    exact lookup_none_iff.1 h x hx rfl
  · rintro ⟨k, hk, hp⟩
    rw [← Option.ne_none_iff_isSome] at hk
    have : ¬ ∀ x ∈ kw, x.1 ≠ k := fun h => hk (lookup_none_iff.2 h)
    push Not at this
    obtain ⟨x, hx, rfl⟩ := this
    exact ⟨x, hx, hp⟩

/-! ## C85 -/

/-- Names that are neither of the constructor nor of windows or duty cycles. -/
def unknownArgument (pos : List Val) (kw : Kwargs) : Prop :=
  ∃ k, argument pos kw k ≠ none ∧ k ∉ parameterNames ∧ k ∉ otherParameterNames

theorem kwAddArgs_cases (kw : Kwargs) : kwAddArgs kw = (do
    let app ← kwAppArgs kw
    let w ← kwWindows kw
    let c1 ← kwCycle kw ["p_11", "t_11", "cw11", "p_12", "t_12", "cw12", "r_c1"]
    let c2 ← kwCycle kw ["p_21", "t_21", "cw21", "p_22", "t_22", "cw22", "r_c2"]
    let c3 ← kwCycle kw ["p_31", "t_31", "cw31", "p_32", "t_32", "cw32", "r_c3"]
    pure { app := app, windows := w, cycle1 := c1, cycle2 := c2, cycle3 := c3 }) := rfl

theorem popped_none {ks : List String} {kw : Kwargs} {k : String} (h : k ∈ ks) : (popArgs ks kw).1.lookup k = kw.lookup k := by
  rw [(lookup_pop k ks kw).1, if_pos h]

theorem left_of {ks : List String} {kw : Kwargs} {k : String} (h : k ∉ ks) : (popArgs ks kw).2.lookup k = kw.lookup k := by
  rw [(lookup_pop k ks kw).2, if_neg h]

open Classical in
/-- The call as a whole, once the arguments are matched. -/
theorem addCall_eq (strict : Bool) (oid : ℕ) (nd : ℤ) (u : User) (pos : List Val) (kw : Kwargs) :
    addCall strict oid nd u pos kw = if unknownArgument pos kw then (u, .error .typeError)
      else match kwAddArgs (mergeArgs pos kw) with
        | .ok a => addAppliance strict oid nd u a
        | .error _ => (u, .error .typeError) := by
  have hother : ∀ k, k ∈ otherParameterNames ↔ k ∈ windowsParameters ∨ k ∈ ["p_11", "t_11", "cw11", "p_12", "t_12", "cw12", "r_c1"] ∨
      k ∈ ["p_21", "t_21", "cw21", "p_22", "t_22", "cw22", "r_c2"] ∨ k ∈ ["p_31", "t_31", "cw31", "p_32", "t_32", "cw32", "r_c3"] := by
    intro k
    rw [← List.mem_append, ← List.mem_append, ← List.mem_append]
    exact Iff.rfl
  unfold addCall
  simp only
  set m := mergeArgs pos kw with hm
  set w := popArgs windowsParameters m with hw
  set c1 := popArgs ["p_11", "t_11", "cw11", "p_12", "t_12", "cw12", "r_c1"] w.2 with hc1
  set c2 := popArgs ["p_21", "t_21", "cw21", "p_22", "t_22", "cw22", "r_c2"] c1.2 with hc2
  set c3 := popArgs ["p_31", "t_31", "cw31", "p_32", "t_32", "cw32", "r_c3"] c2.2 with hc3
  have hleft : ∀ k, c3.2.lookup k = if k ∈ otherParameterNames then none else m.lookup k := by
    intro k
    rw [hc3, (lookup_pop k _ c2.2).2, hc2, (lookup_pop k _ c1.2).2, hc1, (lookup_pop k _ w.2).2, hw, (lookup_pop k _ m).2]
    have hk := hother k
    revert hk
    generalize ["p_11", "t_11", "cw11", "p_12", "t_12", "cw12", "r_c1"] = l1
    generalize ["p_21", "t_21", "cw21", "p_22", "t_22", "cw22", "r_c2"] = l2
    generalize ["p_31", "t_31", "cw31", "p_32", "t_32", "cw32", "r_c3"] = l3
    generalize otherParameterNames = o
    generalize windowsParameters = l0
    intro hk
    by_cases ho : k ∈ o
    · rw [if_pos ho]
      rcases hk.1 ho with h | h | h | h <;> simp [h]
    · rw [if_neg ho]
      have g0 : k ∉ l0 := fun h => ho (hk.2 (.inl h))
      have g1 : k ∉ l1 := fun h => ho (hk.2 (.inr (.inl h)))
      have g2 : k ∉ l2 := fun h => ho (hk.2 (.inr (.inr (.inl h))))
      have g3 : k ∉ l3 := fun h => ho (hk.2 (.inr (.inr (.inr h))))
      rw [if_neg g3, if_neg g2, if_neg g1, if_neg g0]
  have hun : (c3.2.any (fun p => p.1 ∉ applianceArgs) = true) ↔ unknownArgument pos kw := by
    rw [any_key (p := fun k => decide (k ∉ applianceArgs))]
    unfold unknownArgument
    refine exists_congr fun k => ?_
    rw [hleft, hm, lookup_merge, ← Option.ne_none_iff_isSome, decide_eq_true_eq]
    by_cases hk : k ∈ otherParameterNames
    · simp [hk]
    · rw [if_neg hk]
      simp only [hk, not_false_eq_true, and_true]
      exact Iff.rfl
  have h1 : kwAppArgs c3.2 = kwAppArgs m := kwAppArgs_congr fun k hk => by
    rw [hleft, if_neg]
    have : ∀ x ∈ parameterNames, x ∉ otherParameterNames := by decide
    exact this k hk
  have h2 : kwWindows w.1 = kwWindows m := kwWindows_congr fun k hk => popped_none hk
  have h3 : kwCycle c1.1 ["p_11", "t_11", "cw11", "p_12", "t_12", "cw12", "r_c1"] =
      kwCycle m ["p_11", "t_11", "cw11", "p_12", "t_12", "cw12", "r_c1"] := kwCycle_congr fun k hk => by
    have : ∀ x ∈ ["p_11", "t_11", "cw11", "p_12", "t_12", "cw12", "r_c1"], x ∉ windowsParameters := by decide
    rw [hc1, popped_none hk, hw, left_of (this k hk)]
  have h4 : kwCycle c2.1 ["p_21", "t_21", "cw21", "p_22", "t_22", "cw22", "r_c2"] =
      kwCycle m ["p_21", "t_21", "cw21", "p_22", "t_22", "cw22", "r_c2"] := kwCycle_congr fun k hk => by
    have g1 : ∀ x ∈ ["p_21", "t_21", "cw21", "p_22", "t_22", "cw22", "r_c2"], x ∉ windowsParameters := by decide
    have g2 : ∀ x ∈ ["p_21", "t_21", "cw21", "p_22", "t_22", "cw22", "r_c2"],
      x ∉ ["p_11", "t_11", "cw11", "p_12", "t_12", "cw12", "r_c1"] := by decide
    rw [hc2, popped_none hk, hc1, left_of (g2 k hk), hw, left_of (g1 k hk)]
  have h5 : kwCycle c3.1 ["p_31", "t_31", "cw31", "p_32", "t_32", "cw32", "r_c3"] =
      kwCycle m ["p_31", "t_31", "cw31", "p_32", "t_32", "cw32", "r_c3"] := kwCycle_congr fun k hk => by
    have g1 : ∀ x ∈ ["p_31", "t_31", "cw31", "p_32", "t_32", "cw32", "r_c3"], x ∉ windowsParameters := by decide
    have g2 : ∀ x ∈ ["p_31", "t_31", "cw31", "p_32", "t_32", "cw32", "r_c3"],
      x ∉ ["p_11", "t_11", "cw11", "p_12", "t_12", "cw12", "r_c1"] := by decide
    have g3 : ∀ x ∈ ["p_31", "t_31", "cw31", "p_32", "t_32", "cw32", "r_c3"],
      x ∉ ["p_21", "t_21", "cw21", "p_22", "t_22", "cw22", "r_c2"] := by decide
    rw [hc3, popped_none hk, hc2, left_of (g3 k hk), hc1, left_of (g2 k hk), hw, left_of (g1 k hk)]
  by_cases hu : unknownArgument pos kw
  · rw [if_pos (hun.2 hu), if_pos hu]
  · rw [if_neg (fun h => hu (hun.1 h)), if_neg hu, h1, h2, h3, h4, h5, kwAddArgs_cases]
    cases kwAppArgs m with
    | error e => rfl
    | ok a =>
      cases kwWindows m with
      | error e => rfl
      | ok w =>
        cases kwCycle m ["p_11", "t_11", "cw11", "p_12", "t_12", "cw12", "r_c1"] with
        | error e => rfl
        | ok c1 =>
          cases kwCycle m ["p_21", "t_21", "cw21", "p_22", "t_22", "cw22", "r_c2"] with
          | error e => rfl
          | ok c2 =>
            cases kwCycle m ["p_31", "t_31", "cw31", "p_32", "t_32", "cw32", "r_c3"] with
            | error e => rfl
            | ok c3 => rfl

/-- **C85.** Only the matched arguments matter: two calls that give the same value to every parameter have the same effect.  So the order of
the keyword arguments is irrelevant, a positional argument and the keyword argument of its place are interchangeable. -/
theorem C85_same_arguments (strict : Bool) (oid : ℕ) (nd : ℤ) (u : User) {pos pos' : List Val} {kw kw' : Kwargs}
    (h : ∀ k, argument pos kw k = argument pos' kw' k) : addCall strict oid nd u pos kw = addCall strict oid nd u pos' kw' := by
  classical
  have hl : ∀ k, (mergeArgs pos kw).lookup k = (mergeArgs pos' kw').lookup k := fun k => by rw [lookup_merge, lookup_merge, h]
  have hk : kwAddArgs (mergeArgs pos kw) = kwAddArgs (mergeArgs pos' kw') := by
    rw [kwAddArgs_cases, kwAddArgs_cases, kwAppArgs_congr fun k _ => hl k, kwWindows_congr fun k _ => hl k, kwCycle_congr fun k _ => hl k,
      kwCycle_congr fun k _ => hl k, kwCycle_congr fun k _ => hl k]
  have hu : unknownArgument pos kw ↔ unknownArgument pos' kw' := by unfold unknownArgument; simp only [h]
  rw [addCall_eq, addCall_eq, hk]
  simp only [hu]

/-- **C85.** An unknown keyword is refused with `TypeError` and the user is unchanged. -/
theorem C85_unknown_keyword (strict : Bool) (oid : ℕ) (nd : ℤ) (u : User) (pos : List Val) (kw : Kwargs) {k : String} {v : Val}
    (hk : (k, v) ∈ kw) (h1 : k ∉ parameterNames) (h2 : k ∉ otherParameterNames) : addCall strict oid nd u pos kw = (u, .error .typeError) := by
  classical
  rw [addCall_eq, if_pos]
  refine ⟨k, ?_, h1, h2⟩
  intro h
  unfold argument at h
  have h' : kw.lookup k = none := by
    cases hz : (parameterNames.zip pos).lookup k with
    | some x => rw [hz] at h; cases h
    | none => rw [hz] at h; exact h
  exact lookup_none_iff.1 h' _ hk rfl

/-- **C85.** Positional arguments can be written as keyword arguments, in any order, and conversely. -/
theorem C85_positional_is_keyword (strict : Bool) (oid : ℕ) (nd : ℤ) (u : User) (pos : List Val) (kw kw' : Kwargs)
    (hp : kw'.Perm ((parameterNames.zip pos) ++ kw)) (hd : (kw'.map Prod.fst).Nodup) :
    addCall strict oid nd u pos kw = addCall strict oid nd u [] kw' := by
  refine C85_same_arguments strict oid nd u fun k => ?_
  have hlook : ∀ (l : Kwargs), (l.map Prod.fst).Nodup → ∀ v, l.lookup k = some v ↔ (k, v) ∈ l := by
    intro l
    induction l with
    | nil => simp
    | cons p l ih =>
      obtain ⟨a, b⟩ := p
      intro hn v
      simp only [List.map_cons, List.nodup_cons] at hn
      rw [lookup_cons']
      by_cases h : k = a
      · subst h
        rw [if_pos rfl]
        constructor
        · intro h; cases h; simp
        · intro h
          rcases List.mem_cons.1 h with h | h
          · cases h; rfl
          · exact absurd (List.mem_map_of_mem (f := Prod.fst) h) hn.1
      · rw [if_neg h, ih hn.2]
        simp [h]
  have hd' : ((parameterNames.zip pos ++ kw).map Prod.fst).Nodup := (hp.map Prod.fst).nodup_iff.1 hd
  have happ : ∀ l m : Kwargs, (l ++ m).lookup k = (l.lookup k <|> m.lookup k) := by
    intro l m
    induction l with
    | nil => simp
    | cons p l ih =>
      obtain ⟨a, b⟩ := p
      rw [List.cons_append, lookup_cons', lookup_cons', ih]
      split_ifs <;> rfl
  unfold argument
  rw [← happ]
  have : kw'.lookup k = (parameterNames.zip pos ++ kw).lookup k := by
    apply Option.ext
    intro v
    rw [hlook _ hd, hlook _ hd', hp.mem_iff]
  rw [this]
  simp

/-- **C85.** A positional argument silently wins over a keyword argument of the same name, and positional arguments after the fifteenth are
silently dropped; Python would refuse both for an ordinary function. -/
theorem C85_no_conflict_error (strict : Bool) (oid : ℕ) (nd : ℤ) (u : User) (pos extra : List Val) (kw kw' : Kwargs)
    (hl : extra ≠ [] → pos.length = 15) (hk : ∀ p ∈ kw', p.1 ∈ parameterNames.take pos.length) :
    addCall strict oid nd u (pos ++ extra) (kw' ++ kw) = addCall strict oid nd u pos kw := by
  refine C85_same_arguments strict oid nd u fun k => ?_
  have hz : parameterNames.zip (pos ++ extra) = parameterNames.zip pos := by
    by_cases he : extra = []
    · rw [he, List.append_nil]
    · have h15 := hl he
      rw [List.zip_eq_zip_take_min, List.zip_eq_zip_take_min (l₂ := pos)]
      simp [parameterNames, h15, List.take_of_length_le (Nat.le_of_eq h15)]
  unfold argument
  rw [hz]
  cases h : (parameterNames.zip pos).lookup k with
  | some v => rfl
  | none =>
    show (kw' ++ kw).lookup k = kw.lookup k
    have hnot : k ∉ parameterNames.take pos.length := by
      intro hm
      have hz2 : ((parameterNames.zip pos).map Prod.fst) = parameterNames.take pos.length := by
        rw [fst_zip]
      rw [← hz2] at hm
      obtain ⟨p, hp, rfl⟩ := List.mem_map.1 hm
      exact lookup_none_iff.1 h p hp rfl
    clear h
    induction kw' with
    | nil => rfl
    | cons p l ih =>
      obtain ⟨a, b⟩ := p
      rw [List.cons_append, lookup_cons', if_neg]
      · exact ih fun q hq => hk q (by simp [hq])
      · rintro rfl
        exact hnot (hk (k, b) (by simp))

/-! ## Where the arguments end up -/

/-- The result of the duty cycle calls. -/
def applyCycles (l : List (ℤ × CycleArgs)) (app : Appliance) : Appliance := l.foldl (fun x p => (specificCycle x p.1 p.2).1) app

theorem addCycles_value : ∀ (l : List (ℤ × CycleArgs)) (u u' : User) (app app' : Appliance), addCycles u app l = (u', app', .ok ()) →
    app' = applyCycles l app
  | [], u, u', app, app', h => by unfold addCycles at h; cases h; rfl
  | (i, c) :: l, u, u', app, app', h => by
    unfold addCycles userCycle at h
    simp only at h
    cases hc : specificCycle app i c with
    | mk x r =>
      rw [hc] at h
      cases r with
      | error e => simp at h
      | ok y =>
        cases y
        simp only at h
        have := addCycles_value l _ _ _ _ h
        rw [this]
        unfold applyCycles
        rw [List.foldl_cons, hc]

theorem addInstance_value {strict : Bool} {u u' : User} {app app' : Appliance} (h : addInstance strict u app = .ok (u', app')) :
    app' = { app with name := app'.name } ∧ (app.name ≠ "" → app'.name = app.name) := by
  unfold addInstance at h
  split at h
  · cases h
  · cases h; exact ⟨rfl, fun _ => rfl⟩
  · cases h
    split_ifs with hn
    · exact ⟨rfl, fun h => absurd hn h⟩
    · exact ⟨rfl, fun _ => rfl⟩

theorem cycle_name (app : Appliance) (i : ℤ) (c : CycleArgs) (n : String) :
    (specificCycle { app with name := n } i c).1 = { (specificCycle app i c).1 with name := n } := by
  unfold specificCycle specificCycle1 specificCycle2 specificCycle3
  split_ifs <;> rfl

theorem applyCycles_name : ∀ (l : List (ℤ × CycleArgs)) (app : Appliance) (n : String),
    applyCycles l { app with name := n } = { applyCycles l app with name := n }
  | [], app, n => rfl
  | (i, c) :: l, app, n => by
    have h := applyCycles_name l (specificCycle app i c).1 n
    unfold applyCycles at h ⊢
    rw [List.foldl_cons, List.foldl_cons, cycle_name]
    exact h

theorem applyCycles_keepsName : ∀ (l : List (ℤ × CycleArgs)) (app : Appliance), (applyCycles l app).name = app.name
  | [], _ => rfl
  | (i, c) :: l, app => by
    have := applyCycles_keepsName l (specificCycle app i c).1
    unfold applyCycles at this ⊢
    rw [List.foldl_cons, this]
    unfold specificCycle specificCycle1 specificCycle2 specificCycle3
    split_ifs <;> rfl

/-- What `add_appliance` returns: the constructed appliance with its windows and its duty cycles, possibly with a new name. -/
theorem addAppliance_value {strict : Bool} {oid : ℕ} {nd : ℤ} {u u' : User} {a : AddArgs} {app : Appliance}
    (h : addAppliance strict oid nd u a = (u', .ok app)) :
    ∃ app0, mkAppliance oid nd a.app = .ok app0 ∧ (a.app.name ≠ "" → app.name = a.app.name) ∧
      ((a.windows = none ∧ app = { applyCycles a.cycles app0 with name := app.name }) ∨
       ∃ w app1, a.windows = some w ∧ windowsBody app0 w = (app1, .ok ()) ∧
         app = { applyCycles a.cycles (windowsTail app1) with name := app.name }) := by
  unfold addAppliance at h
  cases hm : mkAppliance oid nd a.app with
  | error e => rw [hm] at h; simp at h
  | ok app0 =>
    rw [hm] at h
    simp only at h
    have hname0 : app0.name = a.app.name := by
      unfold mkAppliance at hm
      simp only at hm
      split at hm
      · cases hm; rfl
      · split at hm
        · cases hm; rfl
        · cases hm
      · cases hm
    refine ⟨app0, rfl, ?_⟩
    cases hw : a.windows with
    | none =>
      rw [hw] at h
      simp only at h
      cases hc : addCycles u app0 a.cycles with
      | mk u1 r =>
        obtain ⟨x, r⟩ := r
        rw [hc] at h
        cases r with
        | error e => simp at h
        | ok y =>
          cases y
          simp only at h
          have hx := addCycles_value _ _ _ _ _ hc
          cases hi : addInstance strict u1 x with
          | error e => rw [hi] at h; simp at h
          | ok p =>
            obtain ⟨u2, z⟩ := p
            rw [hi] at h
            simp only [Prod.mk.injEq, Except.ok.injEq] at h
            obtain ⟨_, rfl⟩ := h
            obtain ⟨g1, g2⟩ := addInstance_value hi
            have hxn : x.name = a.app.name := by rw [hx, applyCycles_keepsName, hname0]
            refine ⟨fun hne => by rw [g2 (by rw [hxn]; exact hne), hxn], .inl ⟨rfl, ?_⟩⟩
            rw [← hx]; exact g1
    | some w =>
      rw [hw] at h
      simp only at h
      cases hwin : windows strict u app0 w with
      | mk u1 r =>
        obtain ⟨x, r⟩ := r
        rw [hwin] at h
        cases r with
        | error e => simp at h
        | ok y =>
          cases y
          simp only at h
          obtain ⟨app1, hb, u2, app2, hi1, hwe⟩ := windows_ok (strict := strict) (u := u) (app := app0) (w := w) (by rw [hwin])
          rw [hwin] at hwe
          simp only [Prod.mk.injEq, and_true] at hwe
          obtain ⟨_, rfl⟩ := hwe
          obtain ⟨k1, k2⟩ := addInstance_value hi1
          have h1n : app1.name = app0.name := by
            have := windowsBody_changed app0 w
            rw [hb] at this
            exact this.name
          cases hc : addCycles u1 (windowsTail app2) a.cycles with
          | mk u3 r =>
            obtain ⟨x, r⟩ := r
            rw [hc] at h
            cases r with
            | error e => simp at h
            | ok y =>
              cases y
              simp only at h
              have hx := addCycles_value _ _ _ _ _ hc
              cases hi : addInstance strict u3 x with
              | error e => rw [hi] at h; simp at h
              | ok p =>
                obtain ⟨u4, z⟩ := p
                rw [hi] at h
                simp only [Prod.mk.injEq, Except.ok.injEq] at h
                obtain ⟨_, rfl⟩ := h
                obtain ⟨g1, g2⟩ := addInstance_value hi
                have htn : ∀ v n, windowsTail { v with name := n } = { windowsTail v with name := n } := by
                  intro v n; unfold windowsTail; split_ifs <;> rfl
                have htk : ∀ v, (windowsTail v).name = v.name := by intro v; unfold windowsTail; split_ifs <;> rfl
                have hxn : x.name = app2.name := by rw [hx, applyCycles_keepsName, htk]
                refine ⟨fun hne => ?_, .inr ⟨w, app1, rfl, hb, ?_⟩⟩
                · have e2 : app2.name = a.app.name := by rw [k2 (by rw [h1n, hname0]; exact hne), h1n, hname0]
                  rw [g2 (by rw [hxn, e2]; exact hne), hxn, e2]
                · have e : applyCycles a.cycles (windowsTail app1) = { x with name := app1.name } := by
                    have k3 : app1 = { app2 with name := app1.name } := by rw [k1]
                    rw [k3, htn, applyCycles_name, ← hx]
                  rw [e]
                  exact g1

/-! ## Which attribute each argument sets -/

/-- An integer argument: absent, and then the attribute has its default, or given, and then it is the given number. -/
def GivenInt (v : Option Val) (d x : ℤ) : Prop := (v = none ∧ x = d) ∨ v = some (.cell (.num (x : ℚ)))

/-- The same for a number. -/
def GivenRat (v : Option Val) (d x : ℚ) : Prop := (v = none ∧ x = d) ∨ v = some (.cell (.num x))

/-- The same for a text. -/
def GivenText (v : Option Val) (d x : String) : Prop := (v = none ∧ x = d) ∨ v = some (.cell (.text x))

/-- The same for a pair. -/
def GivenPair (v : Option Val) (d x : ℤ × ℤ) : Prop := (v = none ∧ x = d) ∨ v = some (.pair x.1 x.2)

theorem kwInt_ok {kw : Kwargs} {k : String} {d x : ℤ} (h : kwInt kw k d = .ok x) : GivenInt (kw.lookup k) d x := by
  unfold kwInt at h
  unfold GivenInt
  split at h
  · rename_i e; cases h; exact .inl ⟨e, rfl⟩
  · rename_i q e
    split_ifs at h with hq
    cases h
    refine .inr ?_
    rw [e, Rat.coe_int_num_of_den_eq_one hq]
  · cases h

theorem kwRat_ok {kw : Kwargs} {k : String} {d x : ℚ} (h : kwRat kw k d = .ok x) : GivenRat (kw.lookup k) d x := by
  unfold kwRat at h
  unfold GivenRat
  split at h
  · rename_i e; cases h; exact .inl ⟨e, rfl⟩
  · rename_i q e; cases h; exact .inr e
  · cases h

theorem kwText_ok {kw : Kwargs} {k d x : String} (h : kwText kw k d = .ok x) : GivenText (kw.lookup k) d x := by
  unfold kwText at h
  unfold GivenText
  split at h
  · rename_i e; cases h; exact .inl ⟨e, rfl⟩
  · rename_i q e; cases h; exact .inr e
  · cases h

theorem kwPair_ok {kw : Kwargs} {k : String} {x : Option (ℤ × ℤ)} (h : kwPair kw k = .ok x) (d : ℤ × ℤ) :
    GivenPair (kw.lookup k) d (x.getD d) := by
  unfold kwPair at h
  unfold GivenPair
  split at h
  · rename_i e; cases h; exact .inl ⟨e, rfl⟩
  · rename_i a b e; cases h; exact .inr e
  · cases h

theorem except_bind_ok {α β : Type} {x : Except Err α} {f : α → Except Err β} {y : β} (h : (x >>= f) = .ok y) :
    ∃ a, x = .ok a ∧ f a = .ok y := by
  cases x with
  | error e => cases h
  | ok a => exact ⟨a, rfl, h⟩

/-- The attributes set by the constructor. -/
structure ConstructorAttributes (arg : String → Option Val) (app : Appliance) : Prop where
  number : GivenInt (arg "number") 1 app.number
  num_windows : GivenInt (arg "num_windows") 1 app.numWindows
  func_time : GivenInt (arg "func_time") 0 app.funcTime
  time_fraction : GivenRat (arg "time_fraction_random_variability") 0 app.timeFractionRandomVariability
  func_cycle : GivenInt (arg "func_cycle") 1 app.funcCycle
  fixed : GivenText (arg "fixed") "no" app.fixed
  fixed_cycle : GivenInt (arg "fixed_cycle") 0 app.fixedCycle
  continuous : GivenInt (arg "continuous_duty_cycle") 1 app.continuousDutyCycle
  occasional_use : GivenRat (arg "occasional_use") 1 app.occasionalUse
  flat : GivenText (arg "flat") "no" app.flat
  thermal_p_var : GivenRat (arg "thermal_p_var") 0 app.thermalPVar
  pref_index : GivenInt (arg "pref_index") 0 app.prefIndex
  wd_we_type : GivenInt (arg "wd_we_type") 2 app.wdWeType

/-- The attributes set for the windows; without any argument for `windows` the method is not called and the attributes keep
the values of the constructor. -/
structure WindowAttributes (arg : String → Option Val) (app : Appliance) : Prop where
  window_1 : GivenPair (arg "window_1")
    (if arg "window_2" = none ∧ arg "window_3" = none ∧ arg "random_var_w" = none then (0, 0) else (0, 1440)) app.window1
  window_2 : GivenPair (arg "window_2") (0, 0) app.window2
  window_3 : GivenPair (arg "window_3") (0, 0) app.window3
  random_var_w : GivenRat (arg "random_var_w") 0 app.randomVarW

/-- The attributes set for the duty cycles: by default the two windows of the first cycle are the first two windows of the appliance when
`fixed_cycle` is 1 and some argument for `windows` is given. -/
structure CycleAttributes (arg : String → Option Val) (app : Appliance) : Prop where
  p_11 : GivenRat (arg "p_11") 0 app.p11
  t_11 : GivenInt (arg "t_11") 0 app.t11
  cw11 : GivenPair (arg "cw11") (if app.fixedCycle = 1 then app.window1 else (0, 0)) app.cw11
  p_12 : GivenRat (arg "p_12") 0 app.p12
  t_12 : GivenInt (arg "t_12") 0 app.t12
  cw12 : GivenPair (arg "cw12") (if app.fixedCycle = 1 then app.window2 else (0, 0)) app.cw12
  r_c1 : GivenRat (arg "r_c1") 0 app.rc1
  p_21 : GivenRat (arg "p_21") 0 app.p21
  t_21 : GivenInt (arg "t_21") 0 app.t21
  cw21 : GivenPair (arg "cw21") (0, 0) app.cw21
  p_22 : GivenRat (arg "p_22") 0 app.p22
  t_22 : GivenInt (arg "t_22") 0 app.t22
  cw22 : GivenPair (arg "cw22") (0, 0) app.cw22
  r_c2 : GivenRat (arg "r_c2") 0 app.rc2
  p_31 : GivenRat (arg "p_31") 0 app.p31
  t_31 : GivenInt (arg "t_31") 0 app.t31
  cw31 : GivenPair (arg "cw31") (0, 0) app.cw31
  p_32 : GivenRat (arg "p_32") 0 app.p32
  t_32 : GivenInt (arg "t_32") 0 app.t32
  cw32 : GivenPair (arg "cw32") (0, 0) app.cw32
  r_c3 : GivenRat (arg "r_c3") 0 app.rc3

/-- The power: a number is repeated for every day, a series is kept, anything else is refused. -/
def PowerAttribute (v : Option Val) (nd : ℤ) (x : List ℚ) : Prop :=
  (v = none ∧ x = List.replicate (nd + 1).toNat 0) ∨ (∃ q, v = some (.cell (.num q)) ∧ x = List.replicate (nd + 1).toNat q) ∨
  v = some (.cell (.array x)) ∨ ∃ l : List (ℚ × ℚ), v = some (.cell (.pairs l)) ∧ x = l.map Prod.fst

/-- The appliance with only the attributes of the constructor. -/
def bareAppliance (app : Appliance) : Appliance :=
  { oid := app.oid, name := app.name, number := app.number, power := app.power, constantPower := app.constantPower,
    numWindows := app.numWindows, funcTime := app.funcTime, timeFractionRandomVariability := app.timeFractionRandomVariability,
    funcCycle := app.funcCycle, fixed := app.fixed, fixedCycle := app.fixedCycle, continuousDutyCycle := app.continuousDutyCycle,
    occasionalUse := app.occasionalUse, flat := app.flat, thermalPVar := app.thermalPVar, prefIndex := app.prefIndex,
    wdWeType := app.wdWeType }

theorem kwAppArgs_ok {kw : Kwargs} {a : AppArgs} {oid : ℕ} {nd : ℤ} {app : Appliance} (h : kwAppArgs kw = .ok a)
    (hm : mkAppliance oid nd a = .ok app) :
    ConstructorAttributes (fun k => kw.lookup k) app ∧ PowerAttribute (kw.lookup "power") nd app.power ∧ GivenText (kw.lookup "name") "" a.name ∧
      app = bareAppliance app := by
  unfold kwAppArgs at h
  obtain ⟨x1, h1, h⟩ := except_bind_ok h
  obtain ⟨x2, h2, h⟩ := except_bind_ok h
  obtain ⟨x3, h3, h⟩ := except_bind_ok h
  obtain ⟨x4, h4, h⟩ := except_bind_ok h
  obtain ⟨x5, h5, h⟩ := except_bind_ok h
  obtain ⟨x6, h6, h⟩ := except_bind_ok h
  obtain ⟨x7, h7, h⟩ := except_bind_ok h
  obtain ⟨x8, h8, h⟩ := except_bind_ok h
  obtain ⟨x9, h9, h⟩ := except_bind_ok h
  obtain ⟨x10, h10, h⟩ := except_bind_ok h
  obtain ⟨x11, h11, h⟩ := except_bind_ok h
  obtain ⟨x12, h12, h⟩ := except_bind_ok h
  obtain ⟨x13, h13, h⟩ := except_bind_ok h
  obtain ⟨x14, h14, h⟩ := except_bind_ok h
  cases h
  have hc : ∀ app : Appliance, app.number = x1 → app.numWindows = x2 → app.funcTime = x3 → app.timeFractionRandomVariability = x4 →
      app.funcCycle = x5 → app.fixed = x6 → app.fixedCycle = x7 → app.continuousDutyCycle = x8 → app.occasionalUse = x9 → app.flat = x10 →
      app.thermalPVar = x11 → app.prefIndex = x12 → app.wdWeType = x13 → ConstructorAttributes (fun k => kw.lookup k) app := by
    intro app e1 e2 e3 e4 e5 e6 e7 e8 e9 e10 e11 e12 e13
    subst e1 e2 e3 e4 e5 e6 e7 e8 e9 e10 e11 e12 e13
    exact ⟨kwInt_ok h1, kwInt_ok h2, kwInt_ok h3, kwRat_ok h4, kwInt_ok h5, kwText_ok h6, kwInt_ok h7, kwInt_ok h8, kwRat_ok h9,
      kwText_ok h10, kwRat_ok h11, kwInt_ok h12, kwInt_ok h13⟩
  have hpow : PowerAttribute (kw.lookup "power") nd app.power := by
    unfold mkAppliance kwPower at hm
    unfold PowerAttribute
    simp only at hm
    cases hp : kw.lookup "power" with
    | none =>
      rw [hp] at hm
      simp only [onesTimes] at hm
      split at hm
      · rename_i e; split_ifs at e; cases e; cases hm; exact .inl ⟨rfl, rfl⟩
      · cases hm
    | some v =>
      rw [hp] at hm
      cases v with
      | pair a b => cases hm
      | cell c =>
        cases c with
        | num q =>
          simp only [onesTimes] at hm
          split at hm
          · rename_i e; split_ifs at e; cases e; cases hm; exact .inr (.inl ⟨q, rfl, rfl⟩)
          · cases hm
        | array l => cases hm; exact .inr (.inr (.inl rfl))
        | pairs l => cases hm; exact .inr (.inr (.inr ⟨l, rfl, rfl⟩))
        | blank => cases hm
        | text s => cases hm
        | range l => cases hm
  unfold mkAppliance at hm
  simp only at hm
  refine ⟨?_, hpow, kwText_ok h14, ?_⟩
  · split at hm
    · cases hm; exact hc _ rfl rfl rfl rfl rfl rfl rfl rfl rfl rfl rfl rfl rfl
    · split at hm
      · cases hm; exact hc _ rfl rfl rfl rfl rfl rfl rfl rfl rfl rfl rfl rfl rfl
      · cases hm
    · cases hm
  · split at hm
    · cases hm; rfl
    · split at hm
      · cases hm; rfl
      · cases hm
    · cases hm

theorem any_isSome_false {kw : Kwargs} {names : List String} (h : ¬ names.any (fun k => (kw.lookup k).isSome) = true) :
    ∀ k ∈ names, kw.lookup k = none := by
  intro k hk
  by_contra hne
  exact h (List.any_eq_true.2 ⟨k, hk, Option.ne_none_iff_isSome.1 hne⟩)

theorem kwCycle_ok {kw : Kwargs} {p1 t1 cwa p2 t2 cwb rc : String} {c : Option CycleArgs}
    (h : kwCycle kw [p1, t1, cwa, p2, t2, cwb, rc] = .ok c) :
    GivenRat (kw.lookup p1) 0 (c.getD {}).p1 ∧ GivenInt (kw.lookup t1) 0 (c.getD {}).t1 ∧
    (∀ d, GivenPair (kw.lookup cwa) d ((c.getD {}).cwa.getD d)) ∧ GivenRat (kw.lookup p2) 0 (c.getD {}).p2 ∧
    GivenInt (kw.lookup t2) 0 (c.getD {}).t2 ∧ (∀ d, GivenPair (kw.lookup cwb) d ((c.getD {}).cwb.getD d)) ∧
    GivenRat (kw.lookup rc) 0 (c.getD {}).rc := by
  unfold kwCycle at h
  simp only at h
  split_ifs at h with ha
  · obtain ⟨x1, h1, h⟩ := except_bind_ok h
    obtain ⟨x2, h2, h⟩ := except_bind_ok h
    obtain ⟨x3, h3, h⟩ := except_bind_ok h
    obtain ⟨x4, h4, h⟩ := except_bind_ok h
    obtain ⟨x5, h5, h⟩ := except_bind_ok h
    obtain ⟨x6, h6, h⟩ := except_bind_ok h
    obtain ⟨x7, h7, h⟩ := except_bind_ok h
    cases h
    exact ⟨kwRat_ok h1, kwInt_ok h2, kwPair_ok h3, kwRat_ok h4, kwInt_ok h5, kwPair_ok h6, kwRat_ok h7⟩
  · cases h
    have hn := any_isSome_false ha
    exact ⟨.inl ⟨hn _ (by simp), rfl⟩, .inl ⟨hn _ (by simp), rfl⟩, fun d => .inl ⟨hn _ (by simp), rfl⟩, .inl ⟨hn _ (by simp), rfl⟩,
      .inl ⟨hn _ (by simp), rfl⟩, fun d => .inl ⟨hn _ (by simp), rfl⟩, .inl ⟨hn _ (by simp), rfl⟩⟩

theorem kwWindows_none {kw : Kwargs} (h : kwWindows kw = .ok none) : ∀ k ∈ windowsParameters, kw.lookup k = none := by
  unfold kwWindows at h
  split_ifs at h with ha
  · obtain ⟨x1, h1, h⟩ := except_bind_ok h
    obtain ⟨x2, h2, h⟩ := except_bind_ok h
    obtain ⟨x3, h3, h⟩ := except_bind_ok h
    obtain ⟨x4, h4, h⟩ := except_bind_ok h
    cases h
  · exact any_isSome_false ha

theorem kwWindows_some {kw : Kwargs} {w : WindowsArgs} (h : kwWindows kw = .ok (some w)) :
    (∀ d, GivenPair (kw.lookup "window_1") d (w.window1.getD d)) ∧ (∀ d, GivenPair (kw.lookup "window_2") d (w.window2.getD d)) ∧
    (∀ d, GivenPair (kw.lookup "window_3") d (w.window3.getD d)) ∧ GivenRat (kw.lookup "random_var_w") 0 w.randomVarW ∧
    ∃ k ∈ windowsParameters, kw.lookup k ≠ none := by
  unfold kwWindows at h
  split_ifs at h with ha
  · obtain ⟨x1, h1, h⟩ := except_bind_ok h
    obtain ⟨x2, h2, h⟩ := except_bind_ok h
    obtain ⟨x3, h3, h⟩ := except_bind_ok h
    obtain ⟨x4, h4, h⟩ := except_bind_ok h
    cases h
    obtain ⟨k, hk, hs⟩ := List.any_eq_true.1 ha
    exact ⟨kwPair_ok h1, kwPair_ok h2, kwPair_ok h3, kwRat_ok h4, k, hk, Option.ne_none_iff_isSome.2 hs⟩
  · cases h

/-- The appliance with the duty cycles of the given arguments. -/
def withCycles (app : Appliance) (c1 c2 c3 : CycleArgs) : Appliance :=
  { app with
    p11 := c1.p1, t11 := c1.t1, p12 := c1.p2, t12 := c1.t2, rc1 := c1.rc, cw11 := c1.cwa.getD app.cw11, cw12 := c1.cwb.getD app.cw12
    p21 := c2.p1, t21 := c2.t1, p22 := c2.p2, t22 := c2.t2, rc2 := c2.rc, cw21 := c2.cwa.getD app.cw21, cw22 := c2.cwb.getD app.cw22
    p31 := c3.p1, t31 := c3.t1, p32 := c3.p2, t32 := c3.t2, rc3 := c3.rc, cw31 := c3.cwa.getD app.cw31, cw32 := c3.cwb.getD app.cw32 }

theorem applyCycles_eq (a : AddArgs) (app : Appliance) (h : app = withCycles app {} {} {}) :
    applyCycles a.cycles app = withCycles app (a.cycle1.getD {}) (a.cycle2.getD {}) (a.cycle3.getD {}) := by
  have h0 : ∀ c1 c2 c3, withCycles app c1 c2 c3 = withCycles (withCycles app {} {} {}) c1 c2 c3 := fun _ _ _ => by rw [← h]
  rw [h0, h]
  unfold AddArgs.cycles applyCycles
  cases a.cycle1 <;> cases a.cycle2 <;> cases a.cycle3 <;> rfl

/-- **C85.** Every argument reaches the attribute of its name: after a successful call the attributes of the returned appliance are the
given values, and the documented defaults for the parameters that are not given. -/
theorem C85_attributes {strict : Bool} {oid : ℕ} {nd : ℤ} {u u' : User} {pos : List Val} {kw : Kwargs} {app : Appliance}
    (h : addCall strict oid nd u pos kw = (u', .ok app)) :
    ConstructorAttributes (argument pos kw) app ∧ PowerAttribute (argument pos kw "power") nd app.power ∧
    WindowAttributes (argument pos kw) app ∧ CycleAttributes (argument pos kw) app ∧
    ∀ s, s ≠ "" → argument pos kw "name" = some (.cell (.text s)) → app.name = s := by
  classical
  have hl : (fun k => (mergeArgs pos kw).lookup k) = argument pos kw := funext fun k => lookup_merge pos kw k
  rw [addCall_eq] at h
  split_ifs at h
  · cases h
  split at h
  case h_2 => cases h
  rename_i a ha
  obtain ⟨app0, hm, hname, hval⟩ := addAppliance_value h
  rw [kwAddArgs_cases] at ha
  obtain ⟨x1, k1, ha⟩ := except_bind_ok ha
  obtain ⟨x2, k2, ha⟩ := except_bind_ok ha
  obtain ⟨x3, k3, ha⟩ := except_bind_ok ha
  obtain ⟨x4, k4, ha⟩ := except_bind_ok ha
  obtain ⟨x5, k5, ha⟩ := except_bind_ok ha
  cases ha
  simp only at hm hname hval
  obtain ⟨g1, g2, g3, g4⟩ := kwAppArgs_ok k1 hm
  have c1 := kwCycle_ok k3
  have c2 := kwCycle_ok k4
  have c3 := kwCycle_ok k5
  rw [hl] at g1
  simp only [lookup_merge] at g2 g3 c1 c2 c3
  obtain ⟨c11, c12, c13, c14, c15, c16, c17⟩ := c1
  obtain ⟨c21, c22, c23, c24, c25, c26, c27⟩ := c2
  obtain ⟨c31, c32, c33, c34, c35, c36, c37⟩ := c3
  have hnm : ∀ s, s ≠ "" → argument pos kw "name" = some (.cell (.text s)) → app.name = s := by
    intro s hs e
    rcases g3 with ⟨e', _⟩ | e'
    · rw [e'] at e; cases e
    · rw [e'] at e; cases e
      exact hname hs
  rcases hval with ⟨hw, hv⟩ | ⟨w, app1, hw, hb, hv⟩
  · subst hw
    have hn := kwWindows_none k2
    simp only [lookup_merge] at hn
    rw [applyCycles_eq _ _ (by rw [g4]; rfl)] at hv
    simp only at hv
    rw [g4] at hv
    rw [hv]
    refine ⟨⟨g1.1, g1.2, g1.3, g1.4, g1.5, g1.6, g1.7, g1.8, g1.9, g1.10, g1.11, g1.12, g1.13⟩, g2, ?_, ?_, by rw [hv] at hnm; exact hnm⟩
    · refine ⟨.inl ⟨hn _ (by decide), ?_⟩, .inl ⟨hn _ (by decide), rfl⟩, .inl ⟨hn _ (by decide), rfl⟩, .inl ⟨hn _ (by decide), rfl⟩⟩
      rw [if_pos ⟨hn _ (by decide), hn _ (by decide), hn _ (by decide)⟩]
      rfl
    · refine ⟨c11, c12, ?_, c14, c15, ?_, c17, c21, c22, c23 _, c24, c25, c26 _, c27, c31, c32, c33 _, c34, c35, c36 _, c37⟩
      · have := c13 (0, 0)
        split_ifs <;> simpa [withCycles, bareAppliance] using this
      · have := c16 (0, 0)
        split_ifs <;> simpa [withCycles, bareAppliance] using this
  · subst hw
    obtain ⟨q1, q2, q3, q4, q5⟩ := kwWindows_some k2
    simp only [lookup_merge] at q1 q2 q3 q4 q5
    obtain ⟨d, happ1, -⟩ := windowsBody_ok hb
    have hw1 : ¬ (argument pos kw "window_2" = none ∧ argument pos kw "window_3" = none ∧ argument pos kw "random_var_w" = none) ∨
        argument pos kw "window_1" ≠ none := by
      by_contra hcon
      push Not at hcon
      obtain ⟨⟨e2, e3, e4⟩, e1⟩ := hcon
      obtain ⟨k, hk, hne⟩ := q5
      simp only [windowsParameters, List.mem_cons, List.not_mem_nil, or_false] at hk
      rcases hk with rfl | rfl | rfl | rfl
      all_goals first | exact hne e1 | exact hne e2 | exact hne e3 | exact hne e4
    have hname1 : ∀ s, s ≠ "" → argument pos kw "name" = some (.cell (.text s)) → app.name = s := hnm
    have g4' : ∃ b, app0 = bareAppliance b := ⟨app0, g4⟩
    obtain ⟨b, rfl⟩ := g4'
    subst happ1
    have hW1 : ∀ x, GivenPair (argument pos kw "window_1") (0, 1440) x → GivenPair (argument pos kw "window_1")
        (if argument pos kw "window_2" = none ∧ argument pos kw "window_3" = none ∧ argument pos kw "random_var_w" = none then (0, 0)
          else (0, 1440)) x := by
      intro x hx
      rcases hw1 with hc | hc
      · rw [if_neg hc]; exact hx
      · rcases hx with hx | hx
        · exact absurd hx.1 hc
        · exact .inr hx
    by_cases hf : b.fixedCycle = 1
    · rw [windowsTail, if_pos (by exact hf), applyCycles_eq _ _ rfl] at hv
      rw [hv]
      refine ⟨⟨g1.1, g1.2, g1.3, g1.4, g1.5, g1.6, g1.7, g1.8, g1.9, g1.10, g1.11, g1.12, g1.13⟩, g2, ?_, ?_, by rw [hv] at hnm; exact hnm⟩
      · exact ⟨hW1 _ (q1 _), q2 _, q3 _, q4⟩
      · refine ⟨c11, c12, ?_, c14, c15, ?_, c17, c21, c22, c23 _, c24, c25, c26 _, c27, c31, c32, c33 _, c34, c35, c36 _, c37⟩
        · rw [if_pos (by exact hf)]; exact c13 _
        · rw [if_pos (by exact hf)]; exact c16 _
    · rw [windowsTail, if_neg (by exact hf), applyCycles_eq _ _ rfl] at hv
      rw [hv]
      refine ⟨⟨g1.1, g1.2, g1.3, g1.4, g1.5, g1.6, g1.7, g1.8, g1.9, g1.10, g1.11, g1.12, g1.13⟩, g2, ?_, ?_, by rw [hv] at hnm; exact hnm⟩
      · exact ⟨hW1 _ (q1 _), q2 _, q3 _, q4⟩
      · refine ⟨c11, c12, ?_, c14, c15, ?_, c17, c21, c22, c23 _, c24, c25, c26 _, c27, c31, c32, c33 _, c34, c35, c36 _, c37⟩
        · rw [if_neg (by exact hf)]; exact c13 _
        · rw [if_neg (by exact hf)]; exact c16 _

/-- The hypothesis of `C85_attributes` holds for real calls, for example
`user.add_appliance(2, 100, func_time=60, fixed="yes", p_11=50, t_11=10)`. -/
example (u : User) (hu : u.appList = []) : ∃ u' app, addCall true 7 10 u [.cell (.num 2), .cell (.num 100)]
    [("func_time", .cell (.num 60)), ("fixed", .cell (.text "yes")), ("p_11", .cell (.num 50)), ("t_11", .cell (.num 10))] = (u', .ok app) ∧
    app.number = 2 ∧ app.power = List.replicate 11 100 ∧ app.fixed = "yes" ∧ app.p11 = 50 ∧ app.t11 = 10 ∧ app.funcTime = 60 := by
  obtain ⟨nm, nu, pref, al⟩ := u
  subst hu
  exact ⟨_, _, rfl, rfl, rfl, rfl, rfl, rfl, rfl⟩

end Ramp
