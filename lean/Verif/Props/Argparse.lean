import Verif.Lemmas.Argparse
import Verif.Props.CliResults

/-! # C100: the options of the command line -/

set_option autoImplicit false

namespace Ramp

/-! ## Words and groups -/

/-- A group of words read as an option with its values, nothing left over. -/
def Reads (g : OptGroup) (h : Opt × List Text) : Prop :=
  g.opt = some h.1 ∧ ((g.joined = none ∧ h.2 = g.values) ∨ ∃ e, g.joined = some e ∧ g.values = [] ∧ h.2 = [e])

theorem groupWords_values (ws : List Word) : ∀ {vs : List Text}, (∀ v ∈ vs, IsValue v) →
    groupWords (vs.map classify ++ ws) = (vs ++ (groupWords ws).1, (groupWords ws).2)
  | [], _ => rfl
  | v :: vs, h => by
    have hv : classify v = .value v := classify_value_iff.2 ⟨rfl, h v (by simp)⟩
    rw [List.map_cons, List.cons_append, hv]
    show (v :: (groupWords (vs.map classify ++ ws)).1, (groupWords (vs.map classify ++ ws)).2) = _
    rw [groupWords_values ws (fun v hv => h v (by simp [hv]))]
    rfl

theorem groups_of_written {ws : List Text} {gs : List (Opt × List Text)} (h : Written ws gs) :
    .ambiguous ∉ ws.map classify ∧ (groupWords (ws.map classify)).1 = [] ∧ List.Forall₂ Reads (groupWords (ws.map classify)).2 gs := by
  induction h with
  | nil => exact ⟨by simp, rfl, .nil⟩
  | @separate w o vs ws gs hs hv _ ih =>
    obtain ⟨h1, h2, h3⟩ := ih
    have hw := classify_of_spells hs
    refine ⟨?_, ?_⟩
    · rw [List.map_cons, hw, List.map_append]
      simp only [List.mem_cons, reduceCtorEq, List.mem_append, false_or, not_or]
      refine ⟨fun hm => ?_, h1⟩
      obtain ⟨v, hm, hc⟩ := List.mem_map.1 hm
      rw [classify_value_iff.2 ⟨rfl, hv v hm⟩] at hc
      cases hc
    · rw [List.map_cons, hw, List.map_append]
      show [] = [] ∧ List.Forall₂ Reads (⟨some o, none, (groupWords (vs.map classify ++ ws.map classify)).1⟩ ::
        (groupWords (vs.map classify ++ ws.map classify)).2) ((o, vs) :: gs)
      rw [groupWords_values _ hv, h2, List.append_nil]
      exact ⟨rfl, .cons ⟨rfl, .inl ⟨rfl, rfl⟩⟩ h3⟩
  | @joined w e o ws gs hs _ ih =>
    obtain ⟨h1, h2, h3⟩ := ih
    have hw := classify_of_spells hs
    rw [List.map_cons, hw]
    refine ⟨by simpa using h1, rfl, ?_⟩
    show List.Forall₂ Reads (⟨some o, some e, (groupWords (ws.map classify)).1⟩ :: (groupWords (ws.map classify)).2) ((o, [e]) :: gs)
    rw [h2]
    exact .cons ⟨rfl, .inr ⟨e, rfl, rfl, rfl⟩⟩ h3

theorem written_of_groups : ∀ {ws : List Text} {gs : List (Opt × List Text)}, .ambiguous ∉ ws.map classify →
    List.Forall₂ Reads (groupWords (ws.map classify)).2 gs →
    ∃ ws', ws = (groupWords (ws.map classify)).1 ++ ws' ∧ (∀ v ∈ (groupWords (ws.map classify)).1, IsValue v) ∧ Written ws' gs
  | [], gs, _, h => by
    cases h
    exact ⟨[], rfl, by simp [groupWords], .nil⟩
  | w :: ws, gs, ha, h => by
    simp only [List.map_cons, List.mem_cons, not_or] at ha
    cases hw : classify w with
    | value t =>
      obtain ⟨rfl, hv⟩ := classify_value_iff.1 hw
      rw [List.map_cons, hw] at h ⊢
      obtain ⟨ws', h1, h2, h3⟩ := written_of_groups ha.2 h
      refine ⟨ws', ?_, ?_, h3⟩
      · show t :: ws = t :: (groupWords (ws.map classify)).1 ++ ws'
        rw [List.cons_append, ← h1]
      · intro v hm
        rcases List.mem_cons.1 hm with rfl | hm
        · exact hv
        · exact h2 v hm
    | option o j =>
      have hs := spells_of_classify hw
      rw [List.map_cons, hw] at h ⊢
      refine ⟨w :: ws, rfl, by simp [groupWords], ?_⟩
      have h : List.Forall₂ Reads (⟨some o, j, (groupWords (ws.map classify)).1⟩ :: (groupWords (ws.map classify)).2) gs := h
      cases h with
      | @cons _ g _ gs hr htail =>
        obtain ⟨ws', h1, h2, h3⟩ := written_of_groups ha.2 htail
        obtain ⟨o', vs⟩ := g
        obtain ⟨ho, hj⟩ := hr
        simp only [Option.some.injEq] at ho
        subst ho
        rcases hj with ⟨hj, hvs⟩ | ⟨e, hj, hnil, hvs⟩
        · simp only at hj hvs
          subst hj hvs
          have := Written.separate hs h2 h3
          rwa [← h1] at this
        · simp only at hj hnil hvs
          subst hj hvs
          rw [hnil, List.nil_append] at h1
          rw [h1]
          exact .joined hs h3
    | unknown =>
      rw [List.map_cons, hw] at h
      have h : List.Forall₂ Reads (⟨none, none, (groupWords (ws.map classify)).1⟩ :: (groupWords (ws.map classify)).2) gs := h
      cases h with
      | cons hr _ => cases hr.1
    | ambiguous => exact absurd hw.symm ha.1

/-! ## Values -/

/-- Storing the values of an option that fits. -/
def applyGroup (rd : Readers) (a : CliArgs) : Opt × List Text → CliArgs
  | (.input, vs) => { a with fnames := some vs }
  | (.output, vs) => { a with ofnames := some vs }
  | (.numDays, vs) => { a with numDays := some (vs.filterMap rd.int) }
  | (.years, vs) => { a with years := some (vs.filterMap rd.int) }
  | (.startDate, vs) => { a with dateStart := vs.head?.bind rd.date }
  | (.endDate, vs) => { a with dateEnd := vs.head?.bind rd.date }
  | (.ext, vs) => { a with extension := vs.head?.getD "xlsx".toList }
  | (.parallel, vs) => { a with parallel := decide (vs ≠ [[]]) }
  | (.help, _) => a

theorem mapM_some_iff {α β : Type} {f : α → Option β} : ∀ {vs : List α} {l : List β}, vs.mapM f = some l ↔ (∀ v ∈ vs, (f v).isSome) ∧ l = vs.filterMap f
  | [], l => by
    simp only [List.mapM_nil, Option.pure_def, Option.some.injEq, List.not_mem_nil, false_imp_iff, implies_true, true_and, List.filterMap_nil]
    exact eq_comm
  | v :: vs, l => by
    rw [List.mapM_cons]
    cases hv : f v with
    | none => simp [hv]
    | some b =>
      simp only [Option.bind_eq_bind, Option.bind_some, Option.bind_eq_some_iff, Option.pure_def, Option.some.injEq, List.mem_cons, forall_eq_or_imp, hv,
        Option.isSome_some, true_and, List.filterMap_cons_some hv]
      constructor
      · rintro ⟨l', h1, rfl⟩
        obtain ⟨h2, rfl⟩ := mapM_some_iff.1 h1
        exact ⟨h2, rfl⟩
      · rintro ⟨h1, rfl⟩
        exact ⟨_, mapM_some_iff.2 ⟨h1, rfl⟩, rfl⟩

theorem take_iff {o : Opt} {j : Option Text} {values vs : List Text} (ho : o ≠ .help) :
    takeValues o j values = some (vs, []) ↔ Reads ⟨some o, j, values⟩ (o, vs) ∧ match nargsOf o with
      | .plus => vs ≠ []
      | .one => vs.length = 1
      | .optional => vs.length ≤ 1
      | .none => False := by
  unfold Reads takeValues
  have hn : nargsOf o = .plus ∨ nargsOf o = .one ∨ nargsOf o = .optional := by cases o <;> simp_all [nargsOf]
  rcases hn with hn | hn | hn <;> rw [hn] <;> cases j with
  | some e =>
    simp only [Option.some.injEq, Prod.mk.injEq, reduceCtorEq, false_and, false_or, true_and, exists_eq_left']
    constructor
    · rintro ⟨rfl, rfl⟩; simp
    · rintro ⟨⟨rfl, rfl⟩, _⟩; simp
  | none =>
    cases values with
    | nil =>
      simp
      try (rintro rfl; simp)
      try exact fun h => h
    | cons v r =>
      simp
      try (constructor
           · rintro ⟨rfl, rfl⟩; simp
           · rintro ⟨rfl, h⟩; simpa using h)
      try (rintro rfl; simp)

theorem step_iff {rd : Readers} {o : Opt} {j : Option Text} {values vs : List Text} {a a1 : CliArgs} (ho : o ≠ .help) :
    (takeValues o j values = some (vs, []) ∧ storeValues rd o vs a = some a1) ↔
      Reads ⟨some o, j, values⟩ (o, vs) ∧ FitsOption rd o vs ∧ a1 = applyGroup rd a (o, vs) := by
  rw [take_iff ho, and_assoc]
  refine and_congr_right fun _ => ?_
  cases o with
  | input => simp [nargsOf, storeValues, FitsOption, applyGroup, eq_comm]
  | output => simp [nargsOf, storeValues, FitsOption, applyGroup, eq_comm]
  | numDays =>
    simp only [nargsOf, storeValues, FitsOption, applyGroup, Option.map_eq_some_iff, mapM_some_iff, and_assoc]
    refine and_congr_right fun _ => ?_
    constructor
    · rintro ⟨l, h1, rfl, rfl⟩; exact ⟨h1, rfl⟩
    · rintro ⟨h1, rfl⟩; exact ⟨_, h1, rfl, rfl⟩
  | years =>
    simp only [nargsOf, storeValues, FitsOption, applyGroup, Option.map_eq_some_iff, mapM_some_iff, and_assoc]
    refine and_congr_right fun _ => ?_
    constructor
    · rintro ⟨l, h1, rfl, rfl⟩; exact ⟨h1, rfl⟩
    · rintro ⟨h1, rfl⟩; exact ⟨_, h1, rfl, rfl⟩
  | startDate =>
    simp only [nargsOf, storeValues, FitsOption, applyGroup, Option.map_eq_some_iff]
    constructor
    · rintro ⟨h1, d, h2, rfl⟩
      obtain ⟨v, rfl⟩ := List.length_eq_one_iff.1 h1
      simp only [List.head?_cons, Option.bind_some] at h2 ⊢
      exact ⟨⟨v, rfl, by rw [h2]; rfl⟩, by rw [h2]⟩
    · rintro ⟨⟨v, rfl, h⟩, rfl⟩
      obtain ⟨d, hd⟩ := Option.isSome_iff_exists.1 h
      exact ⟨rfl, d, hd, by simp [hd]⟩
  | endDate =>
    simp only [nargsOf, storeValues, FitsOption, applyGroup, Option.map_eq_some_iff]
    constructor
    · rintro ⟨h1, d, h2, rfl⟩
      obtain ⟨v, rfl⟩ := List.length_eq_one_iff.1 h1
      simp only [List.head?_cons, Option.bind_some] at h2 ⊢
      exact ⟨⟨v, rfl, by rw [h2]; rfl⟩, by rw [h2]⟩
    · rintro ⟨⟨v, rfl, h⟩, rfl⟩
      obtain ⟨d, hd⟩ := Option.isSome_iff_exists.1 h
      exact ⟨rfl, d, hd, by simp [hd]⟩
  | ext =>
    simp only [nargsOf, storeValues, FitsOption, applyGroup]
    refine and_congr_right fun h => ?_
    obtain ⟨v, rfl⟩ := List.length_eq_one_iff.1 h
    simp [eq_comm]
  | parallel =>
    simp only [nargsOf, storeValues, FitsOption, applyGroup]
    refine and_congr_right fun h => ?_
    match vs, h with
    | [], _ => simp [eq_comm]
    | [v], _ => simp [eq_comm]
  | help => exact absurd rfl ho

theorem parseGroups_bad {rd : Readers} {b : CliArgs} : ∀ {gs : List OptGroup} {a : CliArgs}, parseGroups rd true a gs ≠ .args b
  | [], a => by simp [parseGroups]
  | g :: gs, a => by
    unfold parseGroups
    split
    · exact parseGroups_bad
    · split
      · simp
      · split
        · simp
        · split
          · simp
          · rw [Bool.true_or]; exact parseGroups_bad

theorem parseGroups_iff {rd : Readers} {b : CliArgs} : ∀ {gs : List OptGroup} {a : CliArgs}, parseGroups rd false a gs = .args b ↔
    ∃ hs, List.Forall₂ Reads gs hs ∧ (∀ h ∈ hs, FitsOption rd h.1 h.2) ∧ b = hs.foldl (applyGroup rd) a
  | [], a => by
    simp only [parseGroups, Bool.false_eq_true, if_false, Parsed.args.injEq, List.forall₂_nil_left_iff]
    constructor
    · rintro rfl; exact ⟨[], rfl, by simp, rfl⟩
    · rintro ⟨_, rfl, -, rfl⟩; rfl
  | g :: gs, a => by
    obtain ⟨opt, j, values⟩ := g
    constructor
    · intro h
      unfold parseGroups at h
      split at h
      · exact absurd h parseGroups_bad
      · rename_i o ho
        simp only at ho
        subst ho
        split at h
        · cases h
        · rename_i vs rest ht
          split at h
          · cases h
          · rename_i hhelp
            split at h
            · cases h
            · rename_i a1 hst
              cases rest with
              | cons x rest => simp only [List.isEmpty_cons, Bool.not_false, Bool.or_true] at h; exact absurd h parseGroups_bad
              | nil =>
                simp only [List.isEmpty_nil, Bool.not_true, Bool.or_false] at h
                obtain ⟨h1, h2, h3⟩ := (step_iff hhelp).1 ⟨ht, hst⟩
                obtain ⟨hs, h4, h5, h6⟩ := parseGroups_iff.1 h
                refine ⟨(o, vs) :: hs, .cons h1 h4, ?_, ?_⟩
                · intro x hx
                  rcases List.mem_cons.1 hx with rfl | hx
                  · exact h2
                  · exact h5 x hx
                · rw [h6, h3]; rfl
    · rintro ⟨hs, h1, h2, rfl⟩
      cases h1 with
      | @cons _ x _ hs hr h1 =>
        obtain ⟨o, vs⟩ := x
        have ho : opt = some o := hr.1
        subst ho
        have hfit := h2 (o, vs) (by simp)
        have hhelp : o ≠ .help := by rintro rfl; exact hfit
        obtain ⟨ht, hst⟩ := (step_iff (a := a) hhelp).2 ⟨hr, hfit, rfl⟩
        unfold parseGroups
        simp only [ht, if_neg hhelp, hst, List.isEmpty_nil, Bool.not_true, Bool.or_false]
        exact parseGroups_iff.2 ⟨hs, h1, fun x hx => h2 x (by simp [hx]), rfl⟩

/-! ## The meaning -/

theorem lastValues_append (o : Opt) (gs : List (Opt × List Text)) (g : Opt × List Text) :
    lastValues o (gs ++ [g]) = if g.1 = o then some g.2 else lastValues o gs := by
  unfold lastValues
  rw [List.reverse_append, List.reverse_singleton, List.singleton_append, List.find?_cons]
  by_cases h : g.1 = o <;> simp [h]

theorem meaning_fold {rd : Readers} (gs : List (Opt × List Text)) : Meaning rd gs (gs.foldl (applyGroup rd) {}) := by
  induction gs using List.reverseRecOn with
  | nil => exact ⟨rfl, rfl, rfl, rfl, rfl, rfl, rfl, by simp [lastValues]⟩
  | append_singleton gs g ih =>
    rw [List.foldl_append, List.foldl_cons, List.foldl_nil]
    obtain ⟨o, vs⟩ := g
    generalize gs.foldl (applyGroup rd) {} = a at ih
    obtain ⟨h1, h2, h3, h4, h5, h6, h7, h8⟩ := ih
    cases o <;> exact ⟨by simp [applyGroup, lastValues_append, h1], by simp [applyGroup, lastValues_append, h2], by simp [applyGroup, lastValues_append, h3],
      by simp [applyGroup, lastValues_append, h4], by simp [applyGroup, lastValues_append, h5], by simp [applyGroup, lastValues_append, h6],
      by simp [applyGroup, lastValues_append, h7], by simp [applyGroup, lastValues_append, h8]⟩

theorem meaning_unique {rd : Readers} {gs : List (Opt × List Text)} {a b : CliArgs} (ha : Meaning rd gs a) (hb : Meaning rd gs b) : a = b := by
  have hp : a.parallel = b.parallel := by
    have := ha.parallel.trans hb.parallel.symm
    cases h : a.parallel <;> cases h' : b.parallel <;> simp_all
  cases a
  cases b
  simp only [CliArgs.mk.injEq]
  exact ⟨ha.input.trans hb.input.symm, ha.output.trans hb.output.symm, ha.numDays.trans hb.numDays.symm, ha.years.trans hb.years.symm,
    ha.dateStart.trans hb.dateStart.symm, ha.dateEnd.trans hb.dateEnd.symm, ha.ext.trans hb.ext.symm, hp⟩

/-- **C100.** The program runs with some arguments exactly if the words of the command line say, without a word left over, options with values that fit and
mean these arguments. -/
theorem C100_parse_iff (rd : Readers) (words : List Text) (a : CliArgs) : parseArgs rd words = .args a ↔
    ∃ gs, Written words gs ∧ (∀ g ∈ gs, FitsOption rd g.1 g.2) ∧ Meaning rd gs a := by
  unfold parseArgs
  constructor
  · intro h
    simp only at h
    split at h
    · cases h
    · rename_i hamb
      cases hb : (groupWords (words.map classify)).1 with
      | cons v r => rw [hb] at h; exact absurd h parseGroups_bad
      | nil =>
        rw [hb] at h
        obtain ⟨hs, h1, h2, h3⟩ := parseGroups_iff.1 h
        obtain ⟨ws', h4, -, h5⟩ := written_of_groups hamb h1
        rw [hb, List.nil_append] at h4
        subst h4
        exact ⟨hs, h5, h2, h3 ▸ meaning_fold hs⟩
  · rintro ⟨gs, h1, h2, h3⟩
    obtain ⟨h4, h5, h6⟩ := groups_of_written h1
    simp only
    rw [if_neg h4, h5]
    exact parseGroups_iff.2 ⟨gs, h6, h2, meaning_unique h3 (meaning_fold gs)⟩

/-- **C100.** The program runs `main` exactly with the arguments the words mean; in all other cases it ends at the parser, with a message or the help text, before
any simulation, draw or file. -/
theorem C100_main (w : World) (wk : ℕ → Workers) (rd : Readers) (words : List Text) (fs : Files) :
    (∀ r, Returns (mainWords w wk rd words fs) (.ran r) ↔ ∃ gs a, Written words gs ∧ (∀ g ∈ gs, FitsOption rd g.1 g.2) ∧ Meaning rd gs a ∧
      Returns (mainCli w wk a fs) r) ∧
    ((¬ ∃ gs, Written words gs ∧ ∀ g ∈ gs, FitsOption rd g.1 g.2) →
      mainWords w wk rd words fs = pure .usage ∨ mainWords w wk rd words fs = pure .help) := by
  constructor
  · intro r
    constructor
    · intro h
      unfold mainWords at h
      cases hp : parseArgs rd words with
      | usage => rw [hp] at h; have := returns_pure.1 h; cases this
      | help => rw [hp] at h; have := returns_pure.1 h; cases this
      | args a =>
        rw [hp] at h
        obtain ⟨gs, h1, h2, h3⟩ := (C100_parse_iff rd words a).1 hp
        refine ⟨gs, a, h1, h2, h3, ?_⟩
        obtain ⟨rng, rng', h⟩ := h
        cases hm : mainCli w wk a fs rng with
        | error e => simp only at h; rw [bind_error hm] at h; cases h
        | ok p =>
          obtain ⟨o, r'⟩ := p
          simp only at h
          rw [bind_ok hm] at h
          cases h
          exact ⟨rng, rng', hm⟩
    · rintro ⟨gs, a, h1, h2, h3, rng, rng', h4⟩
      refine ⟨rng, rng', ?_⟩
      unfold mainWords
      rw [(C100_parse_iff rd words a).2 ⟨gs, h1, h2, h3⟩]
      simp only
      rw [bind_ok h4]
      rfl
  · intro hn
    unfold mainWords
    cases hp : parseArgs rd words with
    | usage => exact .inl rfl
    | help => exact .inr rfl
    | args a =>
      obtain ⟨gs, h1, h2, -⟩ := (C100_parse_iff rd words a).1 hp
      exact absurd ⟨gs, h1, h2⟩ hn

/-! ## Usual command lines -/

theorem negative_isValue {t : Text} (h : IsNegative t) : IsValue t := by
  obtain ⟨c, r, rfl, hc⟩ : ∃ c r, t = '-' :: c :: r ∧ (c.isDigit = true ∨ c = '.') := by
    obtain ⟨a, ha, ⟨hne, rfl⟩ | ⟨b, hne, hb, rfl⟩⟩ := h
    · obtain ⟨c, r, rfl⟩ := List.exists_cons_of_ne_nil hne
      exact ⟨c, r, rfl, .inl (ha c (by simp))⟩
    · cases a with
      | nil => exact ⟨'.', b, rfl, .inr rfl⟩
      | cons c a => exact ⟨c, a ++ '.' :: b, rfl, .inl (ha c (by simp))⟩
  have hnd : c ≠ '-' := by rintro rfl; rcases hc with hc | hc <;> revert hc <;> decide
  have hn : ∀ o, ∀ n ∈ namesOf o, ∀ d r', n = '-' :: d :: r' → d ≠ c := by
    rintro o n hn d r' rfl rfl
    cases o <;> simp only [namesOf, List.mem_cons, List.not_mem_nil, or_false] at hn
    all_goals first
      | (have := congrArg (fun l => l[1]?) hn; simp at this; subst this; revert hc; decide)
      | (rcases hn with hn | hn <;> (have := congrArg (fun l => l[1]?) hn; simp at this; subst this; revert hc; decide))
  refine .inr (.inr ⟨fun o j hs => ?_, fun hd => absurd (dashes hd) hnd, .inl h⟩)
  generalize ht : ('-' :: c :: r : Text) = t at hs
  cases hs with
  | full hm => subst ht; exact hn o _ hm c r rfl rfl
  | equals hm => obtain ⟨d, r', hd, -, -⟩ := names_split hm; subst hd; simp only [List.cons_append] at ht; cases ht; exact hn o _ hm _ r' rfl rfl
  | joined hm _ _ _ => obtain ⟨d, r', hd, -, -⟩ := names_split hm; subst hd; simp only [List.cons_append] at ht; cases ht; exact hn o _ hm _ r' rfl rfl
  | short _ ha _ =>
    subst ht
    exact hnd (dashes ha.1)
  | @shortEquals p n e _ h ha _ =>
    have := ha.1
    obtain ⟨r', rfl⟩ : ∃ r', p = '-' :: '-' :: r' := by obtain ⟨r', hr⟩ := this; exact ⟨r', hr.symm⟩
    simp only [List.cons_append, List.cons.injEq, true_and] at ht
    exact hnd ht.1

/-- The words of options written with their first names, each followed by its values. -/
def plainWords (gs : List (Opt × List Text)) : List Text := gs.flatMap (fun g => (namesOf g.1).headD [] :: g.2)

theorem plain_written {gs : List (Opt × List Text)} (h : ∀ g ∈ gs, ∀ v ∈ g.2, v.head? ≠ some '-' ∨ IsNegative v) : Written (plainWords gs) gs := by
  induction gs with
  | nil => exact .nil
  | cons g gs ih =>
    obtain ⟨o, vs⟩ := g
    show Written ((namesOf o).headD [] :: vs ++ plainWords gs) _
    refine .separate (.full ?_) (fun v hv => ?_) (ih fun g hg => h g (by simp [hg]))
    · cases o <;> simp [namesOf]
    · rcases h (o, vs) (by simp) v hv with h | h
      · exact .inl h
      · exact negative_isValue h

/-- **C100.** Options written out, with values that do not start with a dash or are negative numbers, are read as they are written. -/
theorem C100_usual (rd : Readers) {gs : List (Opt × List Text)} (hv : ∀ g ∈ gs, ∀ v ∈ g.2, v.head? ≠ some '-' ∨ IsNegative v)
    (hf : ∀ g ∈ gs, FitsOption rd g.1 g.2) (a : CliArgs) : parseArgs rd (plainWords gs) = .args a ↔ Meaning rd gs a := by
  refine ⟨fun h => ?_, fun h => (C100_parse_iff rd _ a).2 ⟨gs, plain_written hv, hf, h⟩⟩
  have := (C100_parse_iff rd _ _).2 ⟨gs, plain_written hv, hf, meaning_fold gs⟩
  rw [this] at h
  cases h
  exact meaning_fold gs

theorem lastValues_of_mem {gs : List (Opt × List Text)} (hd : (gs.map (·.1)).Nodup) {o : Opt} {vs : List Text} (h : (o, vs) ∈ gs) : lastValues o gs = some vs := by
  induction gs using List.reverseRecOn with
  | nil => cases h
  | append_singleton gs g ih =>
    rw [lastValues_append]
    rw [List.map_append, List.nodup_append] at hd
    rcases List.mem_append.1 h with h | h
    · rw [if_neg, ih hd.1 h]
      intro he
      exact hd.2.2 o (List.mem_map.2 ⟨_, h, rfl⟩) g.1 (by simp) he.symm
    · rw [List.mem_singleton] at h
      subst h
      simp

theorem lastValues_none {gs : List (Opt × List Text)} {o : Opt} (h : ∀ vs, (o, vs) ∉ gs) : lastValues o gs = none := by
  unfold lastValues
  rw [Option.map_eq_none_iff, List.find?_eq_none]
  rintro ⟨o', vs⟩ hm
  simp only [List.mem_reverse] at hm
  simp only [decide_eq_true_eq]
  rintro rfl
  exact h vs hm

/-- **C100.** The order of the options does not matter, as long as none is repeated. -/
theorem C100_order (rd : Readers) {gs hs : List (Opt × List Text)} (hp : gs.Perm hs) (hd : (gs.map (·.1)).Nodup) (a : CliArgs) :
    Meaning rd gs a ↔ Meaning rd hs a := by
  have key : ∀ {gs hs : List (Opt × List Text)}, gs.Perm hs → (gs.map (·.1)).Nodup → ∀ o, lastValues o gs = lastValues o hs := by
    intro gs hs hp hd o
    have hd' : (hs.map (·.1)).Nodup := (hp.map _).nodup_iff.1 hd
    by_cases h : ∃ vs, (o, vs) ∈ gs
    · obtain ⟨vs, h⟩ := h
      rw [lastValues_of_mem hd h, lastValues_of_mem hd' (hp.mem_iff.1 h)]
    · push Not at h
      rw [lastValues_none h, lastValues_none fun vs hm => h vs (hp.mem_iff.2 hm)]
  have := key hp hd
  constructor
  · rintro ⟨h1, h2, h3, h4, h5, h6, h7, h8⟩
    simp only [this] at h1 h2 h3 h4 h5 h6 h7 h8
    exact ⟨h1, h2, h3, h4, h5, h6, h7, h8⟩
  · rintro ⟨h1, h2, h3, h4, h5, h6, h7, h8⟩
    simp only [← this] at h1 h2 h3 h4 h5 h6 h7 h8
    exact ⟨h1, h2, h3, h4, h5, h6, h7, h8⟩

/-- **C100.** Surprises that follow: whatever non-empty word follows `-p`, `False` too, parallel mode is on and the word is used up, even if it is
meant as an input file; and of a repeated option only the last occurrence counts. -/
theorem C100_surprises (rd : Readers) {f g : Text} (hf : f.head? ≠ some '-') (hg : g.head? ≠ some '-') (hne : g ≠ []) :
    (parseArgs rd ["-i".toList, f, "-p".toList, g] = .args { fnames := some [f], parallel := true }) ∧
    (parseArgs rd ["-i".toList, f, "-i".toList, g] = .args { fnames := some [g] }) := by
  constructor
  · refine (C100_usual rd (gs := [(.input, [f]), (.parallel, [g])]) ?_ ?_ _).2 ⟨rfl, rfl, rfl, rfl, rfl, rfl, rfl, ?_⟩
    · simp [hf, hg]
    · simp [FitsOption]
    · simp [lastValues, hne]
  · refine (C100_usual rd (gs := [(.input, [f]), (.input, [g])]) ?_ ?_ _).2 ⟨rfl, rfl, rfl, rfl, rfl, rfl, rfl, ?_⟩
    · simp [hf, hg]
    · simp [FitsOption]
    · simp [lastValues]

/-- Readers for examples: integers of one digit with an optional sign, one date. -/
def exampleReaders : Readers where
  int t := match t with
    | ['-', c] => some (-((c.toNat : ℤ) - 48))
    | [c] => some ((c.toNat : ℤ) - 48)
    | _ => none
  date t := if t = "2020-02-01".toList then some ⟨2020, 2, 1⟩ else none

/-- Cases for C100: two files with numbers of days, a date with an abbreviation and `=`, joined values; a word too many, a missing value, an ambiguous abbreviation,
and a number that cannot be read. -/
theorem parse_examples :
    parseArgs exampleReaders ["-i".toList, "a.xlsx".toList, "b.py".toList, "-n".toList, "5".toList, "-3".toList] =
      .args { fnames := some ["a.xlsx".toList, "b.py".toList], numDays := some [5, -3] } ∧
    parseArgs exampleReaders ["-ia.xlsx".toList, "--start=2020-02-01".toList, "-p".toList] =
      .args { fnames := some ["a.xlsx".toList], dateStart := some ⟨2020, 2, 1⟩, parallel := true } ∧
    parseArgs exampleReaders ["a.xlsx".toList] = .usage ∧ parseArgs exampleReaders ["-i".toList] = .usage ∧
    parseArgs exampleReaders ["-i".toList, "a".toList, "--e".toList, "csv".toList] = .usage ∧
    parseArgs exampleReaders ["-i".toList, "a".toList, "-n".toList, "five".toList] = .usage ∧
    parseArgs exampleReaders ["-i".toList, "a".toList, "--help".toList] = .help := by
  refine ⟨by rfl, by rfl, by rfl, by rfl, by rfl, by rfl, by rfl⟩

end Ramp
