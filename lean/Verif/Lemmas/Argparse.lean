import Verif.Spec6

/-! # Lemmas about the parser of the command line -/

set_option autoImplicit false

namespace Ramp

theorem optionOf_iff {t : Text} {o : Opt} : optionOf t = some o ↔ t ∈ namesOf o := by
  constructor
  · intro h
    unfold optionOf at h
    obtain ⟨⟨n, o'⟩, hf, rfl⟩ := Option.map_eq_some_iff.1 h
    have h1 := List.find?_some hf
    have h2 := List.mem_of_find?_eq_some hf
    simp only [decide_eq_true_eq] at h1
    subst h1
    simp only [optionStrings, List.mem_cons, Prod.mk.injEq, List.not_mem_nil, or_false] at h2
    rcases h2 with h | h | h | h | h | h | h | h | h | h <;> (obtain ⟨rfl, rfl⟩ := h; simp [namesOf])
  · intro h
    cases o <;> simp only [namesOf, List.mem_cons, List.not_mem_nil, or_false] at h
    all_goals first | (subst h; decide) | (rcases h with rfl | rfl <;> decide)

theorem optionOf_none {t : Text} : optionOf t = none ↔ ∀ o, t ∉ namesOf o := by
  rw [Option.eq_none_iff_forall_not_mem]
  exact ⟨fun h o ho => h o (optionOf_iff.2 ho), fun h o ho => h o (optionOf_iff.1 ho)⟩

theorem mem_optionStrings {n : Text} {o : Opt} : (n, o) ∈ optionStrings ↔ n ∈ namesOf o := by
  cases o <;> simp [optionStrings, namesOf]

theorem names_split {n : Text} {o : Opt} (h : n ∈ namesOf o) : ∃ c r, n = '-' :: c :: r ∧ '=' ∉ n ∧ (n.length = 2 ↔ c ≠ '-') := by
  cases o <;> simp only [namesOf, List.mem_cons, List.not_mem_nil, or_false] at h
  all_goals first
    | (subst h; exact ⟨_, _, rfl, by decide, by decide⟩)
    | (rcases h with rfl | rfl <;> exact ⟨_, _, rfl, by decide, by decide⟩)

theorem splitEquals_append {p e : Text} (h : '=' ∉ p) : splitEquals (p ++ '=' :: e) = some (p, e) := by
  unfold splitEquals
  rw [if_pos (by simp)]
  have h1 : ∀ c ∈ p, (decide (c ≠ '=')) = true := fun c hc => by simp only [ne_eq, decide_eq_true_eq]; rintro rfl; exact h hc
  rw [List.takeWhile_append_of_pos h1, List.dropWhile_append_of_pos h1]
  simp

theorem split_parts : ∀ {t : Text}, '=' ∈ t →
    t = t.takeWhile (· ≠ '=') ++ '=' :: (t.dropWhile (· ≠ '=')).tail ∧ '=' ∉ t.takeWhile (· ≠ '=')
  | [], h => by simp at h
  | c :: t, h => by
    by_cases hc : c = '='
    · subst hc; simp
    · have ht : '=' ∈ t := by
        rcases List.mem_cons.1 h with h | h
        · exact absurd h.symm hc
        · exact h
      obtain ⟨h1, h2⟩ := split_parts ht
      have hd : decide (c ≠ '=') = true := by simpa using hc
      rw [List.takeWhile_cons_of_pos (p := fun x : Char => decide (x ≠ '=')) hd, List.dropWhile_cons_of_pos (p := fun x : Char => decide (x ≠ '=')) hd]
      refine ⟨?_, fun hm => ?_⟩
      · rw [List.cons_append, ← h1]
      · rcases List.mem_cons.1 hm with h | h
        · exact hc h.symm
        · exact h2 h

theorem splitEquals_some {t p e : Text} (h : splitEquals t = some (p, e)) : t = p ++ '=' :: e ∧ '=' ∉ p := by
  unfold splitEquals at h
  split at h
  · rename_i hm
    simp only [Option.some.injEq, Prod.mk.injEq] at h
    obtain ⟨rfl, rfl⟩ := h
    exact split_parts hm
  · cases h

theorem splitEquals_none {t : Text} : splitEquals t = none ↔ '=' ∉ t := by
  unfold splitEquals
  split <;> simp_all


/-- The part of a word before `=` (the whole word without one). -/
theorem takeWhile_noEquals {t : Text} (h : '=' ∉ t) : t.takeWhile (· ≠ '=') = t := by
  have := List.takeWhile_append_of_pos (p := fun x : Char => decide (x ≠ '=')) (l₁ := t) (l₂ := []) (fun c hc => by
    simp only [ne_eq, decide_eq_true_eq]
    rintro rfl
    exact h hc)
  simpa using this

theorem dashes {c : Char} {r : Text} (h : "--".toList <+: '-' :: c :: r) : c = '-' := by
  have : '-' = c := by simpa using h
  exact this.symm

theorem names_nodup_prefix {n n' : Text} {o o' : Opt} (h : n ∈ namesOf o) (h' : n' ∈ namesOf o') (he : n = n') : o = o' := by
  subst he
  have := optionOf_iff.2 h
  rw [optionOf_iff.2 h'] at this
  cases this
  rfl

/-- A filter of the option strings with a single result. -/
theorem filter_single {q : Text → Bool} {n : Text} {o : Opt} (hn : n ∈ namesOf o) (hq : q n = true) (hu : ∀ o', ∀ n' ∈ namesOf o', q n' = true → n' = n) :
    optionStrings.filter (fun x => q x.1) = [(n, o)] := by
  have hnd : (optionStrings.filter (fun x => q x.1)).Nodup := List.Nodup.filter _ (by decide)
  have hmem : ∀ x ∈ optionStrings.filter (fun x => q x.1), x = (n, o) := by
    rintro ⟨m, o'⟩ hx
    rw [List.mem_filter] at hx
    have hm := mem_optionStrings.1 hx.1
    have := hu o' m hm hx.2
    subst this
    rw [names_nodup_prefix hm hn rfl]
  have hin : (n, o) ∈ optionStrings.filter (fun x => q x.1) := List.mem_filter.2 ⟨mem_optionStrings.2 hn, hq⟩
  generalize optionStrings.filter (fun x => q x.1) = l at hnd hmem hin
  match l, hnd, hmem, hin with
  | [], _, _, hin => cases hin
  | [x], _, hmem, _ => rw [hmem x (by simp)]
  | x :: y :: l, hnd, hmem, _ =>
    have h1 := hmem x (by simp)
    have h2 := hmem y (by simp)
    rw [h1, h2] at hnd
    simp at hnd

theorem classify_dash {c : Char} {r : Text} (h : optionOf ('-' :: c :: r) = none) : classify ('-' :: c :: r) = classifyDash ('-' :: c :: r) := by
  unfold classify
  simp [h]

/-- A word spells an option exactly if the parser sees the option. -/
theorem classify_of_spells {t : Text} {o : Opt} {j : Option Text} (h : Spells t o j) : classify t = .option o j := by
  have bind_none : ∀ {t : Text}, (∀ p e, t = p ++ '=' :: e → '=' ∉ p → ∀ o, p ∉ namesOf o) →
      (splitEquals t).bind (fun pe => (optionOf pe.1).map (fun o => (o, pe.2))) = none := by
    intro t ht
    cases hs : splitEquals t with
    | none => rfl
    | some pe =>
      obtain ⟨p, e⟩ := pe
      obtain ⟨h1, h2⟩ := splitEquals_some hs
      have := optionOf_none.2 (ht p e h1 h2)
      simp [this]
  cases h with
  | @full n o hn =>
    obtain ⟨c, r, rfl, -, -⟩ := names_split hn
    unfold classify
    simp [optionOf_iff.2 hn]
  | @equals n e o hn =>
    obtain ⟨c, r, rfl, he, -⟩ := names_split hn
    have h0 : optionOf ('-' :: c :: r ++ '=' :: e) = none := by
      rw [optionOf_none]
      intro o' ho'
      obtain ⟨_, _, _, he', _⟩ := names_split ho'
      exact he' (by simp)
    show classify ('-' :: c :: (r ++ '=' :: e)) = _
    rw [classify_dash (r := r ++ '=' :: e) h0]
    unfold classifyDash
    have h1 := splitEquals_append (e := e) he
    simp only [List.cons_append] at h1
    rw [h1]
    simp [optionOf_iff.2 hn]
  | @joined n e o hn hlen hne he =>
    obtain ⟨c, r, rfl, heq, hl⟩ := names_split hn
    have hr : r = [] := by simpa using hlen
    subst hr
    have hc := hl.1 hlen
    obtain ⟨d, e, rfl⟩ := List.exists_cons_of_ne_nil hne
    have hd : d ≠ '=' := by simpa using he
    have h0 : optionOf ('-' :: c :: d :: e) = none := by
      rw [optionOf_none]
      intro o' ho'
      obtain ⟨c', r', hh, _, hl'⟩ := names_split ho'
      simp only [List.cons.injEq, true_and] at hh
      have := hl'.2 (by rw [← hh.1]; exact hc)
      simp at this
    show classify ('-' :: c :: (d :: e)) = _
    rw [classify_dash h0]
    unfold classifyDash
    rw [bind_none ?_]
    · have hp : "--".toList.isPrefixOf ('-' :: c :: d :: e) = false := by
        rw [Bool.eq_false_iff]
        intro h
        exact hc (dashes (List.isPrefixOf_iff_prefix.1 h))
      have hf := filter_single (q := fun m => decide (m = ('-' :: c :: d :: e).take 2)) hn (by simp) (fun o' n' _ h => of_decide_eq_true h)
      unfold candidates
      rw [if_neg (by rw [hp]; simp), hf]
      rfl
    · rintro p e' hpe hpn o' ho'
      obtain ⟨c', r', rfl, -, hl'⟩ := names_split ho'
      simp only [List.cons_append, List.cons.injEq, true_and] at hpe
      obtain ⟨rfl, hpe⟩ := hpe
      have := hl'.2 hc
      have hr' : r' = [] := by simpa using this
      subst hr'
      simp only [List.nil_append, List.cons.injEq] at hpe
      exact hd hpe.1
  | @short t n o hn ha hne =>
    obtain ⟨h1, h2, h3, h4⟩ := ha
    obtain ⟨r, rfl⟩ : ∃ r, t = '-' :: '-' :: r := by obtain ⟨r, hr⟩ := h1; exact ⟨r, hr.symm⟩
    have h0 : optionOf ('-' :: '-' :: r) = none := by
      rw [optionOf_none]
      intro o' ho'
      exact hne (h4 o' _ ho' (List.prefix_refl _))
    rw [classify_dash h0]
    unfold classifyDash
    have hs := splitEquals_none.2 h3
    have hf := filter_single (q := fun m => ('-' :: '-' :: r).isPrefixOf m) hn (List.isPrefixOf_iff_prefix.2 h2) (fun o' n' hn' hq => h4 o' n' hn' (List.isPrefixOf_iff_prefix.1 hq))
    simp only [hs, Option.bind_none, candidates, List.isPrefixOf_iff_prefix.2 h1, if_true]
    rw [hf]
    rfl
  | @shortEquals p n e o hn ha hne =>
    obtain ⟨h1, h2, h3, h4⟩ := ha
    obtain ⟨r, rfl⟩ : ∃ r, p = '-' :: '-' :: r := by obtain ⟨r, hr⟩ := h1; exact ⟨r, hr.symm⟩
    have h0 : optionOf ('-' :: '-' :: r ++ '=' :: e) = none := by
      rw [optionOf_none]
      intro o' ho'
      obtain ⟨_, _, _, he', _⟩ := names_split ho'
      exact he' (by simp)
    show classify ('-' :: '-' :: (r ++ '=' :: e)) = _
    rw [classify_dash (r := r ++ '=' :: e) h0]
    unfold classifyDash
    have hs := splitEquals_append (e := e) h3
    simp only [List.cons_append] at hs
    have hp : optionOf ('-' :: '-' :: r) = none := by
      rw [optionOf_none]
      intro o' ho'
      exact hne (h4 o' _ ho' (List.prefix_refl _))
    have hf := filter_single (q := fun m => ('-' :: '-' :: r).isPrefixOf m) hn (List.isPrefixOf_iff_prefix.2 h2) (fun o' n' hn' hq => h4 o' n' hn' (List.isPrefixOf_iff_prefix.1 hq))
    have hd : "--".toList.isPrefixOf ('-' :: '-' :: (r ++ '=' :: e)) = true := List.isPrefixOf_iff_prefix.2 ⟨r ++ '=' :: e, rfl⟩
    simp only [hs, Option.bind_some, hp, Option.map_none, candidates, hd, if_true]
    rw [hf]
    rfl

theorem single_map {q : Text → Bool} {j : Option Text} {o : Opt} {e : Option Text}
    (h : (optionStrings.filter (fun n => q n.1)).map (fun n => (n.2, j)) = [(o, e)]) :
    e = j ∧ ∃ n ∈ namesOf o, q n = true ∧ ∀ o', ∀ n' ∈ namesOf o', q n' = true → n' = n := by
  rw [List.map_eq_singleton_iff] at h
  obtain ⟨⟨n, o'⟩, h1, h2⟩ := h
  simp only [Prod.mk.injEq] at h2
  obtain ⟨rfl, rfl⟩ := h2
  have hmem : (n, o') ∈ optionStrings.filter (fun n => q n.1) := by rw [h1]; simp
  obtain ⟨hm, hq⟩ := List.mem_filter.1 hmem
  refine ⟨rfl, n, mem_optionStrings.1 hm, hq, fun o₂ n' hn' hq' => ?_⟩
  have : (n', o₂) ∈ optionStrings.filter (fun n => q n.1) := List.mem_filter.2 ⟨mem_optionStrings.2 hn', hq'⟩
  rw [h1] at this
  simp only [List.mem_singleton, Prod.mk.injEq] at this
  exact this.1

theorem dashes_left {p e : Text} (h : "--".toList <+: p ++ '=' :: e) : "--".toList <+: p := by
  match p, h with
  | [], h => simp at h
  | [a], h => simp at h
  | a :: b :: r, h =>
    have h1 : '-' = a ∧ '-' = b := by simpa using h
    obtain ⟨rfl, rfl⟩ := h1
    exact ⟨r, rfl⟩

theorem spells_of_classify {t : Text} {o : Opt} {j : Option Text} (h : classify t = .option o j) : Spells t o j := by
  match t, h with
  | [], h => simp [classify] at h
  | c :: r, h =>
    unfold classify at h
    by_cases hc : c = '-'
    · subst hc
      simp only [ne_eq, not_true_eq_false, if_false] at h
      cases ho : optionOf ('-' :: r) with
      | some o' =>
        rw [ho] at h
        cases h
        exact .full (optionOf_iff.1 ho)
      | none =>
        rw [ho] at h
        simp only at h
        by_cases hr : r = []
        · rw [if_pos hr] at h; cases h
        · rw [if_neg hr] at h
          obtain ⟨d, r, rfl⟩ := List.exists_cons_of_ne_nil hr
          generalize htt : ('-' :: d :: r : Text) = t at h ho
          unfold classifyDash at h
          cases hb : (splitEquals t).bind (fun pe => (optionOf pe.1).map (fun o => (o, pe.2))) with
          | some oe =>
            obtain ⟨o', e⟩ := oe
            rw [hb] at h
            cases h
            obtain ⟨⟨p, e'⟩, h1, h2⟩ := Option.bind_eq_some_iff.1 hb
            obtain ⟨o'', h3, h4⟩ := Option.map_eq_some_iff.1 h2
            cases h4
            obtain ⟨rfl, -⟩ := splitEquals_some h1
            exact .equals (optionOf_iff.1 h3)
          | none =>
            rw [hb] at h
            simp only at h
            split at h
            · rename_i o' e' hcand
              cases h
              unfold candidates at hcand
              split at hcand
              · rename_i hd
                cases hs : splitEquals t with
                | some pe =>
                  obtain ⟨p, e⟩ := pe
                  rw [hs] at hcand hb
                  obtain ⟨rfl, n, hn, hq, hu⟩ := single_map hcand
                  obtain ⟨rfl, hpe⟩ := splitEquals_some hs
                  simp only [Option.bind_some, Option.map_eq_none_iff] at hb
                  rw [optionOf_none] at hb
                  refine .shortEquals hn ⟨dashes_left (List.isPrefixOf_iff_prefix.1 hd), List.isPrefixOf_iff_prefix.1 hq, hpe, fun o' n' hn' hp' =>
                    hu o' n' hn' (List.isPrefixOf_iff_prefix.2 hp')⟩ ?_
                  rintro rfl
                  exact hb o hn
                | none =>
                  rw [hs] at hcand
                  obtain ⟨rfl, n, hn, hq, hu⟩ := single_map hcand
                  refine .short hn ⟨List.isPrefixOf_iff_prefix.1 hd, List.isPrefixOf_iff_prefix.1 hq, splitEquals_none.1 hs, fun o' n' hn' hp' =>
                    hu o' n' hn' (List.isPrefixOf_iff_prefix.2 hp')⟩ ?_
                  rintro rfl
                  exact optionOf_none.1 ho o hn
              · rename_i hd
                obtain ⟨rfl, n, hn, hq, hu⟩ := single_map (q := fun m => decide (m = t.take 2)) hcand
                subst htt
                have hq : n = ['-', d] := of_decide_eq_true hq
                subst hq
                refine .joined (n := ['-', d]) (e := r) hn rfl ?_ ?_
                · rintro rfl
                  exact optionOf_none.1 ho o hn
                · intro hh
                  cases r with
                  | nil => cases hh
                  | cons x r =>
                    simp only [List.head?_cons, Option.some.injEq] at hh
                    subst hh
                    have := splitEquals_append (p := ['-', d]) (e := r) (names_split hn).choose_spec.choose_spec.2.1
                    simp only [List.cons_append, List.nil_append] at this
                    rw [this] at hb
                    simp [optionOf_iff.2 hn] at hb
            · cases h
            · split at h <;> cases h
    · simp only [ne_eq, hc, not_false_eq_true, if_true] at h; cases h

theorem classify_option_iff {t : Text} {o : Opt} {j : Option Text} : classify t = .option o j ↔ Spells t o j :=
  ⟨spells_of_classify, classify_of_spells⟩

theorem isNegative_iff {t : Text} : isNegative t = true ↔ IsNegative t := by
  have split : ∀ r : Text, r = r.takeWhile Char.isDigit ++ r.dropWhile Char.isDigit ∧ ∀ c ∈ r.takeWhile Char.isDigit, c.isDigit = true := by
    intro r
    refine ⟨(List.takeWhile_append_dropWhile (p := Char.isDigit)).symm, ?_⟩
    induction r with
    | nil => simp
    | cons c r ih =>
      by_cases hc : c.isDigit = true
      · rw [List.takeWhile_cons_of_pos hc]
        simpa [hc] using ih
      · rw [List.takeWhile_cons_of_neg hc]
        simp
  constructor
  · intro h
    unfold isNegative at h
    split at h
    · rename_i r
      obtain ⟨h1, h2⟩ := split r
      refine ⟨_, h2, ?_⟩
      simp only at h
      split at h
      · rename_i h3
        rw [h3, List.append_nil] at h1
        refine .inl ⟨?_, by rw [← h1]⟩
        intro h0
        rw [h0] at h
        simp at h
      · rename_i c h3
        rw [h3] at h1
        simp only [Bool.and_eq_true, Bool.not_eq_eq_eq_not, Bool.not_true, List.isEmpty_eq_false_iff, List.all_eq_true] at h
        exact .inr ⟨c, h.1, h.2, by rw [← h1]⟩
      · cases h
    · cases h
  · rintro ⟨a, ha, ⟨hne, rfl⟩ | ⟨b, hne, hb, rfl⟩⟩
    · unfold isNegative
      have h1 : a.takeWhile Char.isDigit = a := by
        have := List.takeWhile_append_of_pos (l₂ := []) ha
        simpa using this
      have h2 : a.dropWhile Char.isDigit = [] := by
        have := (split a).1
        rw [h1] at this
        exact List.append_right_eq_self.1 this.symm
      simp [h1, h2, hne]
    · unfold isNegative
      have h1 : (a ++ '.' :: b).takeWhile Char.isDigit = a := by
        rw [List.takeWhile_append_of_pos ha]
        simp [show Char.isDigit '.' = false by decide]
      have h2 : (a ++ '.' :: b).dropWhile Char.isDigit = '.' :: b := by
        have := (split (a ++ '.' :: b)).1
        rw [h1] at this
        exact (List.append_cancel_left this).symm
      simp only [h1, h2]
      simpa [hne] using hb

/-- With two dashes, at most one meaning or several; with one, at most one. -/
theorem classify_value_iff {t t' : Text} : classify t = .value t' ↔ t' = t ∧ IsValue t := by
  match t with
  | [] =>
    simp only [classify, Word.value.injEq]
    exact ⟨fun h => ⟨h.symm, .inl (by simp)⟩, fun h => h.1.symm⟩
  | c :: r =>
    by_cases hc : c = '-'
    · subst hc
      by_cases hr : r = []
      · subst hr
        have : classify ['-'] = .value ['-'] := by decide
        rw [this]
        simp only [Word.value.injEq]
        exact ⟨fun h => ⟨h.symm, .inr (.inl rfl)⟩, fun h => h.1.symm⟩
      · obtain ⟨d, r, rfl⟩ := List.exists_cons_of_ne_nil hr
        have hval : IsValue ('-' :: d :: r) ↔ ((∀ o j, ¬ Spells ('-' :: d :: r) o j) ∧
            ("--".toList <+: ('-' :: d :: r) → ∀ o, ∀ n ∈ namesOf o, ¬ ('-' :: d :: r).takeWhile (· ≠ '=') <+: n) ∧ (IsNegative ('-' :: d :: r) ∨ ' ' ∈ ('-' :: d :: r))) := by
          unfold IsValue
          simp
        rw [hval]
        cases hcl : classify ('-' :: d :: r) with
        | option o j =>
          simp only [reduceCtorEq, false_iff]
          rintro ⟨-, h, -⟩
          exact h o j (classify_option_iff.1 hcl)
        | value v =>
          have hsp : ∀ o j, ¬ Spells ('-' :: d :: r) o j := fun o j h => by rw [classify_of_spells h] at hcl; cases hcl
          have ho : optionOf ('-' :: d :: r) = none := by
            rw [optionOf_none]
            exact fun o h => hsp o none (.full h)
          rw [classify_dash ho] at hcl
          unfold classifyDash at hcl
          split at hcl
          · cases hcl
          · split at hcl
            · cases hcl
            · cases hcl
            · rename_i hcand
              split at hcl
              · rename_i hneg
                cases hcl
                simp only [Word.value.injEq]
                constructor
                · rintro rfl
                  refine ⟨rfl, hsp, fun hd o n hn hp => ?_, ?_⟩
                  · unfold candidates at hcand
                    rw [if_pos (List.isPrefixOf_iff_prefix.2 hd)] at hcand
                    cases hs : splitEquals ('-' :: d :: r) with
                    | none =>
                      rw [hs] at hcand
                      rw [takeWhile_noEquals (splitEquals_none.1 hs)] at hp
                      simp only [List.map_eq_nil_iff, List.filter_eq_nil_iff] at hcand
                      exact hcand (n, o) (mem_optionStrings.2 hn) (List.isPrefixOf_iff_prefix.2 hp)
                    | some pe =>
                      obtain ⟨p, e⟩ := pe
                      rw [hs] at hcand
                      simp only [List.map_eq_nil_iff, List.filter_eq_nil_iff] at hcand
                      have hpp : p = ('-' :: d :: r).takeWhile (· ≠ '=') := by
                        unfold splitEquals at hs
                        split at hs
                        · simp only [Option.some.injEq, Prod.mk.injEq] at hs; exact hs.1.symm
                        · cases hs
                      exact hcand (n, o) (mem_optionStrings.2 hn) (List.isPrefixOf_iff_prefix.2 (hpp ▸ hp))
                  · simpa only [Bool.or_eq_true, isNegative_iff, decide_eq_true_eq] using hneg
                · exact fun h => h.1.symm
              · cases hcl
        | unknown =>
          simp only [reduceCtorEq, false_iff]
          rintro ⟨-, hsp, -, hneg⟩
          have ho : optionOf ('-' :: d :: r) = none := by
            rw [optionOf_none]
            exact fun o h => hsp o none (.full h)
          rw [classify_dash ho] at hcl
          unfold classifyDash at hcl
          split at hcl
          · cases hcl
          · split at hcl
            · cases hcl
            · cases hcl
            · rw [if_pos (by simpa only [Bool.or_eq_true, isNegative_iff, decide_eq_true_eq] using hneg)] at hcl
              cases hcl
        | ambiguous =>
          simp only [reduceCtorEq, false_iff]
          rintro ⟨-, hsp, hab, -⟩
          have ho : optionOf ('-' :: d :: r) = none := by
            rw [optionOf_none]
            exact fun o h => hsp o none (.full h)
          rw [classify_dash ho] at hcl
          unfold classifyDash at hcl
          split at hcl
          · cases hcl
          · split at hcl
            · cases hcl
            · rename_i x y l hcand
              unfold candidates at hcand
              split at hcand
              · rename_i hd
                have hd := List.isPrefixOf_iff_prefix.1 hd
                have : ∃ n o, n ∈ namesOf o ∧ ('-' :: d :: r).takeWhile (· ≠ '=') <+: n := by
                  cases hs : splitEquals ('-' :: d :: r) with
                  | none =>
                    rw [hs] at hcand
                    have hm : x ∈ (optionStrings.filter (fun n => ('-' :: d :: r).isPrefixOf n.1)).map (fun n => (n.2, (none : Option Text))) := by
                      simp only at hcand; rw [hcand]; simp
                    obtain ⟨⟨n, o⟩, h1, h2⟩ := List.mem_map.1 hm
                    obtain ⟨h3, h4⟩ := List.mem_filter.1 h1
                    rw [takeWhile_noEquals (splitEquals_none.1 hs)]
                    exact ⟨n, o, mem_optionStrings.1 h3, List.isPrefixOf_iff_prefix.1 h4⟩
                  | some pe =>
                    obtain ⟨p, e⟩ := pe
                    rw [hs] at hcand
                    have hm : x ∈ (optionStrings.filter (fun n => p.isPrefixOf n.1)).map (fun n => (n.2, some e)) := by
                      simp only at hcand; rw [hcand]; simp
                    obtain ⟨⟨n, o⟩, h1, h2⟩ := List.mem_map.1 hm
                    obtain ⟨h3, h4⟩ := List.mem_filter.1 h1
                    have hpp : p = ('-' :: d :: r).takeWhile (· ≠ '=') := by
                      unfold splitEquals at hs
                      split at hs
                      · simp only [Option.some.injEq, Prod.mk.injEq] at hs; exact hs.1.symm
                      · cases hs
                    exact ⟨n, o, mem_optionStrings.1 h3, hpp ▸ List.isPrefixOf_iff_prefix.1 h4⟩
                obtain ⟨n, o, hn, hp⟩ := this
                exact hab hd o n hn hp
              · have hm : x ∈ (optionStrings.filter (fun n => decide (n.1 = ('-' :: d :: r).take 2))).map (fun n => (n.2, some (('-' :: d :: r).drop 2))) := by
                  rw [hcand]; simp
                obtain ⟨⟨n, o⟩, h1, h2⟩ := List.mem_map.1 hm
                obtain ⟨h3, h4⟩ := List.mem_filter.1 h1
                have h5 := filter_single (q := fun m => decide (m = ('-' :: d :: r).take 2)) (mem_optionStrings.1 h3) h4 (fun o' n' _ h => by
                  exact (of_decide_eq_true h).trans (of_decide_eq_true h4).symm)
                rw [h5] at hcand
                simp at hcand
            · split at hcl <;> cases hcl
    · have h1 : classify (c :: r) = .value (c :: r) := by unfold classify; simp [hc]
      rw [h1]
      simp only [Word.value.injEq]
      exact ⟨fun h => ⟨h.symm, .inl (by simpa using hc)⟩, fun h => h.1.symm⟩

end Ramp
