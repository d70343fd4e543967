import Verif.Model.Convert
import Mathlib.Data.List.Infix

/-! # Lemmas about texts and lines -/

set_option autoImplicit false

namespace Ramp

theorem mem_suffixes {α : Type} {s : List α} : ∀ {t : List α}, s ∈ suffixes t ↔ s <:+ t
  | [] => by simp [suffixes]
  | c :: t => by
    rw [suffixes, List.mem_cons, mem_suffixes, List.suffix_cons_iff]

theorem hasText_iff {sub t : Text} : hasText sub t = true ↔ sub <:+: t := by
  unfold hasText
  rw [List.any_eq_true]
  constructor
  · rintro ⟨s, h1, h2⟩
    exact (List.isPrefixOf_iff_prefix.1 h2).isInfix.trans (mem_suffixes.1 h1).isInfix
  · rintro h
    obtain ⟨s, h1, h2⟩ := List.infix_iff_prefix_suffix.1 h
    exact ⟨s, mem_suffixes.2 h2, List.isPrefixOf_iff_prefix.2 h1⟩

/-! ## Lines -/

theorem readLines_flatten : ∀ t : Text, (readLines t).flatten = t
  | [] => rfl
  | c :: cs => by
    have ih := readLines_flatten cs
    unfold readLines
    split_ifs with h
    · rw [List.flatten_cons, ih, h]; rfl
    · cases hr : readLines cs with
      | nil => rw [hr] at ih; simp only [List.flatten_nil] at ih; rw [← ih]; rfl
      | cons l ls => rw [hr] at ih; simp only [List.flatten_cons] at ih ⊢; rw [← ih]; rfl

/-- A text without line break. -/
def OneLine (x : Text) : Prop := '\n' ∉ x

/-- Lines: each ends with its only line break; the last one may have none. -/
inductive Lines : List Text → Prop
  | nil : Lines []
  | last {x : Text} : x ≠ [] → OneLine x → Lines [x]
  | cons {x : Text} {ls : List Text} : OneLine x → Lines ls → Lines ((x ++ ['\n']) :: ls)

theorem lines_readLines : ∀ t : Text, Lines (readLines t)
  | [] => .nil
  | c :: cs => by
    have ih := lines_readLines cs
    unfold readLines
    split_ifs with h
    · exact .cons (x := []) (by simp [OneLine]) ih
    · cases hr : readLines cs with
      | nil => exact .last (by simp) (by simpa [OneLine] using fun h' => h h'.symm)
      | cons l ls =>
        rw [hr] at ih
        cases ih with
        | last h1 h2 => exact .last (by simp) (by unfold OneLine at *; simp only [List.mem_cons, not_or]; exact ⟨fun h' => h h'.symm, h2⟩)
        | @cons x _ h1 h2 =>
          have : (c :: (x ++ ['\n'])) = (c :: x) ++ ['\n'] := rfl
          simp only [this]
          exact .cons (by unfold OneLine at *; simp only [List.mem_cons, not_or]; exact ⟨fun h' => h h'.symm, h1⟩) h2

theorem readLines_line : ∀ (x s : Text), OneLine x → readLines (x ++ '\n' :: s) = (x ++ ['\n']) :: readLines s
  | [], s, _ => by simp [readLines]
  | c :: x, s, h => by
    have h1 : c ≠ '\n' := fun h' => h (by simp [h'])
    have h2 : OneLine x := fun h' => h (List.mem_cons_of_mem _ h')
    rw [List.cons_append, readLines, if_neg h1, readLines_line x s h2]
    rfl

theorem readLines_one : ∀ (x : Text), x ≠ [] → OneLine x → readLines x = [x]
  | [c], _, h => by
    have h1 : c ≠ '\n' := fun h' => h (by simp [h'])
    simp [readLines, h1]
  | c :: d :: x, _, h => by
    have h1 : c ≠ '\n' := fun h' => h (by simp [h'])
    have h2 : OneLine (d :: x) := fun h' => h (List.mem_cons_of_mem _ h')
    rw [readLines, if_neg h1, readLines_one (d :: x) (by simp) h2]

/-- Reading the lines that were written. -/
theorem readLines_of_lines {ls : List Text} (h : Lines ls) : readLines ls.flatten = ls := by
  induction h with
  | nil => rfl
  | last h1 h2 => rw [List.flatten_singleton, readLines_one _ h1 h2]
  | @cons x ls h1 _ ih => rw [List.flatten_cons, List.append_assoc, List.singleton_append, readLines_line _ _ h1, ih]

/-- What a line break at the end does to the lines. -/
def closeLines : List Text → List Text
  | [] => [['\n']]
  | [l] => if l.getLast? = some '\n' then [l, ['\n']] else [l ++ ['\n']]
  | l :: l' :: ls => l :: closeLines (l' :: ls)

theorem readLines_append (t s : Text) : readLines (t ++ '\n' :: s) = closeLines (readLines t) ++ readLines s := by
  have key : ∀ {ls : List Text}, Lines ls → readLines (ls.flatten ++ '\n' :: s) = closeLines ls ++ readLines s := by
    intro ls h
    induction h with
    | nil => simp [readLines, closeLines]
    | @last x h1 h2 =>
      rw [List.flatten_singleton, readLines_line _ _ h2]
      have : x.getLast? ≠ some '\n' := fun h' => h2 (List.mem_of_getLast? h')
      simp [closeLines, this]
    | @cons x ls h1 hl ih =>
      rw [List.flatten_cons, List.append_assoc, List.append_assoc, List.singleton_append, readLines_line _ _ h1, ih]
      cases ls with
      | nil => simp [closeLines]
      | cons l ls => simp [closeLines]
  have := key (lines_readLines t)
  rwa [readLines_flatten] at this

/-! ## Text without a line break -/

theorem infix_newline {sub : Text} (h : OneLine sub) (hne : sub ≠ []) (x s : Text) :
    sub <:+: x ++ '\n' :: s ↔ sub <:+: x ∨ sub <:+: s := by
  constructor
  · rintro ⟨a, b, hab⟩
    rw [List.append_assoc] at hab
    rcases List.append_eq_append_iff.1 hab with ⟨c, h1, h2⟩ | ⟨c, h1, h2⟩
    · -- `sub` starts in `x`
      rcases List.append_eq_append_iff.1 h2 with ⟨d, h3, h4⟩ | ⟨d, h3, h4⟩
      · exact .inl ⟨a, d, by rw [h1, h3, List.append_assoc]⟩
      · cases d with
        | nil => exact .inl ⟨a, [], by rw [h1, h3]; simp⟩
        | cons e d =>
          simp only [List.cons_append, List.cons.injEq] at h4
          exact absurd (by rw [h3, ← h4.1]; simp) h
    · -- `sub` starts after `x`
      cases c with
      | nil =>
        cases sub with
        | nil => exact absurd rfl hne
        | cons e sub =>
          simp only [List.nil_append, List.cons_append, List.cons.injEq] at h2
          exact absurd (by rw [h2.1]; simp) h
      | cons e c =>
        simp only [List.cons_append, List.cons.injEq] at h2
        exact .inr ⟨c, b, by rw [h2.2, List.append_assoc]⟩
  · rintro (h | h)
    · exact h.trans ⟨[], '\n' :: s, by simp⟩
    · exact h.trans ⟨x ++ ['\n'], [], by simp⟩

/-! ## Replacement -/

section
variable {old new : Text}

theorem replaceGo_drop : ∀ (k : ℕ) (t : Text), replaceGo old new k t = replaceGo old new 0 (t.drop k)
  | 0, t => by simp
  | _ + 1, [] => by simp [replaceGo]
  | k + 1, c :: t => by rw [replaceGo, replaceGo_drop k t]; rfl

theorem replaceAll_prefix (h : old ≠ []) (t : Text) : replaceAll old new (old ++ t) = new ++ replaceAll old new t := by
  obtain ⟨c, o, rfl⟩ := List.exists_cons_of_ne_nil h
  unfold replaceAll
  rw [List.cons_append, replaceGo, if_pos (List.isPrefixOf_iff_prefix.2 ⟨t, by simp⟩), replaceGo_drop]
  simp

theorem replaceAll_step {c : Char} {t : Text} (h : ¬ old <+: c :: t) : replaceAll old new (c :: t) = c :: replaceAll old new t := by
  unfold replaceAll
  rw [replaceGo, if_neg (fun h' => h (List.isPrefixOf_iff_prefix.1 h'))]

/-- Induction along a replacement. -/
theorem replace_induction (h : old ≠ []) {P : Text → Prop} (h0 : P []) (h1 : ∀ t, P t → P (old ++ t))
    (h2 : ∀ c t, ¬ old <+: c :: t → P t → P (c :: t)) : ∀ t, P t := by
  intro t
  induction hn : t.length using Nat.strong_induction_on generalizing t with
  | _ n ih =>
    cases t with
    | nil => exact h0
    | cons c t =>
      by_cases hp : old <+: c :: t
      · obtain ⟨s, hs⟩ := hp
        rw [← hs]
        refine h1 s (ih s.length ?_ s rfl)
        have := congrArg List.length hs
        have hl := List.length_pos_of_ne_nil h
        simp at this hn
        omega
      · exact h2 c t hp (ih t.length (by simp at hn; omega) t rfl)

theorem intercalate_cons {sep : Text} {p : Text} {ps : List Text} (h : ps ≠ []) : sep.intercalate (p :: ps) = p ++ (sep ++ sep.intercalate ps) := by
  obtain ⟨q, qs, rfl⟩ := List.exists_cons_of_ne_nil h
  simp [List.intercalate, List.intersperse]

/-- A replacement replaces separators: the text between them stays. -/
theorem replaceAll_pieces (h : old ≠ []) (t : Text) : ∃ pieces : List Text, pieces ≠ [] ∧ t = old.intercalate pieces ∧
    replaceAll old new t = new.intercalate pieces := by
  induction t using replace_induction h with
  | h0 => exact ⟨[[]], by simp, rfl, rfl⟩
  | h1 t ih =>
    obtain ⟨ps, h1, h2, h3⟩ := ih
    refine ⟨[] :: ps, by simp, ?_, ?_⟩
    · rw [intercalate_cons h1, ← h2]; rfl
    · rw [intercalate_cons h1, ← h3, replaceAll_prefix h]; rfl
  | h2 c t hp ih =>
    obtain ⟨ps, h1, h2, h3⟩ := ih
    obtain ⟨q, qs, rfl⟩ := List.exists_cons_of_ne_nil h1
    refine ⟨(c :: q) :: qs, by simp, ?_, ?_⟩
    · rw [h2]; cases qs <;> simp [List.intercalate, List.intersperse]
    · rw [replaceAll_step hp, h3]; cases qs <;> simp [List.intercalate, List.intersperse]

theorem replaceAll_of_not_infix (h : old ≠ []) (t : Text) (hi : ¬ old <:+: t) : replaceAll old new t = t := by
  induction t using replace_induction h with
  | h0 => rfl
  | h1 t ih => exact absurd ⟨[], t, by simp⟩ hi
  | h2 c t hp ih =>
    rw [replaceAll_step hp, ih (fun h' => hi (h'.trans ⟨[c], [], by simp⟩))]

theorem replaceAll_newline (h : old ≠ []) (ho : OneLine old) (t : Text) : replaceAll old new (t ++ ['\n']) = replaceAll old new t ++ ['\n'] := by
  induction t using replace_induction h with
  | h0 =>
    rw [List.nil_append]
    exact replaceAll_of_not_infix h _ (fun hi => by
      have := (infix_newline ho h [] []).1 hi
      rcases this with h' | h' <;> exact h (List.infix_nil.1 h'))
  | h1 t ih => rw [List.append_assoc, replaceAll_prefix h, ih, replaceAll_prefix h, List.append_assoc]
  | h2 c t hp ih =>
    rw [replaceAll_step hp, List.cons_append, replaceAll_step, ih]
    · rfl
    · intro hp'
      apply hp
      obtain ⟨s, hs⟩ := hp'
      rw [← List.cons_append] at hs
      rcases List.append_eq_append_iff.1 hs with ⟨d, h3, h4⟩ | ⟨d, h3, h4⟩
      · exact ⟨d, h3.symm⟩
      · cases d with
        | nil => exact ⟨[], by rw [h3]; simp⟩
        | cons e d =>
          simp only [List.cons_append, List.cons.injEq] at h4
          exact absurd (by rw [h3, ← h4.1]; simp) ho

theorem replaceAll_oneLine (h : old ≠ []) (hn : OneLine new) (t : Text) (ht : OneLine t) : OneLine (replaceAll old new t) := by
  induction t using replace_induction h with
  | h0 => exact ht
  | h1 t ih =>
    rw [replaceAll_prefix h]
    unfold OneLine at *
    simp only [List.mem_append, not_or] at ht ⊢
    exact ⟨hn, ih ht.2⟩
  | h2 c t hp ih =>
    rw [replaceAll_step hp]
    unfold OneLine at *
    simp only [List.mem_cons, not_or] at ht ⊢
    exact ⟨ht.1, ih ht.2⟩

/-- No new occurrence arises when `new` meets `old` nowhere. -/
theorem replaceAll_clean (h : old ≠ []) (h1 : ∀ s, s <:+ new → s ≠ [] → ¬ s <+: old ∧ ¬ old <+: s)
    (h2 : ∀ s, s <:+ old → s ≠ [] → s ≠ old → ¬ s <+: new ∧ ¬ new <+: s) (t : Text) : ¬ old <:+: replaceAll old new t := by
  -- a proper suffix of `old` in front of the result is in front of the text
  have key : ∀ t s, s <:+ old → s ≠ old → s <+: replaceAll old new t → s <+: t := by
    intro t
    induction t using replace_induction h with
    | h0 => intro s _ _ hp; exact hp
    | h1 t ih =>
      intro s hs hne hp
      by_cases h0 : s = []
      · rw [h0]; exact List.nil_prefix
      · rw [replaceAll_prefix h] at hp
        obtain ⟨b, hb⟩ := hp
        rcases List.append_eq_append_iff.1 hb with ⟨d, h3, h4⟩ | ⟨d, h3, h4⟩
        · exact absurd ⟨d, h3.symm⟩ (h2 s hs h0 hne).1
        · exact absurd ⟨d, h3.symm⟩ (h2 s hs h0 hne).2
    | h2 c t hp' ih =>
      intro s hs hne hp
      rw [replaceAll_step hp'] at hp
      cases s with
      | nil => exact List.nil_prefix
      | cons e s =>
        rw [List.cons_prefix_cons] at hp ⊢
        refine ⟨hp.1, ih s ((List.suffix_cons _ _).trans hs) ?_ hp.2⟩
        intro he
        have := hs.length_le
        rw [he] at this
        simp at this
  induction t using replace_induction h with
  | h0 => intro hi; exact h (List.infix_nil.1 hi)
  | h1 t ih =>
    rw [replaceAll_prefix h]
    rintro ⟨a, b, hab⟩
    rw [List.append_assoc] at hab
    rcases List.append_eq_append_iff.1 hab with ⟨c, h3, h4⟩ | ⟨c, h3, h4⟩
    · -- the occurrence starts in `new`
      cases c with
      | nil => exact ih ⟨[], b, by simpa using h4⟩
      | cons e c =>
        have hs : (e :: c) <:+ new := ⟨a, h3.symm⟩
        rcases List.append_eq_append_iff.1 h4 with ⟨d, h5, h6⟩ | ⟨d, h5, h6⟩
        · exact (h1 _ hs (by simp)).2 ⟨d, h5.symm⟩
        · exact (h1 _ hs (by simp)).1 ⟨d, h5.symm⟩
    · exact ih ⟨c, b, by rw [h4, List.append_assoc]⟩
  | h2 c t hp ih =>
    rw [replaceAll_step hp]
    rw [List.infix_cons_iff]
    rintro (h3 | h3)
    · obtain ⟨e, o, ho⟩ := List.exists_cons_of_ne_nil h
      rw [ho, List.cons_prefix_cons] at h3
      apply hp
      rw [ho, List.cons_prefix_cons]
      refine ⟨h3.1, key t o (by rw [ho]; exact List.suffix_cons _ _) ?_ (by rw [ho]; exact h3.2)⟩
      intro he
      have := congrArg List.length he
      rw [ho] at this
      simp at this
    · exact ih h3

end

end Ramp
