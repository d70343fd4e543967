import Verif.Model.Readers
import Verif.Spec17
import Verif.Props.Argparse
import Verif.Props.CliPlan

/-! # C118: numbers and dates of the command line -/

set_option autoImplicit false

namespace Ramp

/-! ## Digits -/

theorem digitChar_toNat {n : ℕ} (h : n < 10) : (digitChar n).toNat = 48 + n := by
  interval_cases n <;> rfl

theorem digitChar_digit {n : ℕ} (h : n < 10) : (digitChar n).isDigit = true := by
  interval_cases n <;> rfl

theorem digit_range {c : Char} (h : c.isDigit = true) : 48 ≤ c.toNat ∧ c.toNat ≤ 57 := by
  unfold Char.isDigit at h
  simp only [Bool.and_eq_true, decide_eq_true_eq] at h
  have h1 := UInt32.le_iff_toNat_le.1 h.1
  have h2 := UInt32.le_iff_toNat_le.1 h.2
  exact ⟨h1, h2⟩

theorem digit_eq {c : Char} (h : c.isDigit = true) : c = digitChar (c.toNat - 48) := by
  obtain ⟨h1, h2⟩ := digit_range h
  have : (digitChar (c.toNat - 48)).toNat = c.toNat := by rw [digitChar_toNat (by omega)]; omega
  exact (Char.toNat_inj.1 this).symm

theorem digit_value {c : Char} (h : c.isDigit = true) : c.toNat - 48 < 10 := by
  have := digit_range h
  omega

theorem digit_not_white {c : Char} (h : c.isDigit = true) : isSpace c = false := by
  obtain ⟨h1, h2⟩ := digit_range h
  unfold isSpace
  have : c ≠ ' ' := by
    rintro rfl
    revert h1
    decide
  simp only [this, decide_false, Bool.false_or, Bool.or_eq_false_iff, Bool.and_eq_false_iff, decide_eq_false_iff_not]
  omega

theorem white_iff (c : Char) : isSpace c = true ↔ (c = ' ' ∨ (9 ≤ c.toNat ∧ c.toNat ≤ 13) ∨ (28 ≤ c.toNat ∧ c.toNat ≤ 31)) := by
  unfold isSpace
  simp [or_assoc]

theorem value_append (l : Text) (c : Char) : digitsValue (l ++ [c]) = 10 * digitsValue l + (c.toNat - 48) := by
  unfold digitsValue
  rw [List.foldl_append]
  rfl

theorem foldl_value (l : Text) (n : ℕ) : l.foldl (fun n c => 10 * n + (c.toNat - 48)) n = n * 10 ^ l.length + placeValue l := by
  induction l generalizing n with
  | nil => simp [placeValue]
  | cons c r ih =>
    rw [List.foldl_cons, ih, placeValue, List.length_cons, pow_succ]
    ring

theorem value_place (l : Text) : digitsValue l = placeValue l := by
  unfold digitsValue
  rw [foldl_value, Nat.zero_mul, Nat.zero_add]

theorem shows_underscored : ∀ {t ds : Text}, underscored t = some ds ↔ ShowsDigits t ds
  | [], ds => by
    constructor
    · intro h; cases h
    · intro h; cases h
  | [c], ds => by
    unfold underscored
    constructor
    · intro h
      split_ifs at h with hc
      cases h
      exact .one hc
    · intro h
      cases h with
      | one hc => rw [if_pos hc]
      | next _ h => cases h
  | c :: d :: r, ds => by
    unfold underscored
    have ih1 := @shows_underscored r
    have ih2 := @shows_underscored (d :: r)
    constructor
    · intro h
      split_ifs at h with hc hd
      · obtain ⟨es, he, rfl⟩ := Option.map_eq_some_iff.1 h
        subst hd
        exact .underscore hc (ih1.1 he)
      · obtain ⟨es, he, rfl⟩ := Option.map_eq_some_iff.1 h
        exact .next hc (ih2.1 he)
    · intro h
      cases h with
      | next hc h =>
        rw [if_pos hc]
        have hd : d ≠ '_' := by
          rintro rfl
          cases h with
          | one h => revert h; decide
          | next h => revert h; decide
          | underscore h => revert h; decide
        rw [if_neg hd, ih2.2 h]
        rfl
      | underscore hc h =>
        rw [if_pos hc, if_pos rfl, ih1.2 h]
        rfl
termination_by t => t.length

theorem shows_ends {t ds : Text} (h : ShowsDigits t ds) : (∃ c r, t = c :: r ∧ c.isDigit = true) ∧ ∃ c r, t = r ++ [c] ∧ c.isDigit = true := by
  induction h with
  | @one c hc => exact ⟨⟨c, [], rfl, hc⟩, c, [], rfl, hc⟩
  | @next c t ds hc _ ih =>
    obtain ⟨d, r, rfl, hd⟩ := ih.2
    exact ⟨⟨c, _, rfl, hc⟩, d, c :: r, rfl, hd⟩
  | @underscore c t ds hc _ ih =>
    obtain ⟨d, r, rfl, hd⟩ := ih.2
    exact ⟨⟨c, _, rfl, hc⟩, d, c :: '_' :: r, rfl, hd⟩

/-! ## White space -/

theorem white_list {t : Text} : White t ↔ ∀ c ∈ t, isSpace c = true :=
  forall_congr' fun c => forall_congr' fun _ => (white_iff c).symm

theorem dropWhile_white {l : Text} (h : ∀ c ∈ l, isSpace c = true) (t : Text) : (l ++ t).dropWhile isSpace = t.dropWhile isSpace := by
  rw [List.dropWhile_append_of_pos h]

theorem strip_white {l t r : Text} (hl : White l) (hr : White r) (h1 : ∃ c s, t = c :: s ∧ isSpace c = false) (h2 : ∃ c s, t = s ++ [c] ∧ isSpace c = false) :
    strip (l ++ t ++ r) = t := by
  rw [white_list] at hl hr
  unfold strip
  rw [List.append_assoc, dropWhile_white hl]
  obtain ⟨c, s, rfl, hc⟩ := h1
  rw [List.cons_append, List.dropWhile_cons_of_neg (by simp [hc]), ← List.cons_append, List.reverse_append, dropWhile_white (fun c hc => hr c (List.mem_reverse.1 hc))]
  obtain ⟨d, s', e, hd⟩ := h2
  rw [e, List.reverse_append]
  simp only [List.reverse_cons, List.reverse_nil, List.nil_append, List.singleton_append]
  rw [List.dropWhile_cons_of_neg (by simp [hd])]
  simp

theorem strip_split (t : Text) : ∃ l r, White l ∧ White r ∧ t = l ++ strip t ++ r := by
  refine ⟨t.takeWhile isSpace, ((t.dropWhile isSpace).reverse.takeWhile isSpace).reverse, ?_, ?_, ?_⟩
  · rw [white_list]
    exact fun c hc => List.all_eq_true.1 List.all_takeWhile c hc
  · rw [white_list]
    exact fun c hc => List.all_eq_true.1 List.all_takeWhile c (List.mem_reverse.1 hc)
  · unfold strip
    rw [List.append_assoc, ← List.reverse_append, List.takeWhile_append_dropWhile, List.reverse_reverse, List.takeWhile_append_dropWhile]

/-! ## Integers -/

theorem signs_not_white : isSpace '-' = false ∧ isSpace '+' = false := ⟨rfl, rfl⟩

theorem readInt_plain {s ds : Text} {t : Text} (hs : strip t = s) (h : ShowsDigits s ds) : readInt t = some (digitsValue ds : ℤ) := by
  unfold readInt
  rw [hs]
  obtain ⟨⟨c, r, rfl, hc⟩, -⟩ := shows_ends h
  have h1 : c ≠ '-' := by rintro rfl; revert hc; decide
  have h2 : c ≠ '+' := by rintro rfl; revert hc; decide
  split
  · rename_i e; cases e; exact absurd rfl h1
  · rename_i e; cases e; exact absurd rfl h2
  · rw [shows_underscored.2 h]; rfl

/-- **C118.** `int` accepts exactly the texts that stand for an integer, and returns this integer. -/
theorem C118_int (t : Text) (z : ℤ) : readInt t = some z ↔ StandsFor t z := by
  constructor
  · intro h
    obtain ⟨l, r, hl, hr, e⟩ := strip_split t
    unfold readInt at h
    split at h
    · rename_i u hu
      obtain ⟨ds, hd, rfl⟩ := Option.map_eq_some_iff.1 h
      rw [e, hu, value_place]
      exact .minus hl (shows_underscored.1 hd) hr
    · rename_i u hu
      obtain ⟨ds, hd, rfl⟩ := Option.map_eq_some_iff.1 h
      rw [e, hu, value_place]
      exact .plus hl (shows_underscored.1 hd) hr
    · obtain ⟨ds, hd, rfl⟩ := Option.map_eq_some_iff.1 h
      rw [e, value_place]
      exact .plain hl (shows_underscored.1 hd) hr
  · intro h
    cases h with
    | @plain l t ds r hl h hr =>
      rw [← value_place]
      obtain ⟨⟨c, s, e, hc⟩, ⟨d, s', e', hd⟩⟩ := shows_ends h
      exact readInt_plain (strip_white hl hr ⟨c, s, e, digit_not_white hc⟩ ⟨d, s', e', digit_not_white hd⟩) h
    | @plus l t ds r hl h hr =>
      obtain ⟨-, ⟨d, s', e', hd⟩⟩ := shows_ends h
      have hs : strip (l ++ '+' :: t ++ r) = '+' :: t :=
        strip_white hl hr ⟨'+', t, rfl, rfl⟩ ⟨d, '+' :: s', by rw [e']; rfl, digit_not_white hd⟩
      unfold readInt
      rw [hs]
      simp only [shows_underscored.2 h, Option.map_some, value_place]
    | @minus l t ds r hl h hr =>
      obtain ⟨-, ⟨d, s', e', hd⟩⟩ := shows_ends h
      have hs : strip (l ++ '-' :: t ++ r) = '-' :: t :=
        strip_white hl hr ⟨'-', t, rfl, rfl⟩ ⟨d, '-' :: s', by rw [e']; rfl, digit_not_white hd⟩
      unfold readInt
      rw [hs]
      simp only [shows_underscored.2 h, Option.map_some, value_place]

theorem shows_append {t ds : Text} (h : ShowsDigits t ds) {c : Char} (hc : c.isDigit = true) : ShowsDigits (t ++ [c]) (ds ++ [c]) := by
  induction h with
  | one hd => exact .next hd (.one hc)
  | next hd _ ih => exact .next hd ih
  | underscore hd _ ih => exact .underscore hd ih

theorem shows_decimal (n : ℕ) : ShowsDigits (decimalNat n) (decimalNat n) ∧ placeValue (decimalNat n) = n := by
  induction n using Nat.strongRecOn with
  | ind n ih =>
    unfold decimalNat
    by_cases h : n < 10
    · rw [dif_pos h]
      refine ⟨.one (digitChar_digit h), ?_⟩
      simp [placeValue, digitChar_toNat h]
    · rw [dif_neg h]
      obtain ⟨h1, h2⟩ := ih (n / 10) (by omega)
      have h3 : n % 10 < 10 := Nat.mod_lt _ (by norm_num)
      refine ⟨shows_append h1 (digitChar_digit h3), ?_⟩
      rw [← value_place, value_append, value_place, h2, digitChar_toNat h3]
      omega

/-- **C118.** An integer in the decimal system stands for itself, and a text stands for one integer only. -/
theorem C118_decimal : (∀ z, StandsFor (decimal z) z) ∧ ∀ t y z, StandsFor t y → StandsFor t z → y = z := by
  refine ⟨fun z => ?_, fun t y z h1 h2 => ?_⟩
  · match z with
    | .ofNat n =>
      have := StandsFor.plain (l := []) (r := []) (by simp [White]) (shows_decimal n).1 (by simp [White])
      rw [(shows_decimal n).2, List.nil_append, List.append_nil] at this
      exact this
    | .negSucc n =>
      have := StandsFor.minus (l := []) (r := []) (by simp [White]) (shows_decimal (n + 1)).1 (by simp [White])
      rw [(shows_decimal (n + 1)).2, List.nil_append, List.append_nil] at this
      exact this
  · rw [← C118_int] at h1 h2
    rw [h1] at h2
    cases h2
    rfl

/-! ## Dates -/

theorem padded_length : ∀ k n, (padded k n).length = k
  | 0, _ => rfl
  | k + 1, n => by rw [padded, List.length_append, padded_length k]; rfl

theorem padded_digits : ∀ k n, ∀ c ∈ padded k n, c.isDigit = true
  | 0, _ => by simp [padded]
  | k + 1, n => by
    intro c hc
    rw [padded, List.mem_append, List.mem_singleton] at hc
    rcases hc with hc | rfl
    · exact padded_digits k _ c hc
    · exact digitChar_digit (Nat.mod_lt _ (by norm_num))

theorem value_padded : ∀ k n, n < 10 ^ k → digitsValue (padded k n) = n
  | 0, n => by
    intro h
    have : n = 0 := by simpa using h
    rw [this]
    rfl
  | k + 1, n => by
    intro h
    rw [pow_succ] at h
    rw [padded, value_append, value_padded k _ (by omega), digitChar_toNat (Nat.mod_lt _ (by norm_num))]
    omega

theorem padded_value {l : Text} (h : ∀ c ∈ l, c.isDigit = true) : padded l.length (digitsValue l) = l ∧ digitsValue l < 10 ^ l.length := by
  induction l using List.reverseRecOn with
  | nil => exact ⟨rfl, by decide⟩
  | append_singleton l c ih =>
    obtain ⟨h1, h2⟩ := ih fun d hd => h d (by simp [hd])
    have hc := h c (by simp)
    have hv := digit_value hc
    rw [List.length_append, value_append, List.length_singleton, padded, pow_succ]
    have e1 : (10 * digitsValue l + (c.toNat - 48)) / 10 = digitsValue l := by omega
    have e2 : (10 * digitsValue l + (c.toNat - 48)) % 10 = c.toNat - 48 := by omega
    refine ⟨?_, by omega⟩
    rw [e1, e2, h1, ← digit_eq hc]

theorem length_two {l : Text} (h : l.length = 2) : ∃ a b, l = [a, b] := by
  match l, h with
  | [a, b], _ => exact ⟨a, b, rfl⟩

theorem length_four {l : Text} (h : l.length = 4) : ∃ a b c d, l = [a, b, c, d] := by
  match l, h with
  | [a, b, c, d], _ => exact ⟨a, b, c, d, rfl⟩

/-- **C118.** `date.fromisoformat` accepts exactly the dates of the calendar written as `YYYY-MM-DD`, and returns this date. -/
theorem C118_date (t : Text) (d : Date) : isoDate t = some d ↔ IsDate d ∧ t = isoText d := by
  constructor
  · intro h
    unfold isoDate at h
    split at h
    · rename_i y1 y2 y3 y4 s1 m1 m2 s2 d1 d2
      simp only at h
      split_ifs at h with h1 h2
      cases h
      obtain ⟨rfl, rfl, h3⟩ := h1
      simp only [List.all_cons, List.all_nil, Bool.and_true, Bool.and_eq_true] at h3
      obtain ⟨k1, k2, k3, k4, k5, k6, k7, k8⟩ := h3
      obtain ⟨py, by_⟩ := padded_value (l := [y1, y2, y3, y4]) (by simp [k1, k2, k3, k4])
      obtain ⟨pm, -⟩ := padded_value (l := [m1, m2]) (by simp [k5, k6])
      obtain ⟨pd, -⟩ := padded_value (l := [d1, d2]) (by simp [k7, k8])
      refine ⟨⟨⟨h2.1, h2.2.1, h2.2.2.1, h2.2.2.2.1, h2.2.2.2.2⟩, ?_⟩, ?_⟩
      · have : digitsValue [y1, y2, y3, y4] < 10 ^ 4 := by_
        show digitsValue [y1, y2, y3, y4] ≤ 9999
        omega
      · unfold isoText
        have e1 : padded 4 (digitsValue [y1, y2, y3, y4]) = [y1, y2, y3, y4] := py
        have e2 : padded 2 (digitsValue [m1, m2]) = [m1, m2] := pm
        have e3 : padded 2 (digitsValue [d1, d2]) = [d1, d2] := pd
        simp only [e1, e2, e3]
        rfl
    · cases h
  · rintro ⟨⟨⟨v1, v2, v3, v4, v5⟩, v6⟩, rfl⟩
    have hm : d.day ≤ 31 := by
      unfold daysInMonth at v5
      split_ifs at v5 <;> omega
    have ey := value_padded 4 d.year (by omega)
    have em := value_padded 2 d.month (by omega)
    have ed := value_padded 2 d.day (by omega)
    have gy := padded_digits 4 d.year
    have gm := padded_digits 2 d.month
    have gd := padded_digits 2 d.day
    unfold isoText
    obtain ⟨y1, y2, y3, y4, hy⟩ := length_four (padded_length 4 d.year)
    obtain ⟨m1, m2, hmm⟩ := length_two (padded_length 2 d.month)
    obtain ⟨d1, d2, hd⟩ := length_two (padded_length 2 d.day)
    rw [hy] at ey gy ⊢
    rw [hmm] at em gm ⊢
    rw [hd] at ed gd ⊢
    show isoDate [y1, y2, y3, y4, '-', m1, m2, '-', d1, d2] = some d
    unfold isoDate
    simp only
    rw [ey, em, ed, if_pos, if_pos ⟨v1, v2, v3, v4, v5⟩]
    refine ⟨trivial, trivial, ?_⟩
    simp [gy, gm, gd]

/-- **C118.** Python 3.8–3.10 reads numbers and dates as `PythonReaders` says. -/
theorem C118_readers : PythonReaders pyReaders where
  int t _ z := C118_int t z
  date d h := (C118_date _ d).2 ⟨h, rfl⟩
  calendar t d h := ((C118_date t d).1 h).1

/-! ## The command line -/

theorem decimalNat_ne (n : ℕ) : decimalNat n ≠ [] := by
  intro h
  have := (shows_decimal n).1
  rw [h] at this
  cases this

theorem decimalNat_digits (n : ℕ) : ∀ c ∈ decimalNat n, c.isDigit = true := by
  induction n using Nat.strongRecOn with
  | ind n ih =>
    unfold decimalNat
    by_cases h : n < 10
    · rw [dif_pos h]
      intro c hc
      rw [List.mem_singleton.1 hc]
      exact digitChar_digit h
    · rw [dif_neg h]
      intro c hc
      rcases List.mem_append.1 hc with hc | hc
      · exact ih _ (by omega) c hc
      · rw [List.mem_singleton.1 hc]
        exact digitChar_digit (Nat.mod_lt _ (by norm_num))

theorem decimal_ascii (z : ℤ) : ∀ c ∈ decimal z, c.toNat < 128 := by
  have key : ∀ n, ∀ c ∈ decimalNat n, c.toNat < 128 := fun n c hc => by
    have := digit_range (decimalNat_digits n c hc)
    omega
  match z with
  | .ofNat n => exact key n
  | .negSucc n =>
    intro c hc
    rcases List.mem_cons.1 hc with rfl | hc
    · decide
    · exact key _ c hc

theorem decimal_value (z : ℤ) : (decimal z).head? ≠ some '-' ∨ IsNegative (decimal z) := by
  match z with
  | .ofNat n =>
    left
    show (decimalNat n).head? ≠ some '-'
    intro h
    have := decimalNat_digits n '-' (List.mem_of_mem_head? h)
    revert this
    decide
  | .negSucc n => exact .inr ⟨decimalNat (n + 1), decimalNat_digits _, .inl ⟨decimalNat_ne _, rfl⟩⟩

theorem iso_value (d : Date) : (isoText d).head? ≠ some '-' := by
  intro h
  have hl := padded_length 4 d.year
  unfold isoText at h
  obtain ⟨y1, y2, y3, y4, hy⟩ := length_four hl
  have hd := padded_digits 4 d.year y1 (by rw [hy]; simp)
  rw [hy] at h
  simp only [List.cons_append, List.head?_cons, Option.some.injEq] at h
  subst h
  revert hd
  decide

theorem reads_decimal {rd : Readers} (h : PythonReaders rd) (z : ℤ) : rd.int (decimal z) = some z := (h.int _ (decimal_ascii z) z).2 (C118_decimal.1 z)

theorem filterMap_decimal {rd : Readers} (h : PythonReaders rd) (l : List ℤ) : (l.map decimal).filterMap rd.int = l := by
  induction l with
  | nil => rfl
  | cons z l ih => rw [List.map_cons, List.filterMap_cons_some (reads_decimal h z), ih]

/-- The options of a command line. -/
def lineGroups (files : List Text) (numbers : List ℤ) (start stop : Option Date) : List (Opt × List Text) :=
  (.input, files) :: (if numbers = [] then [] else [(.numDays, numbers.map decimal)]) ++ (match start with | none => [] | some d => [(.startDate, [isoText d])]) ++
    (match stop with | none => [] | some d => [(.endDate, [isoText d])])

theorem line_words (files : List Text) (numbers : List ℤ) (start stop : Option Date) : plainWords (lineGroups files numbers start stop) = commandLine files numbers start stop := by
  unfold plainWords lineGroups commandLine
  rw [List.flatMap_append, List.flatMap_append]
  by_cases hn : numbers = [] <;> cases start <;> cases stop <;> simp [hn, namesOf]

/-- **C118.** A command line with input files, numbers of days and dates written as `YYYY-MM-DD` is read as these files, these numbers and these dates. -/
theorem C118_command_line {rd : Readers} (h : PythonReaders rd) {files : List Text} (hf : files ≠ []) (hd : ∀ f ∈ files, f.head? ≠ some '-') (numbers : List ℤ)
    {start stop : Option Date} (hs : ∀ d, start = some d → IsDate d) (he : ∀ d, stop = some d → IsDate d) :
    parseArgs rd (commandLine files numbers start stop) =
      .args { fnames := some files, numDays := if numbers = [] then none else some numbers, dateStart := start, dateEnd := stop } := by
  rw [← line_words]
  refine (C100_usual rd ?_ ?_ _).2 ?_
  · intro g hg v hv
    have key : v ∈ files ∨ v ∈ numbers.map decimal ∨ ∃ d, v = isoText d := by
      unfold lineGroups at hg
      rcases List.mem_append.1 hg with hg | hg
      · rcases List.mem_cons.1 hg with rfl | hg
        · exact .inl hv
        · rcases List.mem_append.1 hg with hg | hg
          · split_ifs at hg
            · cases hg
            · rw [List.mem_singleton.1 hg] at hv
              exact .inr (.inl hv)
          · cases start with
            | none => cases hg
            | some d =>
              rw [List.mem_singleton.1 hg] at hv
              exact .inr (.inr ⟨d, List.mem_singleton.1 hv⟩)
      · cases stop with
        | none => cases hg
        | some d =>
          rw [List.mem_singleton.1 hg] at hv
          exact .inr (.inr ⟨d, List.mem_singleton.1 hv⟩)
    rcases key with hv | hv | ⟨d, rfl⟩
    · exact .inl (hd v hv)
    · obtain ⟨z, -, rfl⟩ := List.mem_map.1 hv
      exact decimal_value z
    · exact .inl (iso_value d)
  · intro g hg
    unfold lineGroups at hg
    rcases List.mem_append.1 hg with hg | hg
    · rcases List.mem_cons.1 hg with rfl | hg
      · exact hf
      · rcases List.mem_append.1 hg with hg | hg
        · split_ifs at hg with hn
          · cases hg
          · rw [List.mem_singleton.1 hg]
            refine ⟨fun e => hn (List.map_eq_nil_iff.1 e), fun v hv => ?_⟩
            obtain ⟨z, -, rfl⟩ := List.mem_map.1 hv
            rw [reads_decimal h]
            rfl
        · cases start with
          | none => cases hg
          | some d =>
            rw [List.mem_singleton.1 hg]
            exact ⟨_, rfl, by rw [h.date d (hs d rfl)]; rfl⟩
    · cases stop with
      | none => cases hg
      | some d =>
        rw [List.mem_singleton.1 hg]
        exact ⟨_, rfl, by rw [h.date d (he d rfl)]; rfl⟩
  · have hf1 := filterMap_decimal h numbers
    have hs1 : ∀ d, start = some d → rd.date (isoText d) = some d := fun d e => h.date d (hs d e)
    have he1 : ∀ d, stop = some d → rd.date (isoText d) = some d := fun d e => h.date d (he d e)
    unfold lineGroups
    by_cases hn : numbers = [] <;> cases start <;> cases stop <;>
      refine ⟨?_, ?_, ?_, ?_, ?_, ?_, ?_, ?_⟩ <;> simp_all [lastValues]

theorem args_of_main {w : World} {wk : ℕ → Workers} {rd : Readers} {words : List Text} {fs : Files} {a : CliArgs} (h : parseArgs rd words = .args a) {r : Started}
    (hr : Returns (mainWords w wk rd words fs) r) : ∃ res, Returns (mainCli w wk a fs) res ∧ r = .ran res := by
  unfold mainWords at hr
  rw [h] at hr
  obtain ⟨rng, rng', h⟩ := hr
  cases hm : mainCli w wk a fs rng with
  | error e => simp only at h; rw [bind_error hm] at h; cases h
  | ok p =>
    obtain ⟨o, r'⟩ := p
    simp only at h
    rw [bind_ok hm] at h
    cases h
    exact ⟨_, ⟨rng, rng', hm⟩, rfl⟩

theorem map_fileRun (a : CliArgs) (s e : Option Date) (files : List Text) : (files.mapIdx (fileRun a s e)).map (fun r => r.fname) = files := by
  apply List.ext_getElem?
  intro k
  rw [List.getElem?_map, List.getElem?_mapIdx]
  cases files[k]? <;> rfl

/-- **C118.** From the text of the command line to the results: if such a program ends without an exception, then it has run `main`, and the profiles of each file (if it is a
spreadsheet) have one row for each day that was asked for. -/
theorem C118_simulated {rd : Readers} (h : PythonReaders rd) {files : List Text} (hf : files ≠ []) (hd : ∀ f ∈ files, f.head? ≠ some '-') {numbers : List ℤ}
    (hn : numbers.length ≤ 1 ∨ numbers.length = files.length) {start stop : Option Date} (hs : ∀ d, start = some d → IsDate d) (he : ∀ d, stop = some d → IsDate d)
    (w : World) (wk : ℕ → Workers) (fs : Files) {r : Started} (hr : Returns (mainWords w wk rd (commandLine files numbers start stop) fs) r) :
    ∃ (runs : List RunArgs) (outs : List (Option (List Profile))), runs.map (fun r => r.fname) = files ∧ outs.length = files.length ∧
      r = .ran (.files (filesAfter w.base runs outs fs)) ∧
      ∀ k rows n, outs[k]? = some (some rows) → daysAsked numbers start stop k = some n → (rows.length : ℤ) = n := by
  set a : CliArgs := { fnames := some files, numDays := if numbers = [] then none else some numbers, dateStart := start, dateEnd := stop } with ha
  have hmm : ¬ MonthMode w a := by
    rintro ⟨y, f, rest, h, -⟩
    cases h
  have hfit : FitsFiles a.numDays files.length := by
    intro l hl
    rw [ha] at hl
    by_cases h0 : numbers = []
    · simp [h0] at hl
    · simp only [if_neg h0, Option.some.injEq] at hl
      subst hl
      have := List.length_pos_iff.2 h0
      omega
  obtain ⟨s, e, hu, hmain⟩ := C59_main w wk a fs files rfl hmm (fun ys h => by cases h) hfit (fun l h => by cases h)
  obtain ⟨res, h1, rfl⟩ := args_of_main (C118_command_line h hf hd numbers hs he) hr
  obtain ⟨outs, h3, h4, h5⟩ := (hmain res).1 h1
  refine ⟨files.mapIdx (fileRun a s e), outs, map_fileRun _ _ _ _, h3, by rw [h5], fun k rows n hk hask => ?_⟩
  obtain ⟨hlt, -⟩ := List.getElem?_eq_some_iff.1 hk
  have hret := h4 k files[k] (some rows) (List.getElem?_eq_getElem (by omega)) hk
  have both : ∀ s' e', s = some s' → e = some e' → (rows.length : ℤ) = dayNumber e' - dayNumber s' + 1 := by
    intro s' e' h1 h2
    subst h1 h2
    have := (C63_both_dates_partial w (wk k) _ s'.stamp e'.stamp rows rfl rfl hret).2
    unfold Date.stamp at this
    unfold dayNumber
    omega
  have num : ∀ m, (s = none ∨ e = none) → valueFor a.numDays k = some m → (rows.length : ℤ) = m := by
    intro m h1 h2
    refine (C63_n_days_partial w (wk k) _ m rows ?_ h2 hret).1
    rcases h1 with rfl | rfl
    · exact .inl rfl
    · exact .inr rfl
  have hval : ∀ n, numbers ≠ [] → (match numbers with | [n] => some n | _ :: _ => numbers[k]? | [] => none) = some n → valueFor a.numDays k = some n := by
    intro n h0 h1
    rw [ha]
    simp only [if_neg h0]
    unfold valueFor
    match numbers, h0, h1 with
    | [m], _, h1 => exact h1
    | m :: m' :: l, _, h1 => exact h1
  cases hu with
  | years first last hy => obtain ⟨ys, hy, -⟩ := hy; cases hy
  | given _ hg =>
    cases hst : start with
    | none =>
      cases hsp : stop with
      | none =>
        rw [hst, hsp] at hask
        have h0 : numbers ≠ [] := by rintro rfl; cases hask
        refine num n (.inl hst) (hval n h0 ?_)
        match numbers, h0, hask with
        | [m], _, h1 => exact h1
        | m :: m' :: l, _, h1 => exact h1
      | some e' =>
        rw [hst, hsp] at hask
        have h0 : numbers ≠ [] := by rintro rfl; simp [ha, hst, hsp] at hg
        refine num n (.inl hst) (hval n h0 ?_)
        match numbers, h0, hask with
        | [m], _, h1 => exact h1
        | m :: m' :: l, _, h1 => exact h1
    | some s' =>
      cases hsp : stop with
      | none =>
        rw [hst, hsp] at hask
        have h0 : numbers ≠ [] := by rintro rfl; simp [ha, hst, hsp] at hg
        refine num n (.inr hsp) (hval n h0 ?_)
        match numbers, h0, hask with
        | [m], _, h1 => exact h1
        | m :: m' :: l, _, h1 => exact h1
      | some e' =>
        rw [hst, hsp] at hask
        cases hask
        exact both _ _ hst hsp
  | start e' _ hn' hs' he' =>
    have h0 : numbers = [] := by by_contra h0; simp [ha, h0] at hn'
    have h1 : start = none := hs'
    have h2 : stop = some e' := he'
    rw [h0, h1, h2] at hask
    cases hask
    exact both _ _ rfl rfl
  | stop s' _ hn' hs' he' =>
    have h0 : numbers = [] := by by_contra h0; simp [ha, h0] at hn'
    have h1 : start = some s' := hs'
    have h2 : stop = none := he'
    rw [h0, h1, h2] at hask
    cases hask
    exact both _ _ rfl rfl

theorem year_parsed {rd : Readers} (h : PythonReaders rd) {files : List Text} (hf : files ≠ []) (hd : ∀ f ∈ files, f.head? ≠ some '-') {years : List ℤ} (hy : years ≠ []) :
    parseArgs rd (yearLine files years) = .args { fnames := some files, years := some years } := by
  have e : yearLine files years = plainWords [(.input, files), (.years, years.map decimal)] := by simp [yearLine, plainWords, namesOf]
  rw [e]
  refine (C100_usual rd ?_ ?_ _).2 ?_
  · intro g hg v hv
    rcases List.mem_cons.1 hg with rfl | hg
    · exact .inl (hd v hv)
    · rw [List.mem_singleton.1 hg] at hv
      obtain ⟨z, -, rfl⟩ := List.mem_map.1 hv
      exact decimal_value z
  · intro g hg
    rcases List.mem_cons.1 hg with rfl | hg
    · exact hf
    · rw [List.mem_singleton.1 hg]
      refine ⟨fun e => hy (List.map_eq_nil_iff.1 e), fun v hv => ?_⟩
      obtain ⟨z, -, rfl⟩ := List.mem_map.1 hv
      rw [reads_decimal h]
      rfl
  · have hf1 := filterMap_decimal h years
    refine ⟨?_, ?_, ?_, ?_, ?_, ?_, ?_, ?_⟩ <;> simp [lastValues, hf1]

/-- **C118.** The same for `-y`: the years are read as they are written, and unless one year and a folder are given (C62) the profiles of each file have one row for each day from
1 January of the first to 31 December of the last year. -/
theorem C118_years {rd : Readers} (h : PythonReaders rd) {files : List Text} (hf : files ≠ []) (hd : ∀ f ∈ files, f.head? ≠ some '-') {years : List ℤ} {first last : ℤ}
    (h1 : years.head? = some first) (h2 : years.getLast? = some last) (hy : ∀ y ∈ years, 1 ≤ y ∧ y ≤ 9999)
    (w : World) (hm : ¬ ∃ f, files.head? = some f ∧ years.length = 1 ∧ w.isDir f = true) (wk : ℕ → Workers) (fs : Files) {r : Started}
    (hr : Returns (mainWords w wk rd (yearLine files years) fs) r) :
    ∃ (runs : List RunArgs) (outs : List (Option (List Profile))), runs.map (fun r => r.fname) = files ∧ outs.length = files.length ∧
      r = .ran (.files (filesAfter w.base runs outs fs)) ∧
      ∀ (k : ℕ) (rows : List Profile), outs[k]? = some (some rows) → (rows.length : ℤ) = dayNumber ⟨last.toNat, 12, 31⟩ - dayNumber ⟨first.toNat, 1, 1⟩ + 1 := by
  have hy0 : years ≠ [] := by rintro rfl; cases h1
  obtain ⟨res, h3, rfl⟩ := args_of_main (year_parsed h hf hd hy0) hr
  obtain ⟨s, e, hu, hmain⟩ := C59_main w wk { fnames := some files, years := some years } fs files rfl
    (by
      rintro ⟨y, f, rest, e1, e2, e3⟩
      cases e1
      cases e2
      exact hm ⟨f, rfl, rfl, e3⟩)
    (fun ys h => by cases h; exact ⟨hy0, rfl, rfl, hy⟩) (fun l h => by cases h) (fun l h => by cases h)
  obtain ⟨outs, h4, h5, h6⟩ := (hmain res).1 h3
  refine ⟨_, outs, map_fileRun _ _ _ _, h4, by rw [h6], fun k rows hk => ?_⟩
  obtain ⟨hlt, -⟩ := List.getElem?_eq_some_iff.1 hk
  have hret := h5 k files[k] (some rows) (List.getElem?_eq_getElem (by omega)) hk
  cases hu with
  | years f' l' hy' =>
    obtain ⟨ys, hy', e1, e2⟩ := hy'
    cases hy'
    rw [h1] at e1
    rw [h2] at e2
    cases e1
    cases e2
    have := (C63_both_dates_partial w (wk k) _ (Date.stamp ⟨first.toNat, 1, 1⟩) (Date.stamp ⟨last.toNat, 12, 31⟩) rows rfl rfl hret).2
    unfold Date.stamp at this
    unfold dayNumber
    omega
  | given hy' => cases hy'
  | start _ hy' => cases hy'
  | stop _ hy' => cases hy'

/-! ## Cases -/

/-- Cases for C118: what is accepted and what is not. -/
theorem readers_examples :
    readInt "12".toList = some 12 ∧ readInt " -07\n".toList = some (-7) ∧ readInt "+1_000".toList = some 1000 ∧
    readInt "".toList = none ∧ readInt "1__0".toList = none ∧ readInt "_1".toList = none ∧ readInt "--5".toList = none ∧ readInt "2.5".toList = none ∧
    isoDate "2020-02-29".toList = some ⟨2020, 2, 29⟩ ∧ isoDate "2019-02-29".toList = none ∧ isoDate "2020-2-29".toList = none ∧ isoDate "29.02.2020".toList = none ∧
    isoDate "0000-01-01".toList = none := by decide +kernel

example : StandsFor " +1_000 ".toList 1000 := (C118_int _ _).1 (by decide +kernel)

example : decimal (-120) = "-120".toList ∧ isoText ⟨2020, 2, 29⟩ = "2020-02-29".toList ∧ IsDate ⟨2020, 2, 29⟩ := by
  refine ⟨?_, by decide +kernel, ⟨⟨by norm_num, by norm_num, by norm_num, by norm_num, by decide⟩, by norm_num⟩⟩
  show '-' :: decimalNat 120 = _
  have h : (decimalNat 120) = "120".toList := by
    rw [decimalNat, dif_neg (by norm_num), decimalNat, dif_neg (by norm_num), decimalNat, dif_pos (by norm_num)]
    decide +kernel
  rw [h]
  decide

/-- Every command line of this kind is read, for example this one. -/
example : commandLine ["a.xlsx".toList] [] (some ⟨2020, 2, 28⟩) (some ⟨2020, 3, 1⟩) =
    ["-i".toList, "a.xlsx".toList, "--start-date".toList, "2020-02-28".toList, "--end-date".toList, "2020-03-01".toList] ∧
    daysAsked [] (some ⟨2020, 2, 28⟩) (some ⟨2020, 3, 1⟩) 0 = some 3 := by decide +kernel

theorem lamp_three_days : ∃ rows, Returns (runUseCase lampWorld noWorkers { fname := "1.xlsx".toList, numDays := some 5, dateStart := some 0, dateEnd := some 2880 }) (some rows) := by
  obtain ⟨rows, h1, -⟩ := valueOf_map (m := plainRun lampWorld noWorkers { fname := "1.xlsx".toList, numDays := some 5, dateStart := some 0, dateEnd := some 2880 })
    (rng := constantDraws 0) (g := fun rows => rows.map (fun p => (p 99, p 150))) (b := [(0, 5), (0, 5), (0, 5)]) (by decide +kernel)
  exact ⟨rows, returns_runUseCase (by decide) h1⟩

/-- The arguments of the example. -/
def lampLine : CliArgs where
  fnames := some ["1.xlsx".toList]
  numDays := some [5]
  dateStart := some ⟨1, 1, 1⟩
  dateEnd := some ⟨1, 1, 3⟩

theorem lamp_parsed : parseArgs pyReaders (commandLine ["1.xlsx".toList] [5] (some ⟨1, 1, 1⟩) (some ⟨1, 1, 3⟩)) = .args lampLine := by
  have d1 : IsDate ⟨1, 1, 1⟩ := ⟨⟨by norm_num, by norm_num, by norm_num, by norm_num, by decide⟩, by norm_num⟩
  have d2 : IsDate ⟨1, 1, 3⟩ := ⟨⟨by norm_num, by norm_num, by norm_num, by norm_num, by decide⟩, by norm_num⟩
  rw [C118_command_line C118_readers (files := ["1.xlsx".toList]) (by simp) (by decide) [5] (start := some ⟨1, 1, 1⟩) (stop := some ⟨1, 1, 3⟩)
    (fun d h => by cases h; exact d1) (fun d h => by cases h; exact d2)]
  rfl

theorem lamp_run : fileRun lampLine (some ⟨1, 1, 1⟩) (some ⟨1, 1, 3⟩) 0 "1.xlsx".toList =
    { fname := "1.xlsx".toList, numDays := some 5, dateStart := some 0, dateEnd := some 2880 } := by
  have e1 : Date.stamp ⟨1, 1, 1⟩ = 0 := by decide +kernel
  have e2 : Date.stamp ⟨1, 1, 3⟩ = 2880 := by decide +kernel
  simp only [fileRun, valueFor, Option.map_some, e1, e2, lampLine]

theorem lamp_dates {s e : Option Date} (h : UsesDates lampLine s e) : s = some ⟨1, 1, 1⟩ ∧ e = some ⟨1, 1, 3⟩ := by
  cases h with
  | years first last hy => obtain ⟨ys, hy, -⟩ := hy; cases hy
  | start e' _ hn' => cases hn'
  | stop e' _ hn' => cases hn'
  | given => exact ⟨rfl, rfl⟩

theorem lamp_main : ∃ res, Returns (mainCli lampWorld (fun _ => noWorkers) lampLine []) res := by
  obtain ⟨rows, h2⟩ := lamp_three_days
  obtain ⟨s, e, hu, hmain⟩ := C59_main lampWorld (fun _ => noWorkers) lampLine [] ["1.xlsx".toList] rfl (by rintro ⟨y, f, rest, h, -⟩; cases h) (fun ys h => by cases h)
    (fun l h => by cases h; simp) (fun l h => by cases h)
  obtain ⟨rfl, rfl⟩ := lamp_dates hu
  refine ⟨_, (hmain _).2 ⟨[some rows], rfl, fun k f o h3 h4 => ?_, rfl⟩⟩
  rw [List.getElem?_singleton] at h3 h4
  split_ifs at h3 h4 with hk
  subst hk
  rw [← Option.some.inj h3, ← Option.some.inj h4, lamp_run]
  exact h2

theorem main_of_args {w : World} {wk : ℕ → Workers} {rd : Readers} {words : List Text} {fs : Files} {a : CliArgs} (h : parseArgs rd words = .args a) {res : CliResult}
    (hm : Returns (mainCli w wk a fs) res) : Returns (mainWords w wk rd words fs) (.ran res) := by
  obtain ⟨rng, rng', hm⟩ := hm
  refine ⟨rng, rng', ?_⟩
  unfold mainWords
  rw [h]
  exact bind_ok hm

/-- A case for C118_simulated: three days of the lamp, of which five were asked for with `-n`. -/
example : ∃ r, Returns (mainWords lampWorld (fun _ => noWorkers) pyReaders (commandLine ["1.xlsx".toList] [5] (some ⟨1, 1, 1⟩) (some ⟨1, 1, 3⟩)) []) r := by
  obtain ⟨res, h⟩ := lamp_main
  exact ⟨_, main_of_args lamp_parsed h⟩

theorem lamp_year : ∃ rows, Returns (runUseCase lampWorld noWorkers { fname := "1.xlsx".toList, dateStart := some 0, dateEnd := some (1440 * 364) }) (some rows) := by
  obtain ⟨rows, h1, -⟩ := valueOf_map (m := plainRun lampWorld noWorkers { fname := "1.xlsx".toList, dateStart := some 0, dateEnd := some (1440 * 364) })
    (rng := constantDraws 0) (g := fun rows => rows.length) (b := 365) (by decide +kernel)
  exact ⟨rows, returns_runUseCase (by decide) h1⟩

/-- The arguments of the next example. -/
def lampYear : CliArgs where
  fnames := some ["1.xlsx".toList]
  years := some [1]

theorem lampYear_run : fileRun lampYear (some ⟨(1 : ℤ).toNat, 1, 1⟩) (some ⟨(1 : ℤ).toNat, 12, 31⟩) 0 "1.xlsx".toList =
    { fname := "1.xlsx".toList, dateStart := some 0, dateEnd := some (1440 * 364) } := by
  have e1 : Date.stamp ⟨(1 : ℤ).toNat, 1, 1⟩ = 0 := by decide +kernel
  have e2 : Date.stamp ⟨(1 : ℤ).toNat, 12, 31⟩ = 1440 * 364 := by decide +kernel
  simp only [fileRun, valueFor, Option.map_some, e1, e2, lampYear]

theorem lampYear_dates {s e : Option Date} (h : UsesDates lampYear s e) : s = some ⟨(1 : ℤ).toNat, 1, 1⟩ ∧ e = some ⟨(1 : ℤ).toNat, 12, 31⟩ := by
  cases h with
  | years first last hy =>
    obtain ⟨ys, hy, e1, e2⟩ := hy
    cases hy
    cases e1
    cases e2
    exact ⟨rfl, rfl⟩
  | start e' hy => cases hy
  | stop e' hy => cases hy
  | given hy => cases hy

theorem lampYear_main : ∃ res, Returns (mainCli lampWorld (fun _ => noWorkers) lampYear []) res := by
  obtain ⟨rows, h2⟩ := lamp_year
  obtain ⟨s, e, hu, hmain⟩ := C59_main lampWorld (fun _ => noWorkers) lampYear [] ["1.xlsx".toList] rfl
    (by rintro ⟨y, f, rest, h, h', h''⟩; cases h'; cases h'') (fun ys h => by cases h; exact ⟨by simp, rfl, rfl, by simp⟩)
    (fun l h => by cases h) (fun l h => by cases h)
  obtain ⟨rfl, rfl⟩ := lampYear_dates hu
  refine ⟨_, (hmain _).2 ⟨[some rows], rfl, fun k f o h3 h4 => ?_, rfl⟩⟩
  rw [List.getElem?_singleton] at h3 h4
  split_ifs at h3 h4 with hk
  subst hk
  rw [← Option.some.inj h3, ← Option.some.inj h4, lampYear_run]
  exact h2

/-- A case for C118_years: the days of the year 1. -/
example : ∃ r, Returns (mainWords lampWorld (fun _ => noWorkers) pyReaders (yearLine ["1.xlsx".toList] [1]) []) r := by
  obtain ⟨res, h⟩ := lampYear_main
  exact ⟨_, main_of_args (year_parsed C118_readers (by simp) (by decide) (by simp)) h⟩

/-- A leap year has 366 days, two years have 731. -/
example : readInt "2020".toList = some 2020 ∧
    dayNumber ⟨2020, 12, 31⟩ - dayNumber ⟨2020, 1, 1⟩ + 1 = 366 ∧ dayNumber ⟨2021, 12, 31⟩ - dayNumber ⟨2020, 1, 1⟩ + 1 = 731 := by decide +kernel

example : daysAsked [5] (some ⟨1, 1, 1⟩) (some ⟨1, 1, 3⟩) 0 = some 3 := by decide +kernel

end Ramp
