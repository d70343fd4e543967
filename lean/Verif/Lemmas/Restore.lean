import Verif.Spec3
import Verif.Lemmas.SaveLoad

/-! # Helper lemmas: loading what has been saved -/

set_option autoImplicit false

namespace Ramp

/-! ## The power -/

theorem diffSum_cons (x : ℚ) (l : List ℚ) : diffSum (x :: l) = (x :: l).getLast (by simp) - x := by
  unfold diffSum
  induction l generalizing x with
  | nil => simp
  | cons y l ih =>
    have := ih y
    simp only [List.tail_cons] at this ⊢
    rw [List.zipWith_cons_cons, List.sum_cons, this, List.getLast_cons_cons]
    ring

theorem diffSum_eq_zero_iff {l : List ℚ} (h : l ≠ []) : diffSum l = 0 ↔ l.getLast? = l.head? := by
  cases l with
  | nil => exact absurd rfl h
  | cons x l =>
    rw [diffSum_cons, List.getLast?_eq_getLast_of_ne_nil (by simp)]
    simp [sub_eq_zero]

theorem constant_ends {l : List ℚ} {p : ℚ} (h : ConstantPower l p) : l.head? = some p ∧ l.getLast? = some p := by
  cases l with
  | nil => exact absurd rfl h.1
  | cons x l =>
    rw [List.getLast?_eq_getLast_of_ne_nil (by simp)]
    refine ⟨?_, ?_⟩
    · rw [List.head?_cons, h.2 x (by simp)]
    · rw [h.2 _ (List.getLast_mem _)]

theorem savePower_constant {l : List ℚ} {p : ℚ} (h : ConstantPower l p) : savePower l = .ok (.num p) := by
  unfold savePower
  rw [if_pos ((diffSum_eq_zero_iff h.1).2 (by rw [(constant_ends h).1, (constant_ends h).2])), (constant_ends h).1]

theorem savePower_series {l : List ℚ} (h : l.getLast? ≠ l.head?) : savePower l = .ok (.array l) := by
  unfold savePower
  have hne : l ≠ [] := by rintro rfl; exact h rfl
  rw [if_neg (fun hc => h ((diffSum_eq_zero_iff hne).1 hc))]

/-- The series of the restored appliance. -/
def restoredPower (n : ℤ) (c : Cell) : List ℚ := match c with
  | .num p => List.replicate (n + 1).toNat p
  | .array l => l
  | _ => []

/-- The cell that holds the power of an appliance, and what becomes of it. -/
theorem savePower_valid {l : List ℚ} (h : (∃ p, ConstantPower l p) ∨ (l.length = 366 ∧ l.getLast? ≠ l.head?)) :
    ∃ c, savePower l = .ok c ∧ writeCell c = c ∧ readPower c = .ok c ∧
      ((∃ p, ConstantPower l p ∧ c = .num p) ∨ (l.length = 366 ∧ l.getLast? ≠ l.head? ∧ c = .array l)) := by
  rcases h with ⟨p, hp⟩ | ⟨h1, h2⟩
  · exact ⟨.num p, savePower_constant hp, rfl, rfl, .inl ⟨p, hp, rfl⟩⟩
  · refine ⟨.array l, savePower_series h2, rfl, ?_, .inr ⟨h1, h2, rfl⟩⟩
    show (if l.length ≠ 366 then Except.error Err.valueError else .ok (Cell.array l)) = _
    rw [if_neg (by simp [h1])]

/-- How the restored series is related to the original one. -/
def RestoredPower (n : ℤ) (l m : List ℚ) : Prop :=
  (∃ p, ConstantPower l p ∧ m = List.replicate (n + 1).toNat p) ∨ (l.length = 366 ∧ l.getLast? ≠ l.head? ∧ m = l)

theorem RestoredPower.same {n : ℤ} (hn : 0 ≤ n) {l m : List ℚ} (h : RestoredPower n l m) : SamePowers l m := by
  rcases h with ⟨p, hp, rfl⟩ | ⟨_, _, rfl⟩
  · right
    refine ⟨p, hp, ?_, ?_⟩
    · intro h
      have := congrArg List.length h
      simp at this
      omega
    · intro x hx; exact List.eq_of_mem_replicate hx
  · left; rfl

theorem powerEq_true {strict : Bool} {p q : List ℚ} (h : powerEq strict p q = .ok true) :
    p = q ∨ (∃ x, p = [x] ∧ ∀ y ∈ q, y = x) ∨ (∃ x, q = [x] ∧ ∀ y ∈ p, y = x) := by
  unfold powerEq at h
  split_ifs at h with h1 h2 h3 h4
  · left
    injection h with h
    exact beq_iff_eq.1 h
  · right; left
    injection h with h
    obtain ⟨x, rfl⟩ := List.length_eq_one_iff.1 h2
    refine ⟨x, rfl, ?_⟩
    intro y hy
    have := List.all_eq_true.1 h y hy
    simp at this
    exact this.symm
  · right; right
    injection h with h
    obtain ⟨x, rfl⟩ := List.length_eq_one_iff.1 h3
    refine ⟨x, rfl, ?_⟩
    intro y hy
    have := List.all_eq_true.1 h y hy
    simp at this
    exact this.symm
  · cases h

theorem ends_of_all {l : List ℚ} {x : ℚ} (h : ∀ y ∈ l, y = x) : l.getLast? = l.head? := by
  cases l with
  | nil => rfl
  | cons a l =>
    have := constant_ends (l := a :: l) (p := x) ⟨by simp, h⟩
    rw [this.1, this.2]

/-- Restored series that compare equal come from series with the same meaning. -/
theorem powers_of_restored {strict : Bool} {n : ℤ} (hn : 0 ≤ n) {l l' m m' : List ℚ} (h : RestoredPower n l m) (h' : RestoredPower n l' m')
    (he : powerEq strict m m' = .ok true) : SamePowers l l' := by
  have key : ∀ {p : ℚ} {q : List ℚ}, (∀ y ∈ q, y = p) → q.getLast? ≠ q.head? → False :=
    fun h1 h2 => h2 (ends_of_all h1)
  have hrep : ∀ p x : ℚ, (∀ y ∈ List.replicate (n + 1).toNat p, y = x) → p = x := by
    intro p x hx
    exact hx p (List.mem_replicate.2 ⟨by omega, rfl⟩)
  have hrep1 : ∀ p x : ℚ, List.replicate (n + 1).toNat p = [x] → p = x := by
    intro p x hx
    apply hrep p x
    rw [hx]; simp
  rcases h with ⟨p, hp, rfl⟩ | ⟨hl, hd, rfl⟩ <;> rcases h' with ⟨p', hp', rfl⟩ | ⟨hl', hd', rfl⟩
  · have : p = p' := by
      rcases powerEq_true he with h | ⟨x, h1, h2⟩ | ⟨x, h1, h2⟩
      · apply hrep; rw [h]; intro y hy; exact List.eq_of_mem_replicate hy
      · rw [hrep1 _ _ h1, hrep _ _ h2]
      · rw [hrep1 _ _ h1, hrep _ _ h2]
    subst this
    exact .inr ⟨p, hp, hp'⟩
  · exfalso
    rcases powerEq_true he with h | ⟨x, h1, h2⟩ | ⟨x, h1, h2⟩
    · apply key (p := p) _ hd'
      rw [← h]; intro y hy; exact List.eq_of_mem_replicate hy
    · exact key h2 hd'
    · rw [h1] at hl'; simp at hl'
  · exfalso
    rcases powerEq_true he with h | ⟨x, h1, h2⟩ | ⟨x, h1, h2⟩
    · apply key (p := p') _ hd
      rw [h]; intro y hy; exact List.eq_of_mem_replicate hy
    · rw [h1] at hl; simp at hl
    · exact key h2 hd
  · rcases powerEq_true he with h | ⟨x, h1, h2⟩ | ⟨x, h1, h2⟩
    · exact .inl h
    · rw [h1] at hl; simp at hl
    · rw [h1] at hl'; simp at hl'

/-! ## One appliance -/

theorem fixedCycleCheck_of {c : CycleArgs} (h1 : 0 ≤ c.t1) (h2 : 0 ≤ c.t2) : fixedCycleCheck c = .ok () := by
  unfold fixedCycleCheck onesTimes
  rw [if_neg (by omega)]
  simp only
  rw [if_neg (by omega)]

/-- What the restored appliance is, in terms of the model. -/
structure RestoredApp (n : ℤ) (a b : Appliance) : Prop where
  attributes : savedAttributes a = savedAttributes b
  power : RestoredPower n a.power b.power
  vars1 : b.randomVar1 = pyInt (b.randomVarW * winLen b.window1)
  vars2 : b.randomVar2 = pyInt (b.randomVarW * winLen b.window2)
  vars3 : b.randomVar3 = pyInt (b.randomVarW * winLen b.window3)
  use : fillWindows b.window1 b.window2 b.window3 (1 / 1000) = .ok b.dailyUse

/-- The windows of the row of an appliance. -/
def savedWindows (a : Appliance) : WindowsArgs where
  window1 := some a.window1
  window2 := some a.window2
  randomVarW := a.randomVarW
  window3 := some a.window3

/-- The appliance the constructor makes from the row. -/
def constructed (k : ℕ) (a : Appliance) (m : List ℚ) (cp : Bool) : Appliance where
  oid := k
  name := a.name
  number := a.number
  numWindows := a.numWindows
  funcTime := a.funcTime
  timeFractionRandomVariability := a.timeFractionRandomVariability
  funcCycle := a.funcCycle
  fixed := a.fixed
  fixedCycle := a.fixedCycle
  continuousDutyCycle := a.continuousDutyCycle
  occasionalUse := a.occasionalUse
  flat := a.flat
  thermalPVar := a.thermalPVar
  prefIndex := a.prefIndex
  wdWeType := a.wdWeType
  power := m
  constantPower := cp

/-- Adding the appliance read from the row of a valid appliance. -/
theorem add_saved {strict : Bool} {k : ℕ} {n : ℤ} (hn : 0 ≤ n) {u : User} {a : Appliance} (ha : ValidToSave a) {c : Cell}
    (hc : savePower a.power = .ok c) (hf : ∀ b ∈ u.appList, b.oid ≠ k)
    (hcmp : ∀ m, RestoredPower n a.power m → ∀ b ∈ u.appList, Comparable strict m b.power)
    (hne : ∀ b', RestoredApp n a b' → ∀ b ∈ u.appList, appEq strict b' b ≠ .ok true) :
    ∃ b, addAppliance strict k n u (savedArgs a c) = ({ u with appList := u.appList ++ [b] }, .ok b) ∧ b.oid = k ∧ RestoredApp n a b := by
  obtain ⟨c', hc', -, -, hcase⟩ := savePower_valid ha.power
  have hcc : c' = c := by rw [hc] at hc'; injection hc' with h; exact h.symm
  subst hcc
  -- the constructor
  obtain ⟨app, hm, happ, hP⟩ : ∃ app, mkAppliance k n (savedArgs a c').app = .ok app ∧
      (∃ m cp, app = constructed k a m cp) ∧ RestoredPower n a.power app.power := by
    rcases hcase with ⟨p, hp, rfl⟩ | ⟨h1, h2, rfl⟩
    · refine ⟨_, ?_, ⟨List.replicate (n + 1).toNat p, true, rfl⟩, .inl ⟨p, hp, rfl⟩⟩
      unfold mkAppliance savedArgs powerOfCell onesTimes
      simp only
      rw [if_neg (by omega)]
      rfl
    · exact ⟨_, rfl, ⟨a.power, false, rfl⟩, .inr ⟨h1, h2, rfl⟩⟩
  obtain ⟨m, cp, happ⟩ := happ
  -- windows
  have hwb : ∃ app1, windowsBody app (savedWindows a) = (app1, .ok ()) := by
    have := windowsBody_outcome app (savedWindows a)
    rw [if_neg (by unfold MissingWindow savedWindows; simp),
      if_neg (by rw [happ]; have := ha.numWindows; simp only [constructed]; omega)] at this
    rw [if_neg (by rw [happ]; have := ha.time; simp only [windowsAfter, savedWindows, constructed, Option.getD_some]; omega),
      if_pos ⟨dayWindow_writable ha.window1, dayWindow_writable ha.window2, dayWindow_writable ha.window3⟩] at this
    exact ⟨_, Prod.ext rfl this⟩
  obtain ⟨app1, hwb⟩ := hwb
  obtain ⟨d, happ1, hfill⟩ := windowsBody_ok hwb
  have ht : ∀ t ∈ [a.t11, a.t12, a.t21, a.t22, a.t31, a.t32], 0 ≤ t := ha.durations
  have t11 : 0 ≤ a.t11 := ht _ (by simp)
  have t12 : 0 ≤ a.t12 := ht _ (by simp)
  have t21 : 0 ≤ a.t21 := ht _ (by simp)
  have t22 : 0 ≤ a.t22 := ht _ (by simp)
  have t31 : 0 ≤ a.t31 := ht _ (by simp)
  have t32 : 0 ≤ a.t32 := ht _ (by simp)
  set c1 : CycleArgs := { p1 := a.p11, t1 := a.t11, p2 := a.p12, t2 := a.t12, rc := a.rc1, cwa := some a.cw11, cwb := some a.cw12 } with hc1
  set c2 : CycleArgs := { p1 := a.p21, t1 := a.t21, p2 := a.p22, t2 := a.t22, rc := a.rc2, cwa := some a.cw21, cwb := some a.cw22 } with hc2
  set c3 : CycleArgs := { p1 := a.p31, t1 := a.t31, p2 := a.p32, t2 := a.t32, rc := a.rc3, cwa := some a.cw31, cwb := some a.cw32 } with hc3
  have hres : RestoredApp n a (finalAppliance app1 c1 c2 c3) := by
    constructor
    · unfold finalAppliance windowsTail
      split_ifs <;> (rw [happ1, happ]; rfl)
    · have : (finalAppliance app1 c1 c2 c3).power = app.power := by
        show (windowsTail app1).power = _
        rw [windowsTail_power, happ1]
      rw [this]; exact hP
    · unfold finalAppliance windowsTail
      split_ifs <;> (rw [happ1, happ]; rfl)
    · unfold finalAppliance windowsTail
      split_ifs <;> (rw [happ1, happ]; rfl)
    · unfold finalAppliance windowsTail
      split_ifs <;> (rw [happ1, happ]; rfl)
    · unfold finalAppliance windowsTail
      split_ifs <;> (rw [happ1]; exact hfill)
  refine ⟨finalAppliance app1 c1 c2 c3, ?_, ?_, hres⟩
  · refine addAppliance_full (a := savedArgs a c') hf hm ha.name ⟨?_, ?_⟩ rfl rfl rfl rfl hwb ?_ ?_ ?_ ?_ ?_
    · rw [happ]; rfl
    · rw [happ]; rfl
    · exact fixedCycleCheck_of t11 t12
    · exact fixedCycleCheck_of t21 t22
    · exact fixedCycleCheck_of t31 t32
    · exact hcmp _ hP
    · exact hne _ hres
  · show (windowsTail app1).oid = k
    rw [windowsTail_oid, happ1, happ]
    rfl

/-! ## The rows of one user -/

theorem saveAppliances_ok {u : User} : ∀ {l : List Appliance}, (∀ a ∈ l, ValidToSave a) → ∃ cs : List Cell,
    List.Forall₂ (fun a c => savePower a.power = .ok c ∧ writeCell c = c ∧ readPower c = .ok c) l cs ∧
    saveAppliances u l = .ok (List.zipWith (savedRow u) l cs)
  | [], _ => ⟨[], .nil, rfl⟩
  | a :: l, h => by
    obtain ⟨cs, h1, h2⟩ := saveAppliances_ok (u := u) (fun b hb => h b (List.mem_cons_of_mem _ hb))
    obtain ⟨c, hc, hw, hr, -⟩ := savePower_valid (h a (by simp)).power
    refine ⟨c :: cs, .cons ⟨hc, hw, hr⟩ h1, ?_⟩
    unfold saveAppliances
    rw [saveAppliance_eq, hc, h2]
    rfl

theorem toExcel_row {u : User} {a : Appliance} {c : Cell} (hu : u.userName ≠ "") (ha : ValidToSave a) (hc : writeCell c = c) :
    (savedRow u a c).map (fun p => (p.1, writeCell p.2)) = savedRow u a c := by
  unfold savedRow
  simp only [List.map_cons, List.map_nil, writeCell_idem_text hu, writeCell_idem_text ha.name, writeCell_idem_text ha.fixed,
    writeCell_idem_text ha.flat, hc]
  rfl

theorem read_row (u : User) (a : Appliance) (c : Cell) : (savedRow u a c).lookup "power" = some c ∧
    setCell (savedRow u a c) "power" c = savedRow u a c := ⟨rfl, rfl⟩

theorem loadRows_saved {strict : Bool} {n : ℤ} (hn : 0 ≤ n) (usr : User) : ∀ (l : List Appliance) (cs : List Cell) (k : ℕ) (u : User)
    (pre : List Appliance), (∀ a ∈ pre ++ l, ValidToSave a) → (pre ++ l).Pairwise (fun a b => ¬ SameSaved a b) →
    (∀ a ∈ pre ++ l, ∀ b ∈ pre ++ l, ∀ m m', RestoredPower n a.power m → RestoredPower n b.power m' → Comparable strict m m') →
    List.Forall₂ (fun a c => savePower a.power = .ok c ∧ writeCell c = c ∧ readPower c = .ok c) l cs →
    List.Forall₂ (RestoredApp n) pre u.appList → (∀ b ∈ u.appList, b.oid < k) →
    ∃ l', loadRows strict n k u (List.zipWith (savedRow usr) l cs) = ({ u with appList := l' }, .ok ()) ∧
      List.Forall₂ (RestoredApp n) (pre ++ l) l'
  | [], _, k, u, pre, _, _, _, .nil, hr, _ => by
    refine ⟨u.appList, rfl, ?_⟩
    rw [List.append_nil]; exact hr
  | a :: l, c :: cs, k, u, pre, hv, hd, hcmp, .cons hc hcs, hr, ho => by
    have hlink : ∀ b ∈ u.appList, ∃ a' ∈ pre, RestoredApp n a' b := by
      intro b hb
      obtain ⟨i, hi, rfl⟩ := List.mem_iff_getElem.1 hb
      have := hr.length_eq
      exact ⟨pre[i], List.getElem_mem _, (List.forall₂_iff_get.1 hr).2 i (by omega) hi⟩
    obtain ⟨b, hadd, hob, hrb⟩ := add_saved (strict := strict) (k := k) hn (u := u) (hv a (by simp)) hc.1
      (fun b hb => Nat.ne_of_lt (ho b hb)) (by
        intro m hm b hb
        obtain ⟨a', ha', hra⟩ := hlink b hb
        exact hcmp a (by simp) a' (by simp [ha']) m _ hm hra.power) (by
        intro b' hb' b hb he
        obtain ⟨a', ha', hra⟩ := hlink b hb
        have hpw := (List.pairwise_append.1 hd).2.2 a' ha' a (by simp)
        apply hpw
        unfold appEq at he
        cases hp : powerEq strict b'.power b.power with
        | error e => rw [hp] at he; cases he
        | ok x =>
          rw [hp] at he
          injection he with he
          rw [Bool.and_eq_true, attrEq_iff] at he
          obtain ⟨h1, h2⟩ := he
          rw [h2] at hp
          refine ⟨?_, ?_⟩
          · rw [hra.attributes, ← h1, hb'.attributes]
          · rcases powers_of_restored hn hb'.power hra.power hp with h | ⟨p, h1, h2⟩
            · exact .inl h.symm
            · exact .inr ⟨p, h2, h1⟩)
    obtain ⟨l', h1, h2⟩ := loadRows_saved hn usr l cs (k + 1) { u with appList := u.appList ++ [b] } (pre ++ [a])
      (by simpa using hv) (by simpa using hd) (by simpa using hcmp) hcs
      (List.rel_append hr (.cons hrb .nil)) (by
        intro x hx
        rcases List.mem_append.1 hx with hx | hx
        · exact Nat.lt_succ_of_lt (ho x hx)
        · simp only [List.mem_singleton] at hx; subst hx; omega)
    refine ⟨l', ?_, by simpa using h2⟩
    rw [List.zipWith_cons_cons]
    unfold loadRows
    rw [rowArgs_saved]
    simp only
    rw [hadd]
    simp only
    exact h1

/-! ## Grouping by user -/

theorem foldl_unique (l : List Cell) : ∀ acc : List Cell, l.foldl (fun acc c => if c ∈ acc then acc else acc ++ [c]) acc =
    acc ++ (firstOccurrences l).filter (· ∉ acc) := by
  induction l with
  | nil => intro acc; simp [firstOccurrences]
  | cons x l ih =>
    intro acc
    rw [List.foldl_cons, ih, firstOccurrences]
    by_cases hx : x ∈ acc
    · rw [if_pos hx, List.filter_cons_of_neg (by simpa using hx), List.filter_filter]
      congr 1
      apply List.filter_congr
      intro y _
      by_cases hy : y = x
      · subst hy; simp [hx]
      · simp [hy]
    · rw [if_neg hx, List.filter_cons_of_pos (by simpa using hx), List.filter_filter, List.append_assoc, List.singleton_append]
      congr 2
      apply List.filter_congr
      intro y _
      by_cases hy : y = x
      · subst hy; simp
      · simp [hy]

theorem unique_eq (l : List Cell) : unique l = firstOccurrences l := by
  unfold unique
  rw [foldl_unique]
  simp

theorem mem_firstOccurrences {α : Type} [DecidableEq α] {l : List α} {x : α} : x ∈ firstOccurrences l ↔ x ∈ l := by
  induction l with
  | nil => simp [firstOccurrences]
  | cons y l ih =>
    unfold firstOccurrences
    simp only [List.mem_cons, List.mem_filter, ih, decide_eq_true_eq]
    by_cases h : x = y
    · simp [h]
    · simp [h]

theorem nodup_firstOccurrences {α : Type} [DecidableEq α] (l : List α) : (firstOccurrences l).Nodup := by
  induction l with
  | nil => simp [firstOccurrences]
  | cons y l ih =>
    unfold firstOccurrences
    rw [List.nodup_cons]
    exact ⟨by simp, ih.filter _⟩

theorem firstOccurrences_replicate {α : Type} [DecidableEq α] (x : α) (m : ℕ) (l : List α) :
    firstOccurrences (List.replicate (m + 1) x ++ l) = x :: (firstOccurrences l).filter (· ≠ x) := by
  induction m with
  | zero => simp [firstOccurrences]
  | succ m ih =>
    rw [List.replicate_succ, List.cons_append, firstOccurrences, ih, List.filter_cons_of_neg (by simp), List.filter_filter]
    congr 1
    apply List.filter_congr
    intro y _
    by_cases hy : y = x <;> simp [hy]

/-- Blocks of equal elements with pairwise different elements. -/
theorem firstOccurrences_blocks {α : Type} [DecidableEq α] : ∀ (l : List (α × ℕ)), (l.map Prod.fst).Nodup →
    firstOccurrences (l.map (fun p => List.replicate (p.2 + 1) p.1)).flatten = l.map Prod.fst
  | [], _ => rfl
  | (x, m) :: l, h => by
    rw [List.map_cons, List.flatten_cons, firstOccurrences_replicate]
    rw [List.map_cons, List.nodup_cons] at h
    rw [firstOccurrences_blocks l h.2, List.map_cons, List.filter_eq_self.2]
    intro y hy
    rw [decide_eq_true_eq]
    rintro rfl
    exact h.1 hy

theorem firstOccurrences_eq_singleton {α : Type} [DecidableEq α] {l : List α} {c : α} :
    firstOccurrences l = [c] ↔ l ≠ [] ∧ ∀ x ∈ l, x = c := by
  constructor
  · intro h
    refine ⟨by rintro rfl; simp [firstOccurrences] at h, ?_⟩
    intro x hx
    have := mem_firstOccurrences.2 hx
    rw [h] at this
    simpa using this
  · rintro ⟨h1, h2⟩
    cases l with
    | nil => exact absurd rfl h1
    | cons x l =>
      unfold firstOccurrences
      rw [h2 x (by simp), List.filter_eq_nil_iff.2]
      intro y hy
      have := h2 y (by simp [mem_firstOccurrences.1 hy])
      simp [this]

theorem sameValue_eq {rows : Table} {k : String} {c : Cell} : sameValue rows k = .ok c ↔ rows ≠ [] ∧ ∀ r ∈ rows, rowGet r k = c := by
  unfold sameValue
  rw [unique_eq]
  constructor
  · intro h
    split at h
    · rename_i c' hc
      injection h with h
      subst h
      obtain ⟨h1, h2⟩ := firstOccurrences_eq_singleton.1 hc
      exact ⟨by rintro rfl; exact h1 rfl, fun r hr => h2 _ (List.mem_map_of_mem hr)⟩
    · cases h
  · rintro ⟨h1, h2⟩
    have : firstOccurrences (rows.map (fun r => rowGet r k)) = [c] := by
      apply firstOccurrences_eq_singleton.2
      refine ⟨by simpa using h1, ?_⟩
      intro x hx
      obtain ⟨r, hr, rfl⟩ := List.mem_map.1 hx
      exact h2 r hr
    rw [this]

theorem sameValue_error {rows : Table} {k : String} {e : Err} (h : sameValue rows k = .error e) : e = .valueError := by
  unfold sameValue at h
  split at h
  · cases h
  · cases h; rfl

/-- The head of a user can be read from the table. -/
theorem loadUserHead_ok {df : Table} {name : Cell} {u : User} : loadUserHead df name = .ok u ↔
    ∃ (s : String) (n p : ℤ), name = .text s ∧ u = { userName := s, numUsers := n, userPreference := p } ∧ userRows df name ≠ [] ∧
      ∀ r ∈ userRows df name, rowGet r "num_users" = .num n ∧ rowGet r "user_preference" = .num p := by
  unfold loadUserHead
  constructor
  · intro h
    cases h1 : sameValue (userRows df name) "num_users" with
    | error e => rw [h1] at h; cases h
    | ok c1 =>
      rw [h1] at h
      cases h2 : sameValue (userRows df name) "user_preference" with
      | error e => rw [h2] at h; cases h
      | ok c2 =>
        rw [h2] at h
        obtain ⟨g1, g2⟩ := sameValue_eq.1 h1
        obtain ⟨-, g3⟩ := sameValue_eq.1 h2
        cases name with
        | text s =>
          have hint : ∀ c : Cell, ∀ x : ℤ, cellInt c = .ok x → c = .num x := by
            intro c x hc
            cases c with
            | num q =>
              change (if q.den = 1 then Except.ok q.num else Except.error Err.typeError) = Except.ok x at hc
              split_ifs at hc with hq
              injection hc with hc
              rw [← hc, Rat.coe_int_num_of_den_eq_one hq]
            | _ => cases hc
          cases h3 : cellInt c1 with
          | error e => change (cellInt c1 >>= _) = _ at h; rw [h3] at h; cases h
          | ok n =>
            change (cellInt c1 >>= _) = _ at h
            rw [h3] at h
            change (cellInt c2 >>= _) = _ at h
            cases h4 : cellInt c2 with
            | error e => rw [h4] at h; cases h
            | ok p =>
              rw [h4] at h
              injection h with h
              refine ⟨s, n, p, rfl, h.symm, g1, ?_⟩
              intro r hr
              exact ⟨by rw [g2 r hr, hint _ _ h3], by rw [g3 r hr, hint _ _ h4]⟩
        | _ => cases h
  · rintro ⟨s, n, p, rfl, rfl, h1, h2⟩
    have h3 : sameValue (userRows df (.text s)) "num_users" = .ok (.num n) := sameValue_eq.2 ⟨h1, fun r hr => (h2 r hr).1⟩
    have h4 : sameValue (userRows df (.text s)) "user_preference" = .ok (.num p) := sameValue_eq.2 ⟨h1, fun r hr => (h2 r hr).2⟩
    have h5 : ∀ x : ℤ, cellInt (.num x) = .ok x := by
      intro x
      show (if ((x : ℚ)).den = 1 then Except.ok ((x : ℚ)).num else Except.error Err.typeError) = Except.ok x
      simp
    rw [h3, h4]
    show (cellInt (.num (n : ℚ)) >>= fun n => cellInt (.num (p : ℚ)) >>= fun p => pure { userName := s, numUsers := n, userPreference := p } :
      Except Err User) = _
    rw [h5, h5]
    rfl

end Ramp
