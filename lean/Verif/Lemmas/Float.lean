import Verif.Model.Float
import Verif.Spec5
import Verif.Lemmas.Num
import Verif.Lemmas.Possible
import Mathlib.Tactic.Positivity
import Mathlib.Tactic.FieldSimp

/-! # Runs in floating point and exact runs -/

set_option autoImplicit false

namespace Ramp

variable {fl : ℚ → ℚ} {ε : ℚ}

/-! ## Nearness -/

theorem NearTo.refl {x : ℚ} (h : 0 ≤ ε) (k : ℕ) (hx : 0 ≤ x) : NearTo ε k x x := by
  have : 1 ≤ (1 + ε) ^ k := one_le_pow₀ (by linarith)
  exact ⟨le_mul_of_one_le_right hx this, le_mul_of_one_le_right hx this⟩

theorem NearTo.symm {k : ℕ} {x y : ℚ} (h : NearTo ε k x y) : NearTo ε k y x := ⟨h.2, h.1⟩

theorem NearTo.trans {k l : ℕ} {x y z : ℚ} (hε : 0 ≤ ε) (h : NearTo ε k x y) (h' : NearTo ε l y z) : NearTo ε (k + l) x z := by
  have hk : 0 ≤ (1 + ε) ^ k := by positivity
  have hl : 0 ≤ (1 + ε) ^ l := by positivity
  constructor
  · calc x ≤ y * (1 + ε) ^ k := h.1
      _ ≤ (z * (1 + ε) ^ l) * (1 + ε) ^ k := mul_le_mul_of_nonneg_right h'.1 hk
      _ = z * (1 + ε) ^ (k + l) := by rw [pow_add]; ring
  · calc z ≤ y * (1 + ε) ^ l := h'.2
      _ ≤ (x * (1 + ε) ^ k) * (1 + ε) ^ l := mul_le_mul_of_nonneg_right h.2 hl
      _ = x * (1 + ε) ^ (k + l) := by rw [pow_add]; ring

theorem NearTo.le {k l : ℕ} {x y : ℚ} (hε : 0 ≤ ε) (hx : 0 ≤ x) (hy : 0 ≤ y) (hkl : k ≤ l) (h : NearTo ε k x y) : NearTo ε l x y := by
  have : (1 + ε) ^ k ≤ (1 + ε) ^ l := pow_le_pow_right₀ (by linarith) hkl
  exact ⟨h.1.trans (mul_le_mul_of_nonneg_left this hy), h.2.trans (mul_le_mul_of_nonneg_left this hx)⟩

theorem NearTo.add {k : ℕ} {x y x' y' : ℚ} (h : NearTo ε k x y) (h' : NearTo ε k x' y') : NearTo ε k (x + x') (y + y') := by
  constructor
  · rw [add_mul]; exact add_le_add h.1 h'.1
  · rw [add_mul]; exact add_le_add h.2 h'.2

theorem NearTo.mul {k l : ℕ} {x y x' y' : ℚ} (hε : 0 ≤ ε) (hx : 0 ≤ x) (hy : 0 ≤ y) (hx' : 0 ≤ x') (hy' : 0 ≤ y') (h : NearTo ε k x y)
    (h' : NearTo ε l x' y') : NearTo ε (k + l) (x * x') (y * y') := by
  have hk : 0 ≤ (1 + ε) ^ k := by positivity
  have hl : 0 ≤ (1 + ε) ^ l := by positivity
  constructor
  · calc x * x' ≤ (y * (1 + ε) ^ k) * (y' * (1 + ε) ^ l) := mul_le_mul h.1 h'.1 hx' (mul_nonneg hy hk)
      _ = y * y' * (1 + ε) ^ (k + l) := by rw [pow_add]; ring
  · calc y * y' ≤ (x * (1 + ε) ^ k) * (x' * (1 + ε) ^ l) := mul_le_mul h.2 h'.2 hy' (mul_nonneg hx hk)
      _ = x * x' * (1 + ε) ^ (k + l) := by rw [pow_add]; ring

theorem NearTo.nonneg {k : ℕ} {x y : ℚ} (hε : 0 ≤ ε) (h : NearTo ε k x y) (hy : 0 ≤ y) : 0 ≤ x := by
  have hk : 0 < (1 + ε) ^ k := by positivity
  by_contra hc
  have : x * (1 + ε) ^ k < 0 := mul_neg_of_neg_of_pos (not_le.1 hc) hk
  linarith [h.2]

/-- Nothing is near zero but zero. -/
theorem NearTo.zero_iff {k : ℕ} {x y : ℚ} (hε : 0 ≤ ε) (h : NearTo ε k x y) (hy : 0 ≤ y) : x = 0 ↔ y = 0 := by
  have hx := h.nonneg hε hy
  constructor
  · rintro rfl
    have := h.2
    rw [zero_mul] at this
    exact le_antisymm this hy
  · rintro rfl
    have := h.1
    rw [zero_mul] at this
    exact le_antisymm this hx

/-! ## Roundings -/

namespace Rounding

theorem zero (R : Rounding fl ε) : fl 0 = 0 := by have := R.int 0 (by norm_num); simpa using this
theorem one (R : Rounding fl ε) : fl 1 = 1 := by have := R.int 1 (by norm_num); simpa using this

theorem nonneg (R : Rounding fl ε) {x : ℚ} (h : 0 ≤ x) : 0 ≤ fl x := by have := R.mono h; rwa [R.zero] at this

theorem nonpos (R : Rounding fl ε) {x : ℚ} (h : x ≤ 0) : fl x ≤ 0 := by have := R.mono h; rwa [R.zero] at this

theorem step (R : Rounding fl ε) {k : ℕ} {x y : ℚ} (hy : 0 ≤ y) (h : NearTo ε k x y) : NearTo ε (k + 1) (fl x) y := by
  have := (R.near x (h.nonneg R.pos hy)).trans R.pos h
  rwa [add_comm] at this

end Rounding

/-! ## Refinement -/

variable {α β α' β' : Type}

/-- Every outcome of `m` is, up to `R`, an outcome that `m'` reaches, and every exception of `m` one that `m'` reaches. -/
def Fine (m : Sim α) (m' : Sim α') (R : α → α' → Prop) : Prop :=
  Sat m (fun a => ∃ b, R a b ∧ Reach m' b) (fun e => ReachErr m' e)

theorem fine_pure {a : α} {b : α'} {R : α → α' → Prop} (h : R a b) : Fine (pure a) (pure b) R :=
  sat_pure ⟨b, h, reach_pure b⟩

theorem fine_raise {e : Err} {R : α → α' → Prop} : Fine (raise e) (raise e) R := sat_raise (reachErr_raise e)

theorem fine_bind {m : Sim α} {m' : Sim α'} {f : α → Sim β} {f' : α' → Sim β'} {R : α → α' → Prop} {S : β → β' → Prop}
    (hm : Fine m m' R) (hf : ∀ a b, R a b → Fine (f a) (f' b) S) : Fine (m >>= f) (m' >>= f') S := by
  refine sat_bind (hm.mono ?_ fun e he => reachErr_bind_left he)
  rintro a ⟨b, hab, hb⟩
  refine (hf a b hab).mono ?_ fun e he => reachErr_bind hb he
  rintro c ⟨d, hcd, hd⟩
  exact ⟨d, hcd, reach_bind hb hd⟩

theorem fine_mono {m : Sim α} {m' : Sim α'} {R S : α → α' → Prop} (h : Fine m m' R) (hRS : ∀ a b, R a b → S a b) : Fine m m' S :=
  h.post fun _ ⟨b, hb, hr⟩ => ⟨b, hRS _ b hb, hr⟩

theorem fine_liftE {x : Except Err α} {y : Except Err α'} {R : α → α' → Prop} (hok : ∀ a, x = .ok a → ∃ b, y = .ok b ∧ R a b)
    (herr : ∀ e, x = .error e → y = .error e) : Fine (liftE x) (liftE y) R :=
  sat_liftE (fun a ha => let ⟨b, hb, hR⟩ := hok a ha; ⟨b, hR, reach_liftE hb⟩) (fun e he => reachErr_liftE (herr e he))

theorem fine_same_liftE {x : Except Err α} : Fine (liftE x) (liftE x) Eq := fine_liftE (fun a h => ⟨a, h, rfl⟩) (fun _ h => h)

theorem fine_ite {c : Prop} [Decidable c] {m n : Sim α} {m' n' : Sim α'} {R : α → α' → Prop} (h : c → Fine m m' R) (h' : ¬ c → Fine n n' R) :
    Fine (if c then m else n) (if c then m' else n') R := by
  split
  · exact h ‹_›
  · exact h' ‹_›

theorem fine_ite' {c d : Prop} [Decidable c] [Decidable d] {m n : Sim α} {m' n' : Sim α'} {R : α → α' → Prop} (hcd : c ↔ d)
    (h : c → Fine m m' R) (h' : ¬ c → Fine n n' R) : Fine (if c then m else n) (if d then m' else n') R := by
  by_cases hc : c
  · rw [if_pos hc, if_pos (hcd.1 hc)]; exact h hc
  · rw [if_neg hc, if_neg (fun hd => hc (hcd.2 hd))]; exact h' hc

theorem fine_randint {a b : ℤ} : Fine (randint a b) (randint a b) Eq := by
  refine sat_randint (fun k h0 h1 => ⟨k, rfl, reach_randint h0 h1⟩) (fun h => ?_)
  have : randint a b = raise .valueError := by unfold randint; rw [if_pos h]
  rw [this]
  exact reachErr_raise _

theorem fine_choice2 {x y : α} {x' y' : α'} {R : α → α' → Prop} (hx : R x x') (hy : R y y') : Fine (choice2 x y) (choice2 x' y') R :=
  sat_choice2 ⟨x', hx, reach_choice2_left⟩ ⟨y', hy, reach_choice2_right⟩

theorem fine_calcRandWindow {w : ℤ × ℤ} {v : ℤ} : Fine (calcRandWindow w v) (calcRandWindow w v) Eq := by
  unfold calcRandWindow
  refine fine_bind fine_randint ?_
  rintro a _ rfl
  refine fine_bind fine_randint ?_
  rintro b _ rfl
  exact fine_pure rfl

/-! ## The draws -/

theorem sat_flUniform {a b : ℚ} {Q : ℚ → Prop} {E : Err → Prop} (h : ∀ u : ℚ, 0 ≤ u → u ≤ 1 → Q (fl (a + fl (fl (b - a) * u)))) :
    Sat (flUniform fl a b) Q E :=
  sat_bind' (P := fun _ => True) (sat_nextDraw fun _ => trivial) fun d _ => sat_pure (h d.u d.u_nonneg d.u_le_one)

/-- Between two integers, `random.uniform` stays between them. -/
theorem uniform_int_mem (R : Rounding fl ε) {a b : ℤ} (ha : |a| < 2 ^ 53) (hb : |b| < 2 ^ 53) (hd : |b - a| < 2 ^ 53) {u : ℚ} (h0 : 0 ≤ u) (h1 : u ≤ 1) :
    (min a b : ℚ) ≤ fl (a + fl (fl ((b : ℚ) - a) * u)) ∧ fl (a + fl (fl ((b : ℚ) - a) * u)) ≤ (max a b : ℚ) := by
  have hs : fl ((b : ℚ) - a) = b - a := by have := R.int (b - a) hd; push_cast at this; exact this
  have hs' : fl ((b : ℚ) - a) = ((b - a : ℤ) : ℚ) := by rw [hs]; push_cast; rfl
  have hfa : fl (a : ℚ) = a := R.int a ha
  have hfb : fl (b : ℚ) = b := R.int b hb
  rcases le_total a b with h | h
  · have hq : (a : ℚ) ≤ b := by exact_mod_cast h
    rw [min_eq_left hq, max_eq_right hq]
    have v0 : 0 ≤ fl (fl ((b : ℚ) - a) * u) := R.nonneg (mul_nonneg (by rw [hs]; linarith) h0)
    have v1 : fl (fl ((b : ℚ) - a) * u) ≤ b - a := by
      have : fl (fl ((b : ℚ) - a) * u) ≤ fl ((b : ℚ) - a) := R.mono (by rw [hs]; nlinarith)
      exact this.trans_eq hs
    constructor
    · have := R.mono (a := (a : ℚ)) (b := a + fl (fl ((b : ℚ) - a) * u)) (by linarith)
      rwa [hfa] at this
    · have := R.mono (a := a + fl (fl ((b : ℚ) - a) * u)) (b := (b : ℚ)) (by linarith)
      rwa [hfb] at this
  · have hq : (b : ℚ) ≤ a := by exact_mod_cast h
    rw [min_eq_right hq, max_eq_left hq]
    have v0 : fl (fl ((b : ℚ) - a) * u) ≤ 0 := R.nonpos (mul_nonpos_of_nonpos_of_nonneg (by rw [hs]; linarith) h0)
    have v1 : (b : ℚ) - a ≤ fl (fl ((b : ℚ) - a) * u) := by
      have : fl ((b : ℚ) - a) ≤ fl (fl ((b : ℚ) - a) * u) := R.mono (by rw [hs]; nlinarith)
      exact hs.symm.trans_le this
    constructor
    · have := R.mono (a := (b : ℚ)) (b := a + fl (fl ((b : ℚ) - a) * u)) (by linarith)
      rwa [hfb] at this
    · have := R.mono (a := a + fl (fl ((b : ℚ) - a) * u)) (b := (a : ℚ)) (by linarith)
      rwa [hfa] at this

theorem reach_uniform_between {a b x : ℚ} (h0 : min a b ≤ x) (h1 : x ≤ max a b) : Reach (uniform a b) x := by
  rcases le_total a b with h | h
  · rw [min_eq_left h] at h0; rw [max_eq_right h] at h1
    exact reach_uniform_of_mem h0 h1
  · rw [min_eq_right h] at h0; rw [max_eq_left h] at h1
    rcases eq_or_lt_of_le h with h' | h'
    · exact reach_uniform (u := 0) le_rfl (by norm_num) (by rw [mul_zero]; linarith)
    · have hp : 0 < a - b := by linarith
      refine reach_uniform (u := (a - x) / (a - b)) (div_nonneg (by linarith) hp.le) ?_ ?_
      · rw [div_le_one hp]; linarith
      · have : (b - a) * ((a - x) / (a - b)) = -(a - x) := by field_simp; ring
        rw [this]; ring

theorem fine_uniform_int (R : Rounding fl ε) {a b : ℤ} (ha : |a| < 2 ^ 53) (hb : |b| < 2 ^ 53) (hd : |b - a| < 2 ^ 53) :
    Fine (flUniform fl a b) (uniform a b) (fun x y => x = y ∧ (min a b : ℚ) ≤ x ∧ x ≤ (max a b : ℚ)) :=
  sat_flUniform fun u h0 h1 => by
    obtain ⟨l, r⟩ := uniform_int_mem R ha hb hd h0 h1
    exact ⟨_, ⟨rfl, l, r⟩, reach_uniform_between l r⟩

/-- The factor of `random_variation`, upwards. -/
theorem factor_up (R : Rounding fl ε) {v u : ℚ} (hv0 : 0 ≤ v) (hv1 : v ≤ 1) (h0 : 0 ≤ u) (h1 : u ≤ 1) :
    1 - v ≤ fl (fl (1 - v) + fl (fl (fl (1 + v) - fl (1 - v)) * u)) * (1 + ε) ^ 4 ∧
      fl (fl (1 - v) + fl (fl (fl (1 + v) - fl (1 - v)) * u)) ≤ (1 + v) * (1 + ε) ^ 4 ∧
      0 ≤ fl (fl (1 - v) + fl (fl (fl (1 + v) - fl (1 - v)) * u)) := by
  have hε := R.pos
  have p0 : 0 ≤ fl (1 - v) := R.nonneg (by linarith)
  have pq : fl (1 - v) ≤ fl (1 + v) := R.mono (by linarith)
  have key : ∀ w : ℚ, 0 ≤ w → fl w ≤ w * (1 + ε) ∧ w ≤ fl w * (1 + ε) := fun w hw => by
    have := R.near w hw; simpa [NearTo] using this
  have n1 := key (1 - v) (by linarith)
  have n2 := key (1 + v) (by linarith)
  have hi := R.idem (1 - v)
  generalize fl (1 - v) = p at *
  generalize fl (1 + v) = q at *
  have s0 : 0 ≤ fl (q - p) := R.nonneg (by linarith)
  have k1 := key (q - p) (by linarith)
  have hsu : fl (q - p) * u ≤ fl (q - p) := by nlinarith
  have hsu0 : 0 ≤ fl (q - p) * u := mul_nonneg s0 h0
  have k2 := key _ hsu0
  have w0 := R.nonneg hsu0
  generalize fl (fl (q - p) * u) = w at *
  have k3 := key (p + w) (by linarith)
  have x0 : 0 ≤ fl (p + w) := R.nonneg (by linarith)
  have hx : p ≤ fl (p + w) := by have := R.mono (show p ≤ p + w by linarith); rwa [hi] at this
  have e4 : (1 + ε) ≤ (1 + ε) ^ 4 := by
    have : (1 + ε) ^ 1 ≤ (1 + ε) ^ 4 := pow_le_pow_right₀ (by linarith) (by norm_num)
    simpa using this
  refine ⟨?_, ?_, x0⟩
  · calc 1 - v ≤ p * (1 + ε) := n1.2
      _ ≤ fl (p + w) * (1 + ε) := mul_le_mul_of_nonneg_right hx (by linarith)
      _ ≤ _ := mul_le_mul_of_nonneg_left e4 x0
  · have hw : w ≤ (q - p) * (1 + ε) ^ 2 := by
      calc w ≤ (fl (q - p) * u) * (1 + ε) := k2.1
        _ ≤ fl (q - p) * (1 + ε) := mul_le_mul_of_nonneg_right hsu (by linarith)
        _ ≤ ((q - p) * (1 + ε)) * (1 + ε) := mul_le_mul_of_nonneg_right k1.1 (by linarith)
        _ = _ := by ring
    have e2 : 1 ≤ (1 + ε) ^ 2 := one_le_pow₀ (by linarith)
    have hq : p + w ≤ q * (1 + ε) ^ 2 := by nlinarith
    calc fl (p + w) ≤ (p + w) * (1 + ε) := k3.1
      _ ≤ (q * (1 + ε) ^ 2) * (1 + ε) := mul_le_mul_of_nonneg_right hq (by linarith)
      _ ≤ (((1 + v) * (1 + ε)) * (1 + ε) ^ 2) * (1 + ε) :=
        mul_le_mul_of_nonneg_right (mul_le_mul_of_nonneg_right n2.1 (by positivity)) (by linarith)
      _ = _ := by ring

theorem four_eps (R : Rounding fl ε) : (1 + ε) ^ 4 ≤ 1 + 17 / 4 * ε := by
  have h0 := R.pos
  have h1 := R.small
  have e2 : ε ^ 2 ≤ ε / 1000 := by nlinarith
  have e3 : ε ^ 3 ≤ ε / 1000 := by nlinarith [mul_nonneg h0 h0, sq_nonneg ε]
  have e4 : ε ^ 4 ≤ ε / 1000 := by
    have : ε ^ 4 = ε * ε ^ 3 := by ring
    nlinarith [pow_nonneg h0 3]
  have : (1 + ε) ^ 4 = 1 + 4 * ε + 6 * ε ^ 2 + 4 * ε ^ 3 + ε ^ 4 := by ring
  linarith

/-- The factor of `random_variation`, in both directions. -/
theorem factor_abs (R : Rounding fl ε) {v u : ℚ} (hv0 : 0 ≤ v) (hv1 : v ≤ 1) (h0 : 0 ≤ u) (h1 : u ≤ 1) {a b : ℚ}
    (hab : (a = fl (1 - v) ∧ b = fl (1 + v)) ∨ (a = fl (1 + v) ∧ b = fl (1 - v))) :
    1 - v - 9 * ε ≤ fl (a + fl (fl (b - a) * u)) ∧ fl (a + fl (fl (b - a) * u)) ≤ 1 + v + 9 * ε ∧ 0 ≤ fl (a + fl (fl (b - a) * u)) ∧
      (v = 0 → fl (a + fl (fl (b - a) * u)) = 1) ∧ (v = 1 → fl (a + fl (fl (b - a) * u)) ≤ 2) := by
  have hε := R.pos
  have hs := R.small
  have zero : v = 0 → fl (a + fl (fl (b - a) * u)) = 1 := by
    rintro rfl
    have ha : a = 1 := by rcases hab with ⟨h, _⟩ | ⟨h, _⟩ <;> rw [h] <;> norm_num <;> exact R.one
    have hb : b = 1 := by rcases hab with ⟨_, h⟩ | ⟨_, h⟩ <;> rw [h] <;> norm_num <;> exact R.one
    rw [ha, hb, sub_self, R.zero, zero_mul, R.zero, add_zero, R.one]
  have one : v = 1 → fl (a + fl (fl (b - a) * u)) ≤ 2 := by
    rintro rfl
    have hz : fl (1 - 1 : ℚ) = ((0 : ℤ) : ℚ) := by rw [sub_self, R.zero]; simp
    have ht : fl (1 + 1 : ℚ) = ((2 : ℤ) : ℚ) := by have := R.int 2 (by norm_num); push_cast at this ⊢; rw [← this]; norm_num
    rcases hab with ⟨ha, hb⟩ | ⟨ha, hb⟩
    · have := (uniform_int_mem R (a := 0) (b := 2) (by norm_num) (by norm_num) (by norm_num) h0 h1).2
      rw [ha, hb, hz, ht]
      exact this.trans (by norm_num)
    · have := (uniform_int_mem R (a := 2) (b := 0) (by norm_num) (by norm_num) (by norm_num) h0 h1).2
      rw [ha, hb, hz, ht]
      exact this.trans (by norm_num)
  have e4 := four_eps R
  rcases hab with ⟨rfl, rfl⟩ | ⟨rfl, rfl⟩
  · obtain ⟨l, r, x0⟩ := factor_up R hv0 hv1 h0 h1
    refine ⟨?_, ?_, x0, zero, one⟩
    · clear one
      generalize fl (fl (1 - v) + fl (fl (fl (1 + v) - fl (1 - v)) * u)) = x at *
      by_cases hx : x ≤ 1
      · nlinarith
      · nlinarith
    · nlinarith
  · refine (fun h : _ ∧ _ ∧ _ => ⟨h.1, h.2.1, h.2.2, zero, one⟩) ?_
    have p0 : 0 ≤ fl (1 - v) := R.nonneg (by linarith)
    have pq : fl (1 - v) ≤ fl (1 + v) := R.mono (by linarith)
    have key : ∀ w : ℚ, 0 ≤ w → fl w ≤ w * (1 + ε) ∧ w ≤ fl w * (1 + ε) := fun w hw => by
      have := R.near w hw; simpa [NearTo] using this
    have n1 := key (1 - v) (by linarith)
    have n2 := key (1 + v) (by linarith)
    have hi := R.idem (1 + v)
    clear zero one
    generalize fl (1 - v) = p at *
    generalize fl (1 + v) = q at *
    have e1 : fl (p - q) = -fl (q - p) := by rw [← R.odd]; congr 1; ring
    have e2 : fl (fl (p - q) * u) = -fl (fl (q - p) * u) := by rw [e1, neg_mul, R.odd]
    rw [e2]
    have s0 : 0 ≤ fl (q - p) := R.nonneg (by linarith)
    have sq : fl (q - p) ≤ q := by have := R.mono (show q - p ≤ q by linarith); rwa [hi] at this
    have k1 := key (q - p) (by linarith)
    have hsu : fl (q - p) * u ≤ fl (q - p) := by nlinarith
    have hsu0 : 0 ≤ fl (q - p) * u := mul_nonneg s0 h0
    have w0 := R.nonneg hsu0
    have ws : fl (fl (q - p) * u) ≤ fl (q - p) := by have := R.mono hsu; rwa [R.idem] at this
    generalize fl (fl (q - p) * u) = w at *
    have k3 := key (q + -w) (by linarith)
    have xq : fl (q + -w) ≤ q := by have := R.mono (show q + -w ≤ q by linarith); rwa [hi] at this
    have x0 : 0 ≤ fl (q + -w) := R.nonneg (by linarith)
    refine ⟨?_, by nlinarith, x0⟩
    have hq : q ≤ 2 + 2 * ε := by nlinarith
    have hw : w ≤ q - p + 3 * ε := by nlinarith
    have hx : q + -w ≤ fl (q + -w) + 3 * ε := by nlinarith
    have hp : 1 - v ≤ p + 3 * ε := by nlinarith
    linarith

/-! ## Random variations -/

theorem reach_randomVariation {tv p f : ℚ} (hf : |f - 1| ≤ |tv|) : Reach (randomVariation tv p) (p * f) := by
  refine reach_bind (m := uniform (1 - tv) (1 + tv)) (a := f) ?_ (reach_pure _)
  rw [abs_le] at hf
  refine reach_uniform_between ?_ ?_
  · rcases le_total 0 tv with h | h
    · rw [abs_of_nonneg h] at hf; exact (min_le_left _ _).trans (by linarith)
    · rw [abs_of_nonpos h] at hf; exact (min_le_right _ _).trans (by linarith)
  · rcases le_total 0 tv with h | h
    · rw [abs_of_nonneg h] at hf; exact le_trans (by linarith) (le_max_right _ _)
    · rw [abs_of_nonpos h] at hf; exact le_trans (by linarith) (le_max_left _ _)

/-- The power of an event or of a duty cycle. -/
theorem fine_thermal (R : Rounding fl ε) {tv p p' : ℚ} {k : ℕ} (h0 : 0 ≤ tv) (h1 : tv ≤ 1) (hp : 0 ≤ p') (hpp : NearTo ε k p p') :
    Fine (flRandomVariation fl tv p) (randomVariation tv p') (fun x y => NearTo ε (k + 5) x y ∧ 0 ≤ y) := by
  refine sat_bind' (P := fun x => 1 - tv ≤ x * (1 + ε) ^ 4 ∧ x ≤ (1 + tv) * (1 + ε) ^ 4 ∧ 0 ≤ x)
    (sat_flUniform fun u u0 u1 => factor_up R h0 h1 u0 u1) ?_
  rintro x ⟨l, r, x0⟩
  have e4 : 1 ≤ (1 + ε) ^ 4 := one_le_pow₀ (by linarith [R.pos])
  set y := max (1 - tv) (min (1 + tv) x) with hy
  have y0 : 0 ≤ y := le_trans (by linarith) (le_max_left _ _)
  have hyl : 1 - tv ≤ y := le_max_left _ _
  have hyr : y ≤ 1 + tv := max_le (by linarith) (min_le_left _ _)
  have hn : NearTo ε 4 x y := by
    constructor
    · by_cases hc : x ≤ 1 + tv
      · have : x ≤ y := by rw [hy, min_eq_right hc]; exact le_max_right _ _
        exact this.trans (le_mul_of_one_le_right y0 e4)
      · have : y = 1 + tv := by rw [hy, min_eq_left (not_le.1 hc).le]; exact max_eq_right (by linarith)
        rw [this]; exact r
    · refine max_le l (le_trans (min_le_right _ _) (le_mul_of_one_le_right x0 e4))
  refine sat_pure ⟨p' * y, ⟨?_, mul_nonneg hp y0⟩, reach_randomVariation ?_⟩
  · exact R.step (mul_nonneg hp y0) (NearTo.mul R.pos (hpp.nonneg R.pos hp) hp x0 y0 hpp hn)
  · rw [abs_of_nonneg h0, abs_le]
    constructor <;> linarith

/-- A factor between the widened ends. -/
theorem widened (R : Rounding fl ε) {v x t y : ℚ} (hv1 : v ≤ 1) (hv0 : 0 ≤ v) (ht : 0 < t) (hl : 1 - v - 9 * ε ≤ x) (hr : x ≤ 1 + v + 9 * ε)
    (hx : 0 ≤ x) (hz : v = 0 → y = t) (ho : v = 1 → y ≤ 2 * t) (hn : NearTo ε 2 y (t * x)) : |y / t - 1| ≤ |widenBy ε v| := by
  have h0 := R.pos
  have h1 := R.small
  unfold widenBy
  by_cases hv : v = 0 ∨ v = 1
  · rw [if_pos hv]
    rcases hv with hv | hv
    · rw [hz hv, div_self ht.ne', hv]; simp
    · have y0 : 0 ≤ y := hn.nonneg h0 (mul_nonneg ht.le hx)
      have l0 : 0 ≤ y / t := div_nonneg y0 ht.le
      have l1 : y / t ≤ 2 := by rw [div_le_iff₀ ht]; exact ho hv
      rw [hv, abs_one, abs_le]
      constructor <;> linarith
  · rw [if_neg hv, abs_of_nonneg (by linarith : (0 : ℚ) ≤ v + 16 * ε), abs_le]
    have e2 : (1 + ε) ^ 2 ≤ 1 + 9 / 4 * ε := by nlinarith
    have hn' := hn
    obtain ⟨a, b⟩ := hn
    have hx2 : x ≤ 2 + 1 / 100 := by linarith
    have y0 : 0 ≤ y := hn'.nonneg h0 (mul_nonneg ht.le hx)
    have up : y / t ≤ x * (1 + ε) ^ 2 := by rw [div_le_iff₀ ht]; linarith
    have lo : x ≤ y / t * (1 + ε) ^ 2 := by
      have : x * t ≤ (y / t * (1 + ε) ^ 2) * t := by
        have : y / t * (1 + ε) ^ 2 * t = y * (1 + ε) ^ 2 := by field_simp
        rw [this]; linarith
      exact le_of_mul_le_mul_right this ht
    have f0 : 0 ≤ y / t := div_nonneg y0 ht.le
    generalize y / t = f at *
    have upx : x * (1 + ε) ^ 2 ≤ x + 5 * ε := by nlinarith
    constructor
    · by_cases hf : f ≤ 2
      · have : f * (1 + ε) ^ 2 ≤ f + 5 * ε := by nlinarith
        linarith
      · linarith
    · linarith

/-- The duration of a part of a duty cycle. -/
theorem fine_duration (R : Rounding fl ε) {v : ℚ} {t : ℤ} (h0 : 0 ≤ v) (h1 : v ≤ 1) (ht : 0 ≤ t) (ht' : t ≤ 2 ^ 50) :
    Fine (flRandomVariation fl (-v) t) (randomVariation (-widenBy ε v) t) Eq := by
  refine sat_bind' (P := fun x => 1 - v - 9 * ε ≤ x ∧ x ≤ 1 + v + 9 * ε ∧ 0 ≤ x ∧ (v = 0 → x = 1) ∧ (v = 1 → x ≤ 2)) ?_ ?_
  · refine sat_flUniform fun u u0 u1 => factor_abs R h0 h1 u0 u1 (.inr ⟨?_, ?_⟩)
    · congr 1; ring
    · congr 1; ring
  rintro x ⟨l, r, x0, hz, ho⟩
  have hti : fl (t : ℚ) = t := R.int t (by rw [abs_of_nonneg ht]; omega)
  rcases eq_or_lt_of_le ht with h | h
  · subst h
    refine sat_pure ⟨0, by simp [R.zero], ?_⟩
    have := reach_randomVariation (tv := -widenBy ε v) (p := ((0 : ℤ) : ℚ)) (f := 1) (by simp)
    simpa using this
  · have hq : (0 : ℚ) < t := by exact_mod_cast h
    have n1 := R.near (t * x) (mul_nonneg hq.le x0)
    have n2 : NearTo ε 2 (fl (t * x)) (t * x) := n1.le R.pos (R.nonneg (mul_nonneg hq.le x0)) (mul_nonneg hq.le x0) (by norm_num)
    have h2t : fl (2 * t : ℚ) = 2 * t := by
      have := R.int (2 * t) (by rw [abs_of_nonneg (by omega)]; omega)
      push_cast at this
      exact this
    have hw := widened R h1 h0 hq l r x0 (fun hv => by rw [hz hv, mul_one, hti])
      (fun hv => by rw [← h2t]; exact R.mono (by nlinarith [ho hv])) n2
    refine sat_pure ⟨_, rfl, ?_⟩
    have := reach_randomVariation (tv := -widenBy ε v) (p := (t : ℚ)) (f := fl (t * x) / t) (by rwa [abs_neg])
    rwa [mul_div_cancel₀ _ hq.ne'] at this

theorem onesTimes_near {n : ℤ} {p p' : ℚ} {S : ℚ → ℚ → Prop} (hpp : S p p') :
    Fine (liftE (onesTimes n p)) (liftE (onesTimes n p')) (fun a b => List.Forall₂ S a b) := by
  refine fine_liftE ?_ ?_
  · intro a ha
    unfold onesTimes at ha ⊢
    split_ifs at ha ⊢
    cases ha
    refine ⟨_, rfl, ?_⟩
    exact List.forall₂_iff_get.2 ⟨by simp, fun i h1 h2 => by simpa using hpp⟩
  · intro e he
    unfold onesTimes at he ⊢
    split_ifs at he ⊢
    exact he

theorem fine_dutyCycle (R : Rounding fl ε) {v : ℚ} {t1 t2 : ℤ} {p1 p2 q1 q2 : ℚ} {S : ℚ → ℚ → Prop} (h0 : 0 ≤ v) (h1 : v ≤ 1)
    (ht1 : 0 ≤ t1 ∧ t1 ≤ 2 ^ 50) (ht2 : 0 ≤ t2 ∧ t2 ≤ 2 ^ 50) (hp1 : S p1 q1) (hp2 : S p2 q2) :
    Fine (flDutyCycle fl v t1 p1 t2 p2) (dutyCycle (widenBy ε v) t1 q1 t2 q2) (List.Forall₂ S) := by
  unfold flDutyCycle dutyCycle
  refine fine_bind (fine_duration R h0 h1 ht1.1 ht1.2) ?_
  rintro d1 _ rfl
  refine fine_bind (onesTimes_near hp1) fun a a' ha => ?_
  refine fine_bind (fine_duration R h0 h1 ht2.1 ht2.2) ?_
  rintro d2 _ rfl
  refine fine_bind (onesTimes_near hp2) fun b b' hb => ?_
  exact fine_pure (List.rel_append ha hb)

theorem fine_randomChoice (R : Rounding fl ε) {v : ℚ} {t1 t2 : ℤ} {p1 p2 q1 q2 : ℚ} {S : ℚ → ℚ → Prop} (h0 : 0 ≤ v) (h1 : v ≤ 1)
    (ht1 : 0 ≤ t1 ∧ t1 ≤ 2 ^ 50) (ht2 : 0 ≤ t2 ∧ t2 ≤ 2 ^ 50) (hp1 : S p1 q1) (hp2 : S p2 q2) :
    Fine (flRandomChoice fl v t1 p1 t2 p2) (randomChoice (widenBy ε v) t1 q1 t2 q2) (List.Forall₂ S) := by
  unfold flRandomChoice randomChoice
  refine fine_bind (fine_dutyCycle R h0 h1 ht1 ht2 hp1 hp2) fun x x' hx => ?_
  refine fine_bind (fine_dutyCycle R h0 h1 ht2 ht1 hp2 hp1) fun y y' hy => ?_
  exact fine_choice2 hx hy

/-! ## The time of use -/

theorem percent_le {n r : ℤ} (R : Rounding fl ε) (h0 : 0 ≤ n) (h1 : n ≤ 4320) :
    (r : ℚ) > fl (fl (99 / 100) * (n : ℚ)) ↔ (r : ℚ) > 99 / 100 * (n : ℚ) := by
  have hp := R.percent n h0 h1
  have hq : ⌊(99 / 100 * (n : ℚ))⌋ = 99 * n / 100 := by
    rw [Int.floor_eq_iff]
    have h2 := Int.ediv_mul_le (99 * n) (by norm_num : (100 : ℤ) ≠ 0)
    have h3 := Int.lt_ediv_add_one_mul_self (99 * n) (by norm_num : (0 : ℤ) < 100)
    have h2' : ((99 * n / 100 : ℤ) : ℚ) * 100 ≤ 99 * n := by exact_mod_cast h2
    have h3' : (99 * n : ℚ) < (((99 * n / 100 : ℤ) : ℚ) + 1) * 100 := by exact_mod_cast h3
    constructor <;> linarith
  rw [gt_iff_lt, gt_iff_lt, ← Int.floor_lt, ← Int.floor_lt, hp, hq]

theorem percent_int {n : ℤ} (R : Rounding fl ε) (h0 : 0 ≤ n) (h1 : n ≤ 4320) :
    pyInt (fl (fl (99 / 100) * (n : ℚ))) = pyInt (99 / 100 * (n : ℚ)) := by
  have hn : (0 : ℚ) ≤ n := by exact_mod_cast h0
  rw [pyInt_of_nonneg (R.nonneg (mul_nonneg (R.nonneg (by norm_num)) hn)), pyInt_of_nonneg (by positivity), R.percent n h0 h1]
  symm
  rw [Int.floor_eq_iff]
  have h2 := Int.ediv_mul_le (99 * n) (by norm_num : (100 : ℤ) ≠ 0)
  have h3 := Int.lt_ediv_add_one_mul_self (99 * n) (by norm_num : (0 : ℤ) < 100)
  have h2' : ((99 * n / 100 : ℤ) : ℚ) * 100 ≤ 99 * n := by exact_mod_cast h2
  have h3' : (99 * n : ℚ) < (((99 * n / 100 : ℤ) : ℚ) + 1) * 100 := by exact_mod_cast h3
  constructor <;> linarith

/-- The variability of the time of use: the same number of minutes is possible with the widened variability. -/
theorem fine_timeFraction (R : Rounding fl ε) {v : ℚ} {t : ℤ} (h0 : 0 ≤ v) (h1 : v ≤ 1) (ht : 0 < t) (ht' : t ≤ 2 ^ 50) :
    Fine (flRandomVariation fl v 1) (randomVariation (widenBy ε v) 1)
      (fun x y => pyInt (fl (t * x)) = pyInt (t * y) ∧ 0 ≤ pyInt (fl (t * x)) ∧ pyInt (fl (t * x)) ≤ 4 * t) := by
  refine sat_bind' (P := fun x => 1 - v - 9 * ε ≤ x ∧ x ≤ 1 + v + 9 * ε ∧ 0 ≤ x ∧ (v = 0 → x = 1) ∧ (v = 1 → x ≤ 2)) ?_ ?_
  · exact sat_flUniform fun u u0 u1 => factor_abs R h0 h1 u0 u1 (.inl ⟨rfl, rfl⟩)
  rintro x ⟨l, r, x0, hz, ho⟩
  have hti : fl (t : ℚ) = t := R.int t (by rw [abs_of_nonneg ht.le]; omega)
  have hq : (0 : ℚ) < t := by exact_mod_cast ht
  rw [one_mul]
  have f0 := R.nonneg x0
  have n1 := R.near x x0
  have n2 : NearTo ε 1 (t * fl x) (t * x) := by
    have := NearTo.mul R.pos hq.le hq.le f0 x0 (NearTo.refl R.pos 0 hq.le) n1
    simpa using this
  have n3 := R.step (mul_nonneg hq.le x0) n2
  have y0 := R.nonneg (mul_nonneg hq.le f0)
  have h2 : fl (2 : ℚ) = 2 := by have := R.int 2 (by norm_num); push_cast at this; exact this
  have h2t : fl (2 * t : ℚ) = 2 * t := by
    have := R.int (2 * t) (by rw [abs_of_nonneg (by omega)]; omega)
    push_cast at this
    exact this
  have hw := widened R h1 h0 hq l r x0 (fun hv => by rw [hz hv, R.one, mul_one, hti])
    (fun hv => by
      have hx2 : fl x ≤ 2 := by have := R.mono (ho hv); rwa [h2] at this
      rw [← h2t]
      exact R.mono (by nlinarith)) n3
  refine sat_pure ⟨fl (t * fl x) / t, ⟨?_, pyInt_nonneg y0, ?_⟩, ?_⟩
  · rw [mul_div_cancel₀ _ hq.ne']
  · refine pyInt_le ?_
    have e2 : (1 + ε) ^ 2 ≤ 1 + 1 / 100 := by nlinarith [R.pos, R.small]
    have h3 : fl (t * fl x) ≤ t * x * (1 + ε) ^ 2 := n3.1
    have hx : x ≤ 3 := by linarith [R.small]
    push_cast
    have : t * x * (1 + ε) ^ 2 ≤ (t * x) * (1 + 1 / 100) := mul_le_mul_of_nonneg_left e2 (mul_nonneg hq.le x0)
    have : t * x ≤ t * 3 := mul_le_mul_of_nonneg_left hx hq.le
    linarith
  · have := reach_randomVariation (tv := widenBy ε v) (p := (1 : ℚ)) (f := fl (t * fl x) / t) hw
    rwa [one_mul] at this

/-- `rand_total_time_of_use`. -/
theorem fine_timeOfUse (R : Rounding fl ε) {a a' : Appliance} {w1 w2 w3 : ℤ × ℤ} (h0 : 0 ≤ a.timeFractionRandomVariability)
    (h1 : a.timeFractionRandomVariability ≤ 1) (ht : 0 < a.funcTime) (ht' : a.funcTime ≤ 2 ^ 50) (hfc : 1 ≤ a.funcCycle)
    (htf : a'.timeFractionRandomVariability = widenBy ε a.timeFractionRandomVariability) (hft : a'.funcTime = a.funcTime)
    (hfc' : a'.funcCycle = a.funcCycle)
    (hw1 : 0 ≤ w1.1 ∧ w1.2 ≤ 1440) (hw2 : 0 ≤ w2.1 ∧ w2.2 ≤ 1440) (hw3 : 0 ≤ w3.1 ∧ w3.2 ≤ 1440) :
    Fine (flRandTotalTimeOfUse fl a w1 w2 w3) (randTotalTimeOfUse a' w1 w2 w3) (fun x y => x = y ∧ a.funcCycle ≤ x ∧ x ≤ 4320) := by
  unfold flRandTotalTimeOfUse randTotalTimeOfUse
  rw [htf, hft, hfc']
  refine fine_bind (fine_timeFraction R h0 h1 ht ht') ?_
  rintro x y ⟨hxy, l, r⟩
  rw [← hxy]
  have hd : |pyInt (fl (a.funcTime * x)) - a.funcTime| < 2 ^ 53 := by rw [abs_lt]; constructor <;> omega
  refine fine_bind (fine_uniform_int R (a := a.funcTime) (b := pyInt (fl (a.funcTime * x)))
    (by rw [abs_lt]; constructor <;> omega) (by rw [abs_lt]; constructor <;> omega) hd) ?_
  rintro z _ ⟨rfl, -, -⟩
  simp only
  set n := (w1.2 - w1.1) + (w2.2 - w2.1) + (w3.2 - w3.1) with hn
  have hn1 : n ≤ 4320 := by omega
  generalize hrt : (if pyRound z < a.funcCycle then a.funcCycle else pyRound z) = rt
  have hrt1 : 1 ≤ rt := by rw [← hrt]; split <;> omega
  have hnq : ((w1.2 : ℚ) - w1.1 + (w2.2 - w2.1) + (w3.2 - w3.1)) = (n : ℚ) := by rw [hn]; push_cast; ring
  by_cases h : 0 ≤ n
  · have e1 := percent_le (r := rt) R h hn1
    have e2 := percent_int R h hn1
    have hnn : (0 : ℚ) ≤ n := by exact_mod_cast h
    have e3 : pyInt (99 / 100 * (n : ℚ)) ≤ 4320 := by
      refine (pyInt_le (n := n) ?_).trans hn1
      linarith
    by_cases hc : (rt : ℚ) > 99 / 100 * (n : ℚ)
    · rw [if_pos (e1.2 hc), if_pos hc, e2]
      refine fine_ite (fun _ => fine_raise) fun hlt => fine_pure ⟨rfl, not_lt.1 hlt, e3⟩
    · rw [if_neg (fun hh => hc (e1.1 hh)), if_neg hc]
      refine fine_ite (fun _ => fine_raise) fun hlt => fine_pure ⟨rfl, not_lt.1 hlt, ?_⟩
      have : (rt : ℚ) ≤ n := by linarith
      have : rt ≤ n := by exact_mod_cast this
      omega
  · have hneg : (n : ℚ) ≤ 0 := by exact_mod_cast (not_le.1 h).le
    have hrq : (1 : ℚ) ≤ rt := by exact_mod_cast hrt1
    have c0 : 0 ≤ fl (99 / 100) := R.nonneg (by norm_num)
    have x1 : fl (fl (99 / 100) * (n : ℚ)) ≤ 0 := R.nonpos (mul_nonpos_of_nonneg_of_nonpos c0 hneg)
    have x2 : 99 / 100 * (n : ℚ) ≤ 0 := by linarith
    rw [if_pos (show (rt : ℚ) > _ from by linarith), if_pos (show (rt : ℚ) > _ from by linarith)]
    have y1 : pyInt (fl (fl (99 / 100) * (n : ℚ))) ≤ 0 := pyInt_le (by simpa using x1)
    have y2 : pyInt (99 / 100 * (n : ℚ)) ≤ 0 := pyInt_le (by simpa using x2)
    rw [if_pos (by omega), if_pos (by omega)]
    exact fine_raise

/-! ## Appliances -/

/-- Two values of a profile, and the exact one is a power. -/
def Close (ε : ℚ) (k : ℕ) (x y : ℚ) : Prop := NearTo ε k x y ∧ 0 ≤ y

/-- Two profiles, minute by minute. -/
def ProfClose (ε : ℚ) (k : ℕ) (p q : Profile) : Prop := ∀ i, Close ε k (p i) (q i)

theorem Close.le {k l : ℕ} {x y : ℚ} (hε : 0 ≤ ε) (h : Close ε k x y) (hkl : k ≤ l) : Close ε l x y :=
  ⟨h.1.le hε (h.1.nonneg hε h.2) h.2 hkl, h.2⟩

theorem Close.add {k : ℕ} {x y x' y' : ℚ} (h : Close ε k x y) (h' : Close ε k x' y') : Close ε k (x + x') (y + y') :=
  ⟨h.1.add h'.1, add_nonneg h.2 h'.2⟩

theorem Close.round {k : ℕ} {x y : ℚ} (R : Rounding fl ε) (h : Close ε k x y) : Close ε (k + 1) (fl x) y := ⟨R.step h.2 h.1, h.2⟩

theorem close_zeros (hε : 0 ≤ ε) (k : ℕ) : ProfClose ε k zeros zeros := fun _ => ⟨NearTo.refl hε k le_rfl, le_rfl⟩

/-- `a'` is the widened `a`, with profile and duty cycles of its own. -/
def Twin (ε : ℚ) (a a' : Appliance) : Prop :=
  a' = { widen ε a with dailyUse := a'.dailyUse, randomCycle1 := a'.randomCycle1, randomCycle2 := a'.randomCycle2, randomCycle3 := a'.randomCycle3 }

theorem twin_widen (a : Appliance) : Twin ε a (widen ε a) := rfl

/-- The duty cycles of two appliances. -/
def CycClose (ε : ℚ) (a a' : Appliance) : Prop := 0 < a.fixedCycle →
  List.Forall₂ (Close ε 5) a.randomCycle1 a'.randomCycle1 ∧ List.Forall₂ (Close ε 5) a.randomCycle2 a'.randomCycle2 ∧
    List.Forall₂ (Close ε 5) a.randomCycle3 a'.randomCycle3

theorem FloatReady.run {a : Appliance} (h : FloatReady a) (d : Profile) (fs : List Spot) (c1 c2 c3 : List ℚ) (id : ℤ) :
    FloatReady { a with dailyUse := d, freeSpots := fs, randomCycle1 := c1, randomCycle2 := c2, randomCycle3 := c3, currentDutyCycleId := id } :=
  ⟨h.tf, h.tv, h.rc, h.fc, h.ft, h.number, h.t, h.p, h.power⟩

/-- What the float run and the exact run of an appliance agree on. -/
structure Mates (ε : ℚ) (a a' : Appliance) : Prop where
  twin : Twin ε a a'
  ready : FloatReady a
  use : ProfClose ε 6 a.dailyUse a'.dailyUse
  cyc : CycClose ε a a'

theorem npPutFrom_close {k : ℕ} (hε : 0 ≤ ε) {v v' : List ℚ} (hv : List.Forall₂ (Close ε k) v v') : ∀ (j : ℕ) (is : List ℤ) (p q : Profile), ProfClose ε k p q →
    (∃ e, npPutFrom v j is p = .error e ∧ npPutFrom v' j is q = .error e) ∨
    (∃ p' q', npPutFrom v j is p = .ok p' ∧ npPutFrom v' j is q = .ok q' ∧ ProfClose ε k p' q')
  | _, [], p, q, h => .inr ⟨p, q, rfl, rfl, h⟩
  | j, i :: is, p, q, h => by
    unfold npPutFrom
    cases wrapIdx i with
    | none => exact .inl ⟨_, rfl, rfl⟩
    | some m =>
      refine npPutFrom_close hε hv (j + 1) is _ _ fun i => ?_
      split
      · rw [← hv.length_eq]
        by_cases hl : j % v.length < v.length
        · have hl' : j % v.length < v'.length := hv.length_eq ▸ hl
          rw [List.getD_eq_getElem?_getD, List.getD_eq_getElem?_getD, List.getElem?_eq_getElem hl, List.getElem?_eq_getElem hl']
          exact List.Forall₂.get hv hl (hv.length_eq ▸ hl)
        · have hl' : v'.length ≤ j % v.length := hv.length_eq ▸ not_lt.1 hl
          rw [List.getD_eq_getElem?_getD, List.getD_eq_getElem?_getD, List.getElem?_eq_none (not_lt.1 hl), List.getElem?_eq_none hl']
          exact ⟨NearTo.refl hε k le_rfl, le_rfl⟩
      · exact h i

theorem fine_npPut {k : ℕ} (hε : 0 ≤ ε) {v v' : List ℚ} (hv : List.Forall₂ (Close ε k) v v') {is : List ℤ} {p q : Profile} (h : ProfClose ε k p q) :
    Fine (liftE (npPut p is v)) (liftE (npPut q is v')) (ProfClose ε k) := by
  have key : (∃ e, npPut p is v = .error e ∧ npPut q is v' = .error e) ∨
      (∃ p' q', npPut p is v = .ok p' ∧ npPut q is v' = .ok q' ∧ ProfClose ε k p' q') := by
    unfold npPut
    rw [← hv.length_eq]
    split
    · exact .inr ⟨p, q, rfl, rfl, h⟩
    · exact npPutFrom_close hε hv 0 is p q h
  rcases key with ⟨e, h1, h2⟩ | ⟨p', q', h1, h2, h3⟩
  · exact fine_liftE (fun a ha => by rw [h1] at ha; cases ha) (fun e' he => by rw [h1] at he; rw [h2]; exact he)
  · exact fine_liftE (fun a ha => ⟨q', h2, by rw [h1] at ha; cases ha; exact h3⟩) (fun e' he => by rw [h1] at he; cases he)

theorem close_times (R : Rounding fl ε) {k : ℕ} {l l' : List ℚ} (h : List.Forall₂ (Close ε k) l l') {c : ℤ} (hc : 0 ≤ c) :
    List.Forall₂ (Close ε (k + 1)) (l.map (fun v => fl (v * (c : ℚ)))) (l'.map (· * (c : ℚ))) := by
  have hcq : (0 : ℚ) ≤ c := by exact_mod_cast hc
  rw [List.forall₂_map_left_iff, List.forall₂_map_right_iff]
  refine h.imp fun x y hxy => ?_
  have hn : NearTo ε (k + 0) (x * c) (y * c) := NearTo.mul R.pos (hxy.1.nonneg R.pos hxy.2) hxy.2 hcq hcq hxy.1 (NearTo.refl R.pos 0 hcq)
  exact Close.round R ⟨by rwa [add_zero] at hn, mul_nonneg hxy.2 hcq⟩

theorem fine_putEvent (R : Rounding fl ε) {a a' : Appliance} (h : Mates ε a a') {c : ℤ} (hc : 0 ≤ c) {power : ℚ} (hp : 0 ≤ power) (is : List ℤ) :
    Fine (flPutEvent fl a c power is) (putEvent a' c power is) (fun b b' => Mates ε b b' ∧ b.freeSpots = a.freeSpots ∧
      b.currentDutyCycleId = a.currentDutyCycleId ∧ b.funcCycle = a.funcCycle) := by
  have hcq : (0 : ℚ) ≤ c := by exact_mod_cast hc
  obtain ⟨ht, hr, hu, hcy⟩ := h
  have e1 : a'.fixedCycle = a.fixedCycle := by rw [ht]; rfl
  have e2 : a'.currentDutyCycleId = a.currentDutyCycleId := by rw [ht]; rfl
  have e3 : a'.thermalPVar = a.thermalPVar := by rw [ht]; rfl
  have fin : ∀ d d' : Profile, ProfClose ε 6 d d' → Mates ε { a with dailyUse := d } { a' with dailyUse := d' } := fun d d' hd =>
    ⟨by unfold Twin; rw [ht]; rfl, hr.run d a.freeSpots _ _ _ _, hd, hcy⟩
  unfold flPutEvent putEvent
  refine fine_ite' (by rw [e1]) (fun hf => ?_) fun hf => ?_
  · obtain ⟨c1, c2, c3⟩ := hcy hf
    refine fine_ite' (by rw [e2]) (fun _ => ?_) fun _ => fine_ite' (by rw [e2]) (fun _ => ?_) fun _ => fine_ite' (by rw [e2]) (fun _ => ?_) fun _ => ?_
    · refine fine_bind (fine_npPut R.pos (close_times R c1 hc) hu) fun d d' hd => fine_pure ⟨fin d d' hd, rfl, rfl, rfl⟩
    · refine fine_bind (fine_npPut R.pos (close_times R c2 hc) hu) fun d d' hd => fine_pure ⟨fin d d' hd, rfl, rfl, rfl⟩
    · refine fine_bind (fine_npPut R.pos (close_times R c3 hc) hu) fun d d' hd => fine_pure ⟨fin d d' hd, rfl, rfl, rfl⟩
    · exact fine_pure ⟨⟨ht, hr, hu, hcy⟩, rfl, rfl, rfl⟩
  · have n1 : NearTo ε 1 (fl (c * power)) (c * power) := R.near _ (mul_nonneg hcq hp)
    have hth := fine_thermal R hr.tv.1 hr.tv.2 (mul_nonneg hcq hp) n1
    rw [show randomVariation a.thermalPVar (c * power) = randomVariation a'.thermalPVar (c * power) by rw [e3]] at hth
    refine fine_bind hth fun v v' hv => ?_
    refine fine_bind (fine_npPut R.pos (k := 6) (.cons hv .nil) hu) fun d d' hd => fine_pure ⟨fin d d' hd, rfl, rfl, rfl⟩

theorem fine_updateDailyUse (R : Rounding fl ε) {a a' : Appliance} (h : Mates ε a a') {c : ℤ} (hc : 0 ≤ c) {power : ℚ} (hp : 0 ≤ power) (is : List ℤ) :
    Fine (flUpdateDailyUse fl a c power is) (updateDailyUse a' c power is) (fun b b' => Mates ε b b' ∧
      b.currentDutyCycleId = a.currentDutyCycleId ∧ b.funcCycle = a.funcCycle) := by
  unfold flUpdateDailyUse updateDailyUse
  refine fine_bind (fine_putEvent R h hc hp is) ?_
  rintro b b' ⟨hb, -, h2, h3⟩
  have e : b'.freeSpots = b.freeSpots := by rw [hb.twin]; rfl
  rw [e]
  refine fine_bind fine_same_liftE ?_
  rintro s _ rfl
  refine fine_pure ⟨⟨?_, hb.ready.run b.dailyUse s _ _ _ _, hb.use, hb.cyc⟩, h2, h3⟩
  unfold Twin
  rw [hb.twin]
  rfl

/-! ## Coincidence -/

theorem onNumber_div {n i : ℕ} (h : i < n) : onNumber ((i : ℚ) / (n : ℤ)) (n : ℤ) = (i : ℤ) + 1 := by
  have hn : (0 : ℚ) < (n : ℤ) := by exact_mod_cast Nat.lt_of_le_of_lt (Nat.zero_le i) h
  have hf : (List.range ((n : ℤ).toNat)).filter (fun (j : ℕ) => ((i : ℚ) / (n : ℤ)) ≥ (j : ℚ) / (n : ℤ)) = List.range (i + 1) := by
    have e : ∀ j : ℕ, decide (((i : ℚ) / (n : ℤ)) ≥ (j : ℚ) / (n : ℤ)) = decide (j < i + 1) := fun j => by
      rw [decide_eq_decide, ge_iff_le, div_le_div_iff_of_pos_right hn, Nat.cast_le]; omega
    rw [Int.toNat_natCast, List.filter_congr (fun j _ => e j)]
    apply List.ext_getElem?
    intro j
    have : ∀ m k : ℕ, m ≤ k → (List.range k).filter (fun j => decide (j < m)) = List.range m := by
      intro m k hmk
      induction k, hmk using Nat.le_induction with
      | base => exact List.filter_eq_self.2 fun x hx => by simpa using hx
      | succ k hk ih => rw [List.range_succ, List.filter_append, ih]; simp; omega
    rw [this (i + 1) n h]
  unfold onNumber
  rw [hf, List.range_succ]
  simp

theorem flOnNumber_mem (R : Rounding fl ε) {p : ℚ} (hp : 0 ≤ p) {n : ℤ} (hn : 1 ≤ n) : ∃ i : ℕ, i < n.toNat ∧ flOnNumber fl p n = (i : ℤ) + 1 := by
  unfold flOnNumber
  generalize hl : (List.range n.toNat).filter (fun (i : ℕ) => p ≥ fl ((i : ℚ) / n)) = l
  have h0 : 0 ∈ l := by
    rw [← hl, List.mem_filter, List.mem_range]
    exact ⟨by omega, by simpa [R.zero] using hp⟩
  cases hg : l.getLast? with
  | none => rw [List.getLast?_eq_none_iff] at hg; rw [hg] at h0; cases h0
  | some i =>
    have := List.mem_of_getLast? hg
    rw [← hl, List.mem_filter, List.mem_range] at this
    exact ⟨i, this.1, rfl⟩

theorem fine_coincident (R : Rounding fl ε) {a a' : Appliance} (h : Twin ε a a') (hr : FloatReady a) (b : Bool) :
    Fine (flCalcCoincidentSwitchOn fl a b) (calcCoincidentSwitchOn a' b) (fun x y => x = y ∧ 0 ≤ x) := by
  have e1 : a'.number = a.number := by rw [h]; rfl
  have e2 : a'.fixed = a.fixed := by rw [h]; rfl
  have hn := hr.number
  unfold flCalcCoincidentSwitchOn calcCoincidentSwitchOn
  simp only [e1, e2]
  refine fine_ite (fun _ => ?_) fun _ => fine_ite (fun _ => fine_ite (fun _ => fine_raise) fun hne => ?_) fun _ => ?_
  · have hg : Fine (flGauss fl (fl (a.number * switchOnParameters.2.1)) (fl (fl (switchOnParameters.1 * a.number) * switchOnParameters.2.1)))
        (gauss (a.number * switchOnParameters.2.1) (switchOnParameters.1 * a.number * switchOnParameters.2.1)) Eq := by
      unfold flGauss
      refine sat_bind' (P := fun _ => True) (sat_nextDraw fun _ => trivial) fun d _ => sat_pure ⟨_, rfl, ?_⟩
      by_cases hz : a.number = 0
      · refine reach_gauss (z := 0) ?_
        simp [hz, R.zero]
      · have hq : (a.number : ℚ) ≠ 0 := by exact_mod_cast hz
        generalize fl (fl (a.number * switchOnParameters.2.1) + fl (d.z * fl (fl (switchOnParameters.1 * a.number) * switchOnParameters.2.1))) = x
        refine reach_gauss (z := (x - a.number * switchOnParameters.2.1) / (switchOnParameters.1 * a.number * switchOnParameters.2.1)) ?_
        have : switchOnParameters.1 * a.number * switchOnParameters.2.1 ≠ 0 := by
          simp only [switchOnParameters]
          exact mul_ne_zero (mul_ne_zero (by norm_num) hq) (by norm_num)
        rw [div_mul_cancel₀ _ this]; ring
    refine fine_bind hg ?_
    rintro x _ rfl
    refine fine_pure ⟨rfl, ?_⟩
    exact le_min hn (le_trans (by norm_num) (le_max_left _ _))
  · have hn1 : 1 ≤ a.number := by omega
    have hq : (1 : ℚ) ≤ a.number := by exact_mod_cast hn1
    refine sat_bind' (P := fun x => 0 ≤ x) (sat_flUniform fun u u0 _ => ?_) fun p hp => ?_
    · have b0 : 0 ≤ fl (fl (a.number - switchOnParameters.2.2) / a.number) :=
        R.nonneg (div_nonneg (R.nonneg (by simp only [switchOnParameters]; linarith)) (by linarith))
      rw [zero_add, sub_zero]
      exact R.nonneg (R.nonneg (mul_nonneg (R.nonneg b0) u0))
    · obtain ⟨i, hi, hi'⟩ := flOnNumber_mem R hp hn1
      have hnat : ((a.number.toNat : ℕ) : ℤ) = a.number := Int.toNat_of_nonneg hn
      have hon := onNumber_div hi
      rw [hnat] at hon
      refine sat_pure ⟨(i : ℤ) + 1, ⟨hi', by rw [hi']; omega⟩, ?_⟩
      refine reach_bind (m := uniform 0 ((a.number - switchOnParameters.2.2) / a.number)) (a := (i : ℚ) / a.number) ?_ (reach_pure' hon)
      refine reach_uniform_of_mem (div_nonneg (by positivity) (by linarith)) ?_
      rw [div_le_div_iff_of_pos_right (by linarith)]
      have : (i : ℚ) + 1 ≤ a.number := by
        have : (i : ℤ) + 1 ≤ a.number := by omega
        exact_mod_cast this
      simp only [switchOnParameters]
      linarith
  · exact fine_pure ⟨rfl, hn⟩

theorem fine_bookEvent (R : Rounding fl ε) {a a' : Appliance} (h : Mates ε a a') {power : ℚ} (hp : 0 ≤ power) (peak is : List ℤ) :
    Fine (flBookEvent fl a peak power is) (bookEvent a' peak power is) (fun b b' => Mates ε b.1 b'.1 ∧ b.2 = b'.2 ∧
      b.1.currentDutyCycleId = a.currentDutyCycleId ∧ b.1.funcCycle = a.funcCycle) := by
  unfold flBookEvent bookEvent
  cases is.head? with
  | none => exact fine_raise
  | some i0 => cases is.getLast? with
    | none => exact fine_raise
    | some i1 => cases peak.head? with
      | none => exact fine_raise
      | some q0 => cases peak.getLast? with
        | none => exact fine_raise
        | some q1 =>
          simp only
          refine fine_bind (fine_coincident R h.twin h.ready _) ?_
          rintro c _ ⟨rfl, hc⟩
          refine fine_bind (fine_updateDailyUse R h hc hp is) ?_
          rintro b b' ⟨hb, h2, h3⟩
          exact fine_pure ⟨hb, rfl, h2, h3⟩

/-! ## Switch-on windows -/

theorem fine_drawIndexes (R : Rounding fl ε) {fc ld s : ℤ} (h0 : 1 ≤ fc) (h1 : ld ≤ 4320) :
    Fine (flDrawIndexes fl fc ld s) (drawIndexes fc ld s) Eq := by
  unfold flDrawIndexes drawIndexes
  refine fine_ite (fun hc => ?_) fun _ => fine_ite (fun _ => fine_pure rfl) fun _ => fine_raise
  refine fine_bind (fine_uniform_int R (by rw [abs_lt]; constructor <;> omega) (by rw [abs_lt]; constructor <;> omega)
    (by rw [abs_lt]; constructor <;> omega)) ?_
  rintro x _ ⟨rfl, -⟩
  exact fine_pure rfl

theorem selectDutyCycle_twin {a a' : Appliance} (h : Twin ε a a') (hc : List.Forall₂ (Close ε 5) a.randomCycle1 a'.randomCycle1 ∧
      List.Forall₂ (Close ε 5) a.randomCycle2 a'.randomCycle2 ∧ List.Forall₂ (Close ε 5) a.randomCycle3 a'.randomCycle3) (lo hi : ℤ) :
    (selectDutyCycle a lo hi = none ∧ selectDutyCycle a' lo hi = none) ∨
    ∃ i c c', selectDutyCycle a lo hi = some (i, c) ∧ selectDutyCycle a' lo hi = some (i, c') ∧ c.length = c'.length := by
  have e1 : a'.cw11 = a.cw11 := by rw [h]; rfl
  have e2 : a'.cw12 = a.cw12 := by rw [h]; rfl
  have e3 : a'.cw21 = a.cw21 := by rw [h]; rfl
  have e4 : a'.cw22 = a.cw22 := by rw [h]; rfl
  have e5 : a'.cw31 = a.cw31 := by rw [h]; rfl
  have e6 : a'.cw32 = a.cw32 := by rw [h]; rfl
  unfold selectDutyCycle
  rw [e1, e2, e3, e4, e5, e6]
  split
  · exact .inr ⟨_, _, _, rfl, rfl, hc.1.length_eq⟩
  · split
    · exact .inr ⟨_, _, _, rfl, rfl, hc.2.1.length_eq⟩
    · split
      · exact .inr ⟨_, _, _, rfl, rfl, hc.2.2.length_eq⟩
      · exact .inl ⟨rfl, rfl⟩

theorem Mates.setId {a a' : Appliance} (h : Mates ε a a') (i : ℤ) : Mates ε { a with currentDutyCycleId := i } { a' with currentDutyCycleId := i } :=
  ⟨by unfold Twin; rw [h.twin]; rfl, h.ready.run _ _ _ _ _ _, h.use, h.cyc⟩

theorem fine_randSwitchOnWindow (R : Rounding fl ε) {rt : ℤ} (hrt : rt ≤ 4320) : ∀ (depth : ℕ) {a a' : Appliance}, Mates ε a a' →
    Fine (flRandSwitchOnWindow fl depth a rt) (randSwitchOnWindow depth a' rt) (fun b b' => Mates ε b.1 b'.1 ∧ b.2 = b'.2 ∧ b.1.funcCycle = a.funcCycle)
  | 0, _, _, _ => fine_raise
  | depth + 1, a, a', h => by
    have e1 : a'.freeSpots = a.freeSpots := by rw [h.twin]; rfl
    have e2 : a'.funcCycle = a.funcCycle := by rw [h.twin]; rfl
    have e3 : a'.fixedCycle = a.fixedCycle := by rw [h.twin]; rfl
    have e4 : a'.continuousDutyCycle = a.continuousDutyCycle := by rw [h.twin]; rfl
    have hfc := h.ready.fc
    unfold flRandSwitchOnWindow randSwitchOnWindow
    have upd := fun i : ℤ => h.setId i
    simp only [e1, e2, e3, e4] at upd
    simp only [e1, e2, e3, e4]
    refine fine_ite (fun _ => ?_) fun _ => fine_pure ⟨h, rfl, rfl⟩
    refine fine_bind fine_randint ?_
    rintro k _ rfl
    cases (switchOnChoices a.freeSpots a.funcCycle)[k.toNat]? with
    | none => exact fine_raise
    | some s =>
      simp only
      cases a.freeSpots.find? (fun fs => fs.start ≤ s && s ≤ fs.stop - a.funcCycle) with
      | none => exact fine_raise
      | some spot =>
        simp only
        refine fine_bind (fine_drawIndexes R hfc ((min_le_left _ _).trans hrt)) ?_
        rintro is _ rfl
        refine fine_ite (fun hf => ?_) fun _ => fine_pure ⟨h, rfl, rfl⟩
        cases is.head? with
        | none => exact fine_raise
        | some lo => cases is.getLast? with
          | none => exact fine_raise
          | some hi =>
            simp only
            rcases selectDutyCycle_twin h.twin (h.cyc hf) lo hi with ⟨s1, s2⟩ | ⟨i, c, c', s1, s2, hl⟩
            · rw [s1, s2]
              exact fine_randSwitchOnWindow R hrt depth h
            · rw [s1, s2]
              simp only [hl]
              exact fine_ite (fun _ => fine_pure ⟨upd i, rfl, rfl⟩) (fun _ => fine_pure ⟨upd i, rfl, rfl⟩)

theorem fine_switchOnLoop (R : Rounding fl ε) {rt : ℤ} (hrt : rt ≤ 4320) {depth : ℕ} {peak : List ℤ} {power : ℚ} (hp : 0 ≤ power) :
    ∀ (fuel : ℕ) {a a' : Appliance} (tot : ℤ) (log : List Booking), Mates ε a a' →
    Fine (flSwitchOnLoop fl depth peak power rt fuel a tot log) (switchOnLoop depth peak power rt fuel a' tot log)
      (fun b b' => Mates ε b.1 b'.1 ∧ b.2 = b'.2)
  | 0, _, _, _, _, _ => fine_raise
  | fuel + 1, a, a', tot, log, h => by
    unfold flSwitchOnLoop switchOnLoop
    refine fine_ite (fun _ => ?_) fun _ => fine_pure ⟨h, rfl⟩
    refine fine_bind (fine_randSwitchOnWindow R hrt depth h) ?_
    rintro ⟨b, ev⟩ ⟨b', ev'⟩ ⟨hb, he, -⟩
    simp only at hb he
    subst he
    cases ev with
    | none => exact fine_pure ⟨hb, rfl⟩
    | some ev =>
      obtain ⟨drawn, is⟩ := ev
      simp only
      refine fine_ite (fun _ => fine_ite (fun _ => ?_) fun _ => fine_pure ⟨hb, rfl⟩) fun _ => ?_
      · refine fine_bind (fine_bookEvent R hb hp peak _) ?_
        rintro ⟨c, n⟩ ⟨c', n'⟩ ⟨hc, hn, -, -⟩
        simp only at hc hn
        subst hn
        refine fine_pure ⟨hc, ?_⟩
        have : c'.currentDutyCycleId = c.currentDutyCycleId := by rw [hc.twin]; rfl
        simp only [this]
      · refine fine_bind (fine_bookEvent R hb hp peak _) ?_
        rintro ⟨c, n⟩ ⟨c', n'⟩ ⟨hc, hn, -, -⟩
        simp only at hc hn
        subst hn
        have : c'.currentDutyCycleId = c.currentDutyCycleId := by rw [hc.twin]; rfl
        simp only [this]
        exact fine_switchOnLoop R hrt hp fuel _ _ hc

/-! ## Duty cycles of the day -/

theorem fine_assign (R : Rounding fl ε) {a a' : Appliance} (ht : Twin ε a a') (hr : FloatReady a) (hu : ProfClose ε 6 a.dailyUse a'.dailyUse) :
    Fine (flAssignRandomCycles fl a) (assignRandomCycles a') (fun b b' => Mates ε b b') := by
  have e1 : a'.fixedCycle = a.fixedCycle := by rw [ht]; rfl
  have th : ∀ p : ℚ, 0 ≤ p → Fine (flRandomVariation fl a.thermalPVar p) (randomVariation a'.thermalPVar p) (Close ε 5) := fun p hp => by
    have hth := fine_thermal R hr.tv.1 hr.tv.2 hp (NearTo.refl R.pos 0 hp)
    rw [show a'.thermalPVar = a.thermalPVar by rw [ht]; rfl]
    rw [zero_add] at hth
    exact hth
  have v1 : a'.rc1 = widenBy ε a.rc1 := by rw [ht]; rfl
  have v2 : a'.rc2 = widenBy ε a.rc2 := by rw [ht]; rfl
  have v3 : a'.rc3 = widenBy ε a.rc3 := by rw [ht]; rfl
  have f1 : a'.t11 = a.t11 := by rw [ht]; rfl
  have f2 : a'.t12 = a.t12 := by rw [ht]; rfl
  have f3 : a'.t21 = a.t21 := by rw [ht]; rfl
  have f4 : a'.t22 = a.t22 := by rw [ht]; rfl
  have f5 : a'.t31 = a.t31 := by rw [ht]; rfl
  have f6 : a'.t32 = a.t32 := by rw [ht]; rfl
  have g1 : a'.p11 = a.p11 := by rw [ht]; rfl
  have g2 : a'.p12 = a.p12 := by rw [ht]; rfl
  have g3 : a'.p21 = a.p21 := by rw [ht]; rfl
  have g4 : a'.p22 = a.p22 := by rw [ht]; rfl
  have g5 : a'.p31 = a.p31 := by rw [ht]; rfl
  have g6 : a'.p32 = a.p32 := by rw [ht]; rfl
  obtain ⟨⟨r1, r1'⟩, ⟨r2, r2'⟩, r3, r3'⟩ := hr.rc
  obtain ⟨t1, t2, t3, t4, t5, t6⟩ := hr.t
  obtain ⟨q1, q2, q3, q4, q5, q6⟩ := hr.p
  have mates : ∀ c1 c2 c3 d1 d2 d3, List.Forall₂ (Close ε 5) c1 d1 → List.Forall₂ (Close ε 5) c2 d2 → List.Forall₂ (Close ε 5) c3 d3 →
      Mates ε { a with randomCycle1 := c1, randomCycle2 := c2, randomCycle3 := c3 }
        { a' with randomCycle1 := d1, randomCycle2 := d2, randomCycle3 := d3 } := fun c1 c2 c3 d1 d2 d3 h1 h2 h3 =>
    ⟨by unfold Twin; rw [ht]; rfl, hr.run _ _ _ _ _ _, hu, fun _ => ⟨h1, h2, h3⟩⟩
  unfold flAssignRandomCycles assignRandomCycles
  refine fine_ite' (by rw [e1]) (fun _ => ?_) fun hf => fine_pure ⟨ht, hr, hu, fun h => absurd h (by omega)⟩
  refine fine_bind (by rw [g1]; exact th _ q1) fun p11 p11' h11 => ?_
  refine fine_bind (by rw [g2]; exact th _ q2) fun p12 p12' h12 => ?_
  refine fine_bind (by rw [v1, f1, f2]; exact fine_dutyCycle R r1 r1' t1 t2 h11 h12) fun c1 d1 hc1 => ?_
  refine fine_ite' (by simp only [e1]) (fun _ => ?_) fun hf => fine_pure (mates _ _ _ _ _ _ hc1 hc1 hc1)
  refine fine_bind (by simp only [g3]; exact th _ q3) fun p21 p21' h21 => ?_
  refine fine_bind (by simp only [g4]; exact th _ q4) fun p22 p22' h22 => ?_
  refine fine_bind (by simp only [v2, f3, f4]; exact fine_dutyCycle R r2 r2' t3 t4 h21 h22) fun c2 d2 hc2 => ?_
  refine fine_ite' (by simp only [e1]) (fun _ => ?_) fun hf => fine_pure (mates _ _ _ _ _ _ hc1 hc2 hc1)
  refine fine_bind (by simp only [g5]; exact th _ q5) fun p31 p31' h31 => ?_
  refine fine_bind (by simp only [g6]; exact th _ q6) fun p32 p32' h32 => ?_
  refine fine_bind (by simp only [v1, f1, f2]; exact fine_randomChoice R r1 r1' t1 t2 h11 h12) fun x1 y1 hx1 => ?_
  refine fine_bind (by simp only [v2, f3, f4]; exact fine_randomChoice R r2 r2' t3 t4 h21 h22) fun x2 y2 hx2 => ?_
  refine fine_bind (by simp only [v3, f5, f6]; exact fine_randomChoice R r3 r3' t5 t6 h31 h32) fun x3 y3 hx3 => ?_
  exact fine_pure (mates _ _ _ _ _ _ hx1 hx2 hx3)

/-! ## One day of one appliance -/

theorem fillSlice_close {k : ℕ} {p q : Profile} (h : ProfClose ε k p q) {v v' : ℚ} (hv : Close ε k v v') (lo hi n : ℤ) :
    (fillSlice p lo hi n v = .error .valueError ∧ fillSlice q lo hi n v' = .error .valueError) ∨
    ∃ p' q', fillSlice p lo hi n v = .ok p' ∧ fillSlice q lo hi n v' = .ok q' ∧ ProfClose ε k p' q' := by
  unfold fillSlice
  split
  · exact .inl ⟨rfl, rfl⟩
  · simp only
    split
    · refine .inr ⟨_, _, rfl, rfl, fun i => ?_⟩
      simp only
      split
      · exact hv
      · exact h i
    · exact .inl ⟨rfl, rfl⟩

theorem fine_fillWindows {k : ℕ} (hε : 0 ≤ ε) {v v' : ℚ} (hv : Close ε k v v') (w1 w2 w3 : ℤ × ℤ) :
    Fine (liftE (fillWindows w1 w2 w3 v)) (liftE (fillWindows w1 w2 w3 v')) (ProfClose ε k) := by
  have key : (∃ e, fillWindows w1 w2 w3 v = .error e ∧ fillWindows w1 w2 w3 v' = .error e) ∨
      (∃ p' q', fillWindows w1 w2 w3 v = .ok p' ∧ fillWindows w1 w2 w3 v' = .ok q' ∧ ProfClose ε k p' q') := by
    unfold fillWindows
    rcases fillSlice_close (close_zeros hε k) hv w1.1 w1.2 (w1.2 - w1.1) with ⟨a, b⟩ | ⟨p1, q1, a, b, c⟩
    · rw [a, b]; exact .inl ⟨_, rfl, rfl⟩
    · rw [a, b]
      show (∃ e, (fillSlice p1 w2.1 w2.2 (w2.2 - w2.1) v >>= _) = .error e ∧ (fillSlice q1 w2.1 w2.2 (w2.2 - w2.1) v' >>= _) = .error e) ∨
        ∃ p' q', (fillSlice p1 w2.1 w2.2 (w2.2 - w2.1) v >>= _) = .ok p' ∧ (fillSlice q1 w2.1 w2.2 (w2.2 - w2.1) v' >>= _) = .ok q' ∧ _
      rcases fillSlice_close c hv w2.1 w2.2 (w2.2 - w2.1) with ⟨a, b⟩ | ⟨p2, q2, a, b, c⟩
      · rw [a, b]; exact .inl ⟨_, rfl, rfl⟩
      · rw [a, b]
        rcases fillSlice_close c hv w3.1 w3.2 (w3.2 - w3.1) with ⟨a, b⟩ | ⟨p3, q3, a, b, c⟩
        · exact .inl ⟨_, a, b⟩
        · exact .inr ⟨p3, q3, a, b, c⟩
  rcases key with ⟨e, h1, h2⟩ | ⟨p', q', h1, h2, h3⟩
  · exact fine_liftE (fun a ha => by rw [h1] at ha; cases ha) (fun e' he => by rw [h1] at he; rw [h2]; exact he)
  · exact fine_liftE (fun a ha => ⟨q', h2, by rw [h1] at ha; cases ha; exact h3⟩) (fun e' he => by rw [h1] at he; cases he)

theorem fine_window {w : ℤ × ℤ} {v : ℤ} : Fine (calcRandWindow w v) (calcRandWindow w v) (fun x y => x = y ∧ 0 ≤ x.1 ∧ x.2 ≤ 1440) := by
  unfold calcRandWindow
  refine fine_bind fine_randint ?_
  rintro a _ rfl
  refine fine_bind fine_randint ?_
  rintro b _ rfl
  refine fine_pure ⟨rfl, ?_, ?_⟩
  · show 0 ≤ (if a < 0 then 0 else a); split <;> omega
  · show (if b > 1440 then 1440 else b) ≤ 1440; split <;> omega

/-- What is the same in a float run and in the exact run it stands for. -/
structure SameDay (ε : ℚ) (b b' : Appliance × Option RunInfo) : Prop where
  twin : Twin ε b.1 b'.1
  ready : FloatReady b.1
  use : ProfClose ε 6 b.1.dailyUse b'.1.dailyUse
  info : b.2 = b'.2

theorem fine_generate (R : Rounding fl ε) {a a' : Appliance} (ht : Twin ε a a') (hr : FloatReady a) (depth : ℕ) (pref : ℤ) (k : ℕ) (peak : List ℤ) (dt : ℤ)
    {power : ℚ} (hp : 0 ≤ power) :
    Fine (flGenerateLoadProfileInfo fl a depth pref k peak dt power) (generateLoadProfileInfo a' depth pref k peak dt power) (SameDay ε) := by
  have ht0 : Twin ε { a with dailyUse := zeros } { a' with dailyUse := zeros } := by unfold Twin; rw [ht]; rfl
  have hr0 : FloatReady { a with dailyUse := zeros } := hr.run _ _ _ _ _ _
  have e1 : a'.occasionalUse = a.occasionalUse := by rw [ht]; rfl
  have e2 : a'.prefIndex = a.prefIndex := by rw [ht]; rfl
  have e3 : a'.wdWeType = a.wdWeType := by rw [ht]; rfl
  have e4 : a'.funcTime = a.funcTime := by rw [ht]; rfl
  have e5 : a'.window1 = a.window1 := by rw [ht]; rfl
  have e6 : a'.window2 = a.window2 := by rw [ht]; rfl
  have e7 : a'.window3 = a.window3 := by rw [ht]; rfl
  have e8 : a'.randomVar1 = a.randomVar1 := by rw [ht]; rfl
  have e9 : a'.randomVar2 = a.randomVar2 := by rw [ht]; rfl
  have e10 : a'.randomVar3 = a.randomVar3 := by rw [ht]; rfl
  have e11 : a'.flat = a.flat := by rw [ht]; rfl
  have e12 : a'.power = a.power := by rw [ht]; rfl
  have e13 : a'.number = a.number := by rw [ht]; rfl
  have hu0 : Fine (flUniform fl 0 1) (uniform 0 1) Eq := by
    have := fine_uniform_int R (a := 0) (b := 1) (by norm_num) (by norm_num) (by norm_num)
    push_cast at this
    exact fine_mono this fun _ _ h => h.1
  unfold flGenerateLoadProfileInfo generateLoadProfileInfo
  simp only
  refine fine_bind hu0 ?_
  rintro x _ rfl
  refine fine_ite' (by simp only [e1, e2, e3, e4]) (fun _ => fine_pure ⟨ht0, hr0, close_zeros R.pos 6, rfl⟩) fun hc => ?_
  have hft : 0 < a.funcTime := by
    have : ¬ a.funcTime = 0 := fun h => hc (.inr (.inr (.inr h)))
    have := hr.ft.1
    omega
  refine fine_bind (by simp only [e5, e8]; exact fine_window) ?_
  rintro w1 _ ⟨rfl, hw1⟩
  refine fine_bind (by simp only [e6, e9]; exact fine_window) ?_
  rintro w2 _ ⟨rfl, hw2⟩
  refine fine_bind (by simp only [e7, e10]; exact fine_window) ?_
  rintro w3 _ ⟨rfl, hw3⟩
  refine fine_bind (fine_timeOfUse R (a := { a with dailyUse := zeros }) (a' := { a' with dailyUse := zeros }) hr.tf.1 hr.tf.2 hft hr.ft.2 hr.fc
    (by rw [ht]; rfl) e4 (by rw [ht]; rfl) hw1 hw2 hw3) ?_
  rintro rt _ ⟨rfl, -, hrt⟩
  refine fine_ite' (by simp only [e11]) (fun _ => ?_) fun _ => ?_
  · simp only [e12]
    cases hpw : a.power[k]? with
    | none => exact fine_raise
    | some pw =>
      simp only [e13]
      have hpw0 : 0 ≤ pw := hr.power pw (List.mem_of_getElem? hpw)
      have hn0 : (0 : ℚ) ≤ a.number := by exact_mod_cast hr.number
      have hcl : Close ε 6 (fl (pw * a.number)) (pw * a.number) :=
        Close.le R.pos (k := 1) ⟨R.near _ (mul_nonneg hpw0 hn0), mul_nonneg hpw0 hn0⟩ (by norm_num)
      refine fine_bind (fine_fillWindows R.pos hcl w1 w2 w3) fun d d' hd => fine_pure ⟨?_, hr.run _ _ _ _ _ _, hd, rfl⟩
      unfold Twin
      simp only
      rw [ht]
      rfl
  · have hcl : Close ε 6 (fl (1 / 1000)) (1 / 1000) := Close.le R.pos (k := 1) ⟨R.near _ (by norm_num), by norm_num⟩ (by norm_num)
    refine fine_bind (fine_fillWindows R.pos hcl w1 w2 w3) fun d d' hd => ?_
    refine fine_bind (fine_assign R (a := { a with dailyUse := d }) (a' := { a' with dailyUse := d' }) (by unfold Twin; rw [ht]; rfl)
      (hr.run _ _ _ _ _ _) hd) fun b b' hb => ?_
    have hb' : Mates ε { b with freeSpots := initialSpots [w1, w2, w3] } { b' with freeSpots := initialSpots [w1, w2, w3] } :=
      ⟨by unfold Twin; rw [hb.twin]; rfl, hb.ready.run _ _ _ _ _ _, hb.use, hb.cyc⟩
    refine fine_bind (fine_switchOnLoop R hrt hp _ 0 [] hb') ?_
    rintro ⟨c, l⟩ ⟨c', l'⟩ ⟨hc, hl⟩
    simp only at hc hl
    subst hl
    exact fine_pure ⟨hc.twin, hc.ready, hc.use, rfl⟩

theorem fine_generateLoadProfile (R : Rounding fl ε) {a a' : Appliance} (ht : Twin ε a a') (hr : FloatReady a) (depth : ℕ) (pref : ℤ) (k : ℕ)
    (peak : List ℤ) (dt : ℤ) {power : ℚ} (hp : 0 ≤ power) :
    Fine (flGenerateLoadProfile fl a depth pref k peak dt power) (generateLoadProfile a' depth pref k peak dt power)
      (fun b b' => (Twin ε b b' ∧ FloatReady b) ∧ ProfClose ε 6 b.dailyUse b'.dailyUse) := by
  unfold flGenerateLoadProfile generateLoadProfile
  refine fine_bind (fine_generate R ht hr depth pref k peak dt hp) ?_
  rintro ⟨b, i⟩ ⟨b', i'⟩ h
  exact fine_pure ⟨⟨h.twin, h.ready⟩, h.use⟩

/-! ## Users, days, use cases -/

/-- Appliance by appliance. -/
def TwinApps (ε : ℚ) (l l' : List Appliance) : Prop := List.Forall₂ (fun b b' => Twin ε b b' ∧ FloatReady b) l l'

theorem ProfClose.le {k l : ℕ} {p q : Profile} (hε : 0 ≤ ε) (h : ProfClose ε k p q) (hkl : k ≤ l) : ProfClose ε l p q := fun i => (h i).le hε hkl

theorem ProfClose.addRound {k : ℕ} {p q p' q' : Profile} (R : Rounding fl ε) (h : ProfClose ε k p q) (h' : ProfClose ε k p' q') :
    ProfClose ε (k + 1) (fun i => fl (p i + p' i)) (fun i => q i + q' i) := fun i => Close.round R ((h i).add (h' i))

theorem fine_singleLoop (R : Rounding fl ε) {depth k : ℕ} {peak : List ℤ} {dt pref : ℤ} : ∀ {l l' : List Appliance} {p q : Profile} {n : ℕ}, TwinApps ε l l' →
    6 ≤ n → ProfClose ε n p q → Fine (flSingleLoop fl depth k peak dt pref l p) (singleLoop depth k peak dt pref l' q)
      (fun b b' => TwinApps ε b.1 b'.1 ∧ ProfClose ε (n + l.length) b.2 b'.2) := by
  intro l l' p q n h
  induction h generalizing p q n with
  | nil => intro _ hc; exact fine_pure ⟨.nil, hc⟩
  | @cons a a' l l' ha hl ih =>
    intro hn hc
    have e : a'.power = a.power := by rw [ha.1]; rfl
    unfold flSingleLoop singleLoop
    rw [e]
    cases hpw : a.power[k]? with
    | none => exact fine_raise
    | some pw =>
      refine fine_bind (fine_generateLoadProfile R ha.1 ha.2 depth pref k peak dt (ha.2.power pw (List.mem_of_getElem? hpw))) ?_
      rintro b b' ⟨hb, hu⟩
      refine fine_bind (ih (n := n + 1) (by omega) (ProfClose.addRound R hc (hu.le R.pos hn))) ?_
      rintro ⟨m, r⟩ ⟨m', r'⟩ ⟨hm, hr⟩
      refine fine_pure ⟨.cons hb hm, ?_⟩
      have : n + 1 + l.length = n + (a :: l).length := by simp; omega
      rw [← this]
      exact hr

/-- Users whose appliances correspond. -/
structure TwinUser (ε : ℚ) (u u' : User) : Prop where
  apps : TwinApps ε u.appList u'.appList
  numUsers : u'.numUsers = u.numUsers
  userPreference : u'.userPreference = u.userPreference

theorem fine_drawPreference {n : ℤ} : Fine (drawPreference n) (drawPreference n) Eq := by
  unfold drawPreference
  exact fine_ite (fun _ => fine_pure rfl) fun _ => fine_randint

theorem fine_single (R : Rounding fl ε) {depth k : ℕ} {peak : List ℤ} {dt : ℤ} {u u' : User} (h : TwinUser ε u u') :
    Fine (flGenerateSingleLoadProfile fl depth u k peak dt) (generateSingleLoadProfile depth u' k peak dt)
      (fun b b' => (TwinUser ε b.1 b'.1 ∧ b.1.appList.length = u.appList.length ∧ b.1.numUsers = u.numUsers) ∧ ProfClose ε (6 + u.appList.length) b.2 b'.2) := by
  unfold flGenerateSingleLoadProfile generateSingleLoadProfile
  rw [h.userPreference]
  refine fine_bind fine_drawPreference ?_
  rintro pref _ rfl
  simp only
  have key := fine_singleLoop R (depth := depth) (k := k) (peak := peak) (dt := dt) (pref := pref) h.apps le_rfl (close_zeros R.pos 6)
  have hlen : Fine (flSingleLoop fl depth k peak dt pref u.appList zeros) (singleLoop depth k peak dt pref u'.appList zeros)
      (fun b b' => (TwinApps ε b.1 b'.1 ∧ b.1.length = u.appList.length) ∧ ProfClose ε (6 + u.appList.length) b.2 b'.2) := by
    refine (Sat.and key (Q' := fun b => b.1.length = u.appList.length) (E' := fun _ => True) ?_).mono ?_ (fun e h => h.1)
    · have : ∀ (l : List Appliance) (p : Profile), Sat (flSingleLoop fl depth k peak dt pref l p) (fun b => b.1.length = l.length) (fun _ => True) := by
        intro l
        induction l with
        | nil => intro p; exact sat_pure rfl
        | cons a l ih =>
          intro p
          unfold flSingleLoop
          cases a.power[k]? with
          | none => exact sat_raise trivial
          | some pw =>
            refine sat_bind' sat_true fun b _ => sat_bind' (ih _) fun m hm => sat_pure ?_
            simp [hm]
      exact this _ _
    · rintro b ⟨⟨b', hb, hr⟩, hl⟩
      exact ⟨b', ⟨⟨hb.1, hl⟩, hb.2⟩, hr⟩
  refine fine_bind hlen ?_
  rintro ⟨l, p⟩ ⟨l', p'⟩ ⟨⟨hl, hl'⟩, hp⟩
  exact fine_pure ⟨⟨⟨hl, h.numUsers, rfl⟩, hl', rfl⟩, hp⟩

theorem fine_aggregatedLoop (R : Rounding fl ε) {depth k : ℕ} {peak : List ℤ} {dt : ℤ} : ∀ (m : ℕ) {u u' : User} {p q : Profile} {n : ℕ}, TwinUser ε u u' →
    6 + u.appList.length ≤ n → ProfClose ε n p q → Fine (flAggregatedLoop fl depth k peak dt m u p) (aggregatedLoop depth k peak dt m u' q)
      (fun b b' => (TwinUser ε b.1 b'.1 ∧ b.1.appList.length = u.appList.length ∧ b.1.numUsers = u.numUsers) ∧ ProfClose ε (n + m) b.2 b'.2)
  | 0, _, _, _, _, _, hu, _, hp => fine_pure ⟨⟨hu, rfl, rfl⟩, hp⟩
  | m + 1, u, u', p, q, n, hu, hn, hp => by
    unfold flAggregatedLoop aggregatedLoop
    refine fine_bind (fine_single R hu) ?_
    rintro ⟨v, s⟩ ⟨v', s'⟩ ⟨⟨hv, hl, hnum⟩, hs⟩
    refine fine_mono (fine_aggregatedLoop R m (n := n + 1) hv (by simp only at hl; omega) (ProfClose.addRound R hp (hs.le R.pos hn))) ?_
    rintro ⟨w, r⟩ ⟨w', r'⟩ ⟨⟨hw, h1, h2⟩, hr⟩
    have : n + 1 + m = n + (m + 1) := by omega
    exact ⟨⟨hw, h1.trans hl, h2.trans hnum⟩, this ▸ hr⟩

theorem fine_aggregated (R : Rounding fl ε) {depth k : ℕ} {peak : List ℤ} {dt : ℤ} {u u' : User} (h : TwinUser ε u u') :
    Fine (flGenerateAggregatedLoadProfile fl depth u k peak dt) (generateAggregatedLoadProfile depth u' k peak dt)
      (fun b b' => (TwinUser ε b.1 b'.1 ∧ b.1.appList.length = u.appList.length ∧ b.1.numUsers = u.numUsers) ∧
        ProfClose ε (6 + u.appList.length + u.numUsers.toNat) b.2 b'.2) := by
  unfold flGenerateAggregatedLoadProfile generateAggregatedLoadProfile
  rw [h.numUsers]
  refine fine_bind (fine_aggregatedLoop R _ h le_rfl (close_zeros R.pos _)) ?_
  rintro ⟨v, s⟩ ⟨v', s'⟩ ⟨⟨hv, hl, hn⟩, hs⟩
  exact fine_pure ⟨⟨⟨hv.apps, hv.numUsers, hv.userPreference⟩, hl, hn⟩, hs⟩

/-- The number of roundings of the sums of a day: one per appliance, one per member, one per user. -/
def additions (us : List User) : ℕ := (us.map (fun u => u.appList.length + u.numUsers.toNat + 1)).sum

theorem additions_cons (u : User) (us : List User) : additions (u :: us) = u.appList.length + u.numUsers.toNat + 1 + additions us := by
  simp [additions]

theorem fine_usersOfDay (R : Rounding fl ε) {depth k : ℕ} {peak : List ℤ} {dt : ℤ} : ∀ {l l' : List User} {p q : Profile} {n : ℕ}, List.Forall₂ (TwinUser ε) l l' →
    6 ≤ n → ProfClose ε n p q → Fine (flUsersOfDay fl depth k peak dt l p) (usersOfDay depth k peak dt l' q)
      (fun b b' => (List.Forall₂ (TwinUser ε) b.1 b'.1 ∧ additions b.1 = additions l) ∧ ProfClose ε (n + additions l) b.2 b'.2) := by
  intro l l' p q n h
  induction h generalizing p q n with
  | nil => intro _ hc; exact fine_pure ⟨⟨.nil, rfl⟩, hc⟩
  | @cons u u' l l' hu hl ih =>
    intro hn hc
    unfold flUsersOfDay usersOfDay
    refine fine_bind (fine_aggregated R hu) ?_
    rintro ⟨v, s⟩ ⟨v', s'⟩ ⟨⟨hv, h1, h2⟩, hs⟩
    simp only at hv h1 h2 hs
    have hs' := hs.le R.pos (l := n + u.appList.length + u.numUsers.toNat) (by omega)
    have hc' := hc.le R.pos (l := n + u.appList.length + u.numUsers.toNat) (by omega)
    refine fine_bind (ih (by omega) (ProfClose.addRound R hc' hs')) ?_
    rintro ⟨m, r⟩ ⟨m', r'⟩ ⟨⟨hm, hadd⟩, hr⟩
    refine fine_pure ⟨⟨.cons hv hm, ?_⟩, ?_⟩
    · simp only at hadd
      rw [additions_cons, additions_cons, hadd, h1, h2]
    · have : n + u.appList.length + u.numUsers.toNat + 1 + additions l = n + additions (u :: l) := by rw [additions_cons]; omega
      rw [← this]
      exact hr

theorem fine_daysLoop (R : Rounding fl ε) {depth : ℕ} {peak : List ℤ} {n : ℕ} : ∀ (ds : List ℤ) {k : ℕ} {us us' : List User} {rows rows' : List Profile},
    List.Forall₂ (TwinUser ε) us us' → 6 + additions us = n → List.Forall₂ (ProfClose ε n) rows rows' →
    Fine (flDaysLoop fl depth peak k ds us rows) (daysLoop depth peak k ds us' rows')
      (fun b b' => List.Forall₂ (TwinUser ε) b.1 b'.1 ∧ List.Forall₂ (ProfClose ε n) b.2 b'.2)
  | [], _, _, _, _, _, hu, _, hr => fine_pure ⟨hu, hr⟩
  | d :: ds, k, us, us', rows, rows', hu, hn, hr => by
    unfold flDaysLoop daysLoop
    refine fine_bind (fine_usersOfDay R hu le_rfl (close_zeros R.pos 6)) ?_
    rintro ⟨vs, p⟩ ⟨vs', p'⟩ ⟨⟨hv, hadd⟩, hp⟩
    simp only at hv hadd hp
    refine fine_ite' (by rw [hr.length_eq]) (fun _ => ?_) fun _ => fine_raise
    refine fine_daysLoop R ds hv (by omega) ?_
    rw [hn] at hp
    rw [List.forall₂_iff_get] at hr ⊢
    refine ⟨by simp [hr.1], fun i h1 h2 => ?_⟩
    simp only [List.get_eq_getElem, List.getElem_set]
    split
    · exact hp
    · exact hr.2 i (by simpa using h1) (by simpa using h2)

end Ramp
