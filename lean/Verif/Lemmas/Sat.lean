import Verif.Spec

/-! # A small program logic for `Sim` -/

set_option autoImplicit false

namespace Ramp

variable {α β : Type}

/-- Every outcome of `m` satisfies `Q` (result) or `E` (exception). -/
def Sat (m : Sim α) (Q : α → Prop) (E : Err → Prop) : Prop :=
  ∀ r, match m r with
    | .ok (a, _) => Q a
    | .error e => E e

theorem sat_iff {m : Sim α} {Q : α → Prop} {E : Err → Prop} :
    Sat m Q E ↔ (∀ a, Returns m a → Q a) ∧ (∀ e, Raises m e → E e) := by
  constructor
  · intro h
    refine ⟨?_, ?_⟩
    · rintro a ⟨r, r', hr⟩
      have := h r
      rw [hr] at this
      exact this
    · rintro e ⟨r, hr⟩
      have := h r
      rw [hr] at this
      exact this
  · rintro ⟨h1, h2⟩ r
    cases h : m r with
    | error e => exact h2 e ⟨r, h⟩
    | ok p => exact h1 p.1 ⟨r, p.2, h⟩

theorem Sat.ret {m : Sim α} {Q E} (h : Sat m Q E) {a : α} (ha : Returns m a) : Q a := (sat_iff.1 h).1 a ha
theorem Sat.err {m : Sim α} {Q E} (h : Sat m Q E) {e : Err} (he : Raises m e) : E e := (sat_iff.1 h).2 e he

theorem Sat.mono {m : Sim α} {Q Q' : α → Prop} {E E' : Err → Prop} (h : Sat m Q E)
    (hq : ∀ a, Q a → Q' a) (he : ∀ e, E e → E' e) : Sat m Q' E' := by
  rw [sat_iff] at *
  exact ⟨fun a ha => hq a (h.1 a ha), fun e h' => he e (h.2 e h')⟩

theorem Sat.post {m : Sim α} {Q Q' : α → Prop} {E : Err → Prop} (h : Sat m Q E)
    (hq : ∀ a, Q a → Q' a) : Sat m Q' E := h.mono hq (fun _ h => h)

theorem Sat.and {m : Sim α} {Q Q' : α → Prop} {E E' : Err → Prop} (h : Sat m Q E) (h' : Sat m Q' E') :
    Sat m (fun a => Q a ∧ Q' a) (fun e => E e ∧ E' e) := by
  rw [sat_iff] at *
  exact ⟨fun a ha => ⟨h.1 a ha, h'.1 a ha⟩, fun e he => ⟨h.2 e he, h'.2 e he⟩⟩

theorem sat_true {m : Sim α} : Sat m (fun _ => True) (fun _ => True) := by
  rw [sat_iff]; simp

theorem sat_pure {a : α} {Q : α → Prop} {E : Err → Prop} (h : Q a) : Sat (pure a : Sim α) Q E := fun _ => h

theorem sat_raise {e : Err} {Q : α → Prop} {E : Err → Prop} (h : E e) : Sat (raise e : Sim α) Q E := fun _ => h

theorem sat_bind {m : Sim α} {f : α → Sim β} {Q : β → Prop} {E : Err → Prop}
    (h : Sat m (fun a => Sat (f a) Q E) E) : Sat (m >>= f) Q E := by
  intro r
  have h1 := h r
  show match (match m r with | .ok (a, r') => f a r' | .error e => .error e) with
    | .ok (a, _) => Q a | .error e => E e
  cases hm : m r with
  | error e => rw [hm] at h1; exact h1
  | ok p =>
    rw [hm] at h1
    exact h1 p.2

/-- Bind rule with an intermediate assertion. -/
theorem sat_bind' {m : Sim α} {f : α → Sim β} {P : α → Prop} {Q : β → Prop} {E : Err → Prop}
    (h : Sat m P E) (hf : ∀ a, P a → Sat (f a) Q E) : Sat (m >>= f) Q E :=
  sat_bind (h.post hf)

theorem sat_liftE {x : Except Err α} {Q : α → Prop} {E : Err → Prop}
    (hq : ∀ a, x = .ok a → Q a) (he : ∀ e, x = .error e → E e) : Sat (liftE x) Q E := by
  intro r
  unfold liftE
  cases x with
  | error e => exact he e rfl
  | ok a => exact hq a rfl

theorem sat_ite {c : Prop} [Decidable c] {m m' : Sim α} {Q : α → Prop} {E : Err → Prop}
    (h : c → Sat m Q E) (h' : ¬ c → Sat m' Q E) : Sat (if c then m else m') Q E := by
  split
  · exact h ‹_›
  · exact h' ‹_›

theorem sat_nextDraw {Q : Draw → Prop} {E : Err → Prop} (h : ∀ d, Q d) : Sat nextDraw Q E := fun _ => h _

theorem sat_uniform {a b : ℚ} {Q : ℚ → Prop} {E : Err → Prop}
    (h : ∀ u : ℚ, 0 ≤ u → u ≤ 1 → Q (a + (b - a) * u)) : Sat (uniform a b) Q E :=
  sat_bind' (P := fun _ => True) (sat_nextDraw fun _ => trivial)
    fun d _ => sat_pure (h d.u d.u_nonneg d.u_le_one)

theorem sat_gauss {a b : ℚ} {Q : ℚ → Prop} {E : Err → Prop}
    (h : ∀ z : ℚ, Q (a + z * b)) : Sat (gauss a b) Q E :=
  sat_bind' (P := fun _ => True) (sat_nextDraw fun _ => trivial) fun d _ => sat_pure (h d.z)

theorem sat_choice2 {x y : α} {Q : α → Prop} {E : Err → Prop} (hx : Q x) (hy : Q y) :
    Sat (choice2 x y) Q E :=
  sat_bind' (P := fun _ => True) (sat_nextDraw fun _ => trivial) fun d _ => sat_pure (by
    show Q (if d.k % 2 = 0 then x else y)
    split
    · exact hx
    · exact hy)

theorem sat_randint {a b : ℤ} {Q : ℤ → Prop} {E : Err → Prop}
    (h : ∀ k : ℤ, a ≤ k → k ≤ b → Q k) (he : b < a → E .valueError) : Sat (randint a b) Q E := by
  unfold randint
  refine sat_ite (fun hc => sat_raise (he hc)) fun hc => ?_
  refine sat_bind' (P := fun _ => True) (sat_nextDraw fun _ => trivial) fun d _ => sat_pure ?_
  have h1 : 0 ≤ (d.k : ℤ) % (b - a + 1) := Int.emod_nonneg _ (by omega)
  have h2 : (d.k : ℤ) % (b - a + 1) < b - a + 1 := Int.emod_lt_of_pos _ (by omega)
  exact h _ (by omega) (by omega)

/-! ## Reachability -/

/-- Prefix a stream by a finite list of draws. -/
def prepend : List Draw → Rng → Rng
  | [], r => r
  | d :: ds, r => fun n => match n with
    | 0 => d
    | n + 1 => prepend ds r n

@[simp] theorem prepend_nil (r : Rng) : prepend [] r = r := rfl

theorem prepend_append (ds es : List Draw) (r : Rng) :
    prepend (ds ++ es) r = prepend ds (prepend es r) := by
  induction ds with
  | nil => rfl
  | cons d ds ih => 
    funext n
    cases n with
    | zero => rfl
    | succ n => 
      show prepend (ds ++ es) r n = prepend ds (prepend es r) n
      rw [ih]

/-- The draws `ds` make `m` return `a`, whatever comes after them. -/
def Reach (m : Sim α) (a : α) : Prop := ∃ ds, ∀ r, m (prepend ds r) = .ok (a, r)

/-- A default draw. -/
def draw0 : Draw := ⟨0, le_refl _, by norm_num, 0, 0⟩

theorem Reach.returns {m : Sim α} {a : α} (h : Reach m a) : Returns m a := by
  obtain ⟨ds, h⟩ := h
  exact ⟨prepend ds (fun _ => draw0), fun _ => draw0, h _⟩

theorem reach_pure (a : α) : Reach (pure a : Sim α) a := ⟨[], fun _ => rfl⟩

theorem reach_pure' {a b : α} (h : b = a) : Reach (pure b : Sim α) a := h ▸ reach_pure a

theorem bind_ok {m : Sim α} {f : α → Sim β} {r r' : Rng} {a : α} (h : m r = .ok (a, r')) :
    (m >>= f) r = f a r' := by
  show (match m r with | .ok (a, r') => f a r' | .error e => .error e) = _
  rw [h]

theorem bind_error {m : Sim α} {f : α → Sim β} {r : Rng} {e : Err} (h : m r = .error e) :
    (m >>= f) r = .error e := by
  show (match m r with | .ok (a, r') => f a r' | .error e => .error e) = _
  rw [h]

theorem reach_bind {m : Sim α} {f : α → Sim β} {a : α} {b : β} (hm : Reach m a) (hf : Reach (f a) b) :
    Reach (m >>= f) b := by
  obtain ⟨ds, hm⟩ := hm
  obtain ⟨es, hf⟩ := hf
  exact ⟨ds ++ es, fun r => by rw [prepend_append, bind_ok (hm _), hf]⟩

theorem reach_liftE {x : Except Err α} {a : α} (h : x = .ok a) : Reach (liftE x) a :=
  ⟨[], fun _ => by subst h; rfl⟩

theorem reach_nextDraw (d : Draw) : Reach nextDraw d := ⟨[d], fun _ => rfl⟩

theorem reach_uniform {a b u x : ℚ} (h0 : 0 ≤ u) (h1 : u ≤ 1) (hx : a + (b - a) * u = x) :
    Reach (uniform a b) x :=
  reach_bind (reach_nextDraw ⟨u, h0, h1, 0, 0⟩) (reach_pure' hx)

theorem reach_uniform_of_mem {a b x : ℚ} (h0 : a ≤ x) (h1 : x ≤ b) : Reach (uniform a b) x := by
  rcases eq_or_lt_of_le (h0.trans h1) with h | h
  · refine reach_uniform (u := 0) le_rfl (by norm_num) ?_
    have : x = a := le_antisymm (h ▸ h1) h0
    simp [this]
  · have hp : 0 < b - a := by linarith
    refine reach_uniform (u := (x - a) / (b - a)) (div_nonneg (by linarith) hp.le) ?_ ?_
    · rw [div_le_one hp]; linarith
    · rw [mul_div_cancel₀ _ hp.ne']; ring

theorem reach_gauss {a b z x : ℚ} (hx : a + z * b = x) : Reach (gauss a b) x :=
  reach_bind (reach_nextDraw ⟨0, le_rfl, by norm_num, 0, z⟩) (reach_pure' hx)

theorem reach_randint {a b k : ℤ} (h0 : a ≤ k) (h1 : k ≤ b) : Reach (randint a b) k := by
  unfold randint
  rw [if_neg (by omega)]
  refine reach_bind (reach_nextDraw ⟨0, le_rfl, by norm_num, (k - a).toNat, 0⟩) (reach_pure' ?_)
  have : (((k - a).toNat : ℕ) : ℤ) = k - a := Int.toNat_of_nonneg (by omega)
  simp only [this]
  rw [Int.emod_eq_of_lt (by omega) (by omega)]
  omega

theorem reach_choice2_left {x y : α} : Reach (choice2 x y) x :=
  reach_bind (reach_nextDraw draw0) (reach_pure' rfl)

theorem reach_choice2_right {x y : α} : Reach (choice2 x y) y :=
  reach_bind (reach_nextDraw ⟨0, le_rfl, by norm_num, 1, 0⟩) (reach_pure' rfl)

/-! ## Errors -/

theorem neverRaises_of_sat {m : Sim α} {Q : α → Prop} (h : Sat m Q (fun _ => False)) : NeverRaises m :=
  fun _ he => h.err he

/-- A computation that never raises returns on every stream. -/
theorem NeverRaises.total {m : Sim α} (h : NeverRaises m) (rng : Rng) : ∃ a rng', m rng = .ok (a, rng') := by
  cases hm : m rng with
  | error e => exact absurd ⟨rng, hm⟩ (h e)
  | ok p => exact ⟨p.1, p.2, rfl⟩

/-- Reaching an exception. -/
def ReachErr (m : Sim α) (e : Err) : Prop := ∃ ds, ∀ r, m (prepend ds r) = .error e

theorem ReachErr.raises {m : Sim α} {e : Err} (h : ReachErr m e) : Raises m e := by
  obtain ⟨ds, h⟩ := h
  exact ⟨prepend ds (fun _ => draw0), h _⟩

theorem reachErr_raise (e : Err) : ReachErr (raise e : Sim α) e := ⟨[], fun _ => rfl⟩

theorem reachErr_liftE {x : Except Err α} {e : Err} (h : x = .error e) : ReachErr (liftE x) e :=
  ⟨[], fun _ => by subst h; rfl⟩

theorem reachErr_bind {m : Sim α} {f : α → Sim β} {a : α} {e : Err} (hm : Reach m a) (hf : ReachErr (f a) e) :
    ReachErr (m >>= f) e := by
  obtain ⟨ds, hm⟩ := hm
  obtain ⟨es, hf⟩ := hf
  exact ⟨ds ++ es, fun r => by rw [prepend_append, bind_ok (hm _), hf]⟩

theorem reachErr_bind_left {m : Sim α} {f : α → Sim β} {e : Err} (hm : ReachErr m e) :
    ReachErr (m >>= f) e := by
  obtain ⟨ds, hm⟩ := hm
  exact ⟨ds, fun r => bind_error (hm r)⟩

end Ramp
