import Verif.Lemmas.Sat
import Verif.Model.UseCase

/-! # Every computation reads a finite number of random draws

Two independent runs can therefore be glued into one. -/

set_option autoImplicit false

namespace Ramp

variable {α β : Type}

/-- The stream without its first `n` draws. -/
def dropDraws (n : ℕ) (r : Rng) : Rng := fun k => r (n + k)

/-- Every outcome of `m` depends on finitely many draws, and `m` continues with the rest of the stream. -/
def Finitary (m : Sim α) : Prop :=
  ∀ r, (∀ a r', m r = .ok (a, r') → ∃ n, r' = dropDraws n r ∧ ∀ s : Rng, (∀ k < n, s k = r k) → m s = .ok (a, dropDraws n s)) ∧
    (∀ e, m r = .error e → ∃ n, ∀ s : Rng, (∀ k < n, s k = r k) → m s = .error e)

theorem fin_pure (a : α) : Finitary (pure a : Sim α) := by
  intro r
  constructor
  · intro b r' h
    have : (Except.ok (a, r) : Except Err (α × Rng)) = .ok (b, r') := h
    cases this
    exact ⟨0, by funext k; simp [dropDraws], fun s _ => by
      show (Except.ok (a, s) : Except Err (α × Rng)) = _
      rw [show dropDraws 0 s = s by funext k; simp [dropDraws]]⟩
  · intro e h
    have : (Except.ok (a, r) : Except Err (α × Rng)) = .error e := h
    cases this

theorem fin_raise (e : Err) : Finitary (raise e : Sim α) := by
  intro r
  constructor
  · intro b r' h
    have : (Except.error e : Except Err (α × Rng)) = .ok (b, r') := h
    cases this
  · intro e' h
    have : (Except.error e : Except Err (α × Rng)) = .error e' := h
    cases this
    exact ⟨0, fun s _ => rfl⟩

theorem fin_nextDraw : Finitary nextDraw := by
  intro r
  constructor
  · intro b r' h
    have : (Except.ok (r 0, fun n => r (n + 1)) : Except Err (Draw × Rng)) = .ok (b, r') := h
    cases this
    refine ⟨1, by funext k; simp [dropDraws, Nat.add_comm], fun s hs => ?_⟩
    show (Except.ok (s 0, fun n => s (n + 1)) : Except Err (Draw × Rng)) = _
    rw [hs 0 (by omega)]
    congr 2
    funext k
    simp [dropDraws, Nat.add_comm]
  · intro e h
    have : (Except.ok (r 0, fun n => r (n + 1)) : Except Err (Draw × Rng)) = .error e := h
    cases this

theorem fin_liftE (x : Except Err α) : Finitary (liftE x) := by
  cases x with
  | error e => exact fin_raise e
  | ok a => exact fin_pure a

theorem fin_bind {m : Sim α} {f : α → Sim β} (hm : Finitary m) (hf : ∀ a, Finitary (f a)) : Finitary (m >>= f) := by
  intro r
  cases h : m r with
  | error e =>
    rw [bind_error h]
    refine ⟨fun b r' hb => (by cases hb), fun e' he => ?_⟩
    cases he
    obtain ⟨n, hn⟩ := (hm r).2 e h
    exact ⟨n, fun s hs => bind_error (hn s hs)⟩
  | ok p =>
    obtain ⟨a, r1⟩ := p
    rw [bind_ok h]
    obtain ⟨n, h1, hn⟩ := (hm r).1 a r1 h
    subst h1
    constructor
    · intro b r' hb
      obtain ⟨k, h2, hk⟩ := (hf a (dropDraws n r)).1 b r' hb
      refine ⟨n + k, ?_, fun s hs => ?_⟩
      · rw [h2]; funext j; simp [dropDraws, Nat.add_assoc]
      · rw [bind_ok (hn s (fun j hj => hs j (by omega))), hk (dropDraws n s) (fun j hj => hs (n + j) (by omega))]
        congr 2
        funext j; simp [dropDraws, Nat.add_assoc]
    · intro e he
      obtain ⟨k, hk⟩ := (hf a (dropDraws n r)).2 e he
      refine ⟨n + k, fun s hs => ?_⟩
      rw [bind_ok (hn s (fun j hj => hs j (by omega))), hk (dropDraws n s) (fun j hj => hs (n + j) (by omega))]

theorem fin_ite {c : Prop} [Decidable c] {m n : Sim α} (hm : Finitary m) (hn : Finitary n) : Finitary (if c then m else n) := by
  split_ifs
  · exact hm
  · exact hn

/-- Glue two streams: the first `n` draws of `r`, then `s`. -/
def glue (n : ℕ) (r s : Rng) : Rng := fun k => if k < n then r k else s (k - n)

theorem glue_agree (n : ℕ) (r s : Rng) : ∀ k < n, glue n r s k = r k := fun k hk => by simp [glue, hk]

theorem dropDraws_glue (n : ℕ) (r s : Rng) : dropDraws n (glue n r s) = s := by
  funext k
  simp [dropDraws, glue]

/-- The possible results of two computations one after the other. -/
theorem returns_bind {m : Sim α} {f : α → Sim β} (hm : Finitary m) {b : β} :
    Returns (m >>= f) b ↔ ∃ a, Returns m a ∧ Returns (f a) b := by
  constructor
  · rintro ⟨r, r', h⟩
    cases hr : m r with
    | error e => rw [bind_error hr] at h; cases h
    | ok p =>
      obtain ⟨a, r1⟩ := p
      rw [bind_ok hr] at h
      exact ⟨a, ⟨r, r1, hr⟩, ⟨r1, r', h⟩⟩
  · rintro ⟨a, ⟨r, r1, h1⟩, ⟨s, s', h2⟩⟩
    obtain ⟨n, _, hn⟩ := (hm r).1 a r1 h1
    refine ⟨glue n r s, s', ?_⟩
    rw [bind_ok (hn _ (glue_agree n r s)), dropDraws_glue, h2]

/-- The possible exceptions of two computations one after the other. -/
theorem raises_bind {m : Sim α} {f : α → Sim β} (hm : Finitary m) {e : Err} :
    Raises (m >>= f) e ↔ Raises m e ∨ ∃ a, Returns m a ∧ Raises (f a) e := by
  constructor
  · rintro ⟨r, h⟩
    cases hr : m r with
    | error e' => rw [bind_error hr] at h; cases h; exact .inl ⟨r, hr⟩
    | ok p =>
      obtain ⟨a, r1⟩ := p
      rw [bind_ok hr] at h
      exact .inr ⟨a, ⟨r, r1, hr⟩, ⟨r1, h⟩⟩
  · rintro (⟨r, h⟩ | ⟨a, ⟨r, r1, h1⟩, ⟨s, h2⟩⟩)
    · exact ⟨r, bind_error h⟩
    · obtain ⟨n, _, hn⟩ := (hm r).1 a r1 h1
      refine ⟨glue n r s, ?_⟩
      rw [bind_ok (hn _ (glue_agree n r s)), dropDraws_glue, h2]

theorem returns_pure {a b : α} : Returns (pure a : Sim α) b ↔ b = a := by
  constructor
  · rintro ⟨r, r', h⟩
    have : (Except.ok (a, r) : Except Err (α × Rng)) = .ok (b, r') := h
    cases this; rfl
  · rintro rfl
    exact ⟨fun _ => draw0, fun _ => draw0, rfl⟩

theorem returns_raise {e : Err} {a : α} : ¬ Returns (raise e : Sim α) a := by
  rintro ⟨r, r', h⟩
  have : (Except.error e : Except Err (α × Rng)) = .ok (a, r') := h
  cases this

theorem returns_liftE {x : Except Err α} {a : α} : Returns (liftE x) a ↔ x = .ok a := by
  cases x with
  | error e => exact ⟨fun h => absurd h returns_raise, fun h => by cases h⟩
  | ok b => exact returns_pure.trans ⟨fun h => by rw [h], fun h => by cases h; rfl⟩

/-! ## The model -/

theorem fin_uniform (a b : ℚ) : Finitary (uniform a b) := fin_bind fin_nextDraw fun _ => fin_pure _
theorem fin_gauss (a b : ℚ) : Finitary (gauss a b) := fin_bind fin_nextDraw fun _ => fin_pure _
theorem fin_choice2 (a b : α) : Finitary (choice2 a b) := fin_bind fin_nextDraw fun _ => fin_pure _
theorem fin_randint (a b : ℤ) : Finitary (randint a b) := by
  unfold randint
  exact fin_ite (fin_raise _) (fin_bind fin_nextDraw fun _ => fin_pure _)

theorem fin_randomVariation (v n : ℚ) : Finitary (randomVariation v n) := fin_bind (fin_uniform _ _) fun _ => fin_pure _

theorem fin_dutyCycle (v : ℚ) (t1 : ℤ) (p1 : ℚ) (t2 : ℤ) (p2 : ℚ) : Finitary (dutyCycle v t1 p1 t2 p2) :=
  fin_bind (fin_randomVariation _ _) fun _ => fin_bind (fin_liftE _) fun _ => fin_bind (fin_randomVariation _ _) fun _ =>
    fin_bind (fin_liftE _) fun _ => fin_pure _

theorem fin_randomChoice (v : ℚ) (t1 : ℤ) (p1 : ℚ) (t2 : ℤ) (p2 : ℚ) : Finitary (randomChoice v t1 p1 t2 p2) :=
  fin_bind (fin_dutyCycle _ _ _ _ _) fun _ => fin_bind (fin_dutyCycle _ _ _ _ _) fun _ => fin_choice2 _ _

theorem fin_assignRandomCycles (app : Appliance) : Finitary (assignRandomCycles app) := by
  unfold assignRandomCycles
  refine fin_ite ?_ (fin_pure _)
  refine fin_bind (fin_randomVariation _ _) fun _ => fin_bind (fin_randomVariation _ _) fun _ => fin_bind (fin_dutyCycle _ _ _ _ _) fun _ => ?_
  refine fin_ite ?_ (fin_pure _)
  refine fin_bind (fin_randomVariation _ _) fun _ => fin_bind (fin_randomVariation _ _) fun _ => fin_bind (fin_dutyCycle _ _ _ _ _) fun _ => ?_
  refine fin_ite ?_ (fin_pure _)
  exact fin_bind (fin_randomVariation _ _) fun _ => fin_bind (fin_randomVariation _ _) fun _ => fin_bind (fin_randomChoice _ _ _ _ _) fun _ =>
    fin_bind (fin_randomChoice _ _ _ _ _) fun _ => fin_bind (fin_randomChoice _ _ _ _ _) fun _ => fin_pure _

theorem fin_calcRandWindow (w : ℤ × ℤ) (r : ℤ) : Finitary (calcRandWindow w r) :=
  fin_bind (fin_randint _ _) fun _ => fin_bind (fin_randint _ _) fun _ => fin_pure _

theorem fin_randTotalTimeOfUse (app : Appliance) (w1 w2 w3 : ℤ × ℤ) : Finitary (randTotalTimeOfUse app w1 w2 w3) :=
  fin_bind (fin_randomVariation _ _) fun _ => fin_bind (fin_uniform _ _) fun _ => fin_ite (fin_raise _) (fin_pure _)

theorem fin_drawIndexes (a b c : ℤ) : Finitary (drawIndexes a b c) := by
  unfold drawIndexes
  exact fin_ite (fin_bind (fin_uniform _ _) fun _ => fin_pure _) (fin_ite (fin_pure _) (fin_raise _))

theorem fin_randSwitchOnWindow : ∀ (depth : ℕ) (app : Appliance) (rt : ℤ), Finitary (randSwitchOnWindow depth app rt)
  | 0, _, _ => fin_raise _
  | depth + 1, app, rt => by
    unfold randSwitchOnWindow
    simp only
    refine fin_ite (fin_bind (fin_randint _ _) fun k => ?_) (fin_pure _)
    split
    · exact fin_raise _
    · split
      · exact fin_raise _
      · refine fin_bind (fin_drawIndexes _ _ _) fun idx => fin_ite ?_ (fin_pure _)
        split
        · split
          · exact fin_ite (fin_pure _) (fin_pure _)
          · exact fin_randSwitchOnWindow depth app rt
        · exact fin_raise _

theorem fin_calcCoincident (app : Appliance) (b : Bool) : Finitary (calcCoincidentSwitchOn app b) := by
  unfold calcCoincidentSwitchOn
  simp only
  exact fin_ite (fin_bind (fin_gauss _ _) fun _ => fin_pure _)
    (fin_ite (fin_ite (fin_raise _) (fin_bind (fin_uniform _ _) fun _ => fin_pure _)) (fin_pure _))

theorem fin_putEvent (app : Appliance) (c : ℤ) (p : ℚ) (l : List ℤ) : Finitary (putEvent app c p l) := by
  unfold putEvent
  exact fin_ite (fin_ite (fin_bind (fin_liftE _) fun _ => fin_pure _) (fin_ite (fin_bind (fin_liftE _) fun _ => fin_pure _)
    (fin_ite (fin_bind (fin_liftE _) fun _ => fin_pure _) (fin_pure _))))
    (fin_bind (fin_randomVariation _ _) fun _ => fin_bind (fin_liftE _) fun _ => fin_pure _)

theorem fin_updateDailyUse (app : Appliance) (c : ℤ) (p : ℚ) (l : List ℤ) : Finitary (updateDailyUse app c p l) :=
  fin_bind (fin_putEvent _ _ _ _) fun _ => fin_bind (fin_liftE _) fun _ => fin_pure _

theorem fin_bookEvent (app : Appliance) (peak : List ℤ) (p : ℚ) (l : List ℤ) : Finitary (bookEvent app peak p l) := by
  unfold bookEvent
  split
  · exact fin_bind (fin_calcCoincident _ _) fun _ => fin_bind (fin_updateDailyUse _ _ _ _) fun _ => fin_pure _
  · exact fin_raise _

theorem fin_switchOnLoop (depth : ℕ) (peak : List ℤ) (power : ℚ) (rt : ℤ) : ∀ (fuel : ℕ) (app : Appliance) (tot : ℤ) (log : List Booking),
    Finitary (switchOnLoop depth peak power rt fuel app tot log)
  | 0, _, _, _ => fin_raise _
  | fuel + 1, app, tot, log => by
    unfold switchOnLoop
    refine fin_ite (fin_bind (fin_randSwitchOnWindow _ _ _) fun p => ?_) (fin_pure _)
    obtain ⟨app', ev⟩ := p
    simp only
    split
    · exact fin_pure _
    · refine fin_ite (fin_ite (fin_bind (fin_bookEvent _ _ _ _) fun _ => fin_pure _) (fin_pure _)) ?_
      exact fin_bind (fin_bookEvent _ _ _ _) fun _ => fin_switchOnLoop depth peak power rt fuel _ _ _

theorem fin_generateInfo (app : Appliance) (depth : ℕ) (pref : ℤ) (profI : ℕ) (peak : List ℤ) (dayType : ℤ) (power : ℚ) :
    Finitary (generateLoadProfileInfo app depth pref profI peak dayType power) := by
  unfold generateLoadProfileInfo
  simp only
  refine fin_bind (fin_uniform _ _) fun _ => fin_ite (fin_pure _) ?_
  refine fin_bind (fin_calcRandWindow _ _) fun _ => fin_bind (fin_calcRandWindow _ _) fun _ => fin_bind (fin_calcRandWindow _ _) fun _ =>
    fin_bind (fin_randTotalTimeOfUse _ _ _ _) fun _ => fin_ite ?_ ?_
  · split
    · exact fin_raise _
    · exact fin_bind (fin_liftE _) fun _ => fin_pure _
  · refine fin_bind (fin_liftE _) fun _ => fin_bind (fin_assignRandomCycles _) fun _ => fin_bind (fin_switchOnLoop _ _ _ _ _ _ _ _) fun _ => ?_
    exact fin_pure _

theorem fin_generate (app : Appliance) (depth : ℕ) (pref : ℤ) (profI : ℕ) (peak : List ℤ) (dayType : ℤ) (power : ℚ) :
    Finitary (generateLoadProfile app depth pref profI peak dayType power) :=
  fin_bind (fin_generateInfo _ _ _ _ _ _ _) fun _ => fin_pure _

theorem fin_singleLoop (depth profI : ℕ) (peak : List ℤ) (dayType pref : ℤ) : ∀ (apps : List Appliance) (load : Profile),
    Finitary (singleLoop depth profI peak dayType pref apps load)
  | [], _ => fin_pure _
  | app :: rest, load => by
    unfold singleLoop
    split
    · exact fin_raise _
    · exact fin_bind (fin_generate _ _ _ _ _ _ _) fun _ => fin_bind (fin_singleLoop depth profI peak dayType pref rest _) fun _ => fin_pure _

theorem fin_drawPreference (n : ℤ) : Finitary (drawPreference n) := by
  unfold drawPreference
  exact fin_ite (fin_pure _) (fin_randint _ _)

theorem fin_single (depth : ℕ) (u : User) (profI : ℕ) (peak : List ℤ) (dayType : ℤ) :
    Finitary (generateSingleLoadProfile depth u profI peak dayType) :=
  fin_bind (fin_drawPreference _) fun _ => fin_bind (fin_singleLoop _ _ _ _ _ _ _) fun _ => fin_pure _

theorem fin_aggregatedLoop (depth profI : ℕ) (peak : List ℤ) (dayType : ℤ) : ∀ (n : ℕ) (u : User) (load : Profile),
    Finitary (aggregatedLoop depth profI peak dayType n u load)
  | 0, _, _ => fin_pure _
  | n + 1, u, load => fin_bind (fin_single _ _ _ _ _) fun _ => fin_aggregatedLoop depth profI peak dayType n _ _

theorem fin_aggregated (depth : ℕ) (u : User) (profI : ℕ) (peak : List ℤ) (dayType : ℤ) :
    Finitary (generateAggregatedLoadProfile depth u profI peak dayType) :=
  fin_bind (fin_aggregatedLoop _ _ _ _ _ _ _) fun _ => fin_pure _

theorem fin_usersOfDay (depth k : ℕ) (peak : List ℤ) (dayType : ℤ) : ∀ (us : List User) (load : Profile),
    Finitary (usersOfDay depth k peak dayType us load)
  | [], _ => fin_pure _
  | u :: us, load => fin_bind (fin_aggregated _ _ _ _ _) fun _ => fin_bind (fin_usersOfDay depth k peak dayType us _) fun _ => fin_pure _

end Ramp
