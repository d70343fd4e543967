import Verif.Model.Trace
import Verif.Model.SaveLoad
import Verif.Lemmas.Cli
import Verif.Props.Days
import Verif.Props.Scaling

/-! # Property C95: an interrupted simulation can be repeated -/

set_option autoImplicit false

namespace Ramp

variable {σ τ α β : Type}

/-! ## The executions of `Verif.Model.Trace` are those of the model -/

theorem outcome_bind (m : Traced σ α) (f : α → Traced σ β) : outcome (m >>= f) = outcome m >>= fun a => outcome (f a) := by
  funext r
  show ((match m r with | (l, .ok (a, r')) => (l ++ (f a r').1, (f a r').2) | (l, .error e) => (l, .error e) : List σ × Except Err (β × Rng))).2 =
    match (m r).2 with | .ok (a, r') => (f a r').2 | .error e => .error e
  rcases m r with ⟨l, _ | ⟨a, r'⟩⟩ <;> rfl

theorem outcome_pure (a : α) : outcome (pure a : Traced σ α) = pure a := rfl
theorem outcome_note (s : σ) : outcome (note s) = pure () := rfl
theorem outcome_notes (l : List σ) : outcome (notes l) = pure () := rfl
theorem outcome_quiet (m : Sim α) : outcome (quiet m : Traced σ α) = m := rfl
theorem outcome_within (f : σ → τ) (m : Traced σ α) : outcome (within f m) = outcome m := rfl

theorem outcome_ite {c : Prop} [Decidable c] (m n : Traced σ α) : outcome (if c then m else n) = if c then outcome m else outcome n := by
  split_ifs <;> rfl

theorem sim_bind_pure (m : Sim α) : (m >>= fun a => pure a) = m := by
  funext r
  show (match m r with | .ok (a, r') => .ok (a, r') | .error e => .error e) = m r
  rcases m r with _ | ⟨a, r'⟩ <;> rfl

theorem sim_ite_bind {c : Prop} [Decidable c] (m n : Sim α) (f : α → Sim β) : (if c then m else n) >>= f = if c then m >>= f else n >>= f := by
  split_ifs <;> rfl

theorem outcome_cycles (app : Appliance) : outcome (tracedCycles app) = assignRandomCycles app := by
  unfold tracedCycles assignRandomCycles
  simp only [outcome_ite, outcome_bind, outcome_note, outcome_quiet, outcome_pure, sim_pure_bind]

theorem outcome_putFrom (v : List ℚ) : ∀ (l : List ℤ) (k : ℕ) (app : Appliance), outcome (tracedPutFrom v k l app) = (do
    let d ← liftE (npPutFrom v k l app.dailyUse)
    pure { app with dailyUse := d }) := by
  intro l
  induction l with
  | nil => intro k app; rfl
  | cons i is ih =>
    intro k app
    unfold tracedPutFrom npPutFrom
    cases wrapIdx i with
    | none => rfl
    | some p =>
      simp only [outcome_bind, outcome_note, sim_pure_bind, ih]

theorem outcome_put (v : List ℚ) (l : List ℤ) (app : Appliance) : outcome (tracedPut app l v) = (do
    let d ← liftE (npPut app.dailyUse l v)
    pure { app with dailyUse := d }) := by
  unfold tracedPut npPut
  split_ifs with h
  · rfl
  · exact outcome_putFrom v l 0 app

theorem outcome_putEvent (app : Appliance) (c : ℤ) (p : ℚ) (l : List ℤ) : outcome (tracedPutEvent app c p l) = putEvent app c p l := by
  unfold tracedPutEvent putEvent
  simp only [outcome_ite, outcome_bind, outcome_quiet, outcome_pure, outcome_put]

theorem outcome_free (app : Appliance) (l : List ℤ) : outcome (tracedFree app l) = (do
    let spots ← liftE (updateAvailableTime app.freeSpots l)
    pure { app with freeSpots := spots }) := by
  unfold tracedFree updateAvailableTime
  split_ifs with h
  · rfl
  · cases l.head? <;> cases l.getLast? <;> rfl

theorem outcome_update (app : Appliance) (c : ℤ) (p : ℚ) (l : List ℤ) : outcome (tracedUpdate app c p l) = updateDailyUse app c p l := by
  unfold tracedUpdate updateDailyUse
  simp only [outcome_bind, outcome_putEvent, outcome_free]

theorem outcome_window (depth : ℕ) (app : Appliance) (rt : ℤ) : outcome (tracedWindow depth app rt) = randSwitchOnWindow depth app rt := by
  unfold tracedWindow
  simp only [outcome_bind, outcome_quiet, outcome_note, outcome_pure, sim_pure_bind, sim_bind_pure]

theorem outcome_book (app : Appliance) (peak : List ℤ) (p : ℚ) (l : List ℤ) : outcome (tracedBook app peak p l) = bookEvent app peak p l := by
  unfold tracedBook bookEvent
  cases l.head? <;> cases l.getLast? <;> cases peak.head? <;> cases peak.getLast? <;>
    simp only [outcome_bind, outcome_quiet, outcome_pure, outcome_update]

theorem outcome_loop (depth : ℕ) (peak : List ℤ) (power : ℚ) (rt : ℤ) : ∀ (fuel : ℕ) (app : Appliance) (tot : ℤ) (log : List Booking),
    outcome (tracedLoop depth peak power rt fuel app tot log) = switchOnLoop depth peak power rt fuel app tot log
  | 0, _, _, _ => rfl
  | fuel + 1, app, tot, log => by
    unfold tracedLoop switchOnLoop
    rw [outcome_ite]
    split_ifs with h
    · rw [outcome_bind, outcome_window]
      congr 1
      funext ⟨a, e⟩
      cases e with
      | none => rfl
      | some e =>
        simp only [outcome_ite, outcome_bind, outcome_book, outcome_pure, outcome_loop]
    · rfl

theorem outcome_fill (app : Appliance) (w1 w2 w3 : ℤ × ℤ) (v : ℚ) : outcome (tracedFill app w1 w2 w3 v) = (do
    let d ← liftE (fillWindows w1 w2 w3 v)
    pure { app with dailyUse := d }) := by
  unfold tracedFill fillWindows
  simp only [outcome_bind, outcome_quiet, outcome_note, outcome_pure, sim_pure_bind]
  funext r
  cases h1 : fillSlice zeros w1.1 w1.2 (w1.2 - w1.1) v with
  | error e => rfl
  | ok d1 =>
    show ((liftE (fillSlice d1 w2.1 w2.2 (w2.2 - w2.1) v) : Sim Profile) >>= _) r = (liftE (fillSlice d1 w2.1 w2.2 (w2.2 - w2.1) v >>= _) >>= _ : Sim Appliance) r
    cases h2 : fillSlice d1 w2.1 w2.2 (w2.2 - w2.1) v with
    | error e => rfl
    | ok d2 => rfl

theorem outcome_generate (app : Appliance) (depth : ℕ) (pref : ℤ) (profI : ℕ) (peak : List ℤ) (dayType : ℤ) (power : ℚ) :
    outcome (tracedGenerate app depth pref profI peak dayType power) = generateLoadProfile app depth pref profI peak dayType power := by
  unfold tracedGenerate generateLoadProfile generateLoadProfileInfo
  simp only [outcome_ite, outcome_bind, outcome_quiet, outcome_note, outcome_pure, sim_pure_bind, sim_bind_assoc, sim_ite_bind, outcome_fill,
    outcome_cycles, outcome_loop]
  congr 1
  funext x
  split_ifs with h1 h2
  · rfl
  · congr 1; funext w1
    congr 1; funext w2
    congr 1; funext w3
    congr 1; funext rt
    cases app.power[profI]? with
    | none => rfl
    | some pw =>
      simp only [outcome_fill]
      funext r
      cases fillWindows w1 w2 w3 (pw * app.number) <;> rfl
  · rfl

theorem outcome_singleLoop (depth profI : ℕ) (peak : List ℤ) (dayType : ℤ) (u : User) : ∀ (l done : List Appliance) (load : Profile),
    outcome (tracedSingleLoop depth profI peak dayType u done l load) = (do
      let (apps, load) ← singleLoop depth profI peak dayType u.randDailyPref l load
      pure (done ++ apps, load)) := by
  intro l
  induction l with
  | nil => intro done load; unfold tracedSingleLoop singleLoop; simp only [sim_pure_bind, List.append_nil, outcome_pure]
  | cons a rest ih =>
    intro done load
    unfold tracedSingleLoop singleLoop
    cases a.power[profI]? with
    | none => rfl
    | some p =>
      simp only [outcome_bind, outcome_within, outcome_generate, ih, sim_bind_assoc, sim_pure_bind, List.append_assoc, List.cons_append, List.nil_append]

theorem outcome_single (depth : ℕ) (u : User) (profI : ℕ) (peak : List ℤ) (dayType : ℤ) :
    outcome (tracedSingle depth u profI peak dayType) = generateSingleLoadProfile depth u profI peak dayType := by
  unfold tracedSingle generateSingleLoadProfile
  simp only [outcome_bind, outcome_quiet, outcome_note, outcome_pure, sim_pure_bind, outcome_singleLoop, sim_bind_assoc, List.nil_append]

theorem single_load (depth : ℕ) (u : User) (profI : ℕ) (peak : List ℤ) (dayType : ℤ) (l : Option Profile) :
    generateSingleLoadProfile depth { u with load := l } profI peak dayType = (do
      let (v, p) ← generateSingleLoadProfile depth u profI peak dayType
      pure ({ v with load := l }, p)) := by
  unfold generateSingleLoadProfile
  simp only [sim_bind_assoc, sim_pure_bind]

theorem outcome_members (depth profI : ℕ) (peak : List ℤ) (dayType : ℤ) : ∀ (n : ℕ) (u : User) (load : Profile),
    outcome (tracedMembers depth profI peak dayType n { u with load := some load } load) = (do
      let (u, load) ← aggregatedLoop depth profI peak dayType n u load
      pure ({ u with load := some load }, load)) := by
  intro n
  induction n with
  | zero => intro u load; rfl
  | succ n ih =>
    intro u load
    unfold tracedMembers aggregatedLoop
    simp only [outcome_bind, outcome_single, outcome_note, sim_pure_bind, single_load, sim_bind_assoc]
    congr 1
    funext ⟨v, s⟩
    exact ih v _

theorem outcome_aggregated (depth : ℕ) (u : User) (profI : ℕ) (peak : List ℤ) (dayType : ℤ) :
    outcome (tracedAggregated depth u profI peak dayType) = generateAggregatedLoadProfile depth u profI peak dayType := by
  unfold tracedAggregated generateAggregatedLoadProfile
  simp only [outcome_bind, outcome_note, sim_pure_bind]
  exact outcome_members depth profI peak dayType _ u zeros

theorem outcome_users (depth k : ℕ) (peak : List ℤ) (dayType : ℤ) : ∀ (us done : List User) (load : Profile),
    outcome (tracedUsers depth k peak dayType done us load) = (do
      let (us, load) ← usersOfDay depth k peak dayType us load
      pure (done ++ us, load)) := by
  intro us
  induction us with
  | nil => intro done load; unfold tracedUsers usersOfDay; simp only [sim_pure_bind, List.append_nil, outcome_pure]
  | cons u us ih =>
    intro done load
    unfold tracedUsers usersOfDay
    simp only [outcome_bind, outcome_within, outcome_aggregated, ih, sim_bind_assoc, sim_pure_bind, List.append_assoc, List.cons_append, List.nil_append]

theorem outcome_days (depth : ℕ) (peak : List ℤ) : ∀ (ds : List ℤ) (k : ℕ) (us : List User) (rows : List Profile),
    outcome (tracedDays depth peak k ds us rows) = daysLoop depth peak k ds us rows := by
  intro ds
  induction ds with
  | nil => intro k us rows; rfl
  | cons d ds ih =>
    intro k us rows
    unfold tracedDays daysLoop
    simp only [outcome_bind, outcome_users, outcome_ite, outcome_quiet, ih, sim_bind_assoc, sim_pure_bind, List.nil_append]

theorem outcome_daily (env : Env) (depth : ℕ) (uc : UseCase) (days : Option (List ℤ)) :
    outcome (tracedDaily env depth uc days) = generateDaily env depth uc days := by
  unfold tracedDaily generateDaily
  rcases resolveDays uc days with ⟨uc, _ | _⟩
  · rfl
  · simp only [outcome_bind, outcome_note, outcome_quiet, sim_pure_bind]
    congr 1
    funext ⟨uc, n⟩
    cases n with
    | error e => rfl
    | ok n => simp only [outcome_bind, outcome_within, outcome_quiet, outcome_pure, outcome_days]

/-! ## What the states have in common -/

/-- All states listed satisfy `P`, and a result satisfies `Q`. -/
def Visits (m : Traced σ α) (P : σ → Prop) (Q : α → Prop) : Prop := ∀ r, (∀ s ∈ (m r).1, P s) ∧ ∀ a r', (m r).2 = .ok (a, r') → Q a

theorem visits_pure {a : α} {P : σ → Prop} {Q : α → Prop} (h : Q a) : Visits (pure a : Traced σ α) P Q := by
  intro r
  refine ⟨fun s hs => absurd hs (by show s ∉ ([] : List σ); simp), fun b r' hb => ?_⟩
  cases hb
  exact h

theorem visits_note {s : σ} {P : σ → Prop} {Q : Unit → Prop} (h : P s) (hq : Q ()) : Visits (note s) P Q := by
  intro r
  refine ⟨fun t ht => ?_, fun b r' _ => hq⟩
  have : t = s := by simpa [note] using ht
  rw [this]
  exact h

theorem visits_notes {l : List σ} {P : σ → Prop} {Q : Unit → Prop} (h : ∀ s ∈ l, P s) (hq : Q ()) : Visits (notes l) P Q :=
  fun _ => ⟨h, fun _ _ _ => hq⟩

theorem visits_quiet {m : Sim α} {P : σ → Prop} {Q : α → Prop} {E : Err → Prop} (h : Sat m Q E) : Visits (quiet m : Traced σ α) P Q := by
  intro r
  refine ⟨fun s hs => absurd hs (by show s ∉ ([] : List σ); simp), fun b r' hb => ?_⟩
  have h1 := h r
  rw [show m r = .ok (b, r') from hb] at h1
  exact h1

theorem visits_quiet' {m : Sim α} {P : σ → Prop} : Visits (quiet m : Traced σ α) P (fun _ => True) := by
  intro r
  exact ⟨fun s hs => absurd hs (by show s ∉ ([] : List σ); simp), fun b r' hb => trivial⟩

theorem visits_raise {e : Err} {P : σ → Prop} {Q : α → Prop} : Visits (quiet (raise e) : Traced σ α) P Q := by
  intro r
  exact ⟨fun s hs => absurd hs (by show s ∉ ([] : List σ); simp), fun b r' hb => by cases hb⟩

theorem visits_bind {m : Traced σ α} {f : α → Traced σ β} {P : σ → Prop} {R : α → Prop} {Q : β → Prop} (h : Visits m P R)
    (hf : ∀ a, R a → Visits (f a) P Q) : Visits (m >>= f) P Q := by
  intro r
  have e : (m >>= f) r = match m r with | (l, .ok (a, r')) => (l ++ (f a r').1, (f a r').2) | (l, .error e) => (l, .error e) := rfl
  rw [e]
  have h1 := h r
  revert h1
  rcases m r with ⟨l, _ | ⟨a, r'⟩⟩
  · intro h1
    exact ⟨h1.1, fun _ _ hh => by cases hh⟩
  · intro h1
    have h2 := hf a (h1.2 a r' rfl) r'
    refine ⟨fun s hs => ?_, h2.2⟩
    rcases List.mem_append.1 hs with hs | hs
    · exact h1.1 s hs
    · exact h2.1 s hs

theorem visits_ite {c : Prop} [Decidable c] {m n : Traced σ α} {P : σ → Prop} {Q : α → Prop} (h1 : c → Visits m P Q) (h2 : ¬ c → Visits n P Q) :
    Visits (if c then m else n) P Q := by
  split_ifs with h
  · exact h1 h
  · exact h2 h

theorem visits_within {f : σ → τ} {m : Traced σ α} {P : σ → Prop} {P' : τ → Prop} {Q : α → Prop} (h : Visits m P Q) (hp : ∀ s, P s → P' (f s)) :
    Visits (within f m) P' Q := by
  intro r
  refine ⟨fun t ht => ?_, (h r).2⟩
  obtain ⟨s, hs, rfl⟩ := List.mem_map.1 ht
  exact hp s ((h r).1 s hs)

theorem visits_weaken {m : Traced σ α} {P P' : σ → Prop} {Q Q' : α → Prop} (h : Visits m P Q) (hp : ∀ s, P s → P' s) (hq : ∀ a, Q a → Q' a) :
    Visits m P' Q' := fun r => ⟨fun s hs => hp s ((h r).1 s hs), fun a r' ha => hq a ((h r).2 a r' ha)⟩

section
variable (a0 : Appliance)

local notation "Stays" m => Visits m (SameDefinition a0) (SameDefinition a0)

theorem visits_cycles {a : Appliance} (h : SameDefinition a0 a) : Stays (tracedCycles a) := by
  unfold tracedCycles
  refine visits_ite (fun _ => ?_) (fun _ => visits_pure h)
  refine visits_bind visits_quiet' fun p11 _ => visits_bind visits_quiet' fun p12 _ => visits_bind visits_quiet' fun c1 _ => ?_
  refine visits_bind (visits_note (Q := fun _ => True) (h.trans rfl) trivial) fun _ _ => ?_
  refine visits_bind (visits_note (Q := fun _ => True) (h.trans rfl) trivial) fun _ _ => ?_
  refine visits_bind (visits_note (Q := fun _ => True) (h.trans rfl) trivial) fun _ _ => ?_
  refine visits_ite (fun _ => ?_) (fun _ => visits_pure (h.trans rfl))
  refine visits_bind visits_quiet' fun p21 _ => visits_bind visits_quiet' fun p22 _ => visits_bind visits_quiet' fun c2 _ => ?_
  refine visits_bind (visits_note (Q := fun _ => True) (h.trans rfl) trivial) fun _ _ => ?_
  refine visits_ite (fun _ => ?_) (fun _ => visits_pure (h.trans rfl))
  refine visits_bind visits_quiet' fun p31 _ => visits_bind visits_quiet' fun p32 _ => visits_bind visits_quiet' fun c1 _ => ?_
  refine visits_bind (visits_note (Q := fun _ => True) (h.trans rfl) trivial) fun _ _ => visits_bind visits_quiet' fun c2 _ => ?_
  refine visits_bind (visits_note (Q := fun _ => True) (h.trans rfl) trivial) fun _ _ => visits_bind visits_quiet' fun c3 _ => ?_
  exact visits_bind (visits_note (Q := fun _ => True) (h.trans rfl) trivial) fun _ _ => visits_pure (h.trans rfl)

theorem visits_putFrom (v : List ℚ) : ∀ (l : List ℤ) (k : ℕ) {a : Appliance}, SameDefinition a0 a → Stays (tracedPutFrom v k l a) := by
  intro l
  induction l with
  | nil => intro k a h; exact visits_pure h
  | cons i is ih =>
    intro k a h
    unfold tracedPutFrom
    cases wrapIdx i with
    | none => exact visits_raise
    | some p =>
      exact visits_bind (visits_note (Q := fun _ => True) (h.trans rfl) trivial) fun _ _ => ih (k + 1) (h.trans rfl)

theorem visits_put {a : Appliance} (h : SameDefinition a0 a) (l : List ℤ) (v : List ℚ) : Stays (tracedPut a l v) := by
  unfold tracedPut
  exact visits_ite (fun _ => visits_pure h) (fun _ => visits_putFrom a0 v l 0 h)

theorem visits_putEvent {a : Appliance} (h : SameDefinition a0 a) (c : ℤ) (p : ℚ) (l : List ℤ) : Stays (tracedPutEvent a c p l) := by
  unfold tracedPutEvent
  refine visits_ite (fun _ => visits_ite (fun _ => visits_put a0 h _ _) (fun _ => visits_ite (fun _ => visits_put a0 h _ _) (fun _ =>
    visits_ite (fun _ => visits_put a0 h _ _) (fun _ => visits_pure h)))) (fun _ => ?_)
  exact visits_bind visits_quiet' fun v _ => visits_put a0 h _ _

theorem visits_free {a : Appliance} (h : SameDefinition a0 a) (l : List ℤ) : Stays (tracedFree a l) := by
  unfold tracedFree
  refine visits_ite (fun _ => visits_pure (h.trans rfl)) (fun _ => ?_)
  cases l.head? with
  | none => exact visits_raise
  | some i0 => cases l.getLast? with
    | none => exact visits_raise
    | some i1 =>
      refine visits_bind (visits_notes (Q := fun _ => True) (fun s hs => ?_) trivial) fun _ _ =>
        visits_bind (visits_note (Q := fun _ => True) (h.trans rfl) trivial) fun _ _ => visits_pure (h.trans rfl)
      obtain ⟨f, _, rfl⟩ := List.mem_map.1 hs
      exact h.trans rfl

theorem visits_update {a : Appliance} (h : SameDefinition a0 a) (c : ℤ) (p : ℚ) (l : List ℤ) : Stays (tracedUpdate a c p l) := by
  unfold tracedUpdate
  exact visits_bind (visits_putEvent a0 h c p l) fun b hb => visits_free a0 hb l

theorem visits_window (depth : ℕ) {a : Appliance} (h : SameDefinition a0 a) (rt : ℤ) :
    Visits (tracedWindow depth a rt) (SameDefinition a0) (fun x => SameDefinition a0 x.1) := by
  unfold tracedWindow
  refine visits_bind (R := fun x => SameDefinition a0 x.1) (visits_quiet ((sat_randSwitchOn_same depth a rt).post fun x hx => h.trans hx)) fun x hx => ?_
  exact visits_bind (visits_note (Q := fun _ => True) hx trivial) fun _ _ => visits_pure hx

theorem visits_book {a : Appliance} (h : SameDefinition a0 a) (peak : List ℤ) (p : ℚ) (l : List ℤ) :
    Visits (tracedBook a peak p l) (SameDefinition a0) (fun x => SameDefinition a0 x.1) := by
  unfold tracedBook
  split
  · exact visits_bind visits_quiet' fun c _ => visits_bind (visits_update a0 h c p l) fun b hb => visits_pure hb
  · exact visits_raise

theorem visits_loop (depth : ℕ) (peak : List ℤ) (power : ℚ) (rt : ℤ) : ∀ (fuel : ℕ) {a : Appliance} (tot : ℤ) (log : List Booking), SameDefinition a0 a →
    Visits (tracedLoop depth peak power rt fuel a tot log) (SameDefinition a0) (fun x => SameDefinition a0 x.1)
  | 0, _, _, _, _ => visits_raise
  | fuel + 1, a, tot, log, h => by
    unfold tracedLoop
    refine visits_ite (fun _ => ?_) (fun _ => visits_pure h)
    refine visits_bind (visits_window a0 depth h rt) ?_
    rintro ⟨b, e⟩ hb
    cases e with
    | none => exact visits_pure hb
    | some e =>
      refine visits_ite (fun _ => visits_ite (fun _ => ?_) (fun _ => visits_pure hb)) (fun _ => ?_)
      · refine visits_bind (visits_book a0 hb peak power _) ?_
        rintro ⟨c, n⟩ hc
        exact visits_pure hc
      · refine visits_bind (visits_book a0 hb peak power _) ?_
        rintro ⟨c, n⟩ hc
        exact visits_loop depth peak power rt fuel _ _ hc

theorem visits_fill {a : Appliance} (h : SameDefinition a0 a) (w1 w2 w3 : ℤ × ℤ) (v : ℚ) : Stays (tracedFill a w1 w2 w3 v) := by
  unfold tracedFill
  refine visits_bind visits_quiet' fun d _ => visits_bind (visits_note (Q := fun _ => True) (h.trans rfl) trivial) fun _ _ => ?_
  refine visits_bind visits_quiet' fun d _ => visits_bind (visits_note (Q := fun _ => True) (h.trans rfl) trivial) fun _ _ => ?_
  refine visits_bind visits_quiet' fun d _ => visits_bind (visits_note (Q := fun _ => True) (h.trans rfl) trivial) fun _ _ => ?_
  exact visits_pure (h.trans rfl)

theorem visits_generate {a : Appliance} (h : SameDefinition a0 a) (depth : ℕ) (pref : ℤ) (profI : ℕ) (peak : List ℤ) (dayType : ℤ) (power : ℚ) :
    Stays (tracedGenerate a depth pref profI peak dayType power) := by
  have h0 : SameDefinition a0 { a with dailyUse := zeros } := h.trans rfl
  unfold tracedGenerate
  refine visits_bind (visits_note (Q := fun _ => True) h0 trivial) fun _ _ => visits_bind visits_quiet' fun x _ => ?_
  refine visits_ite (fun _ => visits_pure h0) (fun _ => ?_)
  refine visits_bind visits_quiet' fun w1 _ => visits_bind visits_quiet' fun w2 _ => visits_bind visits_quiet' fun w3 _ => visits_bind visits_quiet' fun rt _ => ?_
  refine visits_ite (fun _ => ?_) (fun _ => ?_)
  · split
    · exact visits_raise
    · exact visits_fill a0 h0 _ _ _ _
  · refine visits_bind (visits_fill a0 h0 w1 w2 w3 _) fun b hb => visits_bind (visits_cycles a0 hb) fun c hc => ?_
    have hc' : SameDefinition a0 { c with freeSpots := initialSpots [w1, w2, w3] } := hc.trans rfl
    refine visits_bind (visits_note (Q := fun _ => True) hc' trivial) fun _ _ => visits_bind (visits_loop a0 depth peak power rt _ _ _ hc') ?_
    rintro ⟨d, _⟩ hd
    exact visits_pure hd
end

theorem visits_singleLoop (depth profI : ℕ) (peak : List ℤ) (dayType : ℤ) {u0 u : User} (hn : u.userName = u0.userName) (hk : u.numUsers = u0.numUsers)
    (hp : u.userPreference = u0.userPreference) : ∀ (l0 l done0 done : List Appliance) (load : Profile), List.Forall₂ SameDefinition l0 l →
    List.Forall₂ SameDefinition done0 done → u0.appList = done0 ++ l0 →
    Visits (tracedSingleLoop depth profI peak dayType u done l load) (SameUser u0) (fun x => List.Forall₂ SameDefinition u0.appList x.1) := by
  intro l0
  induction l0 with
  | nil =>
    intro l done0 done load hl hdone he
    cases hl
    unfold tracedSingleLoop
    refine visits_pure ?_
    rw [he, List.append_nil]
    exact hdone
  | cons a0 rest0 ih =>
    intro l done0 done load hl hdone he
    cases hl with
    | cons ha hrest =>
    rename_i a rest
    unfold tracedSingleLoop
    split
    · exact visits_raise
    · refine visits_bind (visits_within (visits_generate a0 ha depth u.randDailyPref profI peak dayType _) (P' := SameUser u0) ?_) fun b hb => ?_
      · intro s hs
        refine ⟨hn, hk, hp, ?_⟩
        rw [he]
        exact List.rel_append hdone (.cons hs hrest)
      · refine ih rest (done0 ++ [a0]) (done ++ [b]) _ hrest (List.rel_append hdone (.cons hb .nil)) ?_
        rw [he]
        simp

theorem visits_single (depth profI : ℕ) (peak : List ℤ) (dayType : ℤ) {u0 u : User} (h : SameUser u0 u) :
    Visits (tracedSingle depth u profI peak dayType) (SameUser u0) (fun x => SameUser u0 x.1) := by
  unfold tracedSingle
  refine visits_bind visits_quiet' fun pref _ => ?_
  refine visits_bind (visits_note (Q := fun _ => True) (s := { u with randDailyPref := pref }) ⟨h.name, h.number, h.preference, h.appliances⟩ trivial) fun _ _ => ?_
  refine visits_bind (visits_singleLoop (u0 := u0) (u := { u with randDailyPref := pref }) depth profI peak dayType h.name h.number h.preference u0.appList u.appList [] [] zeros h.appliances .nil rfl) ?_
  rintro ⟨apps, load⟩ ha
  exact visits_pure ⟨h.name, h.number, h.preference, ha⟩

theorem visits_members (depth profI : ℕ) (peak : List ℤ) (dayType : ℤ) {u0 : User} : ∀ (n : ℕ) {u : User} (load : Profile), SameUser u0 u →
    Visits (tracedMembers depth profI peak dayType n u load) (SameUser u0) (fun x => SameUser u0 x.1) := by
  intro n
  induction n with
  | zero => intro u load h; exact visits_pure h
  | succ n ih =>
    intro u load h
    unfold tracedMembers
    refine visits_bind (visits_single depth profI peak dayType h) ?_
    rintro ⟨v, s⟩ hv
    have hv' : SameUser u0 { v with load := some (fun i => load i + s i) } := ⟨hv.name, hv.number, hv.preference, hv.appliances⟩
    exact visits_bind (visits_note (Q := fun _ => True) hv' trivial) fun _ _ => ih _ hv'

theorem visits_aggregated (depth profI : ℕ) (peak : List ℤ) (dayType : ℤ) {u0 u : User} (h : SameUser u0 u) :
    Visits (tracedAggregated depth u profI peak dayType) (SameUser u0) (fun x => SameUser u0 x.1) := by
  have h' : SameUser u0 { u with load := some zeros } := ⟨h.name, h.number, h.preference, h.appliances⟩
  unfold tracedAggregated
  exact visits_bind (visits_note (Q := fun _ => True) h' trivial) fun _ _ => visits_members depth profI peak dayType _ _ h'

theorem visits_users (depth k : ℕ) (peak : List ℤ) (dayType : ℤ) : ∀ (us0 us done0 done : List User) (load : Profile), List.Forall₂ SameUser us0 us →
    List.Forall₂ SameUser done0 done →
    Visits (tracedUsers depth k peak dayType done us load) (List.Forall₂ SameUser (done0 ++ us0)) (fun x => List.Forall₂ SameUser (done0 ++ us0) x.1) := by
  intro us0
  induction us0 with
  | nil =>
    intro us done0 done load hus hdone
    cases hus
    unfold tracedUsers
    refine visits_pure ?_
    rw [List.append_nil]
    exact hdone
  | cons u0 rest0 ih =>
    intro us done0 done load hus hdone
    cases hus with
    | cons hu hrest =>
    rename_i u rest
    unfold tracedUsers
    refine visits_bind (visits_within (visits_aggregated depth k peak dayType hu) fun s hs => List.rel_append hdone (.cons hs hrest)) ?_
    rintro ⟨v, l⟩ hv
    have := ih rest (done0 ++ [u0]) (done ++ [v]) (fun i => load i + l i) hrest (List.rel_append hdone (.cons hv .nil))
    rw [List.append_assoc] at this
    exact this

theorem visits_days (depth : ℕ) (peak : List ℤ) {us0 : List User} : ∀ (ds : List ℤ) (k : ℕ) {us : List User} (rows : List Profile), List.Forall₂ SameUser us0 us →
    Visits (tracedDays depth peak k ds us rows) (List.Forall₂ SameUser us0) (fun x => List.Forall₂ SameUser us0 x.1) := by
  intro ds
  induction ds with
  | nil => intro k us rows h; exact visits_pure h
  | cons d ds ih =>
    intro k us rows h
    unfold tracedDays
    refine visits_bind (visits_users depth k peak _ us0 us [] [] zeros h .nil) ?_
    rintro ⟨vs, load⟩ hv
    exact visits_ite (fun _ => ih _ _ hv) (fun _ => visits_raise)

theorem visits_daily (env : Env) (depth : ℕ) {uc : UseCase} {ds peak : List ℤ} (days : Option (List ℤ)) (hr : Ready uc ds peak) :
    Visits (tracedDaily env depth uc days) (fun s => s = { uc with users := s.users } ∧ List.Forall₂ SameUser uc.users s.users) (fun _ => True) := by
  have hself : List.Forall₂ SameUser uc.users uc.users := List.forall₂_same.2 fun u _ => SameUser.refl u
  have h0 : resolveDays uc days = (uc, .ok ()) := by
    unfold resolveDays
    rw [hr.days]
  unfold tracedDaily
  rw [h0]
  refine visits_bind (visits_note (Q := fun _ => True) ⟨rfl, hself⟩ trivial) fun _ _ => ?_
  have h2 : numDaysProperty env uc = pure (uc, .ok (ds.length : ℤ)) := by
    unfold numDaysProperty
    rw [hr.numDays]
  rw [h2]
  refine visits_bind (R := fun x => x = (uc, .ok (ds.length : ℤ))) (visits_quiet (E := fun _ => True) (sat_pure rfl)) ?_
  rintro ⟨uc1, n⟩ h1
  obtain ⟨rfl, rfl⟩ := Prod.mk.inj h1
  refine visits_bind (visits_note (Q := fun _ => True) ⟨rfl, hself⟩ trivial) fun _ _ => ?_
  simp only
  refine visits_bind visits_quiet' fun rows _ => ?_
  refine visits_bind (visits_within (visits_days depth _ _ 0 rows hself) fun s hs => ⟨rfl, hs⟩) ?_
  rintro ⟨us, rows⟩ _
  exact visits_pure trivial

/-! ## The last state is the final one -/

/-- An execution from `s0` that reaches a result ends in the state `out` of the result: the list of states leaves no assignment out at its end. -/
def Follows (m : Traced σ α) (s0 : σ) (out : α → σ) : Prop := ∀ r a r', (m r).2 = .ok (a, r') → ((m r).1.getLast?).getD s0 = out a

theorem follows_pure {a : α} {s0 : σ} {out : α → σ} (h : out a = s0) : Follows (pure a : Traced σ α) s0 out := by
  intro r b r' hb
  cases hb
  exact h.symm

theorem follows_raise {e : Err} {s0 : σ} {out : α → σ} : Follows (quiet (raise e) : Traced σ α) s0 out := by
  intro r b r' hb
  cases hb

theorem getLast_append_getD (l l' : List σ) (s : σ) : ((l ++ l').getLast?).getD s = (l'.getLast?).getD ((l.getLast?).getD s) := by
  rw [List.getLast?_append]
  cases l'.getLast? <;> rfl

theorem follows_bind {m : Traced σ α} {f : α → Traced σ β} {s0 : σ} {mid : α → σ} {out : β → σ} (h : Follows m s0 mid) (hf : ∀ a, Follows (f a) (mid a) out) :
    Follows (m >>= f) s0 out := by
  intro r b r' hb
  have e : (m >>= f) r = match m r with | (l, .ok (a, r')) => (l ++ (f a r').1, (f a r').2) | (l, .error e) => (l, .error e) := rfl
  rw [e] at hb ⊢
  have h1 := h r
  revert h1 hb
  rcases m r with ⟨l, _ | ⟨a, r1⟩⟩
  · intro hb
    cases hb
  · intro hb h1
    simp only at hb ⊢
    rw [getLast_append_getD, h1 a r1 rfl]
    exact hf a r1 b r' hb

theorem follows_quiet {m : Sim α} {f : α → Traced σ β} {s0 : σ} {out : β → σ} (hf : ∀ a, Follows (f a) s0 out) : Follows (quiet m >>= f) s0 out :=
  follows_bind (mid := fun _ => s0) (fun _ _ _ _ => rfl) hf

theorem follows_note {s s0 : σ} {f : Unit → Traced σ β} {out : β → σ} (hf : Follows (f ()) s out) : Follows (note s >>= f) s0 out :=
  follows_bind (mid := fun _ => s) (fun _ _ _ _ => rfl) (fun _ => hf)

theorem follows_notes {l : List σ} {s0 : σ} {f : Unit → Traced σ β} {out : β → σ} (hf : ∀ s, Follows (f ()) s out) : Follows (notes l >>= f) s0 out :=
  follows_bind (mid := fun _ => (l.getLast?).getD s0) (fun _ _ _ _ => rfl) (fun _ => hf _)

theorem follows_ite {c : Prop} [Decidable c] {m n : Traced σ α} {s0 : σ} {out : α → σ} (h1 : c → Follows m s0 out) (h2 : ¬ c → Follows n s0 out) :
    Follows (if c then m else n) s0 out := by
  split_ifs with h
  · exact h1 h
  · exact h2 h

theorem follows_within {f : σ → τ} {m : Traced σ α} {s0 : σ} {out : α → σ} (h : Follows m s0 out) : Follows (within f m) (f s0) (fun a => f (out a)) := by
  intro r a r' ha
  have := h r a r' ha
  show (((m r).1.map f).getLast?).getD (f s0) = f (out a)
  rw [← this, List.getLast?_map]
  cases (m r).1.getLast? <;> rfl

theorem follows_cycles (a : Appliance) : Follows (tracedCycles a) a id := by
  unfold tracedCycles
  refine follows_ite (fun _ => ?_) (fun _ => follows_pure rfl)
  refine follows_quiet fun p11 => follows_quiet fun p12 => follows_quiet fun c1 => follows_note (follows_note (follows_note ?_))
  refine follows_ite (fun _ => ?_) (fun _ => follows_pure rfl)
  refine follows_quiet fun p21 => follows_quiet fun p22 => follows_quiet fun c2 => follows_note ?_
  refine follows_ite (fun _ => ?_) (fun _ => follows_pure rfl)
  refine follows_quiet fun p31 => follows_quiet fun p32 => follows_quiet fun c1 => follows_note (follows_quiet fun c2 => follows_note (follows_quiet fun c3 => follows_note ?_))
  exact follows_pure rfl

theorem follows_putFrom (v : List ℚ) : ∀ (l : List ℤ) (k : ℕ) (a : Appliance), Follows (tracedPutFrom v k l a) a id := by
  intro l
  induction l with
  | nil => intro k a; exact follows_pure rfl
  | cons i is ih =>
    intro k a
    unfold tracedPutFrom
    cases wrapIdx i with
    | none => exact follows_raise
    | some p => exact follows_note (ih _ _)

theorem follows_put (a : Appliance) (l : List ℤ) (v : List ℚ) : Follows (tracedPut a l v) a id := by
  unfold tracedPut
  exact follows_ite (fun _ => follows_pure rfl) (fun _ => follows_putFrom v l 0 a)

theorem follows_putEvent (a : Appliance) (c : ℤ) (p : ℚ) (l : List ℤ) : Follows (tracedPutEvent a c p l) a id := by
  unfold tracedPutEvent
  refine follows_ite (fun _ => follows_ite (fun _ => follows_put _ _ _) (fun _ => follows_ite (fun _ => follows_put _ _ _) (fun _ =>
    follows_ite (fun _ => follows_put _ _ _) (fun _ => follows_pure rfl)))) (fun _ => ?_)
  exact follows_quiet fun v => follows_put _ _ _

theorem follows_free (a : Appliance) (l : List ℤ) : Follows (tracedFree a l) a id := by
  unfold tracedFree
  refine follows_ite (fun h => follows_pure ?_) (fun _ => ?_)
  · show ({ a with freeSpots := [] } : Appliance) = a
    rw [← h]
  · cases l.head? with
    | none => exact follows_raise
    | some i0 => cases l.getLast? with
      | none => exact follows_raise
      | some i1 =>
        exact follows_notes fun s => follows_note (follows_pure rfl)

theorem follows_update (a : Appliance) (c : ℤ) (p : ℚ) (l : List ℤ) : Follows (tracedUpdate a c p l) a id := by
  unfold tracedUpdate
  exact follows_bind (follows_putEvent a c p l) fun b => follows_free b l

theorem follows_window (depth : ℕ) (a : Appliance) (rt : ℤ) : Follows (tracedWindow depth a rt) a (fun x => x.1) := by
  unfold tracedWindow
  exact follows_quiet fun x => follows_note (follows_pure rfl)

theorem follows_book (a : Appliance) (peak : List ℤ) (p : ℚ) (l : List ℤ) : Follows (tracedBook a peak p l) a (fun x => x.1) := by
  unfold tracedBook
  split
  · exact follows_quiet fun c => follows_bind (follows_update a c p l) fun b => follows_pure rfl
  · exact follows_raise

theorem follows_loop (depth : ℕ) (peak : List ℤ) (power : ℚ) (rt : ℤ) : ∀ (fuel : ℕ) (a : Appliance) (tot : ℤ) (log : List Booking),
    Follows (tracedLoop depth peak power rt fuel a tot log) a (fun x => x.1)
  | 0, _, _, _ => follows_raise
  | fuel + 1, a, tot, log => by
    unfold tracedLoop
    refine follows_ite (fun _ => ?_) (fun _ => follows_pure rfl)
    refine follows_bind (follows_window depth a rt) ?_
    rintro ⟨b, e⟩
    cases e with
    | none => exact follows_pure rfl
    | some e =>
      refine follows_ite (fun _ => follows_ite (fun _ => ?_) (fun _ => follows_pure rfl)) (fun _ => ?_)
      · refine follows_bind (follows_book b peak power _) ?_
        rintro ⟨c, n⟩
        exact follows_pure rfl
      · refine follows_bind (follows_book b peak power _) ?_
        rintro ⟨c, n⟩
        exact follows_loop depth peak power rt fuel _ _ _

theorem follows_fill (a : Appliance) (w1 w2 w3 : ℤ × ℤ) (v : ℚ) : Follows (tracedFill a w1 w2 w3 v) a id := by
  unfold tracedFill
  exact follows_quiet fun d => follows_note (follows_quiet fun d => follows_note (follows_quiet fun d => follows_note (follows_pure rfl)))

theorem follows_generate (a : Appliance) (depth : ℕ) (pref : ℤ) (profI : ℕ) (peak : List ℤ) (dayType : ℤ) (power : ℚ) :
    Follows (tracedGenerate a depth pref profI peak dayType power) a id := by
  unfold tracedGenerate
  refine follows_note (follows_quiet fun x => follows_ite (fun _ => follows_pure rfl) (fun _ => ?_))
  refine follows_quiet fun w1 => follows_quiet fun w2 => follows_quiet fun w3 => follows_quiet fun rt => follows_ite (fun _ => ?_) (fun _ => ?_)
  · split
    · exact follows_raise
    · exact follows_fill _ _ _ _ _
  · refine follows_bind (follows_fill _ w1 w2 w3 _) fun b => follows_bind (follows_cycles _) fun c => follows_note (follows_bind (follows_loop _ _ _ _ _ _ _ _) ?_)
    rintro ⟨d, _⟩
    exact follows_pure rfl

theorem follows_singleLoop (depth profI : ℕ) (peak : List ℤ) (dayType : ℤ) (u : User) : ∀ (l done : List Appliance) (load : Profile),
    Follows (tracedSingleLoop depth profI peak dayType u done l load) { u with appList := done ++ l } (fun x => { u with appList := x.1 }) := by
  intro l
  induction l with
  | nil =>
    intro done load
    unfold tracedSingleLoop
    refine follows_pure ?_
    rw [List.append_nil]
  | cons a rest ih =>
    intro done load
    unfold tracedSingleLoop
    split
    · exact follows_raise
    · refine follows_bind (follows_within (f := fun a => { u with appList := done ++ a :: rest }) (follows_generate a depth u.randDailyPref profI peak dayType _)) fun b => ?_
      have := ih (done ++ [b]) (fun i => load i + b.dailyUse i)
      rw [List.append_assoc] at this
      exact this

theorem follows_single (depth profI : ℕ) (peak : List ℤ) (dayType : ℤ) (u : User) :
    Follows (tracedSingle depth u profI peak dayType) u (fun x => x.1) := by
  unfold tracedSingle
  refine follows_quiet fun pref => follows_note (follows_bind (follows_singleLoop depth profI peak dayType { u with randDailyPref := pref } u.appList [] zeros) ?_)
  rintro ⟨apps, load⟩
  exact follows_pure rfl

theorem follows_members (depth profI : ℕ) (peak : List ℤ) (dayType : ℤ) : ∀ (n : ℕ) (u : User) (load : Profile),
    Follows (tracedMembers depth profI peak dayType n u load) u (fun x => x.1) := by
  intro n
  induction n with
  | zero => intro u load; exact follows_pure rfl
  | succ n ih =>
    intro u load
    unfold tracedMembers
    refine follows_bind (follows_single depth profI peak dayType u) ?_
    rintro ⟨v, s⟩
    exact follows_note (ih _ _)

theorem follows_aggregated (depth profI : ℕ) (peak : List ℤ) (dayType : ℤ) (u : User) :
    Follows (tracedAggregated depth u profI peak dayType) u (fun x => x.1) := by
  unfold tracedAggregated
  exact follows_note (follows_members _ _ _ _ _ _ _)

theorem follows_users (depth k : ℕ) (peak : List ℤ) (dayType : ℤ) : ∀ (us done : List User) (load : Profile),
    Follows (tracedUsers depth k peak dayType done us load) (done ++ us) (fun x => x.1) := by
  intro us
  induction us with
  | nil =>
    intro done load
    unfold tracedUsers
    refine follows_pure ?_
    rw [List.append_nil]
  | cons u rest ih =>
    intro done load
    unfold tracedUsers
    refine follows_bind (follows_within (f := fun v => done ++ v :: rest) (follows_aggregated depth k peak dayType u)) ?_
    rintro ⟨v, l⟩
    have := ih (done ++ [v]) (fun i => load i + l i)
    rw [List.append_assoc] at this
    exact this

theorem follows_days (depth : ℕ) (peak : List ℤ) : ∀ (ds : List ℤ) (k : ℕ) (us : List User) (rows : List Profile),
    Follows (tracedDays depth peak k ds us rows) us (fun x => x.1) := by
  intro ds
  induction ds with
  | nil => intro k us rows; exact follows_pure rfl
  | cons d ds ih =>
    intro k us rows
    unfold tracedDays
    refine follows_bind (follows_users depth k peak _ us [] zeros) ?_
    rintro ⟨vs, load⟩
    exact follows_ite (fun _ => ih _ _ _) (fun _ => follows_raise)

theorem follows_daily (env : Env) (depth : ℕ) (uc : UseCase) (days : Option (List ℤ)) : Follows (tracedDaily env depth uc days) uc (fun x => x.1) := by
  unfold tracedDaily
  rcases resolveDays uc days with ⟨uc, _ | _⟩
  · exact follows_raise
  · refine follows_note (follows_quiet ?_)
    rintro ⟨uc1, n⟩
    refine follows_note ?_
    cases n with
    | error e => exact follows_raise
    | ok n =>
      refine follows_quiet fun rows => follows_bind (follows_within (f := fun us => { uc1 with users := us }) (follows_days _ _ _ _ _ _)) ?_
      rintro ⟨us, rows⟩
      exact follows_pure rfl

/-! ## The property -/

theorem saveAppliance_same {u v : User} (hn : v.userName = u.userName) (hk : v.numUsers = u.numUsers) (hp : v.userPreference = u.userPreference)
    {a b : Appliance} (h : SameDefinition a b) : saveAppliance v b = saveAppliance u a := by
  have h1 : ∀ l, saveAttrs b l = saveAttrs a l := by
    intro l
    have h2 : ∀ k, saveAttr b k = saveAttr a k := by
      intro k
      rw [show b = _ from h]
      rfl
    induction l with
    | nil => rfl
    | cons k l ih => unfold saveAttrs; rw [h2, ih]
  unfold saveAppliance
  rw [h1, hn, hk, hp]

theorem saveAppliances_same {u v : User} (hn : v.userName = u.userName) (hk : v.numUsers = u.numUsers) (hp : v.userPreference = u.userPreference)
    {l m : List Appliance} (h : List.Forall₂ SameDefinition l m) : saveAppliances v m = saveAppliances u l := by
  induction h with
  | nil => rfl
  | cons h1 _ ih => unfold saveAppliances; rw [saveAppliance_same hn hk hp h1, ih]

theorem saveUser_same {u v : User} (h : SameUser u v) : saveUser v = saveUser u := by
  have h1 : v.appList = [] ↔ u.appList = [] := by
    have := h.appliances.length_eq
    rw [← List.length_eq_zero_iff, ← List.length_eq_zero_iff, this]
  unfold saveUser
  rw [saveAppliances_same h.name h.number h.preference h.appliances]
  simp only [h1]

theorem saveUsers_same {us vs : List User} (h : List.Forall₂ SameUser us vs) : saveUsers vs = saveUsers us := by
  induction h with
  | nil => rfl
  | cons h1 _ ih => unfold saveUsers; rw [saveUser_same h1, ih]

theorem scaledDef_of_same {a b : Appliance} (h : SameDefinition a b) : ScaledDef 1 a b := by
  have h1 : withPowers 1 a = a := by
    unfold withPowers
    simp
  refine ⟨b.dailyUse, b.freeSpots, b.randomCycle1, b.randomCycle2, b.randomCycle3, b.currentDutyCycleId, ?_⟩
  rw [h1]
  exact h

theorem scaledUser_of_same {u v : User} (h : SameUser u v) : ScaledUser 1 u v :=
  ⟨h.number, h.preference, h.appliances.imp fun _ _ hab => scaledDef_of_same hab⟩

/-- With the same random numbers, users with the same definitions give the same rows, whatever earlier runs left behind. -/
theorem rel_daily_same {env : Env} {depth : ℕ} {uc uc' : UseCase} {ds peak : List ℤ} (days : Option (List ℤ)) (hr : Ready uc ds peak)
    (h1 : uc' = { uc with users := uc'.users }) (h2 : List.Forall₂ SameUser uc.users uc'.users) :
    Rel (generateDaily env depth uc days) (generateDaily env depth uc' days) (fun x y => x.2 = y.2) := by
  have hr' : Ready uc' ds peak := by rw [h1]; exact ⟨hr.days, hr.numDays, hr.peak⟩
  have r1 : resolveDays uc days = (uc, .ok ()) := by unfold resolveDays; rw [hr.days]
  have r2 : resolveDays uc' days = (uc', .ok ()) := by unfold resolveDays; rw [hr'.days]
  have n1 : numDaysProperty env uc = pure (uc, .ok (ds.length : ℤ)) := by unfold numDaysProperty; rw [hr.numDays]
  have n2 : numDaysProperty env uc' = pure (uc', .ok (ds.length : ℤ)) := by unfold numDaysProperty; rw [hr'.numDays]
  unfold generateDaily
  rw [r1, r2]
  simp only [n1, n2, sim_pure_bind, hr.days, hr'.days, hr.peak, hr'.peak, Option.getD_some]
  refine rel_bind_same' (P := fun rows => List.Forall₂ (Near 1 (unflatRuns uc.users)) rows rows) ?_ (fun rows hz =>
    rel_bind (rel_scaled_days 1 depth _ 0 _ (h2.imp fun _ _ h => scaledUser_of_same h) hz) ?_)
  · intro r
    unfold emptyRows liftE
    rw [if_neg (by omega)]
    refine .inr ⟨_, r, rfl, ?_⟩
    rw [List.forall₂_same]
    intro p hp
    rw [List.eq_of_mem_replicate hp]
    exact near_mono (near_zeros 1) (Nat.zero_le _)
  · rintro ⟨xs, p⟩ ⟨ys, q⟩ ⟨_, h4⟩
    refine rel_pure ?_
    simp only at h4 ⊢
    refine List.forall₂_eq_eq_eq ▸ (h4.imp fun x y hxy => ?_)
    funext i
    have := hxy i
    rw [sub_self, abs_zero, zero_div, mul_zero, one_mul] at this
    linarith [abs_nonpos_iff.1 this]

/-- **C95.** The executions considered below are those of the model: the outcome is that of `generate_daily_load_profiles`, and when it
succeeds the last state listed is the use case afterwards. -/
theorem C95_executions (env : Env) (depth : ℕ) (uc : UseCase) (days : Option (List ℤ)) (rng : Rng) :
    (tracedDaily env depth uc days rng).2 = generateDaily env depth uc days rng ∧
    ∀ uc' rows rng', generateDaily env depth uc days rng = .ok ((uc', rows), rng') → (uc :: visited (tracedDaily env depth uc days) rng).getLast? = some uc' := by
  have h1 : (tracedDaily env depth uc days rng).2 = generateDaily env depth uc days rng := congrFun (outcome_daily env depth uc days) rng
  refine ⟨h1, fun uc' rows rng' h => ?_⟩
  rw [List.getLast?_cons]
  exact congrArg some (follows_daily env depth uc days rng _ _ (h1.trans h))

/-- **C95.** A simulation of a use case ready to simulate that stops at any moment, because of an exception or an interruption, leaves a use
case `uc'` that differs only in what simulations leave behind: the same dates, days and peak time range, users and appliances with the same
definitions, the same table when saved; and simulating again with some random numbers gives, with any arguments, the same rows or the
same exception as if the first simulation had never been started. -/
theorem C95_interrupted {env : Env} {depth : ℕ} {uc uc' : UseCase} {ds peak : List ℤ} {days : Option (List ℤ)} {rng : Rng} (hr : Ready uc ds peak)
    (h : uc' ∈ visited (tracedDaily env depth uc days) rng) :
    uc' = { uc with users := uc'.users } ∧ List.Forall₂ SameUser uc.users uc'.users ∧ saveUseCase uc' = saveUseCase uc ∧
    ∀ env' depth' days' rng', (∃ e, generateDaily env' depth' uc days' rng' = .error e ∧ generateDaily env' depth' uc' days' rng' = .error e) ∨
      ∃ v v' rows r, generateDaily env' depth' uc days' rng' = .ok ((v, rows), r) ∧ generateDaily env' depth' uc' days' rng' = .ok ((v', rows), r) := by
  obtain ⟨h1, h2⟩ := (visits_daily env depth days hr rng).1 uc' h
  refine ⟨h1, h2, ?_, fun env' depth' days' rng' => ?_⟩
  · unfold saveUseCase
    rw [saveUsers_same h2, ← h2.length_eq]
  · rcases rel_daily_same (env := env') (depth := depth') days' hr h1 h2 rng' with h | ⟨⟨x, p⟩, ⟨y, q⟩, r, e1, e2, e3⟩
    · exact .inl h
    · obtain rfl : p = q := e3
      exact .inr ⟨x, y, p, r, e1, e2⟩

/-! ## A case: a simulation that fails on its second day -/

/-- An appliance for weekends whose array of powers covers one day only, owned by two users, on a Friday and a Saturday. -/
def failingCase : UseCase :=
  { users := [{ userName := "u", numUsers := 2, appList := [{ flatLamp with wdWeType := 1, power := [50] }] }],
    days := some [5760, 7200], numDays := some 2, peakTimeRange := some [] }

theorem failingCase_ready : Ready failingCase [5760, 7200] [] := ⟨rfl, rfl, rfl⟩

/-- Whether the sum of the members has been started, in each state of the execution, and how it ends. -/
def failingSummary : List (List Bool) × Option Err :=
  ((visited (tracedDaily ⟨0, none⟩ 1000 failingCase none) (constantDraws 5)).map (fun u => u.users.map (fun v => v.load.isSome)),
    match (tracedDaily ⟨0, none⟩ 1000 failingCase none (constantDraws 5)).2 with | .error e => some e | .ok _ => none)

/-- It fails with `IndexError` after eleven assignments, the first two of which do not change anything. -/
theorem failingCase_fails : failingSummary = ([false] :: [false] :: List.replicate 9 [true], some .indexError) := by decide +kernel

example : ∃ uc', uc' ∈ visited (tracedDaily ⟨0, none⟩ 1000 failingCase none) (constantDraws 5) ∧ uc' ≠ failingCase := by
  have h : [true] ∈ (visited (tracedDaily ⟨0, none⟩ 1000 failingCase none) (constantDraws 5)).map (fun u => u.users.map (fun v => v.load.isSome)) := by
    rw [show (visited (tracedDaily ⟨0, none⟩ 1000 failingCase none) (constantDraws 5)).map (fun u => u.users.map (fun v => v.load.isSome)) =
      [false] :: [false] :: List.replicate 9 [true] from congrArg Prod.fst failingCase_fails]
    simp
  obtain ⟨uc', h1, h2⟩ := List.mem_map.1 h
  refine ⟨uc', h1, fun e => ?_⟩
  subst e
  exact absurd h2 (by decide)

end Ramp
