import Verif.Lemmas.Messages
import Verif.Spec14
import Verif.Props.NeverFails

/-! # Lemmas about the warnings of a simulation -/

set_option autoImplicit false

namespace Ramp

variable {α β : Type}

/-! ## Steps that do not call themselves -/

/-- `RecursionError` is not one of the exceptions. -/
def Calm (m : Sim α) : Prop := Sat m (fun _ => True) (fun e => e ≠ .recursionError)

theorem calm_pure (a : α) : Calm (pure a : Sim α) := sat_pure trivial
theorem calm_bind {m : Sim α} {f : α → Sim β} (h : Calm m) (hf : ∀ a, Calm (f a)) : Calm (m >>= f) := sat_bind' h fun a _ => hf a
theorem calm_ite {c : Prop} [Decidable c] {m n : Sim α} (h : Calm m) (h' : Calm n) : Calm (if c then m else n) := sat_ite (fun _ => h) fun _ => h'
theorem calm_raise {e : Err} (h : e ≠ .recursionError) : Calm (raise e : Sim α) := sat_raise h
theorem calm_uniform (a b : ℚ) : Calm (uniform a b) := sat_uniform fun _ _ _ => trivial
theorem calm_gauss (a b : ℚ) : Calm (gauss a b) := sat_gauss fun _ => trivial
theorem calm_randint (a b : ℤ) : Calm (randint a b) := sat_randint (fun _ _ _ => trivial) fun _ => by simp
theorem calm_liftE {x : Except Err α} (h : ∀ e, x = .error e → e ≠ .recursionError) : Calm (liftE x) := sat_liftE (fun _ _ => trivial) h
theorem calm_choice2 (x y : α) : Calm (choice2 x y) := sat_choice2 trivial trivial
theorem calm_variation (v n : ℚ) : Calm (randomVariation v n) := calm_bind (calm_uniform _ _) fun _ => calm_pure _

theorem ones_calm {n : ℤ} {p : ℚ} : ∀ e, onesTimes n p = .error e → e ≠ .recursionError := by
  unfold onesTimes
  split_ifs <;> rintro e ⟨⟩ <;> simp

theorem calm_cycle (v : ℚ) (t1 : ℤ) (p1 : ℚ) (t2 : ℤ) (p2 : ℚ) : Calm (dutyCycle v t1 p1 t2 p2) :=
  calm_bind (calm_variation _ _) fun _ => calm_bind (calm_liftE ones_calm) fun _ => calm_bind (calm_variation _ _) fun _ => calm_bind (calm_liftE ones_calm) fun _ => calm_pure _

theorem calm_choice (v : ℚ) (t1 : ℤ) (p1 : ℚ) (t2 : ℤ) (p2 : ℚ) : Calm (randomChoice v t1 p1 t2 p2) :=
  calm_bind (calm_cycle _ _ _ _ _) fun _ => calm_bind (calm_cycle _ _ _ _ _) fun _ => calm_choice2 _ _

theorem calm_cycles (a : Appliance) : Calm (assignRandomCycles a) := by
  unfold assignRandomCycles
  refine calm_ite (calm_bind (calm_variation _ _) fun _ => calm_bind (calm_variation _ _) fun _ => calm_bind (calm_cycle _ _ _ _ _) fun _ => ?_) (calm_pure _)
  refine calm_ite (calm_bind (calm_variation _ _) fun _ => calm_bind (calm_variation _ _) fun _ => calm_bind (calm_cycle _ _ _ _ _) fun _ => ?_) (calm_pure _)
  refine calm_ite (calm_bind (calm_variation _ _) fun _ => calm_bind (calm_variation _ _) fun _ => ?_) (calm_pure _)
  exact calm_bind (calm_choice _ _ _ _ _) fun _ => calm_bind (calm_choice _ _ _ _ _) fun _ => calm_bind (calm_choice _ _ _ _ _) fun _ => calm_pure _

theorem calm_window (w : ℤ × ℤ) (v : ℤ) : Calm (calcRandWindow w v) := calm_bind (calm_randint _ _) fun _ => calm_bind (calm_randint _ _) fun _ => calm_pure _

theorem calm_time (a : Appliance) (w1 w2 w3 : ℤ × ℤ) : Calm (randTotalTimeOfUse a w1 w2 w3) :=
  calm_bind (calm_variation _ _) fun _ => calm_bind (calm_uniform _ _) fun _ => calm_ite (calm_raise (by simp)) (calm_pure _)

theorem slice_calm {p : Profile} {a b n : ℤ} {v : ℚ} : ∀ e, fillSlice p a b n v = .error e → e ≠ .recursionError := by
  unfold fillSlice
  dsimp only
  split_ifs <;> rintro e ⟨⟩ <;> simp

theorem windows_calm {w1 w2 w3 : ℤ × ℤ} {v : ℚ} : ∀ e, fillWindows w1 w2 w3 v = .error e → e ≠ .recursionError := by
  intro e h
  unfold fillWindows at h
  cases h1 : fillSlice zeros w1.1 w1.2 (w1.2 - w1.1) v with
  | error e' => rw [h1] at h; cases h; exact slice_calm _ h1
  | ok d =>
    rw [h1] at h
    have h' : (fillSlice d w2.1 w2.2 (w2.2 - w2.1) v >>= fun d => fillSlice d w3.1 w3.2 (w3.2 - w3.1) v) = .error e := h
    cases h2 : fillSlice d w2.1 w2.2 (w2.2 - w2.1) v with
    | error e' => rw [h2] at h'; cases h'; exact slice_calm _ h2
    | ok d' =>
      rw [h2] at h'
      exact slice_calm _ h'

theorem put_calm {p : Profile} {l : List ℤ} {v : List ℚ} : ∀ e, npPut p l v = .error e → e ≠ .recursionError := by
  unfold npPut
  split_ifs
  · rintro e ⟨⟩
  · have key : ∀ (l : List ℤ) (k : ℕ) (p : Profile) (e : Err), npPutFrom v k l p = .error e → e ≠ .recursionError := by
      intro l
      induction l with
      | nil => rintro k p e ⟨⟩
      | cons i is ih =>
        intro k p e h
        unfold npPutFrom at h
        cases hw : wrapIdx i with
        | none => rw [hw] at h; cases h; simp
        | some q => rw [hw] at h; exact ih _ _ _ h
    exact key l 0 p

theorem available_calm {s : List Spot} {l : List ℤ} : ∀ e, updateAvailableTime s l = .error e → e ≠ .recursionError := by
  unfold updateAvailableTime
  split_ifs
  · rintro e ⟨⟩
  · intro e h
    split at h <;> cases h
    simp

theorem calm_indexes (c d s : ℤ) : Calm (drawIndexes c d s) :=
  calm_ite (calm_bind (calm_uniform _ _) fun _ => calm_pure _) (calm_ite (calm_pure _) (calm_raise (by simp)))

theorem calm_number (a : Appliance) (b : Bool) : Calm (calcCoincidentSwitchOn a b) := by
  unfold calcCoincidentSwitchOn
  exact calm_ite (calm_bind (calm_gauss _ _) fun _ => calm_pure _)
    (calm_ite (calm_ite (calm_raise (by simp)) (calm_bind (calm_uniform _ _) fun _ => calm_pure _)) (calm_pure _))

theorem calm_preference (n : ℤ) : Calm (drawPreference n) := calm_ite (calm_pure _) (calm_randint _ _)

/-! ## At least as many warnings as calls -/

/-- A `RecursionError` comes after at least `D` warnings. -/
def Counts (D : ℕ) (t : Traced Message α) : Prop := ∀ r, (t r).2 = .error .recursionError → D ≤ (cycleWarnings (t r).1).length

theorem counts_quiet {D : ℕ} {m : Sim α} (h : Calm m) : Counts D (quiet m) := by
  intro r hr
  have h1 := h r
  rw [show m r = .error .recursionError from hr] at h1
  exact absurd rfl h1

theorem counts_pure {D : ℕ} (a : α) : Counts D (pure a) := fun _ h => by cases h

theorem counts_bind {D : ℕ} {t : Traced Message α} {f : α → Traced Message β} (h : Counts D t) (hf : ∀ a, Counts D (f a)) : Counts D (t >>= f) := by
  intro r
  rw [told_bind]
  have h1 := h r
  revert h1
  rcases t r with ⟨l, e | ⟨a, r'⟩⟩
  · intro h1 h2
    have h3 : (Except.error e : Except Err (β × Rng)) = .error .recursionError := h2
    cases h3
    exact h1 rfl
  · intro _ h2
    refine (hf a r' h2).trans ?_
    show _ ≤ (cycleWarnings (l ++ (f a r').1)).length
    unfold cycleWarnings
    rw [List.filter_append, List.length_append]
    omega

theorem counts_ite {D : ℕ} {c : Prop} [Decidable c] {t t' : Traced Message α} (h : Counts D t) (h' : Counts D t') : Counts D (if c then t else t') := by
  split_ifs
  · exact h
  · exact h'

theorem counts_note {D : ℕ} (s : Message) : Counts D (note s) := fun _ h => by cases h

theorem counts_warning {D : ℕ} {a : String} {n s e : ℤ} {ws : List (ℤ × ℤ)} {f : Unit → Traced Message β} (h : Counts D (f ())) :
    Counts (D + 1) (note (.outsideCycles a n s e ws) >>= f) := by
  intro r h1
  rw [told_bind] at h1 ⊢
  have h2 := h r h1
  show D + 1 ≤ (cycleWarnings ([.outsideCycles a n s e ws] ++ (f () r).1)).length
  unfold cycleWarnings at h2 ⊢
  rw [List.filter_append, List.length_append]
  simp only [List.filter_cons, List.filter_nil, if_true, List.length_cons, List.length_nil]
  omega

theorem counts_window (rt : ℤ) : ∀ (depth : ℕ) (a : Appliance), Counts depth (toldWindow depth a rt) := by
  intro depth
  induction depth with
  | zero => exact fun a r _ => Nat.zero_le _
  | succ depth ih =>
    intro a
    unfold toldWindow
    refine counts_ite (counts_bind (counts_quiet (calm_randint _ _)) fun k => ?_) (counts_pure _)
    split
    · exact counts_quiet (calm_raise (by simp))
    · split
      · exact counts_quiet (calm_raise (by simp))
      · refine counts_bind (counts_quiet (calm_indexes _ _ _)) fun l => counts_ite ?_ (counts_pure _)
        split
        · split
          · exact counts_ite (counts_pure _) (counts_pure _)
          · exact counts_warning (ih a)
        · exact counts_quiet (calm_raise (by simp))

section
variable {depth : ℕ}

theorem counts_putEvent (a : Appliance) (c : ℤ) (p : ℚ) (l : List ℤ) : Counts depth (toldPutEvent a c p l) := by
  have h : ∀ v, Counts depth (do let d ← quiet (liftE (npPut a.dailyUse l v)); pure { a with dailyUse := d } : Traced Message Appliance) :=
    fun v => counts_bind (counts_quiet (calm_liftE put_calm)) fun _ => counts_pure _
  unfold toldPutEvent
  refine counts_ite (counts_ite (h _) (counts_ite (h _) (counts_ite (h _) (counts_bind (counts_note _) fun _ => counts_pure _)))) ?_
  exact counts_bind (counts_quiet (calm_variation _ _)) fun _ => counts_bind (counts_quiet (calm_liftE put_calm)) fun _ => counts_pure _

theorem counts_book (a : Appliance) (peak : List ℤ) (p : ℚ) (l : List ℤ) : Counts depth (toldBook a peak p l) := by
  unfold toldBook toldUpdate
  split
  · exact counts_bind (counts_quiet (calm_number _ _)) fun c => counts_bind
      (counts_bind (counts_putEvent _ _ _ _) fun _ => counts_bind (counts_quiet (calm_liftE available_calm)) fun _ => counts_pure _) fun _ => counts_pure _
  · exact counts_quiet (calm_raise (by simp))

theorem counts_loop (peak : List ℤ) (power : ℚ) (rt : ℤ) : ∀ (fuel : ℕ) (a : Appliance) (tot : ℤ) (log : List Booking), Counts depth (toldLoop depth peak power rt fuel a tot log)
  | 0, _, _, _ => counts_quiet (calm_raise (by simp))
  | fuel + 1, a, tot, log => by
    unfold toldLoop
    refine counts_ite (counts_bind (counts_window _ _ _) fun ⟨b, e⟩ => ?_) (counts_pure _)
    cases e with
    | none => exact counts_pure _
    | some e =>
      exact counts_ite (counts_ite (counts_bind (counts_book _ _ _ _) fun _ => counts_pure _) (counts_pure _))
        (counts_bind (counts_book _ _ _ _) fun ⟨b, c⟩ => counts_loop peak power rt fuel _ _ _)

theorem counts_generate (a : Appliance) (pref : ℤ) (profI : ℕ) (peak : List ℤ) (dayType : ℤ) (power : ℚ) : Counts depth (toldGenerate a depth pref profI peak dayType power) := by
  unfold toldGenerate
  refine counts_bind (counts_quiet (calm_uniform _ _)) fun _ => counts_ite (counts_pure _) ?_
  refine counts_bind (counts_quiet (calm_window _ _)) fun _ => counts_bind (counts_quiet (calm_window _ _)) fun _ => counts_bind (counts_quiet (calm_window _ _)) fun _ =>
    counts_bind (counts_quiet (calm_time _ _ _ _)) fun _ => counts_ite ?_ ?_
  · split
    · exact counts_quiet (calm_raise (by simp))
    · exact counts_bind (counts_quiet (calm_liftE windows_calm)) fun _ => counts_pure _
  · exact counts_bind (counts_quiet (calm_liftE windows_calm)) fun _ => counts_bind (counts_quiet (calm_cycles _)) fun _ =>
      counts_bind (counts_loop _ _ _ _ _ _ _) fun _ => counts_pure _

theorem counts_singleLoop (profI : ℕ) (peak : List ℤ) (dayType pref : ℤ) : ∀ (l : List Appliance) (load : Profile), Counts depth (toldSingleLoop depth profI peak dayType pref l load) := by
  intro l
  induction l with
  | nil => exact fun _ => counts_pure _
  | cons a rest ih =>
    intro load
    unfold toldSingleLoop
    split
    · exact counts_quiet (calm_raise (by simp))
    · exact counts_bind (counts_generate _ _ _ _ _ _) fun _ => counts_bind (ih _) fun _ => counts_pure _

theorem counts_members (profI : ℕ) (peak : List ℤ) (dayType : ℤ) : ∀ (n : ℕ) (u : User) (load : Profile), Counts depth (toldMembers depth profI peak dayType n u load) := by
  intro n
  induction n with
  | zero => exact fun _ _ => counts_pure _
  | succ n ih =>
    intro u load
    unfold toldMembers toldSingle
    exact counts_bind (counts_bind (counts_quiet (calm_preference _)) fun _ => counts_bind (counts_singleLoop _ _ _ _ _ _) fun _ => counts_pure _) fun _ => ih _ _

theorem counts_users (k : ℕ) (peak : List ℤ) (dayType : ℤ) : ∀ (us : List User) (load : Profile), Counts depth (toldUsers depth k peak dayType us load) := by
  intro us
  induction us with
  | nil => exact fun _ => counts_pure _
  | cons u us ih =>
    intro load
    unfold toldUsers toldAggregated
    exact counts_bind (counts_bind (counts_members _ _ _ _ _ _) fun _ => counts_pure _) fun _ => counts_bind (ih _) fun _ => counts_pure _

theorem counts_days (peak : List ℤ) (verbose : Bool) (n : ℤ) : ∀ (ds : List ℤ) (k : ℕ) (us : List User) (rows : List Profile), Counts depth (toldDaysLoop depth peak verbose n k ds us rows) := by
  intro ds
  induction ds with
  | nil => exact fun _ _ _ => counts_pure _
  | cons d ds ih =>
    intro k us rows
    unfold toldDaysLoop
    exact counts_bind (counts_users _ _ _ _ _) fun _ => counts_ite (counts_ite (counts_bind (counts_note _) fun _ => ih _ _ _) (ih _ _ _)) (counts_quiet (calm_raise (by simp)))

end

/-! ## The warnings are true, and the message of `update_daily_use` is never printed -/

/-- A true warning about the appliance `a`. -/
def WarnsOf (a : Appliance) (m : Message) : Prop := ∃ name number s e ws, m = .outsideCycles name number s e ws ∧ OutsideEvent a name number s e ws

theorem same_fixedCycle {a b : Appliance} (h : SameDefinition a b) : b.fixedCycle = a.fixedCycle := by rw [h]

theorem event_length {c d s : ℤ} : Sat (drawIndexes c d s) (fun l => ∃ x, l = arange s (s + x) ∧ c ≤ x) (fun _ => True) := by
  unfold drawIndexes
  refine sat_ite (fun h => sat_bind (sat_uniform fun u h0 h1 => sat_pure ⟨_, rfl, le_pyInt ?_⟩)) fun _ => sat_ite (fun h => sat_pure ⟨_, rfl, h.ge⟩) fun _ => sat_raise trivial
  have : (c : ℚ) ≤ d := by exact_mod_cast h.le
  nlinarith

theorem no_window {lo hi m : ℤ} {w : ℤ × ℤ} (h : rangeWithinWindow lo hi w = false) (h1 : lo ≤ m) (h2 : m ≤ hi) : ¬ (w.1 ≤ m ∧ m ≤ w.2) := by
  unfold rangeWithinWindow at h
  simp only [Bool.not_eq_false', Bool.or_eq_true, Bool.and_eq_true, decide_eq_true_eq] at h
  omega

theorem outside_of_none {a0 a : Appliance} (h : SameDefinition a0 a) {s x lo hi : ℤ} (hx : a0.funcCycle ≤ x) (hf : 0 < a.fixedCycle) (h1 : (arange s (s + x)).head? = some lo)
    (h2 : (arange s (s + x)).getLast? = some hi) (hn : selectDutyCycle a lo hi = none) :
    WarnsOf a0 (.outsideCycles a.name a.fixedCycle s (s + (arange s (s + x)).length) (cycleWindowsOf a)) := by
  have hpos : 0 < x := by
    by_contra hc
    rw [arange_nil (by omega)] at h1
    cases h1
  rw [head?_arange (by omega)] at h1
  rw [getLast?_arange (by omega)] at h2
  obtain rfl := Option.some.inj h1
  obtain rfl := Option.some.inj h2
  have hlen : ((arange s (s + x)).length : ℤ) = x := by rw [length_arange]; omega
  refine ⟨_, _, _, _, _, rfl, by rw [h], by rw [h], by rw [← same_fixedCycle h]; exact hf, ?_, by omega, ?_⟩
  · unfold cycleWindowsOf
    rw [h]
  · unfold selectDutyCycle at hn
    split_ifs at hn with n1 n2 n3
    simp only [Bool.or_eq_true, not_or, Bool.not_eq_true] at n1 n2 n3
    intro w hw m hm1 hm2
    have hm3 : m ≤ s + x - 1 := by omega
    unfold cycleWindowsOf at hw
    simp only [List.mem_cons, List.not_mem_nil, or_false] at hw
    rcases hw with rfl | rfl | rfl | rfl | rfl | rfl
    · exact no_window n1.1 hm1 hm3
    · exact no_window n1.2 hm1 hm3
    · exact no_window n2.1 hm1 hm3
    · exact no_window n2.2 hm1 hm3
    · exact no_window n3.1 hm1 hm3
    · exact no_window n3.2 hm1 hm3

section
variable (a0 : Appliance)

/-- One of the three cycles is current. -/
def CycleSelected (a : Appliance) : Prop := 0 < a.fixedCycle → a.currentDutyCycleId = 1 ∨ a.currentDutyCycleId = 2 ∨ a.currentDutyCycleId = 3

theorem warns_window (rt : ℤ) : ∀ (depth : ℕ) {a : Appliance}, SameDefinition a0 a →
    Visits (toldWindow depth a rt) (WarnsOf a0) (fun x => SameDefinition a0 x.1 ∧ (x.2 ≠ none → CycleSelected x.1)) := by
  intro depth
  induction depth with
  | zero => exact fun _ => visits_raise
  | succ depth ih =>
    intro a h
    unfold toldWindow
    dsimp only
    refine visits_ite (fun _ => visits_bind visits_quiet' fun k _ => ?_) fun _ => visits_pure ⟨h, fun hc => absurd rfl hc⟩
    split
    · exact visits_raise
    · split
      · exact visits_raise
      · refine visits_bind (visits_quiet event_length) ?_
        rintro l ⟨x, rfl, hx⟩
        refine visits_ite (fun hf => ?_) fun hf => visits_pure ⟨h, fun _ hc => absurd hc hf⟩
        split
        · rename_i lo hi h1 h2
          split
          · rename_i i cycle hsel
            have hi : i = 1 ∨ i = 2 ∨ i = 3 := by
              unfold selectDutyCycle at hsel
              split_ifs at hsel <;> cases hsel <;> simp
            exact visits_ite (fun _ => visits_pure ⟨h.trans rfl, fun _ _ => hi⟩) fun _ => visits_pure ⟨h.trans rfl, fun _ _ => hi⟩
          · rename_i hsel
            refine visits_bind (visits_note (Q := fun _ => True) (outside_of_none h ?_ hf h1 h2 hsel) trivial) fun _ _ => ih h
            have : a.funcCycle = a0.funcCycle := by rw [h]
            omega
        · exact visits_raise

theorem warns_putEvent {a : Appliance} (h : SameDefinition a0 a) (hs : CycleSelected a) (c : ℤ) (p : ℚ) (l : List ℤ) :
    Visits (toldPutEvent a c p l) (WarnsOf a0) (SameDefinition a0) := by
  unfold toldPutEvent
  refine visits_ite (fun hf => ?_) fun _ => visits_bind visits_quiet' fun _ _ => visits_bind visits_quiet' fun _ _ => visits_pure (h.trans rfl)
  refine visits_ite (fun _ => visits_bind visits_quiet' fun _ _ => visits_pure (h.trans rfl)) fun h1 => ?_
  refine visits_ite (fun _ => visits_bind visits_quiet' fun _ _ => visits_pure (h.trans rfl)) fun h2 => ?_
  refine visits_ite (fun _ => visits_bind visits_quiet' fun _ _ => visits_pure (h.trans rfl)) fun h3 => ?_
  exact absurd (hs hf) (by tauto)

theorem warns_book {a : Appliance} (h : SameDefinition a0 a) (hs : CycleSelected a) (peak : List ℤ) (p : ℚ) (l : List ℤ) :
    Visits (toldBook a peak p l) (WarnsOf a0) (fun x => SameDefinition a0 x.1) := by
  unfold toldBook toldUpdate
  split
  · exact visits_bind visits_quiet' fun c _ => visits_bind (visits_bind (warns_putEvent a0 h hs _ _ _) fun b hb => visits_bind visits_quiet' fun _ _ =>
      visits_pure (Q := SameDefinition a0) (hb.trans rfl)) fun b hb => visits_pure hb
  · exact visits_raise

theorem warns_loop (depth : ℕ) (peak : List ℤ) (power : ℚ) (rt : ℤ) : ∀ (fuel : ℕ) {a : Appliance} (tot : ℤ) (log : List Booking), SameDefinition a0 a →
    Visits (toldLoop depth peak power rt fuel a tot log) (WarnsOf a0) (fun x => SameDefinition a0 x.1)
  | 0, _, _, _, _ => visits_raise
  | fuel + 1, a, tot, log, h => by
    unfold toldLoop
    refine visits_ite (fun _ => ?_) (fun _ => visits_pure h)
    refine visits_bind (warns_window a0 rt depth h) ?_
    rintro ⟨b, e⟩ ⟨hb, hs⟩
    cases e with
    | none => exact visits_pure hb
    | some e =>
      have hs' : CycleSelected b := hs (by simp)
      refine visits_ite (fun _ => visits_ite (fun _ => ?_) (fun _ => visits_pure hb)) (fun _ => ?_)
      · refine visits_bind (warns_book a0 hb hs' peak power _) ?_
        rintro ⟨c, n⟩ hc
        exact visits_pure hc
      · refine visits_bind (warns_book a0 hb hs' peak power _) ?_
        rintro ⟨c, n⟩ hc
        exact warns_loop depth peak power rt fuel _ _ hc

theorem warns_generate {a : Appliance} (h : SameDefinition a0 a) (depth : ℕ) (pref : ℤ) (profI : ℕ) (peak : List ℤ) (dayType : ℤ) (power : ℚ) :
    Visits (toldGenerate a depth pref profI peak dayType power) (WarnsOf a0) (SameDefinition a0) := by
  have h0 : SameDefinition a0 { a with dailyUse := zeros } := h.trans rfl
  unfold toldGenerate
  refine visits_bind visits_quiet' fun x _ => visits_ite (fun _ => visits_pure h0) (fun _ => ?_)
  refine visits_bind visits_quiet' fun w1 _ => visits_bind visits_quiet' fun w2 _ => visits_bind visits_quiet' fun w3 _ => visits_bind visits_quiet' fun rt _ => ?_
  refine visits_ite (fun _ => ?_) (fun _ => ?_)
  · split
    · exact visits_raise
    · exact visits_bind visits_quiet' fun _ _ => visits_pure (h0.trans rfl)
  · refine visits_bind visits_quiet' fun d _ => ?_
    have h1 : SameDefinition a0 { a with dailyUse := d } := h.trans rfl
    refine visits_bind (R := SameDefinition a0) ?_ fun c hc => ?_
    · have := visits_cycles a0 h1
      rw [← outcome_cycles]
      intro r
      exact ⟨fun s hs => absurd hs (by simp [quiet]), (this r).2⟩
    · have hc' : SameDefinition a0 { c with freeSpots := initialSpots [w1, w2, w3] } := hc.trans rfl
      refine visits_bind (warns_loop a0 depth peak power rt _ _ _ hc') ?_
      rintro ⟨d, _⟩ hd
      exact visits_pure hd
end

/-- A true warning about an appliance of the users. -/
def WarnsOfUsers (us : List User) (m : Message) : Prop := ∃ u ∈ us, ∃ a ∈ u.appList, WarnsOf a m

theorem warns_singleLoop (depth profI : ℕ) (peak : List ℤ) (dayType pref : ℤ) : ∀ (l0 l : List Appliance) (load : Profile), List.Forall₂ SameDefinition l0 l →
    Visits (toldSingleLoop depth profI peak dayType pref l load) (fun m => ∃ a ∈ l0, WarnsOf a m) (fun x => List.Forall₂ SameDefinition l0 x.1) := by
  intro l0
  induction l0 with
  | nil =>
    intro l load hl
    cases hl
    unfold toldSingleLoop
    exact visits_pure .nil
  | cons a0 rest0 ih =>
    intro l load hl
    cases hl with
    | cons ha hrest =>
    unfold toldSingleLoop
    split
    · exact visits_raise
    · refine visits_bind (visits_weaken (warns_generate a0 ha depth pref profI peak dayType _) (fun m hm => ⟨a0, by simp, hm⟩) fun _ h => h) fun b hb => ?_
      refine visits_bind (visits_weaken (ih _ _ hrest) (fun m hm => ?_) fun _ h => h) ?_
      · obtain ⟨c, hc, hm⟩ := hm
        exact ⟨c, List.mem_cons_of_mem _ hc, hm⟩
      · rintro ⟨r, l⟩ hr
        exact visits_pure (.cons hb hr)

theorem warns_single (depth profI : ℕ) (peak : List ℤ) (dayType : ℤ) {u0 u : User} (h : SameUser u0 u) :
    Visits (toldSingle depth u profI peak dayType) (fun m => ∃ a ∈ u0.appList, WarnsOf a m) (fun x => SameUser u0 x.1) := by
  unfold toldSingle
  refine visits_bind visits_quiet' fun pref _ => visits_bind (warns_singleLoop depth profI peak dayType _ u0.appList u.appList zeros h.appliances) ?_
  rintro ⟨apps, load⟩ ha
  exact visits_pure ⟨h.name, h.number, h.preference, ha⟩

theorem warns_members (depth profI : ℕ) (peak : List ℤ) (dayType : ℤ) {u0 : User} : ∀ (n : ℕ) {u : User} (load : Profile), SameUser u0 u →
    Visits (toldMembers depth profI peak dayType n u load) (fun m => ∃ a ∈ u0.appList, WarnsOf a m) (fun x => SameUser u0 x.1) := by
  intro n
  induction n with
  | zero => intro u load h; exact visits_pure h
  | succ n ih =>
    intro u load h
    unfold toldMembers
    refine visits_bind (warns_single depth profI peak dayType h) ?_
    rintro ⟨v, s⟩ hv
    exact ih _ hv

theorem warns_users (depth k : ℕ) (peak : List ℤ) (dayType : ℤ) : ∀ (us0 us : List User) (load : Profile), List.Forall₂ SameUser us0 us →
    Visits (toldUsers depth k peak dayType us load) (WarnsOfUsers us0) (fun x => List.Forall₂ SameUser us0 x.1) := by
  intro us0
  induction us0 with
  | nil =>
    intro us load hus
    cases hus
    unfold toldUsers
    exact visits_pure .nil
  | cons u0 rest0 ih =>
    intro us load hus
    cases hus with
    | cons hu hrest =>
    rename_i u rest
    unfold toldUsers toldAggregated
    refine visits_bind (R := fun x : User × Profile => SameUser u0 x.1) (visits_bind (visits_weaken (warns_members depth k peak dayType _ zeros hu) (fun m hm => ⟨u0, by simp, hm⟩) fun _ h => h) ?_) ?_
    · rintro ⟨v, l⟩ hv
      exact visits_pure ⟨hv.name, hv.number, hv.preference, hv.appliances⟩
    · rintro ⟨v, l⟩ hv
      refine visits_bind (visits_weaken (ih _ _ hrest) (fun m hm => ?_) fun _ h => h) ?_
      · obtain ⟨c, hc, hm⟩ := hm
        exact ⟨c, List.mem_cons_of_mem _ hc, hm⟩
      · rintro ⟨r, l⟩ hr
        exact visits_pure (.cons hv hr)

theorem warns_days (depth : ℕ) (peak : List ℤ) (verbose : Bool) (n : ℤ) {us0 : List User} : ∀ (ds : List ℤ) (k : ℕ) {us : List User} (rows : List Profile), List.Forall₂ SameUser us0 us →
    Visits (toldDaysLoop depth peak verbose n k ds us rows) (fun m => WarnsOfUsers us0 m ∨ (verbose = true ∧ ∃ j, m = .dayCompleted j n)) (fun x => List.Forall₂ SameUser us0 x.1) := by
  intro ds
  induction ds with
  | nil => intro k us rows h; exact visits_pure h
  | cons d ds ih =>
    intro k us rows h
    unfold toldDaysLoop
    refine visits_bind (visits_weaken (warns_users depth k peak _ us0 us zeros h) (fun m hm => .inl hm) fun _ h => h) ?_
    rintro ⟨vs, load⟩ hv
    refine visits_ite (fun _ => visits_ite (fun hb => ?_) fun _ => ih _ _ hv) (fun _ => visits_raise)
    exact visits_bind (visits_note (Q := fun _ => True) (.inr ⟨hb, _, rfl⟩) trivial) fun _ _ => ih _ _ hv

end Ramp
