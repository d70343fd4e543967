import Verif.Model.Messages
import Verif.Props.Interrupted
import Verif.Props.Failures

/-! # Lemmas about the messages -/

set_option autoImplicit false

namespace Ramp

variable {α β : Type}

/-! ## Forgetting the messages -/

theorem outcome_toldNumDays (uc : UseCase) (n : Option ℤ) : outcome (toldNumDays uc n) = pure (initNumDays uc n) := by
  unfold toldNumDays initNumDays
  cases n with
  | none => rfl
  | some n =>
    simp only [outcome_ite]
    split_ifs <;> simp only [outcome_bind, outcome_note, outcome_pure, sim_pure_bind]

theorem outcome_toldDates (uc : UseCase) : outcome (toldDates uc) = pure (initDates uc) := by
  unfold toldDates initDates
  cases uc.dateStart with
  | none => rfl
  | some s => cases uc.dateEnd with
    | none => rfl
    | some e => cases uc.numDays with
      | none => rfl
      | some n =>
        simp only [outcome_ite]
        split_ifs <;> simp only [outcome_bind, outcome_note, outcome_pure, sim_pure_bind]

theorem outcome_toldInput (env : Env) (uc : UseCase) : outcome (toldInput env uc) = pure (initInput env uc) := by
  unfold toldInput initInput
  cases uc.numDays with
  | some n => rfl
  | none => cases env.input <;> rfl

theorem outcome_toldShow (uc : UseCase) (f g : ℤ → ℤ → ℤ) : outcome (toldShow uc f g) = pure (showDays uc) := by
  unfold toldShow showDays
  rcases uc.days with _ | _ | _ <;> rfl

theorem outcome_toldDays (env : Env) (uc : UseCase) : outcome (toldDays env uc) = pure (initDays env uc) := by
  unfold toldDays initDays chooseDays
  cases uc.days with
  | some d => exact outcome_toldShow uc _ _
  | none => cases uc.dateStart with
    | some s => cases h : dateRangeFrom s (uc.numDays.getD 0) with
      | error e => simp only [h]; rfl
      | ok d => simp only [h]; exact outcome_toldShow _ _ _
    | none => cases uc.dateEnd with
      | some e => cases h : dateRangeTo e (uc.numDays.getD 0) with
        | error e => simp only [h]; rfl
        | ok d => simp only [h]; exact outcome_toldShow _ _ _
      | none => cases h : dateRangeFrom env.today (uc.numDays.getD 0) with
        | error e => simp only [h]; rfl
        | ok d => simp only [h]; exact outcome_toldShow _ _ _

theorem outcome_toldPowerValues (app : Appliance) (n : ℤ) : outcome (toldPowerValues app n) = pure (checkPowerValues app n) := by
  unfold toldPowerValues checkPowerValues
  simp only [outcome_ite]
  split_ifs
  · cases app.power.head? with
    | none => rfl
    | some p => cases h : onesTimes (n + 1) p <;> simp only [h] <;> rfl
  · rfl
  · rfl

theorem outcome_toldPowers (n : ℤ) : ∀ (rs : List (ℕ × ℕ)) (uc : UseCase), outcome (toldPowers n rs uc) = pure (checkPowers n rs uc) := by
  intro rs
  induction rs with
  | nil => intro uc; rfl
  | cons r rs ih =>
    intro uc
    unfold toldPowers checkPowers
    cases uc.findApp r with
    | none => rfl
    | some app =>
      simp only [outcome_bind, outcome_toldPowerValues, sim_pure_bind]
      cases checkPowerValues app n with
      | error e => rfl
      | ok a => exact ih _

theorem outcome_toldCalendar (env : Env) (uc : UseCase) (args : InitArgs) : outcome (toldCalendar env uc args) = pure (initCalendar env uc args) := by
  unfold toldCalendar initCalendar
  simp only [outcome_bind, outcome_toldNumDays, outcome_toldDates, outcome_toldInput, sim_pure_bind]
  rcases initInput env (initDates (initNumDays uc args.numDays)) with ⟨v, _ | _⟩
  · rfl
  · simp only [outcome_bind, outcome_toldDays, sim_pure_bind]
    rcases initDays env v with ⟨w, _ | _⟩
    · rfl
    · exact outcome_toldPowers _ _ _

theorem outcome_toldInitialize (env : Env) (uc : UseCase) (args : InitArgs) : outcome (toldInitialize env uc args) = initUseCase env uc args := by
  unfold toldInitialize initUseCase
  simp only [outcome_ite, outcome_bind, outcome_note, outcome_pure, sim_pure_bind]
  split_ifs with h1 h2
  · rfl
  · simp only [sim_pure_bind, outcome_toldCalendar]
    rcases initCalendar env { uc with days := none } args with ⟨v, _ | _⟩
    · rfl
    · cases args.peakEnlarge with
      | some x =>
        simp only [outcome_bind, outcome_quiet]
        congr 1
        funext ⟨w, r⟩
        cases r <;> rfl
      | none =>
        simp only [outcome_bind, outcome_quiet]
        congr 1
        funext r
        cases r <;> rfl
  · simp only [sim_pure_bind, outcome_toldCalendar]
    rcases initCalendar env uc args with ⟨v, _ | _⟩
    · rfl
    · cases args.peakEnlarge with
      | some x =>
        simp only [outcome_bind, outcome_quiet]
        congr 1
        funext ⟨w, r⟩
        cases r <;> rfl
      | none =>
        simp only [outcome_bind, outcome_quiet]
        congr 1
        funext r
        cases r <;> rfl

theorem outcome_toldNumDaysProperty (env : Env) (uc : UseCase) : outcome (toldNumDaysProperty env uc) = numDaysProperty env uc := by
  unfold toldNumDaysProperty numDaysProperty
  cases uc.numDays with
  | some n => rfl
  | none =>
    simp only [outcome_bind, outcome_toldInitialize]
    congr 1
    funext ⟨w, r⟩
    cases r <;> rfl

/-! ## The warnings of a simulation -/

/-- The warning of an event outside of all duty cycle windows. -/
def Message.isOutside : Message → Bool
  | .outsideCycles _ _ _ _ _ => true
  | _ => false

/-- Without such warnings the execution ends as `m`, otherwise `m` raises `RecursionError`. -/
def Agrees (t : Traced Message α) (m : Sim α) : Prop :=
  ∀ r, ((∀ w ∈ (t r).1, w.isOutside = false) ∧ m r = (t r).2) ∨ ((∃ w ∈ (t r).1, w.isOutside = true) ∧ m r = .error .recursionError)

theorem told_bind {σ : Type} (m : Traced σ α) (f : α → Traced σ β) (r : Rng) :
    (m >>= f) r = match m r with | (l, .ok (a, r')) => (l ++ (f a r').1, (f a r').2) | (l, .error e) => (l, .error e) := by
  delta bind Monad.toBind instMonadTraced
  dsimp only
  rcases m r with ⟨l, _ | ⟨a, r'⟩⟩ <;> rfl

theorem sim_bind_apply (m : Sim α) (f : α → Sim β) (r : Rng) : (m >>= f) r = match m r with | .ok (a, r') => f a r' | .error e => .error e := rfl

theorem agrees_quiet (m : Sim α) : Agrees (quiet m) m := fun _ => .inl ⟨fun _ h => absurd h (by simp [quiet]), rfl⟩
theorem agrees_pure (a : α) : Agrees (pure a) (pure a : Sim α) := fun _ => .inl ⟨fun _ h => absurd h List.not_mem_nil, rfl⟩

theorem agrees_bind {t : Traced Message α} {m : Sim α} {f : α → Traced Message β} {g : α → Sim β} (h : Agrees t m) (hf : ∀ a, Agrees (f a) (g a)) :
    Agrees (t >>= f) (m >>= g) := by
  intro r
  rw [told_bind, sim_bind_apply]
  have h1 := h r
  revert h1
  rcases t r with ⟨l, e | ⟨a, r'⟩⟩
  · rintro (⟨h1, h2⟩ | ⟨h1, h2⟩)
    · rw [h2]
      exact .inl ⟨h1, rfl⟩
    · rw [h2]
      exact .inr ⟨h1, rfl⟩
  · rintro (⟨h1, h2⟩ | ⟨⟨w, hw, hw'⟩, h2⟩)
    · rw [h2]
      rcases hf a r' with ⟨h3, h4⟩ | ⟨⟨w, hw, hw'⟩, h4⟩
      · refine .inl ⟨fun w hw => ?_, h4⟩
        rcases List.mem_append.1 hw with hw | hw
        · exact h1 w hw
        · exact h3 w hw
      · exact .inr ⟨⟨w, List.mem_append_right _ hw, hw'⟩, h4⟩
    · rw [h2]
      exact .inr ⟨⟨w, List.mem_append_left _ hw, hw'⟩, rfl⟩

theorem agrees_ite {c : Prop} [Decidable c] {t t' : Traced Message α} {m m' : Sim α} (h : Agrees t m) (h' : Agrees t' m') :
    Agrees (if c then t else t') (if c then m else m') := by
  split_ifs
  · exact h
  · exact h'

theorem agrees_other {s : Message} (hs : s.isOutside = false) {f : Unit → Traced Message α} {m : Sim α} (h : Agrees (f ()) m) : Agrees (note s >>= f) m := by
  intro r
  rw [told_bind]
  rcases h r with ⟨h1, h2⟩ | ⟨⟨w, hw, hw'⟩, h2⟩
  · refine .inl ⟨fun w hw => ?_, h2⟩
    have hw' : w ∈ [s] ++ (f () r).1 := hw
    rcases List.mem_append.1 hw' with hw | hw
    · rw [List.mem_singleton.1 hw]
      exact hs
    · exact h1 w hw
  · exact .inr ⟨⟨w, List.mem_append_right _ hw, hw'⟩, h2⟩

theorem agrees_warning {s : Message} (hs : s.isOutside = true) {f : Unit → Traced Message α} : Agrees (note s >>= f) (raise .recursionError) := by
  intro r
  rw [told_bind]
  exact .inr ⟨⟨s, List.mem_append_left _ (List.mem_singleton.2 rfl), hs⟩, rfl⟩

theorem agrees_window (depth : ℕ) (app : Appliance) (rt : ℤ) : Agrees (toldWindow (depth + 1) app rt) (randSwitchOnWindow 1 app rt) := by
  unfold toldWindow randSwitchOnWindow
  refine agrees_ite ?_ (agrees_pure _)
  refine agrees_bind (agrees_quiet _) fun k => ?_
  cases (switchOnChoices app.freeSpots app.funcCycle)[k.toNat]? with
  | none => exact agrees_quiet _
  | some switchOn =>
    dsimp only
    cases List.find? (fun fs : Spot => decide (fs.start ≤ switchOn) && decide (switchOn ≤ fs.stop - app.funcCycle)) app.freeSpots with
    | none => exact agrees_quiet _
    | some spot =>
      dsimp only
      refine agrees_bind (agrees_quiet _) fun indexes => agrees_ite ?_ (agrees_pure _)
      cases indexes.head? with
      | none => exact agrees_quiet _
      | some lo => cases indexes.getLast? with
        | none => exact agrees_quiet _
        | some hi =>
          dsimp only
          cases selectDutyCycle app lo hi with
          | none => exact agrees_warning rfl
          | some x => exact agrees_ite (agrees_pure _) (agrees_pure _)

theorem agrees_putEvent (app : Appliance) (c : ℤ) (p : ℚ) (l : List ℤ) : Agrees (toldPutEvent app c p l) (putEvent app c p l) := by
  unfold toldPutEvent putEvent
  refine agrees_ite (agrees_ite ?_ (agrees_ite ?_ (agrees_ite ?_ ?_))) ?_
  · exact agrees_bind (agrees_quiet _) fun _ => agrees_pure _
  · exact agrees_bind (agrees_quiet _) fun _ => agrees_pure _
  · exact agrees_bind (agrees_quiet _) fun _ => agrees_pure _
  · exact agrees_other rfl (agrees_pure _)
  · exact agrees_bind (agrees_quiet _) fun _ => agrees_bind (agrees_quiet _) fun _ => agrees_pure _

theorem agrees_update (app : Appliance) (c : ℤ) (p : ℚ) (l : List ℤ) : Agrees (toldUpdate app c p l) (updateDailyUse app c p l) := by
  unfold toldUpdate updateDailyUse
  exact agrees_bind (agrees_putEvent _ _ _ _) fun _ => agrees_bind (agrees_quiet _) fun _ => agrees_pure _

theorem agrees_book (app : Appliance) (peak : List ℤ) (p : ℚ) (l : List ℤ) : Agrees (toldBook app peak p l) (bookEvent app peak p l) := by
  unfold toldBook bookEvent
  cases l.head? <;> cases l.getLast? <;> cases peak.head? <;> cases peak.getLast? <;> dsimp only <;>
    first
    | exact agrees_quiet _
    | exact agrees_bind (agrees_quiet _) fun _ => agrees_bind (agrees_update _ _ _ _) fun _ => agrees_pure _

theorem agrees_loop (depth : ℕ) (peak : List ℤ) (power : ℚ) (rt : ℤ) : ∀ (fuel : ℕ) (app : Appliance) (tot : ℤ) (log : List Booking),
    Agrees (toldLoop (depth + 1) peak power rt fuel app tot log) (switchOnLoop 1 peak power rt fuel app tot log)
  | 0, _, _, _ => agrees_quiet _
  | fuel + 1, app, tot, log => by
    unfold toldLoop switchOnLoop
    refine agrees_ite (agrees_bind (agrees_window _ _ _) fun ⟨a, e⟩ => ?_) (agrees_pure _)
    cases e with
    | none => exact agrees_pure _
    | some e =>
      refine agrees_ite (agrees_ite (agrees_bind (agrees_book _ _ _ _) fun _ => agrees_pure _) (agrees_pure _)) (agrees_bind (agrees_book _ _ _ _) fun ⟨b, c⟩ => ?_)
      exact agrees_loop depth peak power rt fuel _ _ _

theorem agrees_generate (app : Appliance) (depth : ℕ) (pref : ℤ) (profI : ℕ) (peak : List ℤ) (dayType : ℤ) (power : ℚ) :
    Agrees (toldGenerate app (depth + 1) pref profI peak dayType power) (generateLoadProfile app 1 pref profI peak dayType power) := by
  unfold toldGenerate generateLoadProfile generateLoadProfileInfo
  simp only [sim_bind_assoc, sim_ite_bind, sim_pure_bind]
  refine agrees_bind (agrees_quiet _) fun x => agrees_ite (agrees_pure _) ?_
  refine agrees_bind (agrees_quiet _) fun w1 => agrees_bind (agrees_quiet _) fun w2 => agrees_bind (agrees_quiet _) fun w3 => agrees_bind (agrees_quiet _) fun rt => ?_
  split_ifs
  · cases app.power[profI]? with
    | none => exact agrees_quiet _
    | some pw =>
      dsimp only
      simp only [sim_bind_assoc, sim_pure_bind]
      exact agrees_bind (agrees_quiet _) fun _ => agrees_pure _
  · refine agrees_bind (agrees_quiet _) fun d => agrees_bind (agrees_quiet _) fun a => agrees_bind (agrees_loop _ _ _ _ _ _ _ _) fun ⟨a, l⟩ => agrees_pure _

theorem agrees_singleLoop (depth profI : ℕ) (peak : List ℤ) (dayType pref : ℤ) : ∀ (l : List Appliance) (load : Profile),
    Agrees (toldSingleLoop (depth + 1) profI peak dayType pref l load) (singleLoop 1 profI peak dayType pref l load) := by
  intro l
  induction l with
  | nil => exact fun load => agrees_pure _
  | cons a rest ih =>
    intro load
    unfold toldSingleLoop singleLoop
    cases a.power[profI]? with
    | none => exact agrees_quiet _
    | some p =>
      dsimp only
      exact agrees_bind (agrees_generate _ _ _ _ _ _ _) fun a => agrees_bind (ih _) fun _ => agrees_pure _

theorem agrees_single (depth : ℕ) (u : User) (profI : ℕ) (peak : List ℤ) (dayType : ℤ) :
    Agrees (toldSingle (depth + 1) u profI peak dayType) (generateSingleLoadProfile 1 u profI peak dayType) := by
  unfold toldSingle generateSingleLoadProfile
  exact agrees_bind (agrees_quiet _) fun _ => agrees_bind (agrees_singleLoop _ _ _ _ _ _ _) fun _ => agrees_pure _

theorem agrees_members (depth profI : ℕ) (peak : List ℤ) (dayType : ℤ) : ∀ (n : ℕ) (u : User) (load : Profile),
    Agrees (toldMembers (depth + 1) profI peak dayType n u load) (aggregatedLoop 1 profI peak dayType n u load) := by
  intro n
  induction n with
  | zero => exact fun u load => agrees_pure _
  | succ n ih =>
    intro u load
    unfold toldMembers aggregatedLoop
    exact agrees_bind (agrees_single _ _ _ _ _) fun ⟨v, s⟩ => ih _ _

theorem agrees_aggregated (depth : ℕ) (u : User) (profI : ℕ) (peak : List ℤ) (dayType : ℤ) :
    Agrees (toldAggregated (depth + 1) u profI peak dayType) (generateAggregatedLoadProfile 1 u profI peak dayType) := by
  unfold toldAggregated generateAggregatedLoadProfile
  exact agrees_bind (agrees_members _ _ _ _ _ _ _) fun _ => agrees_pure _

theorem agrees_users (depth k : ℕ) (peak : List ℤ) (dayType : ℤ) : ∀ (us : List User) (load : Profile),
    Agrees (toldUsers (depth + 1) k peak dayType us load) (usersOfDay 1 k peak dayType us load) := by
  intro us
  induction us with
  | nil => exact fun load => agrees_pure _
  | cons u us ih =>
    intro load
    unfold toldUsers usersOfDay
    exact agrees_bind (agrees_aggregated _ _ _ _ _) fun ⟨v, l⟩ => agrees_bind (ih _) fun _ => agrees_pure _

theorem agrees_days (depth : ℕ) (peak : List ℤ) (verbose : Bool) (n : ℤ) : ∀ (ds : List ℤ) (k : ℕ) (us : List User) (rows : List Profile),
    Agrees (toldDaysLoop (depth + 1) peak verbose n k ds us rows) (daysLoop 1 peak k ds us rows) := by
  intro ds
  induction ds with
  | nil => exact fun k us rows => agrees_pure _
  | cons d ds ih =>
    intro k us rows
    unfold toldDaysLoop daysLoop
    refine agrees_bind (agrees_users _ _ _ _ _ _) fun ⟨us, load⟩ => agrees_ite ?_ (agrees_quiet _)
    cases verbose with
    | true => exact agrees_other rfl (ih _ _ _)
    | false =>
      have := ih (k + 1) us (rows.set k load)
      exact agrees_bind (t := pure ()) (m := pure ()) (f := fun _ => toldDaysLoop (depth + 1) peak false n (k + 1) ds us (rows.set k load))
        (g := fun _ => daysLoop 1 peak (k + 1) ds us (rows.set k load)) (agrees_pure ()) fun _ => this

/-! ## Forgetting the messages of a simulation -/

theorem outcome_toldWindow (rt : ℤ) : ∀ (depth : ℕ) (app : Appliance), outcome (toldWindow depth app rt) = randSwitchOnWindow depth app rt := by
  intro depth
  induction depth with
  | zero => exact fun _ => rfl
  | succ depth ih =>
    intro app
    unfold toldWindow randSwitchOnWindow
    simp only [outcome_ite, outcome_bind, outcome_quiet, outcome_pure]
    by_cases hn : ((switchOnChoices app.freeSpots app.funcCycle).length : ℤ) > 0
    · rw [if_pos hn, if_pos hn]
      congr 1
      funext k
      cases (switchOnChoices app.freeSpots app.funcCycle)[k.toNat]? with
      | none => rfl
      | some switchOn =>
        dsimp only
        cases List.find? (fun fs : Spot => decide (fs.start ≤ switchOn) && decide (switchOn ≤ fs.stop - app.funcCycle)) app.freeSpots with
        | none => rfl
        | some spot =>
          dsimp only
          simp only [outcome_ite, outcome_bind, outcome_quiet, outcome_pure]
          congr 1
          funext indexes
          by_cases hf : app.fixedCycle > 0
          · rw [if_pos hf, if_pos hf]
            cases indexes.head? with
            | none => rfl
            | some lo => cases indexes.getLast? with
              | none => rfl
              | some hi =>
                dsimp only
                cases selectDutyCycle app lo hi with
                | none => simp only [outcome_bind, outcome_note, sim_pure_bind, ih]
                | some x => simp only [outcome_ite, outcome_pure]
          · rw [if_neg hf, if_neg hf]
    · rw [if_neg hn, if_neg hn]

theorem outcome_toldPutEvent (app : Appliance) (c : ℤ) (p : ℚ) (l : List ℤ) : outcome (toldPutEvent app c p l) = putEvent app c p l := by
  unfold toldPutEvent putEvent
  simp only [outcome_ite, outcome_bind, outcome_quiet, outcome_note, outcome_pure, sim_pure_bind]

theorem outcome_toldBook (app : Appliance) (peak : List ℤ) (p : ℚ) (l : List ℤ) : outcome (toldBook app peak p l) = bookEvent app peak p l := by
  unfold toldBook bookEvent toldUpdate updateDailyUse
  cases l.head? <;> cases l.getLast? <;> cases peak.head? <;> cases peak.getLast? <;>
    simp only [outcome_bind, outcome_quiet, outcome_pure, outcome_toldPutEvent]

theorem outcome_toldLoop (depth : ℕ) (peak : List ℤ) (power : ℚ) (rt : ℤ) : ∀ (fuel : ℕ) (app : Appliance) (tot : ℤ) (log : List Booking),
    outcome (toldLoop depth peak power rt fuel app tot log) = switchOnLoop depth peak power rt fuel app tot log
  | 0, _, _, _ => rfl
  | fuel + 1, app, tot, log => by
    unfold toldLoop switchOnLoop
    rw [outcome_ite]
    split_ifs with h
    · rw [outcome_bind, outcome_toldWindow]
      congr 1
      funext ⟨a, e⟩
      cases e with
      | none => rfl
      | some e =>
        simp only [outcome_ite, outcome_bind, outcome_toldBook, outcome_pure, outcome_toldLoop]
    · rfl

theorem outcome_toldGenerate (app : Appliance) (depth : ℕ) (pref : ℤ) (profI : ℕ) (peak : List ℤ) (dayType : ℤ) (power : ℚ) :
    outcome (toldGenerate app depth pref profI peak dayType power) = generateLoadProfile app depth pref profI peak dayType power := by
  unfold toldGenerate generateLoadProfile generateLoadProfileInfo
  simp only [outcome_ite, outcome_bind, outcome_quiet, outcome_pure, sim_pure_bind, sim_bind_assoc, sim_ite_bind, outcome_toldLoop]
  congr 1
  funext x
  split_ifs with h1 h2
  · rfl
  · congr 1; funext w1
    congr 1; funext w2
    congr 1; funext w3
    congr 1; funext rt
    cases app.power[profI]? with
    | none => rfl
    | some pw => simp only [outcome_bind, outcome_quiet, outcome_pure, sim_bind_assoc, sim_pure_bind]
  · rfl

theorem outcome_toldSingleLoop (depth profI : ℕ) (peak : List ℤ) (dayType pref : ℤ) : ∀ (l : List Appliance) (load : Profile),
    outcome (toldSingleLoop depth profI peak dayType pref l load) = singleLoop depth profI peak dayType pref l load := by
  intro l
  induction l with
  | nil => exact fun _ => rfl
  | cons a rest ih =>
    intro load
    unfold toldSingleLoop singleLoop
    cases a.power[profI]? with
    | none => rfl
    | some p => simp only [outcome_bind, outcome_toldGenerate, ih, outcome_pure]

theorem outcome_toldMembers (depth profI : ℕ) (peak : List ℤ) (dayType : ℤ) : ∀ (n : ℕ) (u : User) (load : Profile),
    outcome (toldMembers depth profI peak dayType n u load) = aggregatedLoop depth profI peak dayType n u load := by
  intro n
  induction n with
  | zero => exact fun _ _ => rfl
  | succ n ih =>
    intro u load
    unfold toldMembers aggregatedLoop toldSingle generateSingleLoadProfile
    simp only [outcome_bind, outcome_quiet, outcome_pure, outcome_toldSingleLoop, ih]

theorem outcome_toldUsers (depth k : ℕ) (peak : List ℤ) (dayType : ℤ) : ∀ (us : List User) (load : Profile),
    outcome (toldUsers depth k peak dayType us load) = usersOfDay depth k peak dayType us load := by
  intro us
  induction us with
  | nil => exact fun _ => rfl
  | cons u us ih =>
    intro load
    unfold toldUsers usersOfDay toldAggregated generateAggregatedLoadProfile
    simp only [outcome_bind, outcome_pure, outcome_toldMembers, ih]

theorem outcome_toldDaysLoop (depth : ℕ) (peak : List ℤ) (verbose : Bool) (n : ℤ) : ∀ (ds : List ℤ) (k : ℕ) (us : List User) (rows : List Profile),
    outcome (toldDaysLoop depth peak verbose n k ds us rows) = daysLoop depth peak k ds us rows := by
  intro ds
  induction ds with
  | nil => exact fun _ _ _ => rfl
  | cons d ds ih =>
    intro k us rows
    unfold toldDaysLoop daysLoop
    simp only [outcome_bind, outcome_toldUsers]
    congr 1
    funext ⟨us, load⟩
    simp only [outcome_ite, outcome_bind, outcome_note, outcome_quiet, ih, sim_pure_bind, ite_self]

theorem outcome_toldDaily (env : Env) (depth : ℕ) (uc : UseCase) (days : Option (List ℤ)) (verbose : Bool) :
    outcome (toldDaily env depth uc days verbose) = generateDaily env depth uc days := by
  unfold toldDaily generateDaily
  rcases resolveDays uc days with ⟨uc, _ | _⟩
  · rfl
  · simp only [outcome_bind, outcome_toldNumDaysProperty]
    congr 1
    funext ⟨uc, n⟩
    cases n with
    | error e => rfl
    | ok n => simp only [outcome_bind, outcome_quiet, outcome_pure, outcome_toldDaysLoop]

end Ramp
