import Verif.Lemmas.Announced

/-! # Property C114: what `initialize` says -/

set_option autoImplicit false

namespace Ramp

/-! ## All messages -/

/-- The messages of `initialize` up to the peak time range, part by part. -/
structure CalendarMessages (env : Env) (uc : UseCase) (args : InitArgs) (l : List Message) (l1 l2 l3 l4 l5 : List Message) : Prop where
  all : l = l1 ++ (l2 ++ (l3 ++ (l4 ++ l5)))
  provided : (l1 = [.daysProvided] ∧ args.numDays ≠ none ∧ uc.days ≠ none) ∨ (l1 = [] ∧ (args.numDays = none ∨ uc.days = none))
  dates : (l2 = [.numDaysOverDates] ∧ DatesDiffer (initNumDays uc args.numDays)) ∨ (l2 = [] ∧ ¬ DatesDiffer (initNumDays uc args.numDays))
  typed : ∀ m ∈ l3, m = .pleaseWait
  shown : (l4 = [] ∧ (initCalendar env uc args).2 ≠ .ok ()) ∨ ∃ d ds, l4 = [.willSimulate ((initCalendar env uc args).1.numDays.getD 0) d ((d :: ds).getLast (by simp) + 1440)] ∧
    (initCalendar env uc args).1.days = some (d :: ds)
  powers : ∀ m ∈ l5, ∃ u ∈ uc.users, ∃ a ∈ u.appList, m = .powerUpdated a.name ∧ a.constantPower = true ∧ (a.power.length : ℤ) < (initCalendar env uc args).1.numDays.getD 0
  unchanged : (∀ u ∈ uc.users, (u.appList.map Appliance.oid).Nodup) → l5 = [] → (initCalendar env uc args).1.users = uc.users

theorem calendar_messages (env : Env) (uc : UseCase) (args : InitArgs) (r : Rng) : ∃ l l1 l2 l3 l4 l5, toldCalendar env uc args r = (l, .ok (initCalendar env uc args, r)) ∧
    CalendarMessages env uc args l l1 l2 l3 l4 l5 := by
  obtain ⟨l1, e1, h1⟩ := apply_numDays uc args.numDays r
  obtain ⟨l2, e2, h2⟩ := apply_dates (initNumDays uc args.numDays) r
  obtain ⟨l3, e3, h3⟩ := apply_input env (initDates (initNumDays uc args.numDays)) r
  unfold toldCalendar
  rw [told_bind_ok e1, told_bind_ok e2, told_bind_ok e3]
  have hsame := ((initNumDays_same uc args.numDays).trans (initDates_same _)).trans (initInput_same env (initDates (initNumDays uc args.numDays)))
  cases hi : initInput env (initDates (initNumDays uc args.numDays)) with
  | mk v res =>
    rw [hi] at hsame
    have hu : v.users = uc.users := by
      have hd : ∀ w : UseCase, (initDates w).users = w.users := by
        intro w
        unfold initDates
        split
        · simp only
          split
          · split_ifs <;> rfl
          · rfl
        · rfl
      have hn : (initNumDays uc args.numDays).users = uc.users := by cases args.numDays <;> rfl
      have hii : ∀ w : UseCase, (initInput env w).1.users = w.users := by
        intro w
        unfold initInput
        split
        · rfl
        · split <;> rfl
      have := hii (initDates (initNumDays uc args.numDays))
      rw [hi, hd, hn] at this
      exact this
    cases res with
    | error e =>
      have hc : initCalendar env uc args = (v, .error e) := by unfold initCalendar; rw [hi]
      refine ⟨l1 ++ (l2 ++ (l3 ++ ([] ++ []))), l1, l2, l3, [], [], ?_, rfl, h1, h2, h3, .inl ⟨rfl, by rw [hc]; simp⟩, by simp, fun _ _ => by rw [hc]; exact hu⟩
      rw [hc]
      rfl
    | ok _ =>
      dsimp only
      obtain ⟨l4, e4, h4⟩ := apply_days env v r
      rw [told_bind_ok e4]
      cases hd : initDays env v with
      | mk w res =>
        rw [hd] at h4
        have hw : w.users = v.users ∧ w.numDays = v.numDays := by
          have h5 : w = (initDays env v).1 := by rw [hd]
          rw [h5]
          unfold initDays
          split
          · rw [showDays_fst]; exact ⟨rfl, rfl⟩
          · split
            · exact ⟨rfl, rfl⟩
            · rw [showDays_fst]; exact ⟨rfl, rfl⟩
        cases res with
        | error e =>
          have hc : initCalendar env uc args = (w, .error e) := by unfold initCalendar; rw [hi]; dsimp only; rw [hd]
          have hl : l4 = [] := by
            rcases h4 with ⟨_, _, h, _⟩ | ⟨h, _⟩
            · cases h
            · exact h
          subst hl
          refine ⟨l1 ++ (l2 ++ (l3 ++ ([] ++ []))), l1, l2, l3, [], [], ?_, rfl, h1, h2, h3, .inl ⟨rfl, by rw [hc]; simp⟩, by simp, fun _ _ => by rw [hc]; exact hw.1.trans hu⟩
          rw [hc]
          rfl
        | ok _ =>
          dsimp only
          obtain ⟨l5, e5, h5, h6⟩ := apply_powers (w.numDays.getD 0) w r w.appliances w fun q a h _ => h
          have hc : initCalendar env uc args = checkPowers (w.numDays.getD 0) w.appliances w := by unfold initCalendar; rw [hi]; dsimp only; rw [hd]
          have hcs := checkPowers_same (w.numDays.getD 0) w.appliances w
          rw [← hc] at hcs e5 h6
          rw [e5]
          have hcn : (initCalendar env uc args).1.numDays = w.numDays := by rw [hcs]
          have hcd : (initCalendar env uc args).1.days = w.days := by rw [hcs]
          refine ⟨_, l1, l2, l3, l4, l5, rfl, rfl, h1, h2, h3, .inr ?_, ?_, ?_⟩
          · rcases h4 with ⟨d, ds, _, g1, g2⟩ | ⟨_, g⟩
            · refine ⟨d, ds, ?_, ?_⟩
              · rw [hcn, hw.2]
                exact g2
              · rw [hcd]
                exact g1
            · exact absurd rfl g
          · intro m hm
            obtain ⟨u, hu', a, ha, g⟩ := h5 m hm
            rw [hcn]
            exact ⟨u, by rw [← hu, ← hw.1]; exact hu', a, ha, g⟩
          · intro hnod hl
            rw [h6 (by rw [hw.1, hu]; exact hnod) hl]
            exact hw.1.trans hu

/-- The messages of an `initialize` that is not refused are those of the choice of the days and of the check of the powers. -/
theorem init_visits (env : Env) (uc : UseCase) (args : InitArgs) (r : Rng) (hr : ¬ (uc.isInitialized = true ∧ args.force = false)) :
    visited (toldInitialize env uc args) r = (if uc.isInitialized = true then [.reinitializing] else []) ++ visited (toldCalendar env (resetDays uc args) args) r := by
  obtain ⟨l, l1, l2, l3, l4, l5, h1, h2⟩ := calendar_messages env (resetDays uc args) args r
  have hl : visited (toldCalendar env (resetDays uc args) args) r = l := by unfold visited; rw [h1]
  rw [hl]
  unfold visited
  have hfirst : ∃ l0, (if uc.isInitialized ∧ args.force = true then do
        note .reinitializing
        pure { uc with days := none }
      else pure uc : Traced Message UseCase) r = (l0, .ok (resetDays uc args, r)) ∧ l0 = if uc.isInitialized = true then [.reinitializing] else [] := by
    unfold resetDays
    by_cases h : uc.isInitialized = true
    · have hf : args.force = true := by
        by_contra hc
        exact hr ⟨h, by simpa using hc⟩
      rw [if_pos ⟨h, hf⟩, if_pos ⟨h, hf⟩, if_pos h]
      exact ⟨_, rfl, rfl⟩
    · rw [if_neg (fun hc => h hc.1), if_neg (fun hc => h hc.1), if_neg h]
      exact ⟨_, rfl, rfl⟩
  obtain ⟨l0, e0, rfl⟩ := hfirst
  unfold toldInitialize
  rw [if_neg hr, told_bind_ok e0, told_bind_ok h1]
  dsimp only
  congr 1
  rcases initCalendar env (resetDays uc args) args with ⟨v, _ | _⟩
  · exact List.append_nil l
  · dsimp only
    have key : ∀ {α : Type} (m : Sim α) (f : α → Traced Message (UseCase × Except Err Unit)), (∀ a s, (f a s).1 = []) → ((quiet m >>= f) r).1 = [] := by
      intro α m f hf
      rw [told_bind]
      unfold quiet
      rcases m r with e | ⟨a, r'⟩
      · rfl
      · exact hf a r'
    cases args.peakEnlarge with
    | some x =>
      dsimp only
      rw [key _ _ ?_]
      · exact List.append_nil l
      · rintro ⟨w, _ | _⟩ s <;> rfl
    | none =>
      dsimp only
      rw [key _ _ ?_]
      · exact List.append_nil l
      · rintro (_ | _) s <;> rfl

/-- The messages of an `initialize` that is not refused. -/
theorem init_messages (env : Env) (uc : UseCase) (args : InitArgs) (r : Rng) (hr : ¬ (uc.isInitialized = true ∧ args.force = false)) :
    ∃ l l1 l2 l3 l4 l5, (toldInitialize env uc args r).1 = (if uc.isInitialized = true then [.reinitializing] else []) ++ l ∧
      CalendarMessages env (resetDays uc args) args l l1 l2 l3 l4 l5 := by
  obtain ⟨l, l1, l2, l3, l4, l5, h1, h2⟩ := calendar_messages env (resetDays uc args) args r
  refine ⟨l, l1, l2, l3, l4, l5, ?_, h2⟩
  have h := init_visits env uc args r hr
  unfold visited at h
  rw [h, h1]

/-! ## The theorems -/

/-- **C114.** The messages accompany the execution of `initialize` of the model, they do not change it. -/
theorem C114_same_initialize (env : Env) (uc : UseCase) (args : InitArgs) (rng : Rng) : (toldInitialize env uc args rng).2 = initUseCase env uc args rng :=
  congrFun (outcome_toldInitialize env uc args) rng

/-- **C114, refused.** On an initialised use case without `force=True` the only message is that it is already initialised, exactly then, and nothing
is changed. -/
theorem C114_already_initialized (env : Env) (uc : UseCase) (args : InitArgs) (rng : Rng) :
    (.alreadyInitialized ∈ visited (toldInitialize env uc args) rng ↔ uc.isInitialized = true ∧ args.force = false) ∧
    (uc.isInitialized = true ∧ args.force = false → toldInitialize env uc args rng = ([.alreadyInitialized], .ok ((uc, .ok ()), rng))) := by
  have h2 : uc.isInitialized = true ∧ args.force = false → toldInitialize env uc args rng = ([.alreadyInitialized], .ok ((uc, .ok ()), rng)) := by
    intro h
    unfold toldInitialize
    rw [if_pos h]
    rfl
  refine ⟨⟨fun hm => ?_, fun h => ?_⟩, h2⟩
  · by_contra hr
    obtain ⟨l, l1, l2, l3, l4, l5, h1, hl⟩ := init_messages env uc args rng hr
    unfold visited at hm
    rw [h1, hl.all] at hm
    simp only [List.mem_append] at hm
    rcases hm with hm | hm | hm | hm | hm | hm
    · split_ifs at hm <;> simp at hm
    · rcases hl.provided with ⟨rfl, _⟩ | ⟨rfl, _⟩ <;> simp at hm
    · rcases hl.dates with ⟨rfl, _⟩ | ⟨rfl, _⟩ <;> simp at hm
    · have := hl.typed _ hm
      cases this
    · rcases hl.shown with ⟨rfl, _⟩ | ⟨d, ds, rfl, _⟩ <;> simp at hm
    · obtain ⟨_, _, _, _, g, _⟩ := hl.powers _ hm
      cases g
  · unfold visited
    rw [h2 h]
    simp

theorem announcements_of {env : Env} {uc : UseCase} {args : InitArgs} {l l1 l2 l3 l4 l5 : List Message} (h : CalendarMessages env uc args l l1 l2 l3 l4 l5) :
    announcements l = l4 := by
  have no : ∀ l : List Message, (∀ m ∈ l, ∀ n a b, m ≠ .willSimulate n a b) → announcements l = [] := by
    intro l hl
    unfold announcements
    rw [List.filter_eq_nil_iff]
    intro m hm
    cases m with
    | willSimulate n a b => exact absurd rfl (hl _ hm n a b)
    | _ => simp
  have happ : ∀ l l' : List Message, announcements (l ++ l') = announcements l ++ announcements l' := fun l l' => List.filter_append _ _
  rw [h.all, happ, happ, happ, happ, no l1, no l2, no l3, no l5]
  · simp only [List.nil_append, List.append_nil]
    rcases h.shown with ⟨rfl, _⟩ | ⟨d, ds, rfl, _⟩ <;> rfl
  · intro m hm n a b hc
    obtain ⟨_, _, _, _, g, _⟩ := h.powers _ hm
    rw [hc] at g
    cases g
  · intro m hm n a b hc
    have := h.typed _ hm
    rw [hc] at this
    cases this
  · intro m hm n a b hc
    rcases h.dates with ⟨rfl, _⟩ | ⟨rfl, _⟩
    · obtain rfl := List.mem_singleton.1 hm
      cases hc
    · cases hm
  · intro m hm n a b hc
    rcases h.provided with ⟨rfl, _⟩ | ⟨rfl, _⟩
    · obtain rfl := List.mem_singleton.1 hm
      cases hc
    · cases hm

/-- **C114, the announcement.** An `initialize` that returns and was not refused announces exactly once what will be simulated: the first day and the day
after the last are those of the days of the use case afterwards, the number is its `num_days`; and this number is the number of days, unless days
had been provided before and there are not both dates. -/
theorem C114_announced {env : Env} {uc uc' : UseCase} {args : InitArgs} {rng rng' : Rng} (hr : ¬ (uc.isInitialized = true ∧ args.force = false))
    (h : initUseCase env uc args rng = .ok ((uc', .ok ()), rng')) :
    ∃ n first last ds, announcements (visited (toldInitialize env uc args) rng) = [.willSimulate n first (last + 1440)] ∧ uc'.numDays = some n ∧
      uc'.days = some ds ∧ ds.head? = some first ∧ ds.getLast? = some last ∧
      (ChoosesDays uc args ∨ (uc.dateStart.isSome ∧ uc.dateEnd.isSome) → n = ds.length) := by
  have hret : Returns (initUseCase env uc args) (uc', .ok ()) := ⟨rng, rng', h⟩
  rcases returns_init hret with ⟨h1, h2, _⟩ | ⟨_, hdone⟩
  · exact absurd ⟨h1, h2⟩ hr
  · obtain ⟨uc1, pe, q, hc, _, _, hu⟩ := id hdone
    obtain ⟨l, l1, l2, l3, l4, l5, e1, hl⟩ := init_messages env uc args rng hr
    have hann : announcements (visited (toldInitialize env uc args) rng) = l4 := by
      unfold visited
      rw [e1]
      have : announcements ((if uc.isInitialized = true then [.reinitializing] else []) ++ l) = announcements l := by
        split_ifs <;> rfl
      rw [this, announcements_of hl]
    rcases hl.shown with ⟨_, g⟩ | ⟨d, ds, g1, g2⟩
    · rw [hc] at g
      exact absurd rfl g
    · rw [hc] at g1 g2
      obtain ⟨_, ⟨n, hn⟩, _⟩ := hdone.fields
      have hf : uc'.days = uc1.days ∧ uc'.numDays = uc1.numDays := by rw [hu]; exact initIndex_days _
      have hn1 : uc1.numDays = some n := by rw [← hf.2]; exact hn
      refine ⟨n, d, (d :: ds).getLast (by simp), d :: ds, ?_, hn, by rw [hf.1]; exact g2, rfl, List.getLast?_eq_some_getLast (by simp), fun hcases => ?_⟩
      · rw [hann, g1]
        simp only [hn1, Option.getD_some]
      · obtain ⟨d', k, hk, g3, g4, _⟩ := hdone.consistent (hcases.imp (fun hd => hd.reset) id)
        rw [hf.1, g2] at g3
        rw [hn] at g4
        cases g4
        rw [Option.some.inj g3, daysFrom_length]

/-- **C114, nothing is ignored in silence.** An `initialize` that returns takes the number of days given as argument, or says that the use case is already
initialised or that days had been provided; and with both dates it takes the days from the one to the other, or says that it is already initialised
or that the number of days goes first. -/
theorem C114_never_silent {env : Env} {uc uc' : UseCase} {args : InitArgs} {rng rng' : Rng} (h : initUseCase env uc args rng = .ok ((uc', .ok ()), rng')) :
    (∀ n, args.numDays = some n → uc'.numDays = some n ∨ .alreadyInitialized ∈ visited (toldInitialize env uc args) rng ∨
      .daysProvided ∈ visited (toldInitialize env uc args) rng) ∧
    (∀ s e, uc.dateStart = some s → uc.dateEnd = some e → uc'.days = some (dateRange s e) ∨ .alreadyInitialized ∈ visited (toldInitialize env uc args) rng ∨
      .numDaysOverDates ∈ visited (toldInitialize env uc args) rng) := by
  by_cases hr : uc.isInitialized = true ∧ args.force = false
  · have := (C114_already_initialized env uc args rng).1.2 hr
    exact ⟨fun _ _ => .inr (.inl this), fun _ _ _ _ => .inr (.inl this)⟩
  · have hret : Returns (initUseCase env uc args) (uc', .ok ()) := ⟨rng, rng', h⟩
    rcases returns_init hret with ⟨h1, h2, _⟩ | ⟨_, hdone⟩
    · exact absurd ⟨h1, h2⟩ hr
    · obtain ⟨uc1, pe, q, hc, _, _, hu⟩ := id hdone
      obtain ⟨l, l1, l2, l3, l4, l5, e1, hl⟩ := init_messages env uc args rng hr
      have hf : uc'.days = uc1.days ∧ uc'.numDays = uc1.numDays := by rw [hu]; exact initIndex_days _
      have hmem : ∀ m, m ∈ l → m ∈ visited (toldInitialize env uc args) rng := by
        intro m hm
        unfold visited
        rw [e1]
        exact List.mem_append_right _ hm
      have hkeep : ∀ v, initInput env (initDates (initNumDays (resetDays uc args) args.numDays)) = (v, .ok ()) → uc1.numDays = v.numDays ∧ (v.days ≠ none → uc1.days = v.days) := by
        intro v hv
        unfold initCalendar at hc
        rw [hv] at hc
        dsimp only at hc
        cases hd : initDays env v with
        | mk w res =>
          rw [hd] at hc
          cases res with
          | error e => cases hc
          | ok _ =>
            dsimp only at hc
            have hcs := checkPowers_same (w.numDays.getD 0) w.appliances w
            rw [hc] at hcs
            have h5 : w = (initDays env v).1 := by rw [hd]
            have h6 : w.numDays = v.numDays ∧ (v.days ≠ none → w.days = v.days) := by
              rw [h5]
              unfold initDays
              split
              · rw [showDays_fst]; exact ⟨rfl, fun _ => rfl⟩
              · rename_i hnone
                split
                · exact ⟨rfl, fun hc => absurd hnone hc⟩
                · rw [showDays_fst]; exact ⟨rfl, fun hc => absurd hnone hc⟩
            have h7 : uc1.numDays = w.numDays ∧ uc1.days = w.days := by
              have hcs' : uc1 = { w with users := uc1.users } := hcs
              rw [hcs']
              exact ⟨rfl, rfl⟩
            exact ⟨h7.1.trans h6.1, fun hv => h7.2.trans (h6.2 hv)⟩
      have hin : ∃ v, initInput env (initDates (initNumDays (resetDays uc args) args.numDays)) = (v, .ok ()) := by
        cases hi : initInput env (initDates (initNumDays (resetDays uc args) args.numDays)) with
        | mk v res =>
          cases res with
          | ok _ => exact ⟨v, rfl⟩
          | error e =>
            unfold initCalendar at hc
            rw [hi] at hc
            cases hc
      obtain ⟨v, hv⟩ := hin
      obtain ⟨hk1, hk2⟩ := hkeep v hv
      -- what the prompt changes
      have hprompt : ∀ w : UseCase, w.numDays ≠ none → initInput env w = (w, .ok ()) := by
        intro w hw
        unfold initInput
        cases hn : w.numDays with
        | none => exact absurd hn hw
        | some n => rfl
      refine ⟨fun n hn => ?_, fun s e hs he => ?_⟩
      · rcases hl.provided with ⟨g, _⟩ | ⟨_, g | g⟩
        · exact .inr (.inr (hmem _ (by rw [hl.all, g]; simp)))
        · rw [hn] at g; cases g
        · left
          have h1 : (initNumDays (resetDays uc args) args.numDays).numDays = some n := by
            unfold initNumDays
            rw [hn]
            simp only [g, Option.isSome_none, Bool.false_eq_true, if_false]
          have h2 : (initDates (initNumDays (resetDays uc args) args.numDays)).numDays = some n := by
            revert h1
            generalize initNumDays (resetDays uc args) args.numDays = w
            intro h1
            unfold initDates
            split
            · dsimp only
              rw [h1]
              dsimp only
              split_ifs with hc
              · rfl
              · push Not at hc
                exact congrArg some hc.symm
            · exact h1
          rw [hprompt _ (by rw [h2]; simp)] at hv
          cases hv
          rw [hf.2, hk1, h2]
      · have hs' : (initNumDays (resetDays uc args) args.numDays).dateStart = some s := by
          rw [← hs]
          unfold initNumDays resetDays
          cases args.numDays <;> dsimp only <;> split_ifs <;> rfl
        have he' : (initNumDays (resetDays uc args) args.numDays).dateEnd = some e := by
          rw [← he]
          unfold initNumDays resetDays
          cases args.numDays <;> dsimp only <;> split_ifs <;> rfl
        rcases hl.dates with ⟨g, _⟩ | ⟨_, g⟩
        · exact .inr (.inr (hmem _ (by rw [hl.all, g]; simp)))
        · left
          have h2 : (initDates (initNumDays (resetDays uc args) args.numDays)).days = some (dateRange s e) ∧ (initDates (initNumDays (resetDays uc args) args.numDays)).numDays ≠ none := by
            revert g hs' he'
            generalize initNumDays (resetDays uc args) args.numDays = w
            intro hs' he' g
            unfold initDates
            rw [hs', he']
            dsimp only
            cases hn : w.numDays with
            | none => exact ⟨rfl, by simp⟩
            | some n =>
              dsimp only
              rw [if_neg (fun hc => g ⟨s, e, n, hs', he', hn, hc⟩)]
              exact ⟨rfl, by simp⟩
          rw [hprompt _ h2.2] at hv
          cases hv
          rw [hf.1, hk2 (by rw [h2.1]; simp), h2.1]

/-- **C114, no false alarm.** The message about provided days comes only when a number of days was given as argument and there were days, and the message
about the dates only when both are known and the number of days known then is another one. -/
theorem C114_no_false_alarm (env : Env) (uc : UseCase) (args : InitArgs) (rng : Rng) :
    (.daysProvided ∈ visited (toldInitialize env uc args) rng → args.numDays ≠ none ∧ uc.days ≠ none) ∧
    (.numDaysOverDates ∈ visited (toldInitialize env uc args) rng → ∃ s e n, uc.dateStart = some s ∧ uc.dateEnd = some e ∧
      (args.numDays = some n ∨ (args.numDays = none ∧ uc.numDays = some n)) ∧ n ≠ ((dateRange s e).length : ℤ)) := by
  by_cases hr : uc.isInitialized = true ∧ args.force = false
  · have h := (C114_already_initialized env uc args rng).2 hr
    unfold visited
    rw [h]
    simp
  · obtain ⟨l, l1, l2, l3, l4, l5, h1, hl⟩ := init_messages env uc args rng hr
    have hmem : ∀ m, m ∈ visited (toldInitialize env uc args) rng → m = .reinitializing ∨ m ∈ l1 ∨ m ∈ l2 ∨ m ∈ l3 ∨ m ∈ l4 ∨ m ∈ l5 := by
      intro m hm
      unfold visited at hm
      rw [h1, hl.all] at hm
      simp only [List.mem_append] at hm
      refine hm.imp (fun h => ?_) id
      split_ifs at h
      · exact List.mem_singleton.1 h
      · cases h
    have hd : (resetDays uc args).days ≠ none → uc.days ≠ none := by
      unfold resetDays
      split_ifs
      · intro h; exact absurd rfl h
      · exact id
    refine ⟨fun hm => ?_, fun hm => ?_⟩
    · rcases hmem _ hm with hm | hm | hm | hm | hm | hm
      · cases hm
      · rcases hl.provided with ⟨_, g1, g2⟩ | ⟨rfl, _⟩
        · exact ⟨g1, hd g2⟩
        · cases hm
      · rcases hl.dates with ⟨rfl, _⟩ | ⟨rfl, _⟩ <;> simp at hm
      · have := hl.typed _ hm
        cases this
      · rcases hl.shown with ⟨rfl, _⟩ | ⟨d, ds, rfl, _⟩ <;> simp at hm
      · obtain ⟨_, _, _, _, g, _⟩ := hl.powers _ hm
        cases g
    · rcases hmem _ hm with hm | hm | hm | hm | hm | hm
      · cases hm
      · rcases hl.provided with ⟨rfl, _⟩ | ⟨rfl, _⟩ <;> simp at hm
      · rcases hl.dates with ⟨_, s, e, n, g1, g2, g3, g4⟩ | ⟨rfl, _⟩
        · refine ⟨s, e, n, ?_, ?_, ?_, g4⟩
          · rw [← g1]
            unfold initNumDays resetDays
            cases args.numDays <;> dsimp only <;> split_ifs <;> rfl
          · rw [← g2]
            unfold initNumDays resetDays
            cases args.numDays <;> dsimp only <;> split_ifs <;> rfl
          · have hn : (resetDays uc args).numDays = uc.numDays := (resetDays_numDays uc args).1
            unfold initNumDays at g3
            cases ha : args.numDays with
            | none =>
              rw [ha] at g3
              exact .inr ⟨rfl, hn.symm.trans g3⟩
            | some k =>
              rw [ha] at g3
              dsimp only at g3
              split_ifs at g3
              exact .inl g3
        · cases hm
      · have := hl.typed _ hm
        cases this
      · rcases hl.shown with ⟨rfl, _⟩ | ⟨d, ds, rfl, _⟩ <;> simp at hm
      · obtain ⟨_, _, _, _, g, _⟩ := hl.powers _ hm
        cases g

/-- **C114, changed powers are reported.** When no message says that the powers of an appliance were updated, no appliance is changed; and when one does,
there is an appliance of this name of constant power with fewer values than days. -/
theorem C114_powers_told {env : Env} {uc uc' : UseCase} {args : InitArgs} {rng rng' : Rng} (h : initUseCase env uc args rng = .ok ((uc', .ok ()), rng'))
    (hd : ∀ u ∈ uc.users, (u.appList.map Appliance.oid).Nodup) :
    ((∀ name, .powerUpdated name ∉ visited (toldInitialize env uc args) rng) → uc'.users = uc.users) ∧
    (∀ name, .powerUpdated name ∈ visited (toldInitialize env uc args) rng → ∃ u ∈ uc.users, ∃ a ∈ u.appList, a.name = name ∧ a.constantPower = true ∧
      ∃ n, uc'.numDays = some n ∧ (a.power.length : ℤ) < n) := by
  by_cases hr : uc.isInitialized = true ∧ args.force = false
  · have h2 := (C114_already_initialized env uc args rng).2 hr
    have h3 : initUseCase env uc args rng = .ok ((uc, .ok ()), rng) := by rw [← C114_same_initialize, h2]
    rw [h3] at h
    cases h
    refine ⟨fun _ => rfl, fun name hm => ?_⟩
    unfold visited at hm
    rw [h2] at hm
    simp at hm
  · have hret : Returns (initUseCase env uc args) (uc', .ok ()) := ⟨rng, rng', h⟩
    rcases returns_init hret with ⟨h1, h2, _⟩ | ⟨_, hdone⟩
    · exact absurd ⟨h1, h2⟩ hr
    · obtain ⟨uc1, pe, q, hc, _, _, hu⟩ := id hdone
      obtain ⟨l, l1, l2, l3, l4, l5, e1, hl⟩ := init_messages env uc args rng hr
      have hus : (resetDays uc args).users = uc.users := by unfold resetDays; split_ifs <;> rfl
      have hu1 : uc'.users = uc1.users := by
        rw [hu]
        unfold initIndex
        split <;> rfl
      obtain ⟨_, ⟨n, hn⟩, _⟩ := hdone.fields
      have hf : uc'.days = uc1.days ∧ uc'.numDays = uc1.numDays := by rw [hu]; exact initIndex_days _
      have hn1 : uc1.numDays = some n := by rw [← hf.2]; exact hn
      refine ⟨fun hno => ?_, fun name hm => ?_⟩
      · have h5 : l5 = [] := by
          rw [List.eq_nil_iff_forall_not_mem]
          intro m hm
          obtain ⟨_, _, a, _, g, _⟩ := hl.powers _ hm
          refine hno a.name ?_
          unfold visited
          rw [e1, hl.all, ← g]
          simp [hm]
        have := hl.unchanged (by rw [hus]; exact hd) h5
        rw [hc, hus] at this
        rw [hu1]
        exact this
      · unfold visited at hm
        rw [e1, hl.all] at hm
        simp only [List.mem_append] at hm
        rcases hm with hm | hm | hm | hm | hm | hm
        · split_ifs at hm <;> simp at hm
        · rcases hl.provided with ⟨rfl, _⟩ | ⟨rfl, _⟩ <;> simp at hm
        · rcases hl.dates with ⟨rfl, _⟩ | ⟨rfl, _⟩ <;> simp at hm
        · have := hl.typed _ hm
          cases this
        · rcases hl.shown with ⟨rfl, _⟩ | ⟨d, ds, rfl, _⟩ <;> simp at hm
        · obtain ⟨u, hu', a, ha, g, g1, g2⟩ := hl.powers _ hm
          rw [hc] at g2
          rw [hus] at hu'
          rw [hn1] at g2
          cases g
          exact ⟨u, hu', a, ha, rfl, g1, n, hn, g2⟩

/-! ## Examples -/

/-- Three days from 2 January of the year 1 (minute 1440 of the model's clock) on: the announcement is the only message. -/
example (rng : Rng) : visited (toldInitialize ⟨1440, none⟩ {} { numDays := some 3 }) rng = [.willSimulate 3 1440 (1440 + 3 * 1440)] := by
  rw [init_visits _ _ _ _ (by decide)]
  rfl

/-- The hypotheses of `C114_announced`, `C114_never_silent` and `C114_powers_told`: both dates, five days. -/
example : ∃ rng rng' uc', initUseCase ⟨0, none⟩ fiveDays {} rng = .ok ((uc', .ok ()), rng') ∧ ¬ (fiveDays.isInitialized = true ∧ ({} : InitArgs).force = false) ∧
    (fiveDays.dateStart.isSome ∧ fiveDays.dateEnd.isSome) ∧
    announcements (visited (toldInitialize ⟨0, none⟩ fiveDays {}) rng) = [.willSimulate 5 1062113760 (1062113760 + 5 * 1440)] := by
  obtain ⟨uc', rng, rng', h⟩ := fiveDays_init
  refine ⟨rng, rng', uc', h, by decide, by decide, ?_⟩
  rw [init_visits _ _ _ _ (by decide)]
  rfl

/-- Both dates and another number of days: the user is told that the dates are not used both. -/
example (rng : Rng) : visited (toldInitialize ⟨0, none⟩ fiveDays { numDays := some 7 }) rng = [.numDaysOverDates, .willSimulate 7 1062113760 (1062113760 + 7 * 1440)] := by
  rw [init_visits _ _ _ _ (by decide)]
  rfl

/-- Days provided (as by `generate_daily_load_profiles(days)`), but no dates. -/
def providedDays : UseCase := { days := some [1440, 2880] }

/-- Here the announcement is wrong: two days were provided, `num_days=3` is not taken, the number typed at the prompt (4) is announced instead, with the first and the
last of the two days.  (The exception in `C114_announced`.) -/
theorem C114_announced_wrong (rng : Rng) : visited (toldInitialize ⟨0, some 4⟩ providedDays { numDays := some 3 }) rng = [.daysProvided, .pleaseWait, .willSimulate 4 1440 (1440 + 2 * 1440)] := by
  rw [init_visits _ _ _ _ (by decide)]
  rfl

/-- A user with one appliance of constant power and one power value. -/
def constantLamp : UseCase where
  dateStart := some 1440
  users := [{ userName := "u", appList := [{ name := "lamp", oid := 0, constantPower := true, power := [40] }] }]
  appliances := [(0, 0)]

/-- The powers of the lamp are extended to the three days, and the user is told. -/
example (rng : Rng) : visited (toldInitialize ⟨0, none⟩ constantLamp { numDays := some 3 }) rng = [.willSimulate 3 1440 (1440 + 3 * 1440), .powerUpdated "lamp"] := by
  rw [init_visits _ _ _ _ (by decide)]
  rfl

/-- The second call is refused, or with `force=True` begins with the message that the use case is initialised again. -/
example (rng : Rng) : visited (toldInitialize ⟨0, none⟩ { constantLamp with numDays := some 3, days := some [1440, 2880, 4320], peakTimeRange := some [0, 1], datetimeindex := some [] } {}) rng = [.alreadyInitialized] := rfl

example (rng : Rng) : visited (toldInitialize ⟨0, none⟩ { fiveDays with numDays := some 5, days := some (daysFrom 1062113760 5), peakTimeRange := some [0, 1], datetimeindex := some [] } { force := true }) rng =
    [.reinitializing, .willSimulate 5 1062113760 (1062113760 + 5 * 1440)] := by
  rw [init_visits _ _ _ _ (by decide)]
  rfl

end Ramp
