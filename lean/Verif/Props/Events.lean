import Verif.Lemmas.Witness

/-! # Properties C13-C16: the switch-on events of one appliance-day -/

set_option autoImplicit false

namespace Ramp

/-! ## C13 -/

/-- **C13, partial.** No minute is booked by two events of the same appliance-day, provided the randomised windows do not touch
each other.  Missing: windows that touch or overlap, for which the claim is false (`C13_overlap_possible`). -/
theorem C13_no_overlap_partial {app : Appliance} {depth : ℕ} {pref : ℤ} {profI : ℕ} {peak : List ℤ} {dayType : ℤ} {power : ℚ}
    {app' : Appliance} {info : RunInfo} (hw : ValidWindows app) (hfc : 1 ≤ app.funcCycle)
    (h : Returns (generateLoadProfileInfo app depth pref profI peak dayType power) (app', some info))
    (hap : WindowsApart info.w1 info.w2 info.w3) :
    info.bookings.Pairwise (fun b c => ∀ m, m ∈ b.indexes → m ∉ c.indexes) ∧ ∀ b ∈ info.bookings, b.indexes.Nodup := by
  have hr := runOK_of_returns hw hfc h
  by_cases hfl : app.flat = "yes"
  · rcases hr.run with ⟨_, hb, _⟩ | ⟨hn, _⟩
    · rw [hb]; simp
    · exact absurd hfl hn
  · have hs := switchRun_of_returns hw hfc hfl h
    refine ⟨(hs.sep hap).2.2, fun b hb => ?_⟩
    obtain ⟨a, n, hidx, _, _⟩ := (hs.ok b hb).runOfDay (filter_day hs.d1 hs.d2 hs.d3)
    rw [hidx]; exact nodup_arange _ _

/-- Windows so far from each other that their random moves cannot make them touch. -/
def FarApart (w v : ℤ × ℤ) (r s : ℤ) : Prop := w.2 + r + s < v.1 ∨ v.2 + r + s < w.1

theorem moved_empty {w v : ℤ × ℤ} {r : ℤ} (hw : DayWindow w) (h : MovedWindow w r v) (hr : 0 ≤ r ∧ r ≤ w.2 - w.1)
    (he : w.1 = w.2) : v.1 = v.2 := by
  have := h.bounds hw hr
  omega

theorem moved_apart {w v w' v' : ℤ × ℤ} {r s : ℤ} (h : FarApart w v r s) (hw : DayWindow w) (hv : DayWindow v)
    (hr : 0 ≤ r ∧ r ≤ w.2 - w.1) (hs : 0 ≤ s ∧ s ≤ v.2 - v.1) (mw : MovedWindow w r w') (mv : MovedWindow v s v') :
    Apart w' v' := by
  have b1 := mw.bounds hw hr
  have b2 := mv.bounds hv hs
  unfold FarApart at h
  unfold Apart
  omega

/-- **C13, partial, in terms of the declared windows.** If any two declared windows are empty or further apart than their random
moves can reach, no minute is booked twice on any day. -/
theorem C13_no_overlap_declared_partial {app : Appliance} {depth : ℕ} {pref : ℤ} {profI : ℕ} {peak : List ℤ} {dayType : ℤ}
    {power : ℚ} {app' : Appliance} {info : RunInfo} (hw : ValidWindows app) (hfc : 1 ≤ app.funcCycle)
    (h12 : app.window1.1 = app.window1.2 ∨ app.window2.1 = app.window2.2 ∨
      FarApart app.window1 app.window2 app.randomVar1 app.randomVar2)
    (h13 : app.window1.1 = app.window1.2 ∨ app.window3.1 = app.window3.2 ∨
      FarApart app.window1 app.window3 app.randomVar1 app.randomVar3)
    (h23 : app.window2.1 = app.window2.2 ∨ app.window3.1 = app.window3.2 ∨
      FarApart app.window2 app.window3 app.randomVar2 app.randomVar3)
    (h : Returns (generateLoadProfileInfo app depth pref profI peak dayType power) (app', some info)) :
    info.bookings.Pairwise (fun b c => ∀ m, m ∈ b.indexes → m ∉ c.indexes) := by
  have hr := runOK_of_returns hw hfc h
  have m1 : MovedWindow app.window1 app.randomVar1 info.w1 := hr.m1
  have m2 : MovedWindow app.window2 app.randomVar2 info.w2 := hr.m2
  have m3 : MovedWindow app.window3 app.randomVar3 info.w3 := hr.m3
  refine (C13_no_overlap_partial hw hfc h ⟨?_, ?_, ?_⟩).1
  · rcases h12 with e | e | e
    · exact .inl (moved_empty hw.w1 m1 hw.r1 e)
    · exact .inr (.inl (moved_empty hw.w2 m2 hw.r2 e))
    · exact .inr (.inr (moved_apart e hw.w1 hw.w2 hw.r1 hw.r2 m1 m2))
  · rcases h13 with e | e | e
    · exact .inl (moved_empty hw.w1 m1 hw.r1 e)
    · exact .inr (.inl (moved_empty hw.w3 m3 hw.r3 e))
    · exact .inr (.inr (moved_apart e hw.w1 hw.w3 hw.r1 hw.r3 m1 m3))
  · rcases h23 with e | e | e
    · exact .inl (moved_empty hw.w2 m2 hw.r2 e)
    · exact .inr (.inl (moved_empty hw.w3 m3 hw.r3 e))
    · exact .inr (.inr (moved_apart e hw.w2 hw.w3 hw.r2 hw.r3 m2 m3))

/-- Two windows that touch: [0,10] and [10,20], 2 minutes of use. -/
def touchingArgs : AddArgs :=
  { app := { number := 1, power := .number 100, numWindows := 2, funcTime := 2 },
    windows := some { window1 := some (0, 10), window2 := some (10, 20) } }

/-- **C13 is false in general.** With two windows that touch, accepted by `add_appliance`, minute 10 can be booked by two
different events. -/
theorem C13_overlap_possible :
    ∃ app app' info b c, BuiltAs touchingArgs app ∧
      Returns (generateLoadProfileInfo app 1000 0 0 (minutesFrom 0 60) 0 100) (app', some info) ∧
      info.bookings = [b, c] ∧ 10 ∈ b.indexes ∧ 10 ∈ c.indexes := by
  obtain ⟨app, app', info, h1, h2, h3⟩ := built_run (args := touchingArgs) (depth := 1000) (profI := 0) (pref := 0)
    (peak := minutesFrom 0 60) (dayType := 0) (power := 100) (rng := constantDraws 10) (l := [⟨[10], [10], 1, 0⟩, ⟨[10], [10], 1, 0⟩])
    (by decide +kernel)
  exact ⟨app, app', info, _, _, h1, h2, h3, by simp, by simp⟩

/-- Two windows that do not touch. -/
def separatedArgs : AddArgs :=
  { app := { number := 2, power := .number 100, numWindows := 2, funcTime := 25, funcCycle := 10 },
    windows := some { window1 := some (0, 100), window2 := some (600, 700) } }

/-- A case for C13 to C16: windows that do not touch, three events. -/
theorem separated_run : ∃ app app' info, BuiltAs separatedArgs app ∧
    Returns (generateLoadProfileInfo app 1000 0 0 (minutesFrom 0 60) 0 100) (app', some info) ∧
    info.bookings = [⟨minutesFrom 5 10, minutesFrom 5 10, 1, 0⟩, ⟨minutesFrom 20 10, minutesFrom 20 10, 1, 0⟩,
      ⟨minutesFrom 35 10, minutesFrom 35 5, 1, 0⟩] :=
  built_run (rng := constantDraws 5) (by decide +kernel)

/-! ## C14 -/

/-- Consecutive available minutes lie in one free range when the ranges do not touch. -/
theorem avail_run {spots : List Spot} (hs : SpotsApart spots) {a : ℤ} {n : ℕ}
    (h : ∀ m, a ≤ m → m < a + (n + 1 : ℕ) → Avail spots m) : ∃ s ∈ spots, s.start ≤ a ∧ a + (n + 1 : ℕ) ≤ s.stop := by
  induction n with
  | zero =>
    obtain ⟨s, hs, h1, h2⟩ := h a le_rfl (by simp)
    exact ⟨s, hs, h1, by push_cast; omega⟩
  | succ n ih =>
    obtain ⟨s, hsm, h1, h2⟩ := ih (fun m hm1 hm2 => h m hm1 (by push_cast at hm2 ⊢; omega))
    obtain ⟨t, htm, h3, h4⟩ := h (a + (n + 1 : ℕ)) (by push_cast; omega) (by push_cast; omega)
    by_cases hst : s = t
    · subst hst
      exact ⟨s, hsm, h1, by push_cast at *; omega⟩
    · exfalso
      have hap : Apart (s.start, s.stop) (t.start, t.stop) := by
        obtain ⟨i, hi, rfl⟩ := List.mem_iff_getElem.1 hsm
        obtain ⟨j, hj, rfl⟩ := List.mem_iff_getElem.1 htm
        have hp := List.pairwise_iff_getElem.1 hs.2
        rcases lt_trichotomy i j with hij | hij | hij
        · exact hp i j hi hj hij
        · subst hij; exact absurd rfl hst
        · exact (hp j i hj hi hij).symm
      unfold Apart at hap
      push_cast at *
      omega

/-- **C14.** The durations of the events of one appliance-day sum to at most the randomised time of use; they sum to exactly that
unless no free range of `func_cycle` minutes is left at the end. -/
theorem C14_total_time {app : Appliance} {depth : ℕ} {pref : ℤ} {profI : ℕ} {peak : List ℤ} {dayType : ℤ} {power : ℚ}
    {app' : Appliance} {info : RunInfo} (hw : ValidWindows app) (hfc : 1 ≤ app.funcCycle) (hfl : app.flat ≠ "yes")
    (h : Returns (generateLoadProfileInfo app depth pref profI peak dayType power) (app', some info)) :
    (info.bookings.map (fun b => (b.indexes.length : ℤ))).sum ≤ info.randTime ∧
    ((info.bookings.map (fun b => (b.indexes.length : ℤ))).sum = info.randTime ∨
      ∀ s ∈ app'.freeSpots, s.stop - s.start < app.funcCycle) := by
  rcases (switchRun_of_returns hw hfc hfl h).time with h | ⟨h, h'⟩
  · exact ⟨h.le, .inl h⟩
  · exact ⟨h.le, .inr h'⟩

/-- **C14, in terms of minutes.** When the windows do not touch: if the events sum to less than the randomised time of use, then
every run of `func_cycle` minutes of a window has a booked minute. -/
theorem C14_no_room_left {app : Appliance} {depth : ℕ} {pref : ℤ} {profI : ℕ} {peak : List ℤ} {dayType : ℤ} {power : ℚ}
    {app' : Appliance} {info : RunInfo} (hw : ValidWindows app) (hfc : 1 ≤ app.funcCycle) (hfl : app.flat ≠ "yes")
    (h : Returns (generateLoadProfileInfo app depth pref profI peak dayType power) (app', some info))
    (hap : WindowsApart info.w1 info.w2 info.w3)
    (hlt : (info.bookings.map (fun b => (b.indexes.length : ℤ))).sum < info.randTime)
    (w : ℤ × ℤ) (hwi : w = info.w1 ∨ w = info.w2 ∨ w = info.w3) (a : ℤ) (ha : w.1 ≤ a) (ha' : a + app.funcCycle ≤ w.2) :
    ∃ b ∈ info.bookings, ∃ m ∈ b.indexes, a ≤ m ∧ m < a + app.funcCycle := by
  have hs := switchRun_of_returns hw hfc hfl h
  obtain ⟨s1, s2, _⟩ := hs.sep hap
  have hno : ∀ s ∈ app'.freeSpots, s.stop - s.start < app.funcCycle := by
    rcases hs.time with h | ⟨_, h⟩
    · exact absurd h hlt.ne
    · exact h
  by_contra hc
  push Not at hc
  obtain ⟨n, hn⟩ : ∃ n : ℕ, app.funcCycle = (n + 1 : ℕ) := ⟨(app.funcCycle - 1).toNat, by omega⟩
  obtain ⟨s, hs', h1, h2⟩ := avail_run (n := n) (a := a) s1 (fun m hm1 hm2 => by
    rw [s2 m]
    have hiw : InWindow w m := ⟨by omega, by omega⟩
    refine ⟨?_, fun b hb hmb => ?_⟩
    · rcases hwi with rfl | rfl | rfl
      · exact .inl hiw
      · exact .inr (.inl hiw)
      · exact .inr (.inr hiw)
    · have := hc b hb m hmb hm1
      omega)
  have := hno s hs'
  omega

/-- A case for C14: two windows of ten minutes and `func_cycle = 6`: after a 6 minute event in the middle of the first and one in
the middle of the second nothing else fits, and 12 of 19 minutes are booked. -/
example : ∃ app app' info, BuiltAs
    { app := { numWindows := 2, funcTime := 19, funcCycle := 6 },
      windows := some { window1 := some (0, 10), window2 := some (20, 30) } } app ∧
    Returns (generateLoadProfileInfo app 1000 0 0 (minutesFrom 0 60) 0 0) (app', some info) ∧
    info.bookings = [⟨minutesFrom 2 6, minutesFrom 2 6, 1, 0⟩, ⟨minutesFrom 22 6, minutesFrom 22 6, 1, 0⟩] :=
  built_run (rng := constantDraws 2) (by decide +kernel)

/-! ## C15 -/

/-- Nothing but the bound of the loop produces `diverge`. -/
abbrev NoDiverge {α : Type} (m : Sim α) : Prop := Sat m (fun _ => True) (fun e => e ≠ .diverge)

theorem nd_randint (a b : ℤ) : NoDiverge (randint a b) := sat_randint (fun _ _ _ => trivial) (fun _ => by simp)

theorem nd_randomVariation (a b : ℚ) : NoDiverge (randomVariation a b) :=
  sat_bind (sat_uniform fun _ _ _ => sat_pure trivial)

theorem nd_onesTimes (n : ℤ) (p : ℚ) : NoDiverge (liftE (onesTimes n p)) := by
  refine sat_liftE (fun _ _ => trivial) (fun e he => ?_)
  unfold onesTimes at he
  split_ifs at he
  cases he; simp

theorem nd_bind {α β : Type} {m : Sim α} {f : α → Sim β} {Q : β → Prop} (hm : NoDiverge m)
    (hf : ∀ a, Sat (f a) Q (fun e => e ≠ .diverge)) : Sat (m >>= f) Q (fun e => e ≠ .diverge) :=
  sat_bind' hm fun a _ => hf a

theorem nd_dutyCycle (var : ℚ) (t1 : ℤ) (p1 : ℚ) (t2 : ℤ) (p2 : ℚ) : NoDiverge (dutyCycle var t1 p1 t2 p2) :=
  nd_bind (nd_randomVariation _ _) fun _ => nd_bind (nd_onesTimes _ _) fun _ => nd_bind (nd_randomVariation _ _) fun _ =>
    nd_bind (nd_onesTimes _ _) fun _ => sat_pure trivial

theorem nd_randomChoice (var : ℚ) (t1 : ℤ) (p1 : ℚ) (t2 : ℤ) (p2 : ℚ) : NoDiverge (randomChoice var t1 p1 t2 p2) :=
  nd_bind (nd_dutyCycle _ _ _ _ _) fun _ => nd_bind (nd_dutyCycle _ _ _ _ _) fun _ => sat_choice2 trivial trivial

theorem nd_assign (app : Appliance) : NoDiverge (assignRandomCycles app) := by
  unfold assignRandomCycles
  refine sat_ite (fun _ => ?_) (fun _ => sat_pure trivial)
  refine nd_bind (nd_randomVariation _ _) fun _ => nd_bind (nd_randomVariation _ _) fun _ => nd_bind (nd_dutyCycle _ _ _ _ _) fun _ => ?_
  refine sat_ite (fun _ => ?_) (fun _ => sat_pure trivial)
  refine nd_bind (nd_randomVariation _ _) fun _ => nd_bind (nd_randomVariation _ _) fun _ => nd_bind (nd_dutyCycle _ _ _ _ _) fun _ => ?_
  refine sat_ite (fun _ => ?_) (fun _ => sat_pure trivial)
  exact nd_bind (nd_randomVariation _ _) fun _ => nd_bind (nd_randomVariation _ _) fun _ => nd_bind (nd_randomChoice _ _ _ _ _) fun _ =>
    nd_bind (nd_randomChoice _ _ _ _ _) fun _ => nd_bind (nd_randomChoice _ _ _ _ _) fun _ => sat_pure trivial

theorem nd_randSwitchOnWindow (depth : ℕ) (app : Appliance) (rt : ℤ) : NoDiverge (randSwitchOnWindow depth app rt) := by
  induction depth with
  | zero => exact sat_raise (by simp)
  | succ depth ih =>
    rw [randSwitchOnWindow_succ]
    refine sat_ite (fun _ => ?_) (fun _ => sat_pure trivial)
    refine nd_bind (nd_randint _ _) fun k => ?_
    split
    · exact sat_raise (by simp)
    · split
      · exact sat_raise (by simp)
      · unfold afterStart
        refine nd_bind ?_ fun idx => ?_
        · unfold drawIndexes
          refine sat_ite (fun _ => sat_bind (sat_uniform fun _ _ _ => sat_pure trivial)) (fun _ => ?_)
          exact sat_ite (fun _ => sat_pure trivial) (fun _ => sat_raise (by simp))
        · refine sat_ite (fun _ => ?_) (fun _ => sat_pure trivial)
          split
          · split
            · exact sat_ite (fun _ => sat_pure trivial) (fun _ => sat_pure trivial)
            · exact ih
          · exact sat_raise (by simp)

theorem npPutFrom_err (v : List ℚ) (k : ℕ) (l : List ℤ) (p : Profile) (e : Err) (h : npPutFrom v k l p = .error e) :
    e = .indexError := by
  induction l generalizing k p with
  | nil => simp [npPutFrom] at h
  | cons i l ih =>
    rw [npPutFrom] at h
    split at h
    · cases h; rfl
    · exact ih _ _ h

theorem nd_npPut (p : Profile) (l : List ℤ) (v : List ℚ) : NoDiverge (liftE (npPut p l v)) := by
  refine sat_liftE (fun _ _ => trivial) (fun e he => ?_)
  unfold npPut at he
  split_ifs at he
  rw [npPutFrom_err _ _ _ _ _ he]; simp

theorem nd_updateDailyUse (app : Appliance) (c : ℤ) (p : ℚ) (l : List ℤ) : NoDiverge (updateDailyUse app c p l) := by
  unfold updateDailyUse
  refine nd_bind ?_ fun app => nd_bind ?_ fun _ => sat_pure trivial
  · unfold putEvent
    refine sat_ite (fun _ => ?_) (fun _ => ?_)
    · refine sat_ite (fun _ => nd_bind (nd_npPut _ _ _) fun _ => sat_pure trivial) (fun _ => ?_)
      refine sat_ite (fun _ => nd_bind (nd_npPut _ _ _) fun _ => sat_pure trivial) (fun _ => ?_)
      exact sat_ite (fun _ => nd_bind (nd_npPut _ _ _) fun _ => sat_pure trivial) (fun _ => sat_pure trivial)
    · exact nd_bind (nd_randomVariation _ _) fun _ => nd_bind (nd_npPut _ _ _) fun _ => sat_pure trivial
  · refine sat_liftE (fun _ _ => trivial) (fun e he => ?_)
    unfold updateAvailableTime at he
    split_ifs at he
    split at he
    · cases he
    · cases he; simp

/-- Booking an event does not diverge; it fails on an empty event. -/
theorem nd_bookEvent (app : Appliance) (peak : List ℤ) (p : ℚ) (l : List ℤ) :
    Sat (bookEvent app peak p l) (fun _ => l ≠ []) (fun e => e ≠ .diverge) := by
  unfold bookEvent
  split
  · rename_i i0 i1 q0 q1 h0 h1 h2 h3
    have hl : l ≠ [] := by rintro rfl; simp at h0
    refine nd_bind ((sat_calcCoincident_err _ _).mono (fun _ _ => trivial) (fun e he => by rw [he.1]; simp)) fun c => ?_
    exact nd_bind (nd_updateDailyUse _ _ _ _) fun _ => sat_pure hl
  · exact sat_raise (by simp)

theorem nd_switchOnLoop (depth : ℕ) (peak : List ℤ) (power : ℚ) (rt : ℤ) (fuel : ℕ) (app : Appliance) (tot : ℤ)
    (log : List Booking) (hfuel : rt - tot + 2 ≤ fuel) (h1 : 1 ≤ fuel) :
    NoDiverge (switchOnLoop depth peak power rt fuel app tot log) := by
  induction fuel generalizing app tot log with
  | zero => omega
  | succ fuel ih =>
    rw [switchOnLoop]
    refine sat_ite (fun hc => ?_) (fun _ => sat_pure trivial)
    refine nd_bind (nd_randSwitchOnWindow _ _ _) fun r => ?_
    obtain ⟨app1, ev⟩ := r
    cases ev with
    | none => exact sat_pure trivial
    | some ev =>
      obtain ⟨drawn, indexes⟩ := ev
      simp only
      refine sat_ite (fun _ => ?_) (fun hle => ?_)
      · refine sat_ite (fun _ => ?_) (fun _ => sat_pure trivial)
        exact sat_bind' (nd_bookEvent _ _ _ _) fun _ _ => sat_pure trivial
      · refine sat_bind' (nd_bookEvent _ _ _ _) fun r hne => ?_
        have : 1 ≤ indexes.length := List.length_pos_iff.2 hne
        push_cast at hfuel
        exact ih _ _ _ (by omega) (by omega)

/-- **C15.** The switch-on loop started with a randomised time of use `t` performs at most `t + 1` iterations, for every
parameter value and every random outcome: the model of the loop, which gives up with `diverge` after its budget of
iterations, never does so for any budget of at least `t + 2` (the last unit of the budget is the test that ends the loop). -/
theorem C15_loop_bound (depth : ℕ) (peak : List ℤ) (power : ℚ) (randTime : ℤ) (app : Appliance) (budget : ℕ)
    (hb : randTime + 2 ≤ budget) (h1 : 1 ≤ budget) :
    ¬ Raises (switchOnLoop depth peak power randTime budget app 0 []) .diverge := by
  intro h
  exact (nd_switchOnLoop depth peak power randTime budget app 0 [] (by omega) h1).err h rfl

/-- **C15.** `generate_load_profile` terminates for every appliance, every argument and every random outcome: no hypothesis. -/
theorem C15_terminates (app : Appliance) (depth : ℕ) (pref : ℤ) (profI : ℕ) (peak : List ℤ) (dayType : ℤ) (power : ℚ) :
    ¬ Raises (generateLoadProfile app depth pref profI peak dayType power) .diverge := by
  rw [raises_generate_iff]
  intro h
  refine Sat.err (Q := fun _ => True) (E := fun e => e ≠ .diverge) ?_ h rfl
  unfold generateLoadProfileInfo
  refine sat_bind (sat_uniform fun u _ _ => ?_)
  refine sat_ite (fun _ => sat_pure trivial) (fun _ => ?_)
  have hcw : ∀ w r, NoDiverge (calcRandWindow w r) := fun w r =>
    nd_bind (nd_randint _ _) fun _ => nd_bind (nd_randint _ _) fun _ => sat_pure trivial
  refine nd_bind (hcw _ _) fun w1 => nd_bind (hcw _ _) fun w2 => nd_bind (hcw _ _) fun w3 => ?_
  refine nd_bind ((sat_randTime_ge _ _ _ _).mono (fun _ _ => trivial) (fun e he => by rw [he]; simp)) fun rt => ?_
  have hfs : ∀ p lo hi n v e, fillSlice p lo hi n v = .error e → e = .valueError := by
    intro p lo hi n v e he
    unfold fillSlice at he
    simp only at he
    split_ifs at he <;> cases he <;> rfl
  have hfw : ∀ v, NoDiverge (liftE (fillWindows w1 w2 w3 v)) := by
    intro v
    refine sat_liftE (fun _ _ => trivial) (fun e he => ?_)
    have : e = .valueError := by
      unfold fillWindows at he
      cases h1 : fillSlice zeros w1.1 w1.2 (w1.2 - w1.1) v with
      | error e1 => rw [h1] at he; cases he; exact hfs _ _ _ _ _ _ h1
      | ok d1 =>
        rw [h1] at he
        change (fillSlice d1 w2.1 w2.2 (w2.2 - w2.1) v >>= _) = _ at he
        cases h2 : fillSlice d1 w2.1 w2.2 (w2.2 - w2.1) v with
        | error e2 => rw [h2] at he; cases he; exact hfs _ _ _ _ _ _ h2
        | ok d2 =>
          rw [h2] at he
          exact hfs _ _ _ _ _ _ he
    rw [this]; simp
  refine sat_ite (fun _ => ?_) (fun _ => ?_)
  · split
    · exact sat_raise (by simp)
    · exact nd_bind (hfw _) fun _ => sat_pure trivial
  · refine nd_bind (hfw _) fun d => nd_bind (nd_assign _) fun app => ?_
    refine nd_bind (nd_switchOnLoop _ _ _ _ _ _ _ _ (by push_cast; omega) (by omega)) fun r => ?_
    exact sat_pure trivial

/-! ## C16 -/

/-- **C16, partial.** Every switch-on event except the last one of the day lasts at least `func_cycle` minutes, if single-shot duty
cycles are not used; so does the last one unless the time of use of the day ends with it.  Missing: the last event, for which
the claim is false (`C16_short_event_possible`). -/
theorem C16_minimum_on_time_partial {app : Appliance} {depth : ℕ} {pref : ℤ} {profI : ℕ} {peak : List ℤ} {dayType : ℤ} {power : ℚ}
    {app' : Appliance} {info : RunInfo} (hw : ValidWindows app) (hfc : 1 ≤ app.funcCycle) (hfl : app.flat ≠ "yes")
    (hss : app.fixedCycle ≤ 0 ∨ app.continuousDutyCycle ≠ 0)
    (h : Returns (generateLoadProfileInfo app depth pref profI peak dayType power) (app', some info)) :
    (∀ b ∈ info.bookings.dropLast, app.funcCycle ≤ b.indexes.length) ∧
    (∀ b ∈ info.bookings.getLast?, app.funcCycle ≤ b.indexes.length ∨
      (info.bookings.map (fun b => (b.indexes.length : ℤ))).sum = info.randTime) := by
  have hs := switchRun_of_returns hw hfc hfl h
  obtain ⟨d, f, i, c1, c2, c3, hcfg⟩ := hs.cfg
  have key : ∀ b ∈ info.bookings, app.funcCycle ≤ fullLen app' b := by
    intro b hb
    obtain ⟨w, _, a, d, n, hdr, _, _, _, hd, _⟩ := (hs.ok b hb).window
    have e1 : app'.funcCycle = app.funcCycle := by rw [hcfg]
    have e2 : app'.fixedCycle = app.fixedCycle := by rw [hcfg]
    have e3 : app'.continuousDutyCycle = app.continuousDutyCycle := by rw [hcfg]
    unfold fullLen
    rw [if_neg (by rw [e2, e3]; omega), hdr]
    simp [arange]
    omega
  refine ⟨fun b hb => ?_, fun b hb => ?_⟩
  · rw [hs.full b hb]
    exact key b (List.dropLast_subset _ hb)
  · rcases hs.lastFull b hb with h | h
    · left; rw [h]; exact key b (List.mem_of_getLast? hb)
    · exact .inr h

/-- **C16 is false in general.** An appliance with `func_cycle = 10` and 15 minutes of use can be switched on for 5 minutes. -/
theorem C16_short_event_possible :
    ∃ app app' info, BuiltAs { app := { funcTime := 15, funcCycle := 10 }, windows := some {} } app ∧
      Returns (generateLoadProfileInfo app 1000 0 0 (minutesFrom 0 60) 0 0) (app', some info) ∧
      app.funcCycle = 10 ∧ ∃ b ∈ info.bookings, b.indexes = minutesFrom 10 5 := by
  obtain ⟨app, app', info, h1, h2, h3⟩ := built_run (args := { app := { funcTime := 15, funcCycle := 10 }, windows := some {} })
    (depth := 1000) (profI := 0) (pref := 0) (peak := minutesFrom 0 60) (dayType := 0) (power := 0) (rng := constantDraws 0)
    (l := [⟨minutesFrom 0 10, minutesFrom 0 10, 1, 0⟩, ⟨minutesFrom 10 10, minutesFrom 10 5, 1, 0⟩]) (by decide +kernel)
  refine ⟨app, app', info, h1, h2, ?_, ⟨minutesFrom 10 10, minutesFrom 10 5, 1, 0⟩, ?_, rfl⟩
  · obtain ⟨u, h1⟩ := h1
    have : ((addAppliance true 1 366 {} { app := { funcTime := 15, funcCycle := 10 }, windows := some {} }).2.toOption.map
      Appliance.funcCycle) = some 10 := by decide +kernel
    rw [h1] at this
    simpa [Except.toOption] using this
  · rw [h3]; simp

end Ramp
