import Verif.Lemmas.Paint

/-! # Facts about a run of `generate_load_profile`, in terms of the appliance before and after -/

set_option autoImplicit false

namespace Ramp

/-- The windows of use of a run that are not empty. -/
def runWindows (info : RunInfo) : List (ℤ × ℤ) := [info.w1, info.w2, info.w3].filter (fun w => decide (w.1 ≠ w.2))

/-- A run of an appliance that is neither skipped nor flat. -/
structure SwitchRun (app : Appliance) (peak : List ℤ) (power : ℚ) (app' : Appliance) (info : RunInfo) : Prop where
  notFlat : app.flat ≠ "yes"
  cfg : ∃ d f i c1 c2 c3, app' = { app with
    dailyUse := d, freeSpots := f, currentDutyCycleId := i, randomCycle1 := c1, randomCycle2 := c2, randomCycle3 := c3 }
  d1 : DayWindow info.w1
  d2 : DayWindow info.w2
  d3 : DayWindow info.w3
  m1 : MovedWindow app.window1 app.randomVar1 info.w1
  m2 : MovedWindow app.window2 app.randomVar2 info.w2
  m3 : MovedWindow app.window3 app.randomVar3 info.w3
  randTime : Returns (randTotalTimeOfUse app info.w1 info.w2 info.w3) info.randTime
  ok : ∀ b ∈ info.bookings, BookingOK app' (runWindows info) info.randTime peak b
  paint : Painted app' power (windowProfile info.w1 info.w2 info.w3 (1 / 1000)) info.bookings.reverse app'.dailyUse
  sep : WindowsApart info.w1 info.w2 info.w3 → SpotsApart app'.freeSpots ∧
    (∀ m, Avail app'.freeSpots m ↔ (InWindow info.w1 m ∨ InWindow info.w2 m ∨ InWindow info.w3 m) ∧
      ∀ b ∈ info.bookings, m ∉ b.indexes) ∧
    info.bookings.Pairwise (fun b c => ∀ m, m ∈ b.indexes → m ∉ c.indexes)
  full : ∀ b ∈ info.bookings.dropLast, (b.indexes.length : ℤ) = fullLen app' b
  lastFull : ∀ b ∈ info.bookings.getLast?, (b.indexes.length : ℤ) = fullLen app' b ∨ bookedTime info.bookings = info.randTime
  time : bookedTime info.bookings = info.randTime ∨
    (bookedTime info.bookings < info.randTime ∧ ∀ s ∈ app'.freeSpots, s.stop - s.start < app.funcCycle)
  cycles : ∃ d, Returns (assignRandomCycles { app with dailyUse := d })
    { app with
      dailyUse := d, randomCycle1 := app'.randomCycle1, randomCycle2 := app'.randomCycle2, randomCycle3 := app'.randomCycle3 }

theorem BookingOK.congr {app0 app : Appliance} {ws : List (ℤ × ℤ)} {rt : ℤ} {peak : List ℤ} {b : Booking}
    (hc : SameConfig app0 app) (h : BookingOK app0 ws rt peak b) : BookingOK app ws rt peak b := by
  obtain ⟨d, f, c, rfl⟩ := hc
  exact ⟨h.window, h.len, h.coin⟩

theorem Painted.congr {app0 app : Appliance} {power : ℚ} {base p : Profile} {log : List Booking}
    (hc : SameConfig app0 app) (h : Painted app0 power base log p) : Painted app power base log p := by
  obtain ⟨d, f, c, rfl⟩ := hc
  induction h with
  | nil => exact .nil
  | cons _ hv hp ih => exact .cons ih hv hp

theorem bookedTime_reverse (l : List Booking) : bookedTime l.reverse = bookedTime l := by
  unfold bookedTime
  rw [List.map_reverse, List.sum_reverse]

theorem switchRun_of_runOK {app : Appliance} {profI : ℕ} {peak : List ℤ} {power : ℚ} {app' : Appliance} {info : RunInfo}
    (h : RunOK app profI peak power app' info) (hfl : app.flat ≠ "yes") : SwitchRun app peak power app' info := by
  rcases h.run with ⟨hf, _⟩ | ⟨_, base, app0, rfl, hret, ⟨c1, c2, c3, rfl⟩, hpost⟩
  · exact absurd hf hfl
  · have hok := fun b hb => (hpost.ok b hb).congr hpost.cfg
    have hpaint := hpost.paint.congr hpost.cfg
    obtain ⟨dd, ff, ii, happ⟩ := hpost.cfg
    simp only at happ
    subst happ
    refine
      { notFlat := hfl, cfg := ⟨dd, ff, ii, c1, c2, c3, rfl⟩, d1 := h.d1, d2 := h.d2, d3 := h.d3, m1 := h.m1, m2 := h.m2, m3 := h.m3,
        randTime := h.time, ok := ?_, paint := hpaint, sep := ?_, full := ?_, lastFull := ?_, time := ?_, cycles := ?_ }
    · exact fun b hb => hok b (List.mem_reverse.2 hb)
    · intro hap
      obtain ⟨s1, s2, s3⟩ := hpost.sep (windowsApart_pairwise hap)
      refine ⟨s1, fun m => ?_, ?_⟩
      · rw [s2 m, mem_windows]
        simp only [List.mem_reverse]
      · rw [List.pairwise_reverse] at s3
        exact s3.imp (fun hh m hm hm' => hh m hm' hm)
    · intro b hb
      refine hpost.full b ?_
      rw [List.tail_reverse, List.mem_reverse]; exact hb
    · intro b hb
      have := hpost.headFull b (by rw [List.head?_reverse]; exact hb)
      rwa [bookedTime_reverse] at this
    · have := hpost.time
      rwa [bookedTime_reverse] at this
    · exact ⟨_, hret⟩

/-- The run of an appliance with valid windows that is not skipped. -/
theorem runOK_of_returns {app : Appliance} {depth : ℕ} {pref : ℤ} {profI : ℕ} {peak : List ℤ} {dayType : ℤ} {power : ℚ}
    {app' : Appliance} {info : RunInfo} (hw : ValidWindows app) (hfc : 1 ≤ app.funcCycle)
    (h : Returns (generateLoadProfileInfo app depth pref profI peak dayType power) (app', some info)) :
    RunOK { app with dailyUse := zeros } profI peak power app' info := by
  rcases (sat_generateInfo app depth pref profI peak dayType power hw hfc).ret h with ⟨h, _⟩ | ⟨info', h, _, _, hr⟩
  · simp at h
  · simp only [Option.some.injEq] at h
    subst h; exact hr

theorem switchRun_of_returns {app : Appliance} {depth : ℕ} {pref : ℤ} {profI : ℕ} {peak : List ℤ} {dayType : ℤ} {power : ℚ}
    {app' : Appliance} {info : RunInfo} (hw : ValidWindows app) (hfc : 1 ≤ app.funcCycle) (hfl : app.flat ≠ "yes")
    (h : Returns (generateLoadProfileInfo app depth pref profI peak dayType power) (app', some info)) :
    SwitchRun app peak power app' info := by
  have hs := switchRun_of_runOK (runOK_of_returns hw hfc h) hfl
  obtain ⟨d, f, i, c1, c2, c3, hc⟩ := hs.cfg
  obtain ⟨dd, hcy⟩ := hs.cycles
  exact { notFlat := hfl, cfg := ⟨d, f, i, c1, c2, c3, hc⟩, d1 := hs.d1, d2 := hs.d2, d3 := hs.d3, m1 := hs.m1, m2 := hs.m2, m3 := hs.m3,
          randTime := hs.randTime, ok := hs.ok, paint := hs.paint, sep := hs.sep, full := hs.full, lastFull := hs.lastFull,
          time := hs.time, cycles := ⟨dd, hcy⟩ }

/-- `generate_load_profile` is the run without its ghost record. -/
theorem returns_generate_iff {app : Appliance} {depth : ℕ} {pref : ℤ} {profI : ℕ} {peak : List ℤ} {dayType : ℤ} {power : ℚ}
    {app' : Appliance} : Returns (generateLoadProfile app depth pref profI peak dayType power) app' ↔
      ∃ o, Returns (generateLoadProfileInfo app depth pref profI peak dayType power) (app', o) := by
  unfold generateLoadProfile
  constructor
  · rintro ⟨rng, rng', h⟩
    cases hm : generateLoadProfileInfo app depth pref profI peak dayType power rng with
    | error e => rw [bind_error hm] at h; cases h
    | ok p =>
      obtain ⟨⟨a, o⟩, r⟩ := p
      rw [bind_ok hm] at h
      cases h
      exact ⟨o, rng, rng', hm⟩
  · rintro ⟨o, rng, rng', h⟩
    exact ⟨rng, rng', by rw [bind_ok h]; rfl⟩

theorem raises_generate_iff {app : Appliance} {depth : ℕ} {pref : ℤ} {profI : ℕ} {peak : List ℤ} {dayType : ℤ} {power : ℚ}
    {e : Err} : Raises (generateLoadProfile app depth pref profI peak dayType power) e ↔
      Raises (generateLoadProfileInfo app depth pref profI peak dayType power) e := by
  unfold generateLoadProfile
  constructor
  · rintro ⟨rng, h⟩
    cases hm : generateLoadProfileInfo app depth pref profI peak dayType power rng with
    | error e' => rw [bind_error hm] at h; cases h; exact ⟨rng, hm⟩
    | ok p =>
      obtain ⟨⟨a, o⟩, r⟩ := p
      rw [bind_ok hm] at h
      cases h
  · rintro ⟨rng, h⟩
    exact ⟨rng, bind_error h⟩

end Ramp
