import Verif.Lemmas.Switch

/-! # The switch-on loop of `generate_load_profile` -/

set_option autoImplicit false

namespace Ramp

theorem wrapIdx_of_mem {a : ℤ} (h0 : 0 ≤ a) (h1 : a < 1440) : wrapIdx a = some ⟨a.toNat, by omega⟩ := by
  unfold wrapIdx; rw [dif_pos ⟨h0, h1⟩]

theorem npPutFrom_arange (v : List ℚ) (n : ℕ) : ∀ (k : ℕ) (a : ℤ) (p : Profile), 0 ≤ a → a + n ≤ 1440 →
    npPutFrom v k (arange a (a + n)) p =
      .ok (fun i => if a ≤ (i : ℤ) ∧ (i : ℤ) < a + n then v.getD ((k + ((i : ℤ) - a).toNat) % v.length) 0 else p i) := by
  induction n with
  | zero =>
    intro k a p h0 h1
    rw [arange_nil (by simp), npPutFrom]
    congr 1; funext i
    rw [if_neg (by push_cast; omega)]
  | succ n ih =>
    intro k a p h0 h1
    push_cast at h1
    rw [arange_cons (by push_cast; omega), npPutFrom, wrapIdx_of_mem h0 (by omega)]
    simp only
    have e : (a + ((n + 1 : ℕ) : ℤ)) = a + 1 + n := by push_cast; ring
    rw [e, ih (k + 1) (a + 1) _ (by omega) (by omega)]
    congr 1; funext i
    have hi : (i = (⟨a.toNat, by omega⟩ : Fin 1440)) ↔ (i : ℤ) = a := by
      rw [Fin.ext_iff]; simp only; omega
    by_cases c1 : a + 1 ≤ (i : ℤ) ∧ (i : ℤ) < a + 1 + n
    · rw [if_pos c1, if_pos (by omega)]
      congr 2; omega
    · rw [if_neg c1]
      by_cases c2 : (i : ℤ) = a
      · rw [if_pos (hi.2 c2), if_pos (by omega)]
        congr 2; omega
      · rw [if_neg (fun h => c2 (hi.1 h)), if_neg (by omega)]

theorem npPut_arange (v : List ℚ) (hv : v ≠ []) (n : ℕ) (a : ℤ) (p : Profile) (h0 : 0 ≤ a) (h1 : a + n ≤ 1440) :
    npPut p (arange a (a + n)) v =
      .ok (fun i => if a ≤ (i : ℤ) ∧ (i : ℤ) < a + n then v.getD (((i : ℤ) - a).toNat % v.length) 0 else p i) := by
  unfold npPut
  rw [if_neg (by simpa using hv), npPutFrom_arange v n 0 a p h0 h1]
  simp

/-- The values that `update_daily_use` may write for the booking `b`. -/
def BookingValues (app : Appliance) (power : ℚ) (b : Booking) (v : List ℚ) : Prop :=
  (0 < app.fixedCycle ∧ v = (dutyCycleOf app b.cycleId).map (· * (b.coincidence : ℚ))) ∨
  (app.fixedCycle ≤ 0 ∧ ∃ x, v = [x] ∧ Returns (randomVariation app.thermalPVar (b.coincidence * power)) x)

/-- `prof` is obtained from `base` by writing the bookings of `log` (latest first). -/
inductive Painted (app : Appliance) (power : ℚ) (base : Profile) : List Booking → Profile → Prop
  | nil : Painted app power base [] base
  | cons {b log v p p'} : Painted app power base log p → BookingValues app power b v →
      npPut p b.indexes v = .ok p' → Painted app power base (b :: log) p'

/-- Number of minutes a switch-on event of drawn length `d` lasts when it is not the last one. -/
def fullLen (app : Appliance) (b : Booking) : ℤ :=
  if 0 < app.fixedCycle ∧ app.continuousDutyCycle = 0 then min (b.drawn.length : ℤ) (dutyCycleOf app b.cycleId).length
  else b.drawn.length

/-- What every booking satisfies. -/
structure BookingOK (app : Appliance) (ws : List (ℤ × ℤ)) (randTime : ℤ) (peak : List ℤ) (b : Booking) : Prop where
  window : ∃ w ∈ ws, ∃ a d n : ℤ, b.drawn = arange a (a + d) ∧ b.indexes = arange a (a + n) ∧ w.1 ≤ a ∧ a + d ≤ w.2 ∧
    app.funcCycle ≤ d ∧ d ≤ randTime ∧ 1 ≤ n ∧ n ≤ d ∧
    (0 < app.fixedCycle → selectDutyCycle app a (a + d - 1) = some (b.cycleId, dutyCycleOf app b.cycleId))
  len : (b.indexes.length : ℤ) ≤ fullLen app b
  coin : ∃ i0 i1 q0 q1, b.indexes.head? = some i0 ∧ b.indexes.getLast? = some i1 ∧ peak.head? = some q0 ∧
    peak.getLast? = some q1 ∧ Returns (calcCoincidentSwitchOn app (withinPeakTimeWindow i0 i1 q0 q1)) b.coincidence

/-- The attributes that the loop may change. -/
def SameConfig (app0 app : Appliance) : Prop :=
  ∃ d f c, app = { app0 with dailyUse := d, freeSpots := f, currentDutyCycleId := c }

theorem SameConfig.refl (app : Appliance) : SameConfig app app := ⟨app.dailyUse, app.freeSpots, app.currentDutyCycleId, rfl⟩

/-- Total booked time. -/
def bookedTime (log : List Booking) : ℤ := (log.map (fun b => (b.indexes.length : ℤ))).sum

/-- Static data of a loop. -/
structure LoopCtx where
  app0 : Appliance
  ws : List (ℤ × ℤ)
  randTime : ℤ
  peak : List ℤ
  power : ℚ
  base : Profile

/-- Bookkeeping invariant on free time when the windows do not touch each other. -/
def SepInv (ws : List (ℤ × ℤ)) (spots : List Spot) (log : List Booking) : Prop :=
  ws.Pairwise Apart →
    SpotsApart spots ∧
    (∀ m, Avail spots m ↔ (∃ w ∈ ws, InWindow w m) ∧ ∀ b ∈ log, m ∉ b.indexes) ∧
    log.Pairwise (fun b c => ∀ m, m ∈ b.indexes → m ∉ c.indexes)

structure LoopInv (cx : LoopCtx) (app : Appliance) (log : List Booking) : Prop where
  cfg : SameConfig cx.app0 app
  spots : ∀ s ∈ app.freeSpots, s.start ≤ s.stop ∧ ∃ w ∈ cx.ws, w.1 ≤ s.start ∧ s.stop ≤ w.2
  ok : ∀ b ∈ log, BookingOK cx.app0 cx.ws cx.randTime cx.peak b
  paint : Painted cx.app0 cx.power cx.base log app.dailyUse
  sep : SepInv cx.ws app.freeSpots log

/-- Postcondition of the loop. -/
structure LoopPost (cx : LoopCtx) (app : Appliance) (log : List Booking) : Prop extends LoopInv cx app log where
  full : ∀ b ∈ log.tail, (b.indexes.length : ℤ) = fullLen cx.app0 b
  headFull : ∀ b ∈ log.head?, (b.indexes.length : ℤ) = fullLen cx.app0 b ∨ bookedTime log = cx.randTime
  time : bookedTime log = cx.randTime ∨
    (bookedTime log < cx.randTime ∧ ∀ s ∈ app.freeSpots, s.stop - s.start < cx.app0.funcCycle)

/-- Exceptions the loop may raise. -/
def LoopErr (cx : LoopCtx) (depth : ℕ) (e : Err) : Prop :=
  (e = .recursionError ∧ (depth = 0 ∨ (0 < cx.app0.fixedCycle ∧ ∃ w ∈ cx.ws, ∃ a d : ℤ, w.1 ≤ a ∧ a + d ≤ w.2 ∧
    cx.app0.funcCycle ≤ d ∧ d ≤ cx.randTime ∧ selectDutyCycle cx.app0 a (a + d - 1) = none))) ∨
  (e = .indexError ∧ (cx.peak = [] ∨ (0 < cx.app0.fixedCycle ∧ cx.app0.continuousDutyCycle = 0 ∧
    (cx.app0.randomCycle1 = [] ∨ cx.app0.randomCycle2 = [] ∨ cx.app0.randomCycle3 = [])))) ∨
  (e = .zeroDivisionError ∧ cx.app0.number = 0 ∧ cx.app0.fixed = "no")

theorem sat_calcCoincident_err (app : Appliance) (i : Bool) :
    Sat (calcCoincidentSwitchOn app i) (fun c => Returns (calcCoincidentSwitchOn app i) c)
      (fun e => e = .zeroDivisionError ∧ app.number = 0 ∧ app.fixed = "no") := by
  rw [sat_iff]
  refine ⟨fun a h => h, fun e h => ?_⟩
  refine Sat.err (Q := fun _ => True) (E := fun e => e = .zeroDivisionError ∧ app.number = 0 ∧ app.fixed = "no") ?_ h
  unfold calcCoincidentSwitchOn
  refine sat_ite (fun _ => sat_bind (sat_gauss fun z => sat_pure trivial)) (fun _ => ?_)
  refine sat_ite (fun h1 => ?_) (fun _ => sat_pure trivial)
  refine sat_ite (fun h2 => sat_raise ⟨rfl, h2, h1.2⟩) (fun _ => sat_bind (sat_uniform fun u _ _ => sat_pure trivial))

theorem calcCoincident_congr {app app' : Appliance} (i : Bool) (h1 : app'.number = app.number) (h2 : app'.fixed = app.fixed) :
    calcCoincidentSwitchOn app' i = calcCoincidentSwitchOn app i := by
  unfold calcCoincidentSwitchOn; rw [h1, h2]

/-- `update_daily_use` for an event of minutes `a .. a+n-1` inside the day. -/
theorem sat_updateDailyUse (app : Appliance) (b : Booking) (power : ℚ) (a : ℤ) (n : ℤ)
    (hb : b.indexes = arange a (a + n)) (hn : 1 ≤ n) (h0 : 0 ≤ a) (h1 : a + n ≤ 1440) (hne : app.freeSpots ≠ [])
    (hid : 0 < app.fixedCycle → app.currentDutyCycleId = b.cycleId ∧ (b.cycleId = 1 ∨ b.cycleId = 2 ∨ b.cycleId = 3)) :
    Sat (updateDailyUse app b.coincidence power b.indexes)
      (fun app' => ∃ v p', BookingValues app power b v ∧ npPut app.dailyUse b.indexes v = .ok p' ∧
        app' = { app with dailyUse := p', freeSpots := bookSpots app.freeSpots a (a + n - 1) })
      (fun _ => False) := by
  obtain ⟨k, rfl⟩ : ∃ k : ℕ, n = k := ⟨n.toNat, by omega⟩
  have hput : ∀ v : List ℚ, ∃ p', npPut app.dailyUse b.indexes v = .ok p' := by
    intro v
    by_cases hv : v = []
    · subst hv; exact ⟨_, rfl⟩
    · exact ⟨_, by rw [hb]; exact npPut_arange v hv k a _ h0 h1⟩
  have hav : updateAvailableTime app.freeSpots b.indexes = .ok (bookSpots app.freeSpots a (a + k - 1)) := by
    unfold updateAvailableTime
    rw [if_neg hne, hb, head?_arange (by omega), getLast?_arange (by omega)]
  unfold updateDailyUse
  have hpe : Sat (putEvent app b.coincidence power b.indexes)
      (fun app' => ∃ v p', BookingValues app power b v ∧ npPut app.dailyUse b.indexes v = .ok p' ∧
        app' = { app with dailyUse := p' }) (fun _ => False) := by
    unfold putEvent
    refine sat_ite (fun hfc => ?_) (fun hfc => ?_)
    · obtain ⟨hid1, hid2⟩ := hid hfc
      have go : ∀ c : List ℚ, c = dutyCycleOf app b.cycleId →
          Sat (do
            let d ← liftE (npPut app.dailyUse b.indexes (c.map (· * (b.coincidence : ℚ))))
            pure { app with dailyUse := d } : Sim Appliance)
          (fun app' => ∃ v p', BookingValues app power b v ∧ npPut app.dailyUse b.indexes v = .ok p' ∧
            app' = { app with dailyUse := p' }) (fun _ => False) := by
        rintro c rfl
        obtain ⟨p', hp'⟩ := hput ((dutyCycleOf app b.cycleId).map (· * (b.coincidence : ℚ)))
        refine sat_bind (sat_liftE (fun p hp => sat_pure ⟨_, p, .inl ⟨hfc, rfl⟩, hp, rfl⟩) ?_)
        intro e he; rw [hp'] at he; cases he
      rcases hid2 with h | h | h
      · rw [if_pos (by omega)]; exact go _ (by rw [h]; simp [dutyCycleOf])
      · rw [if_neg (by omega), if_pos (by omega)]; exact go _ (by rw [h]; simp [dutyCycleOf])
      · rw [if_neg (by omega), if_neg (by omega), if_pos (by omega)]; exact go _ (by rw [h]; simp [dutyCycleOf])
    · have hrv : Sat (randomVariation app.thermalPVar (b.coincidence * power))
          (fun x => Returns (randomVariation app.thermalPVar (b.coincidence * power)) x) (fun _ => False) := by
        rw [sat_iff]
        refine ⟨fun _ h => h, fun e he => ?_⟩
        have : Sat (randomVariation app.thermalPVar (b.coincidence * power)) (fun _ => True) (fun _ => False) :=
          sat_bind (sat_uniform fun u _ _ => sat_pure trivial)
        exact this.err he
      refine sat_bind' hrv fun x hx => ?_
      obtain ⟨p', hp'⟩ := hput [x]
      refine sat_bind (sat_liftE (fun p hp => sat_pure ⟨_, p, .inr ⟨by omega, x, rfl, hx⟩, hp, rfl⟩) ?_)
      intro e he; rw [hp'] at he; cases he
  refine sat_bind' hpe ?_
  rintro _ ⟨v, p', hv, hp, rfl⟩
  refine sat_bind (sat_liftE (fun sp hsp => sat_pure ⟨v, p', hv, hp, ?_⟩) ?_)
  · simp only at hsp
    rw [hav] at hsp
    cases hsp
    rfl
  · intro e he
    simp only at he
    rw [hav] at he
    cases he

theorem bookedTime_cons (b : Booking) (log : List Booking) : bookedTime (b :: log) = b.indexes.length + bookedTime log := by
  simp [bookedTime]

/-- Booking one event (lines 2053-2064 or 2068-2074) keeps the invariant. -/
theorem sat_bookEvent (cx : LoopCtx) (hws : ∀ w ∈ cx.ws, 0 ≤ w.1 ∧ w.2 ≤ 1440) (app app' : Appliance) (log : List Booking)
    (ev : SwitchOn) (depth : ℕ) (indexes : List ℤ) (n : ℕ) (hn : n ≤ ev.indexes.length) (hidx : indexes = ev.indexes.take n)
    (hne : indexes = [] → cx.peak = [] ∨ (0 < cx.app0.fixedCycle ∧ cx.app0.continuousDutyCycle = 0 ∧
    (cx.app0.randomCycle1 = [] ∨ cx.app0.randomCycle2 = [] ∨ cx.app0.randomCycle3 = [])))
    (hfc : 1 ≤ cx.app0.funcCycle)
    (hinv : LoopInv cx app log) (hev : EventOK app app' cx.randTime ev) :
    Sat (bookEvent app' cx.peak cx.power indexes)
      (fun r => let b : Booking := ⟨ev.drawn, indexes, r.2, r.1.currentDutyCycleId⟩
        LoopInv cx r.1 (b :: log) ∧ (indexes.length : ℤ) ≤ fullLen cx.app0 b ∧
          (ev.indexes.length : ℤ) = fullLen cx.app0 b ∧ indexes ≠ [])
      (LoopErr cx depth) := by
  obtain ⟨s, hs, a, d, hdr, ha, had, hd1, hd2, hcase⟩ := hev
  obtain ⟨dd, ff, cc, happ⟩ := hinv.cfg
  -- the event as an interval
  obtain ⟨k, hk, hevi, hkd⟩ : ∃ k : ℤ, 0 ≤ k ∧ ev.indexes = arange a (a + k) ∧ k ≤ d := by
    rcases hcase with ⟨_, _, h⟩ | ⟨_, i, _, _, h⟩
    · exact ⟨d, by rw [happ] at hd1; simp at hd1; omega, by rw [h, hdr], le_rfl⟩
    · have : 0 ≤ d := by rw [happ] at hd1; simp at hd1; omega
      refine ⟨_, ?_, h, ?_⟩ <;> split_ifs <;> omega
  have hlen : ev.indexes.length = k.toNat := by rw [hevi]; simp
  have hidx' : indexes = arange a (a + n) := by
    rw [hidx, hevi, take_arange _ _ _ (by omega)]
  unfold bookEvent
  by_cases hn0 : n = 0
  · have : indexes = [] := by rw [hidx, hn0]; simp
    rw [this]
    exact sat_raise (.inr (.inl ⟨rfl, hne this⟩))
  have hn1 : 1 ≤ (n : ℤ) := by omega
  rw [hidx', head?_arange (by omega), getLast?_arange (by omega)]
  cases hp0 : cx.peak.head? with
  | none =>
    have : cx.peak = [] := by simpa using hp0
    exact sat_raise (.inr (.inl ⟨rfl, .inl this⟩))
  | some q0 =>
  cases hp1 : cx.peak.getLast? with
  | none =>
    have : cx.peak = [] := by simpa using hp1
    exact sat_raise (.inr (.inl ⟨rfl, .inl this⟩))
  | some q1 =>
  simp only
  -- app' against app0
  have hcfg' : app'.number = cx.app0.number ∧ app'.fixed = cx.app0.fixed ∧ app'.freeSpots = app.freeSpots ∧
      app'.fixedCycle = cx.app0.fixedCycle ∧ app'.dailyUse = app.dailyUse ∧ app'.thermalPVar = cx.app0.thermalPVar ∧
      (∀ i, dutyCycleOf app' i = dutyCycleOf cx.app0 i) ∧ SameConfig cx.app0 app' ∧
      (0 < app'.fixedCycle → app'.currentDutyCycleId = app'.currentDutyCycleId ∧
        (app'.currentDutyCycleId = 1 ∨ app'.currentDutyCycleId = 2 ∨ app'.currentDutyCycleId = 3)) := by
    rcases hcase with ⟨h0, rfl, _⟩ | ⟨_, i, hsel, rfl, _⟩
    · refine ⟨?_, ?_, rfl, ?_, rfl, ?_, ?_, ⟨dd, ff, cc, happ⟩, fun h => by omega⟩
      all_goals rw [happ]
      intro i; rfl
    · have hi := (selectDutyCycle_some hsel).2
      refine ⟨?_, ?_, rfl, ?_, rfl, ?_, ?_, ⟨dd, ff, i, ?_⟩, fun _ => ⟨rfl, hi⟩⟩
      all_goals rw [happ]
      intro i; rfl
  obtain ⟨hnum, hfix, hfs, hfcy, hdu, hth, hcyc, hsame, hid⟩ := hcfg'
  rw [calcCoincident_congr _ hnum hfix]
  refine sat_bind' ((sat_calcCoincident_err cx.app0 _).mono (fun _ h => h) (fun e he => .inr (.inr he))) fun c hc => ?_
  obtain ⟨hss, w, hw, hw1, hw2⟩ := hinv.spots s hs
  have hwd := hws w hw
  have hupd := sat_updateDailyUse app' ⟨ev.drawn, arange a (a + n), c, app'.currentDutyCycleId⟩ cx.power a n rfl hn1
    (by omega) (by omega) (by rw [hfs]; intro h; rw [h] at hs; simp at hs) hid
  refine sat_bind' (hupd.mono (fun _ h => h) (fun _ h => h.elim)) ?_
  rintro _ ⟨v, p', hv, hput, rfl⟩
  refine sat_pure ?_
  simp only at hput ⊢
  have hfull : (ev.indexes.length : ℤ) = fullLen cx.app0 ⟨ev.drawn, arange a (a + n), c, app'.currentDutyCycleId⟩ := by
    unfold fullLen
    rw [hlen, hdr]
    simp only [length_arange]
    rcases hcase with ⟨h0, rfl, h⟩ | ⟨h0, i, _, rfl, h⟩
    · rw [happ] at h0; simp only at h0
      rw [if_neg (by omega)]
      rw [hevi, hdr] at h
      have := congrArg List.length h
      simp at this; omega
    · rw [happ] at h0; simp only at h0
      rw [hevi] at h
      have := congrArg List.length h
      simp only [length_arange] at this
      have e1 : dutyCycleOf app i = dutyCycleOf cx.app0 i := by rw [happ]; rfl
      have e2 : app.continuousDutyCycle = cx.app0.continuousDutyCycle := by rw [happ]
      rw [e1, e2] at this
      simp only
      by_cases c1 : cx.app0.continuousDutyCycle = 0
      · rw [if_pos c1] at this
        rw [if_pos ⟨h0, c1⟩]; omega
      · rw [if_neg c1] at this
        rw [if_neg (fun c2 => c1 c2.2)]; omega
  have hdlen : (0:ℤ) ≤ d := by rw [happ] at hd1; simp only at hd1; omega
  have hb1 : BookingOK cx.app0 cx.ws cx.randTime cx.peak ⟨ev.drawn, arange a (a + n), c, app'.currentDutyCycleId⟩ := by
    refine ⟨⟨w, hw, a, d, n, hdr, rfl, by omega, by omega, ?_, hd2, hn1, by omega, ?_⟩, ?_, ?_⟩
    · rw [happ] at hd1; exact hd1
    · intro h0
      rcases hcase with ⟨h0', _, _⟩ | ⟨h0', i, hsel, rfl, h⟩
      · rw [happ] at h0'; simp only at h0'; omega
      · rw [happ] at hsel ⊢; exact hsel
    · rw [← hfull]; simp; omega
    · exact ⟨a, a + n - 1, q0, q1, head?_arange (by omega), getLast?_arange (by omega), hp0, hp1, hc⟩
  refine ⟨⟨?_, ?_, ?_, ?_, ?_⟩, ?_, hfull, ?_⟩
  · obtain ⟨x, y, z, h⟩ := hsame
    exact ⟨p', _, z, by rw [h]⟩
  · intro t ht
    simp only at ht
    rw [hfs] at ht
    obtain ⟨h1, u, hu, hu1, hu2⟩ := bookSpots_sub (by omega) (fun s hs => (hinv.spots s hs).1) t ht
    obtain ⟨_, w', hw', h3, h4⟩ := hinv.spots u hu
    exact ⟨h1, w', hw', by omega, by omega⟩
  · intro b hb
    rcases List.mem_cons.1 hb with rfl | hb
    · exact hb1
    · exact hinv.ok b hb
  · refine Painted.cons (v := v) hinv.paint ?_ ?_
    · unfold BookingValues at hv ⊢
      rw [hfcy, hcyc, hth] at hv
      exact hv
    · rw [← hdu]; exact hput
  · intro hap
    obtain ⟨h1, h2, h3⟩ := hinv.sep hap
    simp only
    rw [hfs]
    obtain ⟨g1, g2⟩ := bookSpots_exact (i0 := a) (i1 := a + n - 1) (by omega) h1 ⟨s, hs, by omega, by omega⟩
    refine ⟨g1, ?_, ?_⟩
    · intro m
      rw [g2, h2]
      simp only [List.forall_mem_cons, mem_arange]
      constructor
      · rintro ⟨⟨x, y⟩, z⟩; exact ⟨x, by omega, y⟩
      · rintro ⟨x, y, z⟩; exact ⟨⟨x, z⟩, by omega⟩
    · rw [List.pairwise_cons]
      refine ⟨?_, h3⟩
      intro b hb m hm
      simp only [mem_arange] at hm
      exact ((h2 m).1 ⟨s, hs, by omega, by omega⟩).2 b hb
  · rw [← hfull]; simp; omega
  · intro h
    have := congrArg List.length h
    simp at this; omega

theorem sat_switchOnLoop (cx : LoopCtx) (hws : ∀ w ∈ cx.ws, 0 ≤ w.1 ∧ w.2 ≤ 1440) (hfc : 1 ≤ cx.app0.funcCycle)
    (hrt : cx.app0.funcCycle ≤ cx.randTime) (depth fuel : ℕ) (app : Appliance) (tot : ℤ) (log : List Booking)
    (hinv : LoopInv cx app log) (htot : tot = bookedTime log) (hle : tot ≤ cx.randTime)
    (hfull : ∀ b ∈ log, (b.indexes.length : ℤ) = fullLen cx.app0 b)
    (hfuel : cx.randTime - tot + 1 ≤ fuel) :
    Sat (switchOnLoop depth cx.peak cx.power cx.randTime fuel app tot log) (fun r => LoopPost cx r.1 r.2)
      (LoopErr cx depth) := by
  induction fuel generalizing app tot log with
  | zero => simp at hfuel; omega
  | succ fuel ih =>
    rw [switchOnLoop]
    rw [if_pos ⟨hle, by omega⟩]
    obtain ⟨dd, ff, cc, happ⟩ := hinv.cfg
    have hfc' : app.funcCycle = cx.app0.funcCycle := by rw [happ]
    have hcy' : app.fixedCycle = cx.app0.fixedCycle := by rw [happ]
    have hun : Unmatched app cx.randTime → (0 < cx.app0.fixedCycle ∧ ∃ w ∈ cx.ws, ∃ a d : ℤ, w.1 ≤ a ∧ a + d ≤ w.2 ∧
        cx.app0.funcCycle ≤ d ∧ d ≤ cx.randTime ∧ selectDutyCycle cx.app0 a (a + d - 1) = none) := by
      rintro ⟨h0, s, hs, a, d, ha, had, hd1, hd2, hsel⟩
      obtain ⟨_, w, hw, hw1, hw2⟩ := hinv.spots s hs
      refine ⟨by omega, w, hw, a, d, by omega, by omega, by omega, hd2, ?_⟩
      rw [happ] at hsel
      exact hsel
    refine sat_bind' ((sat_randSwitchOnWindow depth app cx.randTime (by omega) (by omega)).mono (fun _ h => h)
      (fun e he => .inl ⟨he.1, he.2.imp_right hun⟩)) ?_
    rintro ⟨app', event⟩ hr
    simp only at hr
    rcases hr with ⟨rfl, rfl, hno⟩ | ⟨ev, rfl, hev⟩
    · refine sat_pure ⟨hinv, fun b hb => hfull b (List.mem_of_mem_tail hb), fun b hb => .inl (hfull b (List.mem_of_mem_head? hb)), ?_⟩
      rw [hfc'] at hno
      rcases eq_or_lt_of_le hle with h | h
      · exact .inl (by show bookedTime log = _; omega)
      · exact .inr ⟨by show bookedTime log < _; omega, hno⟩
    · obtain ⟨drawn, indexes⟩ := ev
      simp only
      -- an event without minutes only comes from an empty single-shot cycle
      have hempty : indexes = [] → cx.peak = [] ∨ (0 < cx.app0.fixedCycle ∧ cx.app0.continuousDutyCycle = 0 ∧
          (cx.app0.randomCycle1 = [] ∨ cx.app0.randomCycle2 = [] ∨ cx.app0.randomCycle3 = [])) := by
        intro he
        right
        obtain ⟨s, hs, a, d, hdr, ha, had, hd1, hd2, hcase⟩ := hev
        simp only at hdr hcase
        rcases hcase with ⟨_, _, h⟩ | ⟨h0, i, hsel, _, h⟩
        · rw [he, hdr] at h
          have := congrArg List.length h
          simp at this; omega
        · rw [he] at h
          have := congrArg List.length h
          simp only [List.length_nil, length_arange] at this
          split_ifs at this with h1
          · have e1 : dutyCycleOf app i = dutyCycleOf cx.app0 i := by rw [happ]; rfl
            have e2 : app.continuousDutyCycle = cx.app0.continuousDutyCycle := by rw [happ]
            rw [e1] at this
            have hl : (dutyCycleOf cx.app0 i).length = 0 := by omega
            have hl' : dutyCycleOf cx.app0 i = [] := by simpa using hl
            refine ⟨by omega, by omega, ?_⟩
            rcases (selectDutyCycle_some hsel).2 with rfl | rfl | rfl <;> simp [dutyCycleOf] at hl' <;> simp [hl']
          · omega
      refine sat_ite (fun hgt => ?_) (fun hgt => ?_)
      · refine sat_ite (fun hpos => ?_) (fun hpos => ?_)
        · refine sat_bind' (sat_bookEvent cx hws app app' log ⟨drawn, indexes⟩ depth _
            (indexes.length - (tot + indexes.length - cx.randTime).toNat) (by simp) rfl ?_ hfc hinv hev) ?_
          · intro h
            rw [h] at hpos; simp at hpos
          · rintro ⟨app'', c⟩ ⟨hi, hl, hfl, hne⟩
            refine sat_pure ⟨hi, fun b hb => hfull b hb, ?_, ?_⟩
            · have : bookedTime (⟨drawn, indexes.take (indexes.length - (tot + indexes.length - cx.randTime).toNat), c,
                  app''.currentDutyCycleId⟩ :: log) = cx.randTime := by
                rw [bookedTime_cons, ← htot]
                simp only [List.length_take] at hpos ⊢
                omega
              exact fun b hb => .inr this
            · left
              simp only
              rw [bookedTime_cons, ← htot]
              simp only [List.length_take] at hpos ⊢
              omega
        · -- nothing left to book: the time of use is already reached
          have hz : tot = cx.randTime := by
            simp only [List.length_take] at hpos
            omega
          refine sat_pure ⟨?_, fun b hb => hfull b (List.mem_of_mem_tail hb), fun b hb => .inl (hfull b (List.mem_of_mem_head? hb)), .inl ?_⟩
          · obtain ⟨s, hs, a, d, hdr, ha, had, hd1, hd2, hcase⟩ := hev
            have : ∃ c', app' = { app with currentDutyCycleId := c' } := by
              rcases hcase with ⟨_, rfl, h⟩ | ⟨h0, i, hsel, rfl, h⟩
              · exact ⟨app'.currentDutyCycleId, rfl⟩
              · exact ⟨i, rfl⟩
            obtain ⟨c', rfl⟩ := this
            exact ⟨⟨dd, ff, c', by rw [happ]⟩, hinv.spots, hinv.ok, hinv.paint, hinv.sep⟩
          · simp only; omega
      · refine sat_bind' (sat_bookEvent cx hws app app' log ⟨drawn, indexes⟩ depth indexes indexes.length le_rfl
          (by simp) hempty hfc hinv hev) ?_
        rintro ⟨app'', c⟩ ⟨hi, hl, hfl, hne⟩
        refine ih app'' _ _ hi ?_ (by omega) ?_ ?_
        · rw [bookedTime_cons, ← htot]; simp only; omega
        · intro b hb
          rcases List.mem_cons.1 hb with rfl | hb
          · exact hfl
          · exact hfull b hb
        · have : 0 < indexes.length := List.length_pos_iff.2 hne
          push_cast at hfuel
          omega

end Ramp
