import Verif.Props.Profile

/-! # Properties C24-C28, C71 and C72: duty cycles, and runs that never raise -/

set_option autoImplicit false

namespace Ramp

/-! ## C71: the duty cycles of the day -/

theorem sat_band {tv p : ℚ} (h : 0 ≤ tv) {E : Err → Prop} :
    Sat (randomVariation tv p) (fun x => ∃ f, |f - 1| ≤ tv ∧ x = p * f) E := by
  have := sat_randomVariation tv p (E := E)
  unfold InBand at this
  rwa [abs_of_nonneg h] at this

/-- **C71.** The duty cycles of the day never fail to be drawn for sensible parameters, and they follow the specification of the
user: with one cycle all three are the first cycle; with two, the second one is the second cycle; with three, every cycle is one
of the two orders of its parts.  Nothing else of the appliance changes. -/
theorem C71_cycles_of_the_day (app : Appliance) (hv : ValidCycles app) :
    NeverRaises (assignRandomCycles app) ∧ ∀ app', Returns (assignRandomCycles app) app' →
      app' = { app with randomCycle1 := app'.randomCycle1, randomCycle2 := app'.randomCycle2, randomCycle3 := app'.randomCycle3 } ∧
      (app.fixedCycle = 1 → TwoPart app.rc1 app.t11 app.p11 app.t12 app.p12 app.thermalPVar app'.randomCycle1 ∧
        app'.randomCycle2 = app'.randomCycle1 ∧ app'.randomCycle3 = app'.randomCycle1) ∧
      (app.fixedCycle = 2 → TwoPart app.rc1 app.t11 app.p11 app.t12 app.p12 app.thermalPVar app'.randomCycle1 ∧
        TwoPart app.rc2 app.t21 app.p21 app.t22 app.p22 app.thermalPVar app'.randomCycle2) ∧
      (3 ≤ app.fixedCycle → TwoPartEither app.rc1 app.t11 app.p11 app.t12 app.p12 app.thermalPVar app'.randomCycle1 ∧
        TwoPartEither app.rc2 app.t21 app.p21 app.t22 app.p22 app.thermalPVar app'.randomCycle2 ∧
        TwoPartEither app.rc3 app.t31 app.p31 app.t32 app.p32 app.thermalPVar app'.randomCycle3) ∧
      (app.fixedCycle ≤ 0 → app' = app) := by
  have key : Sat (assignRandomCycles app) (fun app' =>
      app' = { app with randomCycle1 := app'.randomCycle1, randomCycle2 := app'.randomCycle2, randomCycle3 := app'.randomCycle3 } ∧
      (app.fixedCycle = 1 → TwoPart app.rc1 app.t11 app.p11 app.t12 app.p12 app.thermalPVar app'.randomCycle1 ∧
        app'.randomCycle2 = app'.randomCycle1 ∧ app'.randomCycle3 = app'.randomCycle1) ∧
      (app.fixedCycle = 2 → TwoPart app.rc1 app.t11 app.p11 app.t12 app.p12 app.thermalPVar app'.randomCycle1 ∧
        TwoPart app.rc2 app.t21 app.p21 app.t22 app.p22 app.thermalPVar app'.randomCycle2) ∧
      (3 ≤ app.fixedCycle → TwoPartEither app.rc1 app.t11 app.p11 app.t12 app.p12 app.thermalPVar app'.randomCycle1 ∧
        TwoPartEither app.rc2 app.t21 app.p21 app.t22 app.p22 app.thermalPVar app'.randomCycle2 ∧
        TwoPartEither app.rc3 app.t31 app.p31 app.t32 app.p32 app.thermalPVar app'.randomCycle3) ∧
      (app.fixedCycle ≤ 0 → app' = app)) (fun _ => False) := by
    have either : ∀ {rc p1 p2 a b : ℚ} {t1 t2 : ℤ} {l : List ℚ}, (∃ f, |f - 1| ≤ app.thermalPVar ∧ a = p1 * f) →
        (∃ f, |f - 1| ≤ app.thermalPVar ∧ b = p2 * f) →
        (∃ k1 k2, PartLength rc t1 k1 ∧ PartLength rc t2 k2 ∧
          (l = List.replicate k1 a ++ List.replicate k2 b ∨ l = List.replicate k2 b ++ List.replicate k1 a)) →
        TwoPartEither rc t1 p1 t2 p2 app.thermalPVar l := by
      rintro rc p1 p2 a b t1 t2 l ⟨f1, hf1, rfl⟩ ⟨f2, hf2, rfl⟩ ⟨k1, k2, h1, h2, h | h⟩
      · exact .inl ⟨k1, k2, f1, f2, h1, h2, hf1, hf2, h⟩
      · exact .inr ⟨k2, k1, f2, f1, h2, h1, hf2, hf1, h⟩
    have one : ∀ {rc p1 p2 a b : ℚ} {t1 t2 : ℤ} {l : List ℚ}, (∃ f, |f - 1| ≤ app.thermalPVar ∧ a = p1 * f) →
        (∃ f, |f - 1| ≤ app.thermalPVar ∧ b = p2 * f) →
        (∃ k1 k2, PartLength rc t1 k1 ∧ PartLength rc t2 k2 ∧ l = List.replicate k1 a ++ List.replicate k2 b) →
        TwoPart rc t1 p1 t2 p2 app.thermalPVar l := by
      rintro rc p1 p2 a b t1 t2 l ⟨f1, hf1, rfl⟩ ⟨f2, hf2, rfl⟩ ⟨k1, k2, h1, h2, h⟩
      exact ⟨k1, k2, f1, f2, h1, h2, hf1, hf2, h⟩
    unfold assignRandomCycles
    refine sat_ite (fun h1 => ?_) (fun h1 => sat_pure ⟨rfl, fun h => by omega, fun h => by omega, fun h => by omega, fun _ => rfl⟩)
    refine sat_bind' (sat_band hv.tv) fun a1 ha1 => sat_bind' (sat_band hv.tv) fun b1 hb1 => ?_
    refine sat_bind' (sat_dutyCycle _ _ hv.rc1.1 hv.rc1.2 hv.t11 hv.t12) fun c1 hc1 => ?_
    refine sat_ite (fun h2 => ?_) (fun h2 => sat_pure ⟨rfl, fun _ => ⟨one ha1 hb1 hc1, rfl, rfl⟩, ?_, ?_, ?_⟩)
    · refine sat_bind' (sat_band hv.tv) fun a2 ha2 => sat_bind' (sat_band hv.tv) fun b2 hb2 => ?_
      refine sat_bind' (sat_dutyCycle _ _ hv.rc2.1 hv.rc2.2 hv.t21 hv.t22) fun c2 hc2 => ?_
      refine sat_ite (fun h3 => ?_) (fun h3 => sat_pure ⟨rfl, ?_, fun _ => ⟨one ha1 hb1 hc1, one ha2 hb2 hc2⟩, ?_, ?_⟩)
      · refine sat_bind' (sat_band hv.tv) fun a3 ha3 => sat_bind' (sat_band hv.tv) fun b3 hb3 => ?_
        refine sat_bind' (sat_randomChoice _ _ hv.rc1.1 hv.rc1.2 hv.t11 hv.t12) fun d1 hd1 => ?_
        refine sat_bind' (sat_randomChoice _ _ hv.rc2.1 hv.rc2.2 hv.t21 hv.t22) fun d2 hd2 => ?_
        refine sat_bind' (sat_randomChoice _ _ hv.rc3.1 hv.rc3.2 hv.t31 hv.t32) fun d3 hd3 => ?_
        refine sat_pure ⟨rfl, ?_, ?_, fun _ => ⟨either ha1 hb1 hd1, either ha2 hb2 hd2, either ha3 hb3 hd3⟩, ?_⟩
        all_goals (intro h; simp only at h1 h2 h3; omega)
      all_goals (intro h; simp only at h1 h2 h3; omega)
    all_goals (intro h; simp only at h1 h2; omega)
  exact ⟨neverRaises_of_sat key, fun app' h => key.ret h⟩

/-- A case for C71: a fridge-like cycle of 20 minutes at 200 W and 10 minutes at 5 W. -/
example : ValidCycles ({ fixedCycle := 1, t11 := 20, p11 := 200, t12 := 10, p12 := 5, rc1 := 1 / 10 } : Appliance) := by
  constructor <;> norm_num

/-! ## C24 -/

/-- **C24, partial.** With duty cycles and windows that do not touch, the `k`-th minute of an event carries the coincidence times
sample `k mod len(cycle)` of the cycle selected for the event.  Missing: windows that touch, where a later event may overwrite
minutes of an earlier one. -/
theorem C24_cycle_layout_partial {app : Appliance} {depth : ℕ} {pref : ℤ} {profI : ℕ} {peak : List ℤ} {dayType : ℤ} {power : ℚ}
    {app' : Appliance} {info : RunInfo} (hw : ValidWindows app) (hfc : 1 ≤ app.funcCycle) (hfl : app.flat ≠ "yes")
    (hfix : 0 < app.fixedCycle)
    (h : Returns (generateLoadProfileInfo app depth pref profI peak dayType power) (app', some info))
    (hap : WindowsApart info.w1 info.w2 info.w3) (b : Booking) (hb : b ∈ info.bookings)
    (hne : dutyCycleOf app' b.cycleId ≠ []) (k : ℕ) (i : Fin 1440) (hk : b.indexes[k]? = some (i : ℤ)) :
    ∃ s, (dutyCycleOf app' b.cycleId)[k % (dutyCycleOf app' b.cycleId).length]? = some s ∧
      app'.dailyUse i = s * b.coincidence := by
  have hs := switchRun_of_returns hw hfc hfl h
  obtain ⟨d, f, j, c1, c2, c3, hcfg⟩ := hs.cfg
  obtain ⟨v, hv, hval⟩ := painted_disjoint hs.paint
    (fun b hb => (hs.ok b (List.mem_reverse.1 hb)).runOfDay (filter_day hs.d1 hs.d2 hs.d3))
    (by rw [List.pairwise_reverse]; exact (hs.sep hap).2.2.imp (fun hh m hm hm' => hh m hm' hm)) b (List.mem_reverse.2 hb)
  rcases hv with ⟨_, rfl⟩ | ⟨hf, _⟩
  · have hlt : k % (dutyCycleOf app' b.cycleId).length < (dutyCycleOf app' b.cycleId).length :=
      Nat.mod_lt _ (List.length_pos_iff.2 hne)
    have := hval (by simpa using hne) k i hk
    rw [List.length_map, List.getD_eq_getElem _ _ (by simpa using hlt), List.getElem_map] at this
    exact ⟨_, List.getElem?_eq_getElem hlt, this⟩
  · rw [hcfg] at hf; simp only at hf; omega

/-- **C24, all windows.** With duty cycles, whatever the windows: the `k`-th minute of an event carries the coincidence times sample
`k mod len(cycle)` of the cycle selected for the event, unless a later event covers the same minute (which C13 says when it can happen). -/
theorem C24_last_event {app : Appliance} {depth : ℕ} {pref : ℤ} {profI : ℕ} {peak : List ℤ} {dayType : ℤ} {power : ℚ}
    {app' : Appliance} {info : RunInfo} (hw : ValidWindows app) (hfc : 1 ≤ app.funcCycle) (hfl : app.flat ≠ "yes")
    (hfix : 0 < app.fixedCycle)
    (h : Returns (generateLoadProfileInfo app depth pref profI peak dayType power) (app', some info))
    {earlier later : List Booking} {b : Booking} (hb : info.bookings = earlier ++ b :: later)
    (hne : dutyCycleOf app' b.cycleId ≠ []) (k : ℕ) (i : Fin 1440) (hk : b.indexes[k]? = some (i : ℤ)) (hlast : ∀ c ∈ later, (i : ℤ) ∉ c.indexes) :
    ∃ s, (dutyCycleOf app' b.cycleId)[k % (dutyCycleOf app' b.cycleId).length]? = some s ∧
      app'.dailyUse i = s * b.coincidence := by
  have hs := switchRun_of_returns hw hfc hfl h
  obtain ⟨d, f, j, c1, c2, c3, hcfg⟩ := hs.cfg
  obtain ⟨v, hv, hval⟩ := painted_last (later := later.reverse) (b := b) (earlier := earlier.reverse) hs.paint
    (fun b hb => (hs.ok b (List.mem_reverse.1 hb)).runOfDay (filter_day hs.d1 hs.d2 hs.d3)) (by rw [hb]; simp)
  rcases hv with ⟨_, rfl⟩ | ⟨hf, _⟩
  · have hlt : k % (dutyCycleOf app' b.cycleId).length < (dutyCycleOf app' b.cycleId).length :=
      Nat.mod_lt _ (List.length_pos_iff.2 hne)
    have := hval (by simpa using hne) k i hk (fun c hc => hlast c (List.mem_reverse.1 hc))
    rw [List.length_map, List.getD_eq_getElem _ _ (by simpa using hlt), List.getElem_map] at this
    exact ⟨_, List.getElem?_eq_getElem hlt, this⟩
  · rw [hcfg] at hf; simp only at hf; omega

/-- A duty cycle of 5 minutes at 200 W and 5 minutes at 20 W, with two windows that overlap. -/
def overlappingCycleArgs : AddArgs :=
  { app := { power := .number 100, numWindows := 2, funcTime := 20, funcCycle := 10, fixedCycle := 1 },
    windows := some { window1 := some (0, 10), window2 := some (5, 40) },
    cycle1 := some { p1 := 200, t1 := 5, p2 := 20, t2 := 5, cwa := some (0, 1440) } }

/-- What a run shows at minute 5. -/
def shownAtFive (m : Sim (Appliance × Option RunInfo)) (rng : Rng) : Option (List Booking × ℚ × List ℚ) := match m rng with
  | .ok ((a, some info), _) => some (info.bookings, a.dailyUse 5, a.randomCycle1)
  | _ => none

/-- **C24 is false without the restriction to the last event.** Two windows that overlap, accepted by `add_appliance`: minute 5 is the sixth minute
of the first event, whose sample is 20 W, but the second event, started at minute 5, overwrites it with 200 W. -/
theorem C24_overwritten_possible :
    ∃ app app' info b c, BuiltAs overlappingCycleArgs app ∧
      Returns (generateLoadProfileInfo app 1000 0 0 (minutesFrom 0 60) 0 100) (app', some info) ∧
      info.bookings = [b, c] ∧ b.cycleId = 1 ∧ b.coincidence = 1 ∧ b.indexes[5]? = some 5 ∧ (dutyCycleOf app' 1)[5]? = some 20 ∧ app'.dailyUse 5 = 200 := by
  obtain ⟨app, ha, hrun⟩ : ∃ app, builtBy overlappingCycleArgs = some app ∧ shownAtFive (generateLoadProfileInfo app 1000 0 0 (minutesFrom 0 60) 0 100) (constantDraws 0) =
      some ([⟨minutesFrom 0 10, minutesFrom 0 10, 1, 1⟩, ⟨minutesFrom 5 10, minutesFrom 5 10, 1, 1⟩], 200, [200, 200, 200, 200, 200, 20, 20, 20, 20, 20]) := by
    have e : (builtBy overlappingCycleArgs).bind (fun app => shownAtFive (generateLoadProfileInfo app 1000 0 0 (minutesFrom 0 60) 0 100) (constantDraws 0)) =
      some ([⟨minutesFrom 0 10, minutesFrom 0 10, 1, 1⟩, ⟨minutesFrom 5 10, minutesFrom 5 10, 1, 1⟩], 200, [200, 200, 200, 200, 200, 20, 20, 20, 20, 20]) := by
      decide +kernel
    exact Option.bind_eq_some_iff.1 e
  unfold shownAtFive at hrun
  split at hrun
  case h_1 a info r hm =>
    obtain ⟨e1, e2⟩ := Prod.ext_iff.1 (Option.some.inj hrun)
    obtain ⟨e2, e3⟩ := Prod.ext_iff.1 e2
    refine ⟨app, a, info, _, _, builtBy_some ha, ⟨_, r, hm⟩, e1, rfl, rfl, by decide, ?_, e2⟩
    show (dutyCycleOf a 1)[5]? = some 20
    rw [show dutyCycleOf a 1 = a.randomCycle1 from rfl]
    simp only at e3
    rw [e3]; rfl
  case h_2 => simp at hrun

/-- **C24.** Whatever the windows, a minute carries either a coincidence times a sample of a duty cycle of the day, or the value it
had before any event (0.001 in the windows, 0 outside). -/
theorem C24_samples {app : Appliance} {depth : ℕ} {pref : ℤ} {profI : ℕ} {peak : List ℤ} {dayType : ℤ} {power : ℚ}
    {app' : Appliance} {info : RunInfo} (hw : ValidWindows app) (hfc : 1 ≤ app.funcCycle) (hfl : app.flat ≠ "yes")
    (hfix : 0 < app.fixedCycle)
    (h : Returns (generateLoadProfileInfo app depth pref profI peak dayType power) (app', some info)) (i : Fin 1440) :
    (∃ b ∈ info.bookings, (i : ℤ) ∈ b.indexes ∧ ∃ s ∈ dutyCycleOf app' b.cycleId, app'.dailyUse i = s * b.coincidence) ∨
    app'.dailyUse i = (if InWindow info.w1 i ∨ InWindow info.w2 i ∨ InWindow info.w3 i then 1 / 1000 else 0) := by
  have hs := switchRun_of_returns hw hfc hfl h
  rcases run_value hs i with ⟨b, hb, hib, ⟨_, h⟩ | ⟨hf, _⟩⟩ | ⟨e, _⟩
  · exact .inl ⟨b, hb, hib, h⟩
  · omega
  · exact .inr (by rw [e, windowProfile_def])

/-! ## C25 -/

/-- **C25.** The cycle of every switch-on event is the first one with a window overlapping the event as drawn, that is before a
single-shot cycle or the end of the time of use shortened it; an event overlapping no cycle window is never used. -/
theorem C25_cycle_selection {app : Appliance} {depth : ℕ} {pref : ℤ} {profI : ℕ} {peak : List ℤ} {dayType : ℤ} {power : ℚ}
    {app' : Appliance} {info : RunInfo} (hw : ValidWindows app) (hfc : 1 ≤ app.funcCycle) (hfl : app.flat ≠ "yes")
    (hfix : 0 < app.fixedCycle) (hc : OrderedCycleWindows app)
    (h : Returns (generateLoadProfileInfo app depth pref profI peak dayType power) (app', some info))
    (b : Booking) (hb : b ∈ info.bookings) :
    ∃ (a : ℤ) (d : ℕ), b.drawn = minutesFrom a d ∧ 1 ≤ d ∧ b.indexes <+: b.drawn ∧
      ChosenCycle app a (a + d - 1) b.cycleId := by
  have hs := switchRun_of_returns hw hfc hfl h
  obtain ⟨w, _, a, d, n, hdr, hidx, _, _, hd, _, hn1, hnd, hsel⟩ := (hs.ok b hb).window
  obtain ⟨dd, f, j, c1, c2, c3, hcfg⟩ := hs.cfg
  have e1 : app'.fixedCycle = app.fixedCycle := by rw [hcfg]
  have e2 : app'.funcCycle = app.funcCycle := by rw [hcfg]
  have hc' : OrderedCycleWindows app' := by
    rw [hcfg]; exact ⟨hc.c11, hc.c12, hc.c21, hc.c22, hc.c31, hc.c32⟩
  have hch := (selectDutyCycle_iff hc' (by omega)).1 (hsel (by omega))
  refine ⟨a, d.toNat, ?_, by omega, ?_, ?_⟩
  · rw [hdr, ← arange_eq_minutesFrom]; congr 2; omega
  · rw [hdr, hidx]
    have : arange a (a + n) = (arange a (a + d)).take n.toNat := by
      rw [take_arange _ _ _ (by omega)]; congr 2; omega
    rw [this]; exact List.take_prefix _ _
  · have : a + (d.toNat : ℤ) - 1 = a + d - 1 := by omega
    rw [this]
    rw [hcfg] at hch
    exact hch

/-! ## C26 -/

/-- **C26, partial.** The cycle used for an event that does not contain minute 0 has a window which is not the default `[0, 0]` and
overlaps the event.  Missing: events containing minute 0 (`C26_unconfigured_cycle_possible`). -/
theorem C26_configured_partial {app : Appliance} {depth : ℕ} {pref : ℤ} {profI : ℕ} {peak : List ℤ} {dayType : ℤ} {power : ℚ}
    {app' : Appliance} {info : RunInfo} (hw : ValidWindows app) (hfc : 1 ≤ app.funcCycle) (hfl : app.flat ≠ "yes")
    (hfix : 0 < app.fixedCycle) (hc : OrderedCycleWindows app)
    (h : Returns (generateLoadProfileInfo app depth pref profI peak dayType power) (app', some info))
    (b : Booking) (hb : b ∈ info.bookings) (h0 : (0 : ℤ) ∉ b.drawn) :
    ∃ (a : ℤ) (d : ℕ), b.drawn = minutesFrom a d ∧ ∃ cw : ℤ × ℤ, cw ≠ (0, 0) ∧ ShareMinute a (a + d - 1) cw.1 cw.2 ∧
      ((b.cycleId = 1 ∧ (cw = app.cw11 ∨ cw = app.cw12)) ∨ (b.cycleId = 2 ∧ (cw = app.cw21 ∨ cw = app.cw22)) ∨
       (b.cycleId = 3 ∧ (cw = app.cw31 ∨ cw = app.cw32))) := by
  obtain ⟨a, d, hdr, hd1, _, hch⟩ := C25_cycle_selection hw hfc hfl hfix hc h b hb
  refine ⟨a, d, hdr, ?_⟩
  have key : ∀ cw : ℤ × ℤ, ShareMinute a (a + d - 1) cw.1 cw.2 → cw ≠ (0, 0) := by
    rintro cw ⟨m, hm1, hm2⟩ rfl
    simp only at hm2
    apply h0
    rw [hdr, mem_minutesFrom]
    omega
  rcases hch with ⟨h1, h | h⟩ | ⟨h1, _, h | h⟩ | ⟨h1, _, _, h | h⟩
  all_goals first
    | exact ⟨_, key _ h, h, .inl ⟨h1, .inl rfl⟩⟩
    | exact ⟨_, key _ h, h, .inl ⟨h1, .inr rfl⟩⟩
    | exact ⟨_, key _ h, h, .inr (.inl ⟨h1, .inl rfl⟩)⟩
    | exact ⟨_, key _ h, h, .inr (.inl ⟨h1, .inr rfl⟩)⟩
    | exact ⟨_, key _ h, h, .inr (.inr ⟨h1, .inl rfl⟩)⟩
    | exact ⟨_, key _ h, h, .inr (.inr ⟨h1, .inr rfl⟩)⟩

/-- **C26, what happens at minute 0.** If one of the two windows of the first cycle is the default `[0, 0]` (as for every appliance whose first cycle has at
most one window), every event containing minute 0 is run with the first cycle, whatever was configured for the others; conversely a cycle without a configured
window overlapping the event is used for events starting at minute 0 only. -/
theorem C26_minute_zero {app : Appliance} {depth : ℕ} {pref : ℤ} {profI : ℕ} {peak : List ℤ} {dayType : ℤ} {power : ℚ}
    {app' : Appliance} {info : RunInfo} (hw : ValidWindows app) (hfc : 1 ≤ app.funcCycle) (hfl : app.flat ≠ "yes")
    (hfix : 0 < app.fixedCycle) (hc : OrderedCycleWindows app)
    (h : Returns (generateLoadProfileInfo app depth pref profI peak dayType power) (app', some info))
    (b : Booking) (hb : b ∈ info.bookings) :
    (app.cw11 = (0, 0) ∨ app.cw12 = (0, 0) → (0 : ℤ) ∈ b.drawn → b.cycleId = 1) ∧
    ((¬ ∃ cw : ℤ × ℤ, cw ≠ (0, 0) ∧ (∃ m ∈ b.drawn, cw.1 ≤ m ∧ m ≤ cw.2) ∧
      ((b.cycleId = 1 ∧ (cw = app.cw11 ∨ cw = app.cw12)) ∨ (b.cycleId = 2 ∧ (cw = app.cw21 ∨ cw = app.cw22)) ∨
       (b.cycleId = 3 ∧ (cw = app.cw31 ∨ cw = app.cw32)))) → b.drawn.head? = some 0) := by
  obtain ⟨a, d, hdr, hd1, _, hch⟩ := C25_cycle_selection hw hfc hfl hfix hc h b hb
  constructor
  · intro h0 hm
    rw [hdr, mem_minutesFrom] at hm
    have ho : Overlaps1 app a (a + d - 1) := by
      rcases h0 with h0 | h0
      · exact .inl ⟨0, by omega, by rw [h0]; simp⟩
      · exact .inr ⟨0, by omega, by rw [h0]; simp⟩
    rcases hch with ⟨h1, _⟩ | ⟨_, hn, _⟩ | ⟨_, hn, _⟩
    · exact h1
    · exact absurd ho hn
    · exact absurd ho hn
  · intro hno
    by_cases h0 : (0 : ℤ) ∈ b.drawn
    · have ha : 0 ≤ a := by
        have hs := switchRun_of_returns hw hfc hfl h
        obtain ⟨w, hw', a', d', n, hdr', _, ha', _, hd', hfc', _⟩ := (hs.ok b hb).window
        have hday := filter_day hs.d1 hs.d2 hs.d3 w hw'
        rw [hdr] at hdr'
        have e : (minutesFrom a d).head? = some a := by
          rcases d with _ | d
          · omega
          · rfl
        have e2 : (arange a' (a' + d')).head? = some a' := head?_arange (by omega)
        rw [hdr', e2] at e
        have := Option.some.inj e
        omega
      have hm := h0
      rw [hdr, mem_minutesFrom] at hm
      have : a = 0 := by omega
      subst this
      rw [hdr]
      rcases d with _ | d
      · omega
      · rfl
    · obtain ⟨a2, d2, hdr2, cw, hne, ⟨m, hm1, hm2⟩, hcw⟩ := C26_configured_partial hw hfc hfl hfix hc h b hb h0
      exact absurd ⟨cw, hne, ⟨m, by rw [hdr2, mem_minutesFrom]; omega, hm2⟩, hcw⟩ hno

/-- Two duty cycles: the first for [600, 700], the second for [0, 100]. -/
def twoCyclesArgs : AddArgs :=
  { app := { power := .number 100, funcTime := 30, funcCycle := 10, fixedCycle := 2 },
    windows := some {},
    cycle1 := some { p1 := 200, t1 := 5, p2 := 20, t2 := 5, cwa := some (600, 700) },
    cycle2 := some { p1 := 300, t1 := 5, p2 := 30, t2 := 5, cwa := some (0, 100) } }

/-- **C26 is false in general.** Cycle 1 is configured for minutes 600 to 700 only, cycle 2 for minutes 0 to 100; an event during
minutes 0 to 9 is nevertheless run with cycle 1. -/
theorem C26_unconfigured_cycle_possible :
    ∃ app app' info, BuiltAs twoCyclesArgs app ∧
      Returns (generateLoadProfileInfo app 1000 0 0 (minutesFrom 0 60) 0 100) (app', some info) ∧
      ∃ b ∈ info.bookings, b.drawn = minutesFrom 0 10 ∧ b.cycleId = 1 := by
  obtain ⟨app, app', info, h1, h2, h3⟩ := built_run (args := twoCyclesArgs)
    (depth := 1000) (profI := 0) (pref := 0) (peak := minutesFrom 0 60) (dayType := 0) (power := 100) (rng := constantDraws 0)
    (l := [⟨minutesFrom 0 10, minutesFrom 0 10, 1, 1⟩, ⟨minutesFrom 10 10, minutesFrom 10 10, 1, 2⟩,
      ⟨minutesFrom 20 10, minutesFrom 20 10, 1, 2⟩]) (by decide +kernel)
  exact ⟨app, app', info, h1, h2, ⟨minutesFrom 0 10, minutesFrom 0 10, 1, 1⟩, by rw [h3]; simp, rfl, rfl⟩

/-- Cases for C24 to C26: in the same run the events of minutes 10-19 and 20-29 use cycle 2. -/
example : ∃ app app' info, BuiltAs twoCyclesArgs app ∧
      Returns (generateLoadProfileInfo app 1000 0 0 (minutesFrom 0 60) 0 100) (app', some info) ∧
      ∃ b ∈ info.bookings, b.drawn = minutesFrom 10 10 ∧ b.cycleId = 2 ∧ (0 : ℤ) ∉ b.drawn := by
  obtain ⟨app, app', info, h1, h2, h3⟩ := built_run (args := twoCyclesArgs)
    (depth := 1000) (profI := 0) (pref := 0) (peak := minutesFrom 0 60) (dayType := 0) (power := 100) (rng := constantDraws 0)
    (l := [⟨minutesFrom 0 10, minutesFrom 0 10, 1, 1⟩, ⟨minutesFrom 10 10, minutesFrom 10 10, 1, 2⟩,
      ⟨minutesFrom 20 10, minutesFrom 20 10, 1, 2⟩]) (by decide +kernel)
  exact ⟨app, app', info, h1, h2, ⟨minutesFrom 10 10, minutesFrom 10 10, 1, 2⟩, by rw [h3]; simp, rfl, rfl, by decide⟩

/-! ## C27 -/

/-- **C27.** With `continuous_duty_cycle = 0` no event is longer than its duty cycle. -/
theorem C27_single_shot {app : Appliance} {depth : ℕ} {pref : ℤ} {profI : ℕ} {peak : List ℤ} {dayType : ℤ} {power : ℚ}
    {app' : Appliance} {info : RunInfo} (hw : ValidWindows app) (hfc : 1 ≤ app.funcCycle) (hfl : app.flat ≠ "yes")
    (hfix : 0 < app.fixedCycle) (hcont : app.continuousDutyCycle = 0)
    (h : Returns (generateLoadProfileInfo app depth pref profI peak dayType power) (app', some info))
    (b : Booking) (hb : b ∈ info.bookings) : b.indexes.length ≤ (dutyCycleOf app' b.cycleId).length := by
  have hs := switchRun_of_returns hw hfc hfl h
  obtain ⟨dd, f, j, c1, c2, c3, hcfg⟩ := hs.cfg
  have := (hs.ok b hb).len
  unfold fullLen at this
  rw [if_pos ⟨by rw [hcfg]; exact hfix, by rw [hcfg]; exact hcont⟩] at this
  omega

/-- **C27.** Without the time of use ending it, a single-shot event lasts as long as its cycle or as the drawn run, whichever is
shorter: the cut is not earlier than the cycle requires. -/
theorem C27_not_cut_early {app : Appliance} {depth : ℕ} {pref : ℤ} {profI : ℕ} {peak : List ℤ} {dayType : ℤ} {power : ℚ}
    {app' : Appliance} {info : RunInfo} (hw : ValidWindows app) (hfc : 1 ≤ app.funcCycle) (hfl : app.flat ≠ "yes")
    (hfix : 0 < app.fixedCycle) (hcont : app.continuousDutyCycle = 0)
    (h : Returns (generateLoadProfileInfo app depth pref profI peak dayType power) (app', some info))
    (b : Booking) (hb : b ∈ info.bookings.dropLast) :
    b.indexes.length = min b.drawn.length (dutyCycleOf app' b.cycleId).length := by
  have hs := switchRun_of_returns hw hfc hfl h
  obtain ⟨dd, f, j, c1, c2, c3, hcfg⟩ := hs.cfg
  have := hs.full b hb
  unfold fullLen at this
  rw [if_pos ⟨by rw [hcfg]; exact hfix, by rw [hcfg]; exact hcont⟩] at this
  omega

/-- A case for C27: a single-shot cycle of 15 minutes; an event of 20 drawn minutes is cut to 15. -/
example : ∃ app app' info, BuiltAs
    { app := { power := .number 100, funcTime := 60, funcCycle := 20, fixedCycle := 1, continuousDutyCycle := 0 },
      windows := some {}, cycle1 := some { p1 := 200, t1 := 10, p2 := 20, t2 := 5, cwa := some (0, 1440) } } app ∧
    Returns (generateLoadProfileInfo app 1000 0 0 (minutesFrom 0 60) 0 100) (app', some info) ∧
    info.bookings = [⟨minutesFrom 0 20, minutesFrom 0 15, 1, 1⟩, ⟨minutesFrom 15 20, minutesFrom 15 15, 1, 1⟩,
      ⟨minutesFrom 30 20, minutesFrom 30 15, 1, 1⟩, ⟨minutesFrom 45 20, minutesFrom 45 15, 1, 1⟩] :=
  built_run (rng := constantDraws 0) (by decide +kernel)

/-! ## C28 -/

/-- **C28, exact at the level of one event.** With free ranges that do not touch, `rand_switch_on_window` can raise `RecursionError` if
and only if some run of `func_cycle` to `rand_time` minutes inside a free range overlaps no duty cycle window - whatever the
recursion limit. -/
theorem C28_recursion_error_iff (depth : ℕ) (app : Appliance) (randTime : ℤ) (h1 : 1 ≤ app.funcCycle)
    (hrt : app.funcCycle ≤ randTime) (hsp : SpotsApart app.freeSpots) (hfix : 0 < app.fixedCycle) (hc : OrderedCycleWindows app) :
    Raises (randSwitchOnWindow (depth + 1) app randTime) .recursionError ↔
      ∃ a d, EventFits app randTime a d ∧ ¬ Overlaps1 app a (a + d - 1) ∧ ¬ Overlaps2 app a (a + d - 1) ∧
        ¬ Overlaps3 app a (a + d - 1) := by
  constructor
  · intro h
    obtain ⟨_, hd | ⟨_, s, hs, a, d, ha, had, hd1, hd2, hsel⟩⟩ := (sat_randSwitchOnWindow _ app randTime h1 hrt).err h
    · simp at hd
    · exact ⟨a, d, ⟨s, hs, ha, had, hd1, hd2⟩, (selectDutyCycle_none_iff hc (by omega)).1 hsel⟩
  · rintro ⟨a, d, ⟨s, hs, ha, had, hd1, hd2⟩, hno⟩
    exact (reachErr_randSwitchOnWindow _ app randTime h1 hsp
      ⟨hfix, s, hs, a, d, ha, had, hd1, hd2, (selectDutyCycle_none_iff hc (by omega)).2 hno⟩).raises

/-- **C28, partial.** If every run of at least `func_cycle` minutes inside a randomised window overlaps a duty cycle window, the
generation never raises `RecursionError`.  Missing: configurations where some run overlaps none
(`C28_three_windows_always_crash`). -/
theorem C28_no_recursion_error_partial {app : Appliance} {depth : ℕ} {pref : ℤ} {profI : ℕ} {peak : List ℤ} {dayType : ℤ} {power : ℚ}
    (hw : ValidWindows app) (hfc : 1 ≤ app.funcCycle) (hft : 0 ≤ app.funcTime)
    (hv0 : 0 ≤ app.timeFractionRandomVariability) (hv1 : app.timeFractionRandomVariability ≤ 1)
    (hvc : ValidCycles app) (hc : OrderedCycleWindows app)
    (hcov : ∀ w a d, (MovedWindow app.window1 app.randomVar1 w ∨ MovedWindow app.window2 app.randomVar2 w ∨
      MovedWindow app.window3 app.randomVar3 w) → w.1 ≤ a → a + d ≤ w.2 → app.funcCycle ≤ d →
      Overlaps1 app a (a + d - 1) ∨ Overlaps2 app a (a + d - 1) ∨ Overlaps3 app a (a + d - 1)) :
    ¬ Raises (generateLoadProfile app (depth + 1) pref profI peak dayType power) .recursionError := by
  intro he
  obtain ⟨_, hg⟩ := (sat_generateInfo app (depth + 1) pref profI peak dayType power hw hfc).err (raises_generate_iff.1 he)
  cases hg with
  | time m1 m2 m3 h =>
    have := (sat_randTime_ge _ _ _ _).err h
    cases this
  | @cycles d0 _ _ h =>
    exact (C71_cycles_of_the_day { { app with dailyUse := zeros } with dailyUse := d0 } ⟨hvc.tv, hvc.t11, hvc.t12, hvc.t21, hvc.t22, hvc.t31, hvc.t32, hvc.rc1, hvc.rc2, hvc.rc3⟩).1 _ h
  | @loop _ app0 w1 w2 w3 rt _ _ _ hfl m1 m2 m3 hret hset herr =>
    obtain ⟨c1, c2, c3, hset⟩ := hset
    rcases herr with ⟨_, h | ⟨hfix, w, hw', a, d, ha, had, hd1, hd2, hsel⟩⟩ | ⟨h, _⟩ | ⟨h, _⟩
    · simp at h
    · simp only at hsel hd1 hw'
      have hc0 : OrderedCycleWindows app0 := by
        rw [hset]; exact ⟨hc.c11, hc.c12, hc.c21, hc.c22, hc.c31, hc.c32⟩
      have hfc0 : app0.funcCycle = app.funcCycle := by rw [hset]
      have hno := (selectDutyCycle_none_iff hc0 (by omega)).1 hsel
      have hmem := List.mem_of_mem_filter hw'
      simp only [List.mem_cons, List.not_mem_nil, or_false] at hmem
      have hov := hcov w a d (by
        rcases hmem with rfl | rfl | rfl
        · exact .inl m1
        · exact .inr (.inl m2)
        · exact .inr (.inr m3)) ha had (by omega)
      rw [hset] at hno
      rcases hov with h | h | h
      · exact hno.1 h
      · exact hno.2.1 h
      · exact hno.2.2 h
    · simp at h
    · simp at h

/-- **C28, partial.** In particular a single duty cycle with at most two declared windows and no window variability, where `windows()`
sets the windows of the cycle to the windows of use, never raises `RecursionError`. -/
theorem C28_one_cycle_two_windows_partial {app : Appliance} {depth : ℕ} {pref : ℤ} {profI : ℕ} {peak : List ℤ} {dayType : ℤ}
    {power : ℚ} (hw : ValidWindows app) (hfc : 1 ≤ app.funcCycle) (hft : 0 ≤ app.funcTime)
    (hv0 : 0 ≤ app.timeFractionRandomVariability) (hv1 : app.timeFractionRandomVariability ≤ 1)
    (hvc : ValidCycles app) (hc : OrderedCycleWindows app) (h1 : app.cw11 = app.window1) (h2 : app.cw12 = app.window2)
    (h3 : app.window3.1 = app.window3.2) (hr : app.randomVar1 = 0 ∧ app.randomVar2 = 0 ∧ app.randomVar3 = 0) :
    ¬ Raises (generateLoadProfile app (depth + 1) pref profI peak dayType power) .recursionError := by
  refine C28_no_recursion_error_partial hw hfc hft hv0 hv1 hvc hc ?_
  intro w a d hm ha had hd
  left
  unfold Overlaps1 ShareMinute
  rcases hm with m | m | m
  · rw [hr.1] at m
    have := moved_zero hw.w1 m
    subst this
    left; rw [h1]; exact ⟨a, by omega, by omega⟩
  · rw [hr.2.1] at m
    have := moved_zero hw.w2 m
    subst this
    right; rw [h2]; exact ⟨a, by omega, by omega⟩
  · rw [hr.2.2] at m
    have := moved_zero hw.w3 m
    subst this
    omega

/-- If no run of at least `func_cycle` minutes overlaps a duty cycle window, although one would fit, then no profile is ever
generated. -/
theorem no_return_of_unmatched {app : Appliance} {depth : ℕ} {pref : ℤ} {profI : ℕ} {peak : List ℤ} {dayType : ℤ} {power : ℚ}
    (hw : ValidWindows app) (hfc : 1 ≤ app.funcCycle) (hfl : app.flat ≠ "yes") (hfix : 0 < app.fixedCycle)
    (hc : OrderedCycleWindows app) (hr : app.randomVar1 = 0 ∧ app.randomVar2 = 0 ∧ app.randomVar3 = 0)
    (hap : WindowsApart app.window1 app.window2 app.window3)
    (hfit : ∃ w a, (w = app.window1 ∨ w = app.window2 ∨ w = app.window3) ∧ w.1 ≤ a ∧ a + app.funcCycle ≤ w.2)
    (hun : ∀ w a d, (w = app.window1 ∨ w = app.window2 ∨ w = app.window3) → w.1 ≤ a → a + d ≤ w.2 → app.funcCycle ≤ d →
      ¬ Overlaps1 app a (a + d - 1) ∧ ¬ Overlaps2 app a (a + d - 1) ∧ ¬ Overlaps3 app a (a + d - 1))
    {app' : Appliance} {info : RunInfo} :
    ¬ Returns (generateLoadProfileInfo app depth pref profI peak dayType power) (app', some info) := by
  intro h
  have hs := switchRun_of_returns hw hfc hfl h
  have m1 := hs.m1
  have m2 := hs.m2
  have m3 := hs.m3
  rw [hr.1] at m1; rw [hr.2.1] at m2; rw [hr.2.2] at m3
  have e1 := moved_zero hw.w1 m1
  have e2 := moved_zero hw.w2 m2
  have e3 := moved_zero hw.w3 m3
  have hrt : app.funcCycle ≤ info.randTime := (sat_randTime_ge _ _ _ _).ret hs.randTime
  obtain ⟨dd, f, j, c1, c2, c3, hcfg⟩ := hs.cfg
  cases hb : info.bookings with
  | nil =>
    obtain ⟨w, a, hwm, ha, haf⟩ := hfit
    obtain ⟨b, hbm, _⟩ := C14_no_room_left hw hfc hfl h (by rw [e1, e2, e3]; exact hap) (by rw [hb]; simp; omega) w
      (by rw [e1, e2, e3]; exact hwm) a ha haf
    rw [hb] at hbm; simp at hbm
  | cons b bs =>
    obtain ⟨w, hwm, a, d, n, _, _, ha, had, hd, _, _, _, hsel⟩ := (hs.ok b (by rw [hb]; simp)).window
    have hmem := List.mem_of_mem_filter hwm
    simp only [List.mem_cons, List.not_mem_nil, or_false, e1, e2, e3] at hmem
    have efc : app'.funcCycle = app.funcCycle := by rw [hcfg]
    have hc' : OrderedCycleWindows app' := by
      rw [hcfg]; exact ⟨hc.c11, hc.c12, hc.c21, hc.c22, hc.c31, hc.c32⟩
    have hch := (selectDutyCycle_iff hc' (by omega)).1 (hsel (by rw [hcfg]; exact hfix))
    have hno := hun w a d hmem ha had (by omega)
    rw [hcfg] at hch
    rcases hch with ⟨_, h⟩ | ⟨_, _, h⟩ | ⟨_, _, _, h⟩
    · exact hno.1 h
    · exact hno.2.1 h
    · exact hno.2.2 h

/-! ## C72 -/

/-- A configuration for which the generation has no excuse to fail: windows of use in the day that the variability cannot turn
around, enough room for one event whatever the windows of the day, and sensible numbers. -/
structure SafeConfig (app : Appliance) : Prop where
  windows : ValidWindows app
  fc : 1 ≤ app.funcCycle
  ft : 0 ≤ app.funcTime
  var : 0 ≤ app.timeFractionRandomVariability ∧ app.timeFractionRandomVariability ≤ 1
  half1 : 2 * app.randomVar1 ≤ app.window1.2 - app.window1.1
  half2 : 2 * app.randomVar2 ≤ app.window2.2 - app.window2.1
  half3 : 2 * app.randomVar3 ≤ app.window3.2 - app.window3.1
  room : (app.funcCycle : ℚ) ≤ 99 / 100 * ((totalTime app.window1 app.window2 app.window3
    - 2 * (app.randomVar1 + app.randomVar2 + app.randomVar3) : ℤ) : ℚ)
  number : 1 ≤ app.number
  cycles : ValidCycles app

/-- The exceptions of a safe configuration: only `RecursionError`, and only for an event that overlaps no duty cycle window. -/
theorem raises_safe {app : Appliance} {depth : ℕ} {pref : ℤ} {profI : ℕ} {peak : List ℤ} {dayType : ℤ} {power : ℚ} {e : Err}
    (hs : SafeConfig app) (hp : peak ≠ []) (hpow : app.flat = "yes" → profI < app.power.length)
    (hcont : 0 < app.fixedCycle → app.continuousDutyCycle ≠ 0) (hc : OrderedCycleWindows app)
    (he : Raises (generateLoadProfileInfo app depth pref profI peak dayType power) e) :
    e = .recursionError ∧ app.flat ≠ "yes" ∧ (depth = 0 ∨ (0 < app.fixedCycle ∧ ∃ w a d, (MovedWindow app.window1 app.randomVar1 w ∨
      MovedWindow app.window2 app.randomVar2 w ∨ MovedWindow app.window3 app.randomVar3 w) ∧ w.1 ≤ a ∧ a + d ≤ w.2 ∧
      app.funcCycle ≤ d ∧ ¬ Overlaps1 app a (a + d - 1) ∧ ¬ Overlaps2 app a (a + d - 1) ∧ ¬ Overlaps3 app a (a + d - 1))) := by
  obtain ⟨_, hg⟩ := (sat_generateInfo app depth pref profI peak dayType power hs.windows hs.fc).err he
  have hw := hs.windows
  have shrink : ∀ {w v : ℤ × ℤ} {r : ℤ}, DayWindow w → 0 ≤ r → MovedWindow w r v → w.2 - w.1 - 2 * r ≤ v.2 - v.1 := by
    rintro w v r hd hr ⟨a, b, ha, hb, rfl⟩
    unfold DayWindow at hd
    simp only
    omega
  cases hg with
  | reversed m1 m2 m3 h =>
    exfalso
    have := shrink hw.w1 hw.r1.1 m1
    have := shrink hw.w2 hw.r2.1 m2
    have := shrink hw.w3 hw.r3.1 m3
    have := hs.half1
    have := hs.half2
    have := hs.half3
    simp only at *
    omega
  | @time w1 w2 w3 _ m1 m2 m3 h =>
    exfalso
    have s1 := shrink hw.w1 hw.r1.1 m1
    have s2 := shrink hw.w2 hw.r2.1 m2
    have s3 := shrink hw.w3 hw.r3.1 m3
    have := hs.half1
    have := hs.half2
    have := hs.half3
    have hge : totalTime app.window1 app.window2 app.window3 - 2 * (app.randomVar1 + app.randomVar2 + app.randomVar3)
        ≤ totalTime w1 w2 w3 := by
      unfold totalTime
      omega
    have hpos : 0 ≤ totalTime w1 w2 w3 := by
      refine le_trans ?_ hge
      unfold totalTime
      omega
    obtain ⟨rng, hr⟩ := h
    have hE := (C08_failure_iff { app with dailyUse := zeros } w1 w2 w3 hs.ft hs.var.1 hs.var.2 hpos rng)
    have hv := hE.2 _ hr
    subst hv
    have hlt := hE.1.1 hr
    have hroom := hs.room
    have : ((totalTime app.window1 app.window2 app.window3 - 2 * (app.randomVar1 + app.randomVar2 + app.randomVar3) : ℤ) : ℚ)
        ≤ (totalTime w1 w2 w3 : ℤ) := by exact_mod_cast hge
    simp only at hlt
    linarith
  | power hfl hn =>
    exfalso
    have := List.getElem?_eq_none_iff.1 hn
    have := hpow hfl
    simp only at *
    omega
  | @cycles d0 _ _ h =>
    exfalso
    have hvc := hs.cycles
    exact (C71_cycles_of_the_day { { app with dailyUse := zeros } with dailyUse := d0 }
      ⟨hvc.tv, hvc.t11, hvc.t12, hvc.t21, hvc.t22, hvc.t31, hvc.t32, hvc.rc1, hvc.rc2, hvc.rc3⟩).1 _ h
  | @loop _ app0 w1 w2 w3 rt _ _ _ hfl m1 m2 m3 hret hset herr =>
    obtain ⟨c1, c2, c3, hset⟩ := hset
    rcases herr with ⟨rfl, h⟩ | ⟨_, h⟩ | ⟨_, h, _⟩
    · refine ⟨rfl, hfl, ?_⟩
      rcases h with h | ⟨hfix, w, hw', a, d, ha, had, hd1, hd2, hsel⟩
      · exact .inl h
      · right
        simp only at hsel hd1 hw' hfix
        have hc0 : OrderedCycleWindows app0 := by
          rw [hset]; exact ⟨hc.c11, hc.c12, hc.c21, hc.c22, hc.c31, hc.c32⟩
        have hfc0 : app0.funcCycle = app.funcCycle := by rw [hset]
        have hfc1 := hs.fc
        have hno := (selectDutyCycle_none_iff hc0 (by omega)).1 hsel
        have hmem := List.mem_of_mem_filter hw'
        simp only [List.mem_cons, List.not_mem_nil, or_false] at hmem
        rw [hset] at hno hfix
        refine ⟨hfix, w, a, d, ?_, ha, had, by omega, hno⟩
        rcases hmem with rfl | rfl | rfl
        · exact .inl m1
        · exact .inr (.inl m2)
        · exact .inr (.inr m3)
    · exfalso
      rcases h with h | ⟨hf, hcd, _⟩
      · exact hp h
      · rw [hset] at hf hcd
        exact hcont hf hcd
    · exfalso
      rw [hset] at h
      have := hs.number
      simp only at h
      omega

/-- **C72.** A safe configuration never fails: an appliance without duty cycles, or whose duty cycle windows meet every possible
event, produces a daily profile for every random outcome. -/
theorem C72_never_raises {app : Appliance} {depth : ℕ} {pref : ℤ} {profI : ℕ} {peak : List ℤ} {dayType : ℤ} {power : ℚ}
    (hs : SafeConfig app) (hp : peak ≠ []) (hpow : app.flat = "yes" → profI < app.power.length) (hc : OrderedCycleWindows app)
    (hcyc : app.fixedCycle ≤ 0 ∨ (app.continuousDutyCycle ≠ 0 ∧
      ∀ w a d, (MovedWindow app.window1 app.randomVar1 w ∨ MovedWindow app.window2 app.randomVar2 w ∨
        MovedWindow app.window3 app.randomVar3 w) → w.1 ≤ a → a + d ≤ w.2 → app.funcCycle ≤ d →
        Overlaps1 app a (a + d - 1) ∨ Overlaps2 app a (a + d - 1) ∨ Overlaps3 app a (a + d - 1))) :
    NeverRaises (generateLoadProfile app (depth + 1) pref profI peak dayType power) := by
  intro e he
  obtain ⟨_, _, h | ⟨hfix, w, a, d, hm, ha, had, hd, n1, n2, n3⟩⟩ := raises_safe hs hp hpow (by
    rintro hf
    rcases hcyc with h | ⟨h, _⟩
    · omega
    · exact h) hc (raises_generate_iff.1 he)
  · omega
  · rcases hcyc with h | ⟨_, h⟩
    · omega
    · rcases h w a d hm ha had hd with h | h | h
      · exact n1 h
      · exact n2 h
      · exact n3 h

/-- An appliance like those of the examples of RAMP: two windows with 35% variability. -/
def safeArgs : AddArgs :=
  { app := { number := 3, power := .number 7, numWindows := 2, funcTime := 120, timeFractionRandomVariability := 1 / 5,
             funcCycle := 10 },
    windows := some { window1 := some (1170, 1440), window2 := some (0, 30), randomVarW := 35 / 100 } }

/-- A case for C72: the appliance `safeArgs` built through the API never fails on the first day. -/
theorem safeArgs_never_raises : ∃ app, BuiltAs safeArgs app ∧
    NeverRaises (generateLoadProfile app 1000 0 0 (minutesFrom 1000 60) 0 7) := by
  have hb : ∃ app, builtBy safeArgs = some app := ⟨_, rfl⟩
  obtain ⟨app, hb⟩ := hb
  refine ⟨app, builtBy_some hb, ?_⟩
  have h1 : ((builtBy safeArgs).map fun a => [a.window1, a.window2, a.window3, a.cw11, a.cw12, a.cw21, a.cw22, a.cw31, a.cw32]) =
      some [(1170, 1440), (0, 30), (0, 0), (0, 0), (0, 0), (0, 0), (0, 0), (0, 0), (0, 0)] := by decide +kernel
  have h2 : ((builtBy safeArgs).map fun a => [a.randomVar1, a.randomVar2, a.randomVar3, a.funcCycle, a.funcTime, a.number, a.t11,
      a.t12, a.t21, a.t22, a.t31, a.t32, a.fixedCycle]) = some [94, 10, 0, 10, 120, 3, 0, 0, 0, 0, 0, 0, 0] := by decide +kernel
  have h3 : ((builtBy safeArgs).map fun a => [a.timeFractionRandomVariability, a.thermalPVar, a.rc1, a.rc2, a.rc3]) =
      some [1 / 5, 0, 0, 0, 0] := by decide +kernel
  have h4 : ((builtBy safeArgs).map fun a => a.flat) = some "no" := by decide +kernel
  rw [hb] at h1 h2 h3 h4
  simp only [Option.map_some, Option.some.injEq, List.cons.injEq, and_true] at h1 h2 h3 h4
  obtain ⟨e1, e2, e3, c1, c2, c3, c4, c5, c6⟩ := h1
  obtain ⟨r1, r2, r3, hfc, hft, hn, h11, h12, h21, h22, h31, h32, hfix⟩ := h2
  obtain ⟨hv, htv, hrc1, hrc2, hrc3⟩ := h3
  have hfl := h4
  refine C72_never_raises (depth := 999) ⟨⟨?_, ?_, ?_, ?_, ?_, ?_⟩, ?_, ?_, ?_, ?_, ?_, ?_, ?_, ?_, ⟨?_, ?_, ?_, ?_, ?_, ?_, ?_, ?_, ?_, ?_⟩⟩
    (by simp [minutesFrom]) (by rw [hfl]; simp) ⟨?_, ?_, ?_, ?_, ?_, ?_⟩ (.inl (by omega))
  all_goals simp only [DayWindow, e1, e2, e3, r1, r2, r3, hfc, hft, hv, hn, htv, hrc1, hrc2, hrc3, h11, h12, h21, h22, h31, h32, c1, c2,
    c3, c4, c5, c6, totalTime]
  all_goals norm_num

/-- One duty cycle and three windows, of which only the third is longer than `func_cycle`. -/
def threeWindowsArgs : AddArgs :=
  { app := { power := .number 100, numWindows := 3, funcTime := 500, funcCycle := 20, fixedCycle := 1 },
    windows := some { window1 := some (0, 10), window2 := some (20, 30), window3 := some (100, 1000) },
    cycle1 := some { p1 := 200, t1 := 10, p2 := 20, t2 := 10 } }

/-- **C28 is false in general.** An appliance with one duty cycle and three windows, accepted by `add_appliance`, raises
`RecursionError` at generation for every random outcome and every recursion limit: `windows()` only makes the first two
windows of use windows of the duty cycle. -/
theorem C28_three_windows_always_crash (depth : ℕ) (peak : List ℤ) (hp : peak ≠ []) :
    ∃ app, BuiltAs threeWindowsArgs app ∧
      ∀ rng, generateLoadProfile app depth 0 0 peak 0 100 rng = .error .recursionError := by
  have hb : ∃ app, builtBy threeWindowsArgs = some app := ⟨_, rfl⟩
  obtain ⟨app, hb⟩ := hb
  refine ⟨app, builtBy_some hb, ?_⟩
  have h1 : ((builtBy threeWindowsArgs).map fun a => [a.window1, a.window2, a.window3, a.cw11, a.cw12, a.cw21, a.cw22, a.cw31,
      a.cw32]) = some [(0, 10), (20, 30), (100, 1000), (0, 10), (20, 30), (0, 0), (0, 0), (0, 0), (0, 0)] := by decide +kernel
  have h2 : ((builtBy threeWindowsArgs).map fun a => [a.randomVar1, a.randomVar2, a.randomVar3, a.funcCycle, a.funcTime, a.number,
      a.t11, a.t12, a.t21, a.t22, a.t31, a.t32, a.fixedCycle, a.continuousDutyCycle, a.prefIndex, a.wdWeType]) =
      some [0, 0, 0, 20, 500, 1, 10, 10, 0, 0, 0, 0, 1, 1, 0, 2] := by decide +kernel
  have h3 : ((builtBy threeWindowsArgs).map fun a => [a.timeFractionRandomVariability, a.thermalPVar, a.rc1, a.rc2, a.rc3,
      a.occasionalUse]) = some [0, 0, 0, 0, 0, 1] := by decide +kernel
  have h4 : ((builtBy threeWindowsArgs).map fun a => a.flat) = some "no" := by decide +kernel
  rw [hb] at h1 h2 h3 h4
  simp only [Option.map_some, Option.some.injEq, List.cons.injEq, and_true] at h1 h2 h3 h4
  obtain ⟨e1, e2, e3, c1, c2, c3, c4, c5, c6⟩ := h1
  obtain ⟨r1, r2, r3, hfc, hft, hn, h11, h12, h21, h22, h31, h32, hfix, hcd, hpi, hwd⟩ := h2
  obtain ⟨hv, htv, hrc1, hrc2, hrc3, hocc⟩ := h3
  have hfl := h4
  have hs : SafeConfig app := by
    refine ⟨⟨?_, ?_, ?_, ?_, ?_, ?_⟩, ?_, ?_, ?_, ?_, ?_, ?_, ?_, ?_, ⟨?_, ?_, ?_, ?_, ?_, ?_, ?_, ?_, ?_, ?_⟩⟩
    all_goals simp only [DayWindow, e1, e2, e3, r1, r2, r3, hfc, hft, hv, hn, htv, hrc1, hrc2, hrc3, h11, h12, h21, h22, h31, h32,
      totalTime]
    all_goals norm_num
  have hc : OrderedCycleWindows app := by
    refine ⟨?_, ?_, ?_, ?_, ?_, ?_⟩
    all_goals simp only [c1, c2, c3, c4, c5, c6]
    all_goals norm_num
  intro rng
  cases hg : generateLoadProfile app depth 0 0 peak 0 100 rng with
  | error e =>
    have := (raises_safe hs hp (by rw [hfl]; simp) (by rw [hcd]; simp) hc (raises_generate_iff.1 ⟨rng, hg⟩)).1
    rw [this]
  | ok p =>
    exfalso
    obtain ⟨o, ho⟩ := returns_generate_iff.1 ⟨rng, p.2, hg⟩
    cases o with
    | none =>
      rcases (sat_generateInfo app depth 0 0 peak 0 100 hs.windows hs.fc).ret ho with ⟨_, _, h⟩ | ⟨info', h, _⟩
      · rcases h with (⟨h, _⟩ | ⟨_, h⟩ | h) | h
        · exact h hpi
        · exact h hwd
        · omega
        · rw [hocc] at h; norm_num at h
      · simp at h
    | some info =>
      refine no_return_of_unmatched hs.windows hs.fc (by rw [hfl]; simp) (by omega) hc ⟨r1, r2, r3⟩ ?_ ?_ ?_ ho
      · rw [e1, e2, e3]; decide
      · exact ⟨(100, 1000), 100, .inr (.inr e3.symm), le_rfl, by rw [hfc]; norm_num⟩
      · intro w a d hwm ha had hd
        rw [e1, e2, e3] at hwm
        unfold Overlaps1 Overlaps2 Overlaps3 ShareMinute
        rw [c1, c2, c3, c4, c5, c6]
        rw [hfc] at hd
        rcases hwm with rfl | rfl | rfl
        · simp only at ha had; omega
        · simp only at ha had; omega
        · simp only at ha had ⊢
          refine ⟨?_, ?_, ?_⟩ <;> rintro (⟨m, h⟩ | ⟨m, h⟩) <;> omega

end Ramp
