import Verif.Spec4
import Verif.Lemmas.Finitary
import Verif.Props.Switch
import Verif.Lemmas.Paint
import Mathlib.Data.List.Pairwise

/-! # The switch-on loop draws exactly the schedules of `Spec4` -/

set_option autoImplicit false

namespace Ramp

/-! ## Runs of minutes in separated ranges -/

theorem pairwise_apart_mem {ws : List (ℤ × ℤ)} (hp : ws.Pairwise Apart) {w v : ℤ × ℤ} (hw : w ∈ ws) (hv : v ∈ ws) (h : w ≠ v) :
    Apart w v := by
  haveI : Std.Symm Apart := ⟨fun _ _ => apart_symm⟩
  exact hp.forall hw hv h

theorem run_single {ws : List (ℤ × ℤ)} (hp : ws.Pairwise Apart) {a d : ℤ} (hd : 1 ≤ d) :
    (∀ m, a ≤ m → m < a + d → ∃ w ∈ ws, InWindow w m) ↔ ∃ w ∈ ws, w.1 ≤ a ∧ a + d ≤ w.2 := by
  constructor
  · intro h
    obtain ⟨w, hw, hw1, hw2⟩ := h a le_rfl (by omega)
    refine ⟨w, hw, hw1, ?_⟩
    have key : ∀ k : ℕ, (k : ℤ) < d → a + k < w.2 := by
      intro k
      induction k with
      | zero => intro _; simpa using hw2
      | succ k ih =>
        intro hk
        push_cast at hk ⊢
        have h1 := ih (by omega)
        obtain ⟨v, hv, hv1, hv2⟩ := h (a + (k + 1)) (by omega) (by omega)
        by_cases e : w = v
        · subst e; exact hv2
        · have := pairwise_apart_mem hp hw hv e
          unfold Apart at this
          omega
    have := key (d - 1).toNat (by omega)
    omega
  · rintro ⟨w, hw, h1, h2⟩ m hm1 hm2
    exact ⟨w, hw, by omega, by omega⟩

/-- The free ranges hold exactly the minutes of the windows that no event uses. -/
structure FreeInv (ws : List (ℤ × ℤ)) (spots : List Spot) (es : List SwitchEvent) : Prop where
  apart : SpotsApart spots
  avail : ∀ m, Avail spots m ↔ (∃ w ∈ ws, InWindow w m) ∧ ∀ e ∈ es, ¬ e.On m

theorem spots_run {spots : List Spot} (h : SpotsApart spots) {a d : ℤ} (hd : 1 ≤ d) :
    (∀ m, a ≤ m → m < a + d → Avail spots m) ↔ ∃ s ∈ spots, s.start ≤ a ∧ a + d ≤ s.stop := by
  have hp : (spots.map (fun s => (s.start, s.stop))).Pairwise Apart := by
    rw [List.pairwise_map]; exact h.2
  have := run_single hp (a := a) hd
  simp only [List.mem_map, exists_exists_and_eq_and, InWindow] at this
  exact this

theorem free_iff {ws : List (ℤ × ℤ)} {spots : List Spot} {es : List SwitchEvent} (hap : ws.Pairwise Apart) (h : FreeInv ws spots es)
    {a d : ℤ} (hd : 1 ≤ d) : (∃ s ∈ spots, s.start ≤ a ∧ a + d ≤ s.stop) ↔ FreeRun ws es a d := by
  rw [← spots_run h.apart hd]
  unfold FreeRun
  rw [← run_single hap hd]
  constructor
  · exact fun H => ⟨fun m h1 h2 => ((h.avail m).1 (H m h1 h2)).1, fun m h1 h2 => ((h.avail m).1 (H m h1 h2)).2⟩
  · exact fun H m h1 h2 => (h.avail m).2 ⟨H.1 m h1 h2, H.2 m h1 h2⟩

theorem noRoom_iff {ws : List (ℤ × ℤ)} {spots : List Spot} {es : List SwitchEvent} (hap : ws.Pairwise Apart) (h : FreeInv ws spots es)
    {fc : ℤ} (hd : 1 ≤ fc) : (∀ s ∈ spots, s.stop - s.start < fc) ↔ ∀ a, ¬ FreeRun ws es a fc := by
  constructor
  · intro H a hf
    obtain ⟨s, hs, h1, h2⟩ := (free_iff hap h hd).2 hf
    have := H s hs
    omega
  · intro H s hs
    by_contra hc
    exact H s.start ((free_iff hap h hd).1 ⟨s, hs, le_rfl, by omega⟩)

theorem FreeInv.book {ws : List (ℤ × ℤ)} {spots : List Spot} {es : List SwitchEvent} (h : FreeInv ws spots es) (e : SwitchEvent)
    (hm : 1 ≤ e.minutes) (hin : ∃ s ∈ spots, s.start ≤ e.start ∧ e.start + e.minutes ≤ s.stop) :
    FreeInv ws (bookSpots spots e.start (e.start + e.minutes - 1)) (e :: es) := by
  obtain ⟨s, hs, h1, h2⟩ := hin
  obtain ⟨h3, h4⟩ := bookSpots_exact (i0 := e.start) (i1 := e.start + e.minutes - 1) (by omega) h.apart ⟨s, hs, h1, by omega⟩
  refine ⟨h3, fun m => ?_⟩
  rw [h4, h.avail]
  unfold SwitchEvent.On
  simp only [List.mem_cons, forall_eq_or_imp, and_assoc]
  have : (¬ (e.start ≤ m ∧ m ≤ e.start + e.minutes - 1)) ↔ ¬ (e.start ≤ m ∧ m < e.start + e.minutes) := by
    constructor <;> intro h <;> omega
  rw [this]
  tauto

/-! ## The draws of one event -/

theorem returns_randSwitchOnWindow_iff {depth : ℕ} {app : Appliance} {rt : ℤ} (h1 : 1 ≤ app.funcCycle) (hrt : app.funcCycle ≤ rt)
    (hsp : SpotsApart app.freeSpots) {app' : Appliance} {o : Option SwitchOn} :
    Returns (randSwitchOnWindow (depth + 1) app rt) (app', o) ↔
      (o = none ∧ app' = app ∧ ∀ s ∈ app.freeSpots, s.stop - s.start < app.funcCycle) ∨ ∃ ev, o = some ev ∧ EventOK app app' rt ev := by
  constructor
  · exact fun h => (sat_randSwitchOnWindow (depth + 1) app rt h1 hrt).ret h
  · rintro (⟨rfl, rfl, h⟩ | ⟨ev, rfl, h⟩)
    · rw [randSwitchOnWindow_succ, if_neg]
      · exact returns_pure.2 rfl
      · rw [switchOnChoices_eq_nil.2 h]; simp
    · exact (reach_randSwitchOnWindow depth app app' rt ev h1 hsp h).returns

/-- Writing an event into a profile. -/
def paintEvent (p : Profile) (e : SwitchEvent) : Profile := fun i => if e.On i ∧ e.values ≠ [] then e.valueAt i else p i

theorem npPut_paint (p : Profile) (e : SwitchEvent) (h0 : 0 ≤ e.start) (h1 : 1 ≤ e.minutes) (h2 : e.start + e.minutes ≤ 1440) :
    npPut p (arange e.start (e.start + e.minutes)) e.values = .ok (paintEvent p e) := by
  obtain ⟨n, hn⟩ : ∃ n : ℕ, e.minutes = n := ⟨e.minutes.toNat, by omega⟩
  by_cases hv : e.values = []
  · unfold npPut
    rw [if_pos (by simp [hv])]
    congr 1
    funext i
    simp [paintEvent, hv]
  · rw [hn] at h2 ⊢
    rw [npPut_arange _ hv n _ _ h0 h2]
    congr 1
    funext i
    unfold paintEvent SwitchEvent.valueAt
    by_cases ho : e.On i
    · rw [if_pos (by unfold SwitchEvent.On at ho; rw [← hn]; exact ho), if_pos ⟨ho, hv⟩]
    · rw [if_neg (by unfold SwitchEvent.On at ho; rw [← hn]; exact ho), if_neg (fun h => ho h.1)]

theorem inBand_iff {tv p x : ℚ} : Returns (randomVariation tv p) x ↔ ∃ f, |f - 1| ≤ |tv| ∧ x = p * f := by
  constructor
  · exact fun h => (sat_randomVariation tv p (E := fun _ => True)).ret h
  · rintro ⟨f, hf, rfl⟩
    refine Reach.returns (reach_bind (m := uniform (1 - tv) (1 + tv)) (a := f) ?_ (reach_pure _))
    by_cases ht : tv = 0
    · subst ht
      have : f = 1 := by
        have : |f - 1| ≤ 0 := by simpa using hf
        have := abs_nonpos_iff.1 this
        linarith
      subst this
      exact reach_uniform (u := 0) le_rfl (by norm_num) (by norm_num)
    · rcases lt_or_gt_of_ne ht with h | h
      · rw [abs_of_neg h, abs_le] at hf
        refine reach_uniform (u := (f - 1 + tv) / (2 * tv)) ?_ ?_ ?_
        · exact div_nonneg_of_nonpos (by linarith) (by linarith)
        · rw [div_le_one_of_neg (by linarith)]; linarith
        · field_simp; ring
      · rw [abs_of_pos h, abs_le] at hf
        refine reach_uniform (u := (f - 1 + tv) / (2 * tv)) ?_ ?_ ?_
        · exact div_nonneg (by linarith) (by linarith)
        · rw [div_le_one (by linarith)]; linarith
        · field_simp; ring

/-- The values that may be written for an event of duty cycle `id`. -/
def ValuesOK (app : Appliance) (power : ℚ) (id : ℤ) (e : SwitchEvent) : Prop :=
  (app.fixedCycle ≤ 0 ∧ ∃ f, |f - 1| ≤ |app.thermalPVar| ∧ e.values = [e.number * power * f]) ∨
  (0 < app.fixedCycle ∧ e.values = (dutyCycleOf app id).map (· * (e.number : ℚ)))

theorem returns_bookEvent_iff {app : Appliance} {peak : List ℤ} {power : ℚ} {a n : ℤ} (hpk : peak ≠ []) (hnum : 1 ≤ app.number)
    (hn : 1 ≤ n) (h0 : 0 ≤ a) (h1 : a + n ≤ 1440) (hne : app.freeSpots ≠ [])
    (hid : 0 < app.fixedCycle → app.currentDutyCycleId = 1 ∨ app.currentDutyCycleId = 2 ∨ app.currentDutyCycleId = 3)
    {r : Appliance × ℤ} :
    Returns (bookEvent app peak power (arange a (a + n))) r ↔ ∃ e : SwitchEvent, e.start = a ∧ e.minutes = n ∧ e.number = r.2 ∧
      NumberOn app e.number ∧ ValuesOK app power app.currentDutyCycleId e ∧
      r.1 = { app with dailyUse := paintEvent app.dailyUse e, freeSpots := bookSpots app.freeSpots a (a + n - 1) } := by
  obtain ⟨q0, hq0⟩ : ∃ q, peak.head? = some q := by cases peak with | nil => exact absurd rfl hpk | cons x l => exact ⟨x, rfl⟩
  obtain ⟨q1, hq1⟩ : ∃ q, peak.getLast? = some q := by
    cases h : peak.getLast? with
    | none => rw [List.getLast?_eq_none_iff] at h; exact absurd h hpk
    | some q => exact ⟨q, rfl⟩
  have hav : updateAvailableTime app.freeSpots (arange a (a + n)) = .ok (bookSpots app.freeSpots a (a + n - 1)) := by
    unfold updateAvailableTime
    rw [if_neg hne, head?_arange (by omega), getLast?_arange (by omega)]
  unfold bookEvent
  rw [head?_arange (by omega), getLast?_arange (by omega), hq0, hq1]
  simp only
  rw [returns_bind (fin_calcCoincident _ _)]
  have hput : ∀ (c : ℤ) (app' : Appliance), Returns (putEvent app c power (arange a (a + n))) app' ↔
      ∃ e : SwitchEvent, e.start = a ∧ e.minutes = n ∧ e.number = c ∧ ValuesOK app power app.currentDutyCycleId e ∧
        app' = { app with dailyUse := paintEvent app.dailyUse e } := by
    intro c app'
    have hp : ∀ (v : List ℚ), npPut app.dailyUse (arange a (a + n)) v = .ok (paintEvent app.dailyUse ⟨a, n, n, c, v⟩) :=
      fun v => npPut_paint app.dailyUse ⟨a, n, n, c, v⟩ h0 hn h1
    have hp' : ∀ e : SwitchEvent, e.start = a → e.minutes = n → ∀ v, e.values = v →
        paintEvent app.dailyUse ⟨a, n, n, c, v⟩ = paintEvent app.dailyUse e := by
      rintro e rfl rfl v rfl
      rfl
    unfold putEvent
    by_cases hfix : app.fixedCycle > 0
    · rw [if_pos hfix]
      have go : ∀ cyc : List ℚ, cyc = dutyCycleOf app app.currentDutyCycleId →
          (Returns (do
            let d ← liftE (npPut app.dailyUse (arange a (a + n)) (cyc.map (· * (c : ℚ))))
            pure { app with dailyUse := d } : Sim Appliance) app' ↔ ∃ e : SwitchEvent, e.start = a ∧ e.minutes = n ∧ e.number = c ∧
              ValuesOK app power app.currentDutyCycleId e ∧ app' = { app with dailyUse := paintEvent app.dailyUse e }) := by
        rintro cyc rfl
        rw [hp]
        constructor
        · intro h
          rw [returns_bind (fin_liftE _)] at h
          obtain ⟨d, hd, h⟩ := h
          rw [returns_liftE] at hd
          cases hd
          rw [returns_pure] at h
          exact ⟨⟨a, n, n, c, _⟩, rfl, rfl, rfl, .inr ⟨hfix, rfl⟩, h⟩
        · rintro ⟨e, e1, e2, e3, hv, rfl⟩
          rw [returns_bind (fin_liftE _)]
          refine ⟨_, returns_liftE.2 rfl, ?_⟩
          rcases hv with ⟨h, _⟩ | ⟨_, h⟩
          · omega
          · rw [returns_pure, hp' e e1 e2 _ (by rw [h, e3])]
      rcases hid hfix with h | h | h
      · rw [if_pos (by omega)]; exact go _ (by rw [h]; simp [dutyCycleOf])
      · rw [if_neg (by omega), if_pos (by omega)]; exact go _ (by rw [h]; simp [dutyCycleOf])
      · rw [if_neg (by omega), if_neg (by omega), if_pos (by omega)]; exact go _ (by rw [h]; simp [dutyCycleOf])
    · rw [if_neg hfix, returns_bind (fin_randomVariation _ _)]
      constructor
      · rintro ⟨x, hx, h⟩
        obtain ⟨f, hf, rfl⟩ := inBand_iff.1 hx
        rw [hp, returns_bind (fin_liftE _)] at h
        obtain ⟨d, hd, h⟩ := h
        rw [returns_liftE] at hd
        cases hd
        rw [returns_pure] at h
        exact ⟨⟨a, n, n, c, _⟩, rfl, rfl, rfl, .inl ⟨by omega, f, hf, rfl⟩, h⟩
      · rintro ⟨e, e1, e2, e3, hv, rfl⟩
        rcases hv with ⟨_, f, hf, h⟩ | ⟨h, _⟩
        · refine ⟨e.number * power * f, inBand_iff.2 ⟨f, hf, by rw [e3]⟩, ?_⟩
          rw [returns_bind (fin_liftE _)]
          refine ⟨_, returns_liftE.2 (hp _), ?_⟩
          rw [returns_pure, hp' e e1 e2 _ h]
        · omega
  constructor
  · rintro ⟨c, hc, h⟩
    rw [returns_bind (fin_updateDailyUse _ _ _ _)] at h
    obtain ⟨app2, h2, h⟩ := h
    rw [returns_pure] at h
    subst h
    unfold updateDailyUse at h2
    rw [returns_bind (fin_putEvent _ _ _ _)] at h2
    obtain ⟨app1, h3, h2⟩ := h2
    obtain ⟨e, e1, e2, e3, hv, rfl⟩ := (hput c app1).1 h3
    rw [returns_bind (fin_liftE _)] at h2
    obtain ⟨sp, hsp, h2⟩ := h2
    rw [returns_liftE] at hsp
    simp only at hsp
    rw [hav] at hsp
    cases hsp
    rw [returns_pure] at h2
    refine ⟨e, e1, e2, e3, ?_, hv, h2⟩
    rw [e3]
    exact (C17_coincidence app _ hnum c).1.1 hc
  · rintro ⟨e, e1, e2, e3, hno, hv, hr⟩
    refine ⟨e.number, (C17_coincidence app _ hnum e.number).1.2 hno, ?_⟩
    rw [returns_bind (fin_updateDailyUse _ _ _ _)]
    refine ⟨r.1, ?_, ?_⟩
    · unfold updateDailyUse
      rw [returns_bind (fin_putEvent _ _ _ _)]
      refine ⟨_, (hput e.number _).2 ⟨e, e1, e2, rfl, hv, rfl⟩, ?_⟩
      rw [returns_bind (fin_liftE _)]
      refine ⟨_, returns_liftE.2 hav, ?_⟩
      rw [returns_pure, hr]
    · rw [returns_pure, e3]

/-! ## The loop -/

/-- `es` may follow the events `done` (latest first). -/
inductive Goes (app : Appliance) (power : ℚ) (ws : List (ℤ × ℤ)) (time : ℤ) : List SwitchEvent → List SwitchEvent → Prop
  | noRoom {done} : (∀ a, ¬ FreeRun ws done a app.funcCycle) → Goes app power ws time done []
  | timeUp {done} : minutesOn done = time → (∃ e n, EventAllowed app ws time done e ∧ EventKind app power e n ∧ 1 ≤ n) →
      Goes app power ws time done []
  | cut {done e n} : EventAllowed app ws time done e → EventKind app power e n → 1 ≤ e.minutes → e.minutes < n →
      minutesOn (e :: done) = time → Goes app power ws time done [e]
  | event {done e es} : EventAllowed app ws time done e → EventKind app power e e.minutes → 1 ≤ e.minutes →
      minutesOn (e :: done) ≤ time → Goes app power ws time (e :: done) es → Goes app power ws time done (e :: es)

theorem minutesOn_cons (e : SwitchEvent) (es : List SwitchEvent) : minutesOn (e :: es) = e.minutes + minutesOn es := by
  simp [minutesOn]

/-- The appliance during the loop. -/
def looping (app : Appliance) (p : Profile) (f : List Spot) (i : ℤ) : Appliance :=
  { app with dailyUse := p, freeSpots := f, currentDutyCycleId := i }

theorem eventOK_looping {app0 : Appliance} {power : ℚ} {ws : List (ℤ × ℤ)} {rt : ℤ} (hfc : 1 ≤ app0.funcCycle)
    (hap : ws.Pairwise Apart) (hoc : 0 < app0.fixedCycle → OrderedCycleWindows app0) {p : Profile} {f : List Spot} {i : ℤ}
    {done : List SwitchEvent} (hinv : FreeInv ws f done) {app' : Appliance} {ev : SwitchOn}
    (h : EventOK (looping app0 p f i) app' rt ev) :
    ∃ a d n id : ℤ, FreeRun ws done a d ∧ app0.funcCycle ≤ d ∧ d ≤ rt ∧ ev.drawn = arange a (a + d) ∧ ev.indexes = arange a (a + n) ∧
      0 ≤ n ∧ n ≤ d ∧ app' = looping app0 p f id ∧ (0 < app0.fixedCycle → id = 1 ∨ id = 2 ∨ id = 3) ∧
      ∀ e : SwitchEvent, e.start = a → e.reserved = d → ValuesOK app0 power id e → EventKind app0 power e n := by
  obtain ⟨s, hs, a, d, hdr, ha, had, hd1, hd2, hcase⟩ := h
  have hd1' : app0.funcCycle ≤ d := hd1
  have hfree : FreeRun ws done a d := (free_iff hap hinv (by omega)).1 ⟨s, hs, ha, had⟩
  rcases hcase with ⟨hfix, rfl, hi⟩ | ⟨hfix, id, hsel, rfl, hi⟩
  · refine ⟨a, d, d, i, hfree, hd1', hd2, hdr, by rw [hi, hdr], by omega, le_rfl, rfl, ?_, ?_⟩
    · intro h; have : app0.fixedCycle ≤ 0 := hfix; omega
    · rintro e rfl rfl (⟨h1, h2⟩ | ⟨h1, _⟩)
      · exact .inl ⟨h1, rfl, h2⟩
      · have : app0.fixedCycle ≤ 0 := hfix; omega
  · have hfix' : 0 < app0.fixedCycle := hfix
    have hsel' : selectDutyCycle app0 a (a + d - 1) = some (id, dutyCycleOf app0 id) := hsel
    refine ⟨a, d, _, id, hfree, hd1', hd2, hdr, hi, ?_, ?_, rfl, fun _ => (selectDutyCycle_some hsel').2, ?_⟩
    · split_ifs <;> omega
    · split_ifs <;> omega
    · rintro e rfl rfl (⟨h1, _⟩ | ⟨_, h2⟩)
      · omega
      · exact .inr ⟨hfix', id, (selectDutyCycle_iff (hoc hfix') (by omega)).1 hsel', h2, rfl⟩

theorem eventOK_of_allowed {app0 : Appliance} {power : ℚ} {ws : List (ℤ × ℤ)} {rt : ℤ} (hfc : 1 ≤ app0.funcCycle)
    (hap : ws.Pairwise Apart) (hoc : 0 < app0.fixedCycle → OrderedCycleWindows app0) {p : Profile} {f : List Spot} {i : ℤ}
    {done : List SwitchEvent} (hinv : FreeInv ws f done) {e : SwitchEvent} {n : ℤ} (h : EventAllowed app0 ws rt done e)
    (hk : EventKind app0 power e n) :
    ∃ id, EventOK (looping app0 p f i) (looping app0 p f id) rt
        ⟨arange e.start (e.start + e.reserved), arange e.start (e.start + n)⟩ ∧
      (0 < app0.fixedCycle → id = 1 ∨ id = 2 ∨ id = 3) ∧ ValuesOK app0 power id e ∧ n ≤ e.reserved := by
  have h1 := h.shortest
  obtain ⟨s, hs, ha, had⟩ := (free_iff hap hinv (by omega)).2 h.free
  rcases hk with ⟨hfix, rfl, hv⟩ | ⟨hfix, id, hch, hv, hn⟩
  · exact ⟨i, ⟨s, hs, e.start, e.reserved, rfl, ha, had, h1, h.longest, .inl ⟨hfix, rfl, rfl⟩⟩, fun h => by omega, .inl ⟨hfix, hv⟩, le_rfl⟩
  · have hsel := (selectDutyCycle_iff (hoc hfix) (by omega)).2 hch
    refine ⟨id, ⟨s, hs, e.start, e.reserved, rfl, ha, had, h1, h.longest, .inr ⟨hfix, id, hsel, rfl, ?_⟩⟩,
      fun _ => (selectDutyCycle_some hsel).2, .inr ⟨hfix, hv⟩, ?_⟩
    · rw [hn]; rfl
    · rw [hn]; split_ifs <;> omega

theorem values_congr {app : Appliance} {power : ℚ} {id : ℤ} {e e' : SwitchEvent} (hn : e'.number = e.number) (hv : e'.values = e.values)
    (h : ValuesOK app power id e) : ValuesOK app power id e' := by
  unfold ValuesOK at *
  rw [hn, hv]; exact h

theorem paint_congr {p : Profile} {e e' : SwitchEvent} (hs : e'.start = e.start) (hm : e'.minutes = e.minutes) (hv : e'.values = e.values) :
    paintEvent p e' = paintEvent p e := by
  obtain ⟨s, r, m, n, v⟩ := e
  obtain ⟨s', r', m', n', v'⟩ := e'
  simp only at hs hm hv
  subst hs hm hv
  rfl

theorem returns_loop_iff {app0 : Appliance} {power : ℚ} {ws : List (ℤ × ℤ)} {rt : ℤ} {peak : List ℤ} {depth : ℕ}
    (hfc : 1 ≤ app0.funcCycle) (hrt : app0.funcCycle ≤ rt) (hnum : 1 ≤ app0.number) (hpk : peak ≠ [])
    (hap : ws.Pairwise Apart) (hws : ∀ w ∈ ws, 0 ≤ w.1 ∧ w.2 ≤ 1440) (hoc : 0 < app0.fixedCycle → OrderedCycleWindows app0)
    (fuel : ℕ) (p : Profile) (f : List Spot) (i : ℤ) (done : List SwitchEvent) (log : List Booking) (tot : ℤ)
    (hinv : FreeInv ws f done) (htot : tot = minutesOn done) (hle : tot ≤ rt) (hfuel : rt - tot + 1 ≤ fuel) (p' : Profile) :
    (∃ app' log', Returns (switchOnLoop (depth + 1) peak power rt fuel (looping app0 p f i) tot log) (app', log') ∧ app'.dailyUse = p') ↔
      ∃ es, Goes app0 power ws rt done es ∧ p' = es.foldl paintEvent p := by
  induction fuel generalizing p f i done log tot with
  | zero => simp at hfuel; omega
  | succ fuel ih =>
    have hstep : ∀ r, Returns (switchOnLoop (depth + 1) peak power rt (fuel + 1) (looping app0 p f i) tot log) r ↔
        ∃ app1 o, Returns (randSwitchOnWindow (depth + 1) (looping app0 p f i) rt) (app1, o) ∧
          Returns (match o with
            | none => pure (app1, log)
            | some ⟨drawn, indexes⟩ =>
              let totTime := tot + indexes.length
              if totTime > rt then
                let adj := indexes.take (indexes.length - (totTime - rt).toNat)
                if adj.length > 0 then do
                  let (app, c) ← bookEvent app1 peak power adj
                  pure (app, ⟨drawn, adj, c, app.currentDutyCycleId⟩ :: log)
                else pure (app1, log)
              else do
                let (app, c) ← bookEvent app1 peak power indexes
                switchOnLoop (depth + 1) peak power rt fuel app totTime (⟨drawn, indexes, c, app.currentDutyCycleId⟩ :: log) :
              Sim (Appliance × List Booking)) r := by
      intro r
      rw [switchOnLoop, if_pos ⟨hle, by omega⟩, returns_bind (fin_randSwitchOnWindow _ _ _)]
      constructor
      · rintro ⟨⟨a, o⟩, h1, h2⟩; exact ⟨a, o, h1, h2⟩
      · rintro ⟨a, o, h1, h2⟩; exact ⟨⟨a, o⟩, h1, h2⟩
    have hrs : ∀ app1 o, Returns (randSwitchOnWindow (depth + 1) (looping app0 p f i) rt) (app1, o) ↔ _ := fun app1 o =>
      returns_randSwitchOnWindow_iff (app := looping app0 p f i) hfc hrt hinv.apart
    have hday : ∀ a d, FreeRun ws done a d → 0 ≤ a ∧ a + d ≤ 1440 := by
      rintro a d ⟨⟨w, hw, h1, h2⟩, _⟩
      have := hws w hw
      omega
    have hne : ∀ a d, 1 ≤ d → FreeRun ws done a d → f ≠ [] := by
      intro a d hd h he
      obtain ⟨s, hs, _⟩ := (free_iff hap hinv hd).2 h
      rw [he] at hs
      simp at hs
    constructor
    · rintro ⟨app', log', hr, rfl⟩
      obtain ⟨app1, o, h1, h2⟩ := (hstep _).1 hr
      rcases (hrs app1 o).1 h1 with ⟨rfl, rfl, hno⟩ | ⟨ev, rfl, hev⟩
      · simp only at h2
        rw [returns_pure] at h2
        cases h2
        exact ⟨[], .noRoom ((noRoom_iff hap hinv hfc).1 hno), rfl⟩
      · obtain ⟨a, d, n, id, hfree, hd1, hd2, hdr, hidx, hn0, hnd, rfl, hid, hkind⟩ := eventOK_looping (power := power) hfc hap hoc hinv hev
        obtain ⟨drawn, indexes⟩ := ev
        simp only at hdr hidx
        subst hdr hidx
        simp only at h2
        have hl : ((arange a (a + n)).length : ℤ) = n := by rw [length_arange]; omega
        rw [hl] at h2
        obtain ⟨ha0, had⟩ := hday a d hfree
        have hfr : ∃ s ∈ f, s.start ≤ a ∧ a + d ≤ s.stop := (free_iff hap hinv (by omega)).2 hfree
        by_cases hgt : tot + n > rt
        · rw [if_pos hgt] at h2
          by_cases hpos : tot < rt
          · -- a cut event
            have hk : (arange a (a + n)).take ((arange a (a + n)).length - (tot + n - rt).toNat) = arange a (a + (rt - tot)) := by
              rw [take_arange _ _ _ (by rw [length_arange]; omega)]
              congr 1
              rw [length_arange]
              omega
            rw [hk, if_pos (by rw [length_arange]; omega), returns_bind (fin_bookEvent _ _ _ _)] at h2
            obtain ⟨⟨app2, c⟩, hb, h2⟩ := h2
            obtain ⟨e, e1, e2, e3, hnumOn, hv, rfl⟩ := (returns_bookEvent_iff (app := looping app0 p f id) hpk hnum (by omega) ha0 (by omega)
              (hne a d (by omega) hfree) hid).1 hb
            rw [returns_pure] at h2
            cases h2
            refine ⟨[{ e with reserved := d }], .cut (n := n) ⟨?_, hd1, hd2, hnumOn⟩ (hkind _ e1 rfl hv) ?_ ?_ ?_, ?_⟩
            · simp only [e1]; exact hfree
            · simp only [e2]; omega
            · simp only [e2]; omega
            · rw [minutesOn_cons]; simp only [e2]; omega
            · rfl
          · -- nothing left
            have hz : ¬ (((arange a (a + n)).take ((arange a (a + n)).length - (tot + n - rt).toNat)).length > 0) := by
              rw [List.length_take, length_arange]; omega
            rw [if_neg hz, returns_pure] at h2
            cases h2
            obtain ⟨s1, hs1, s2, s3⟩ := hfr
            have hvals : ∃ v, ValuesOK app0 power id ⟨a, d, d, app0.number, v⟩ := by
              by_cases hfix : 0 < app0.fixedCycle
              · exact ⟨(dutyCycleOf app0 id).map (· * (app0.number : ℚ)), .inr ⟨hfix, rfl⟩⟩
              · exact ⟨[app0.number * power * 1], .inl ⟨by omega, 1, by simp, rfl⟩⟩
            obtain ⟨v, hv⟩ := hvals
            refine ⟨[], .timeUp (by omega) ⟨⟨a, d, d, app0.number, v⟩, n, ⟨hfree, hd1, hd2, ?_⟩, hkind _ rfl rfl hv, by omega⟩, rfl⟩
            unfold NumberOn
            split_ifs
            · exact ⟨hnum, le_rfl⟩
            · rfl
        · rw [if_neg hgt] at h2
          by_cases hn1 : n = 0
          · -- an event without minutes cannot be booked
            exfalso
            subst hn1
            rw [returns_bind (fin_bookEvent _ _ _ _)] at h2
            obtain ⟨r1, hb, _⟩ := h2
            have he : arange a (a + 0) = [] := by
              apply List.eq_nil_of_length_eq_zero
              rw [length_arange]; omega
            rw [he] at hb
            unfold bookEvent at hb
            simp only [List.head?_nil] at hb
            exact returns_raise hb
          · rw [returns_bind (fin_bookEvent _ _ _ _)] at h2
            obtain ⟨⟨app2, c⟩, hb, h2⟩ := h2
            obtain ⟨e, e1, e2, e3, hnumOn, hv, rfl⟩ := (returns_bookEvent_iff (app := looping app0 p f id) hpk hnum (by omega) ha0 (by omega)
              (hne a d (by omega) hfree) hid).1 hb
            have hinv' := hinv.book { e with reserved := d } (by simp only [e2]; omega) (by
              obtain ⟨s, hs, h3, h4⟩ := hfr
              exact ⟨s, hs, by simp only [e1]; exact h3, by simp only [e1, e2]; omega⟩)
            have hinv2 : FreeInv ws (bookSpots f a (a + n - 1)) ({ e with reserved := d } :: done) := by
              rw [← e1, ← e2]; exact hinv'
            have hm : minutesOn ({ e with reserved := d } :: done) = tot + n := by
              rw [minutesOn_cons]; simp only [e2]; omega
            obtain ⟨es, hg, hp⟩ := (ih (paintEvent p e) (bookSpots f a (a + n - 1)) id ({ e with reserved := d } :: done) _ (tot + n) hinv2
              hm.symm (by omega) (by push_cast at hfuel; omega)).1 ⟨app', log', h2, rfl⟩
            refine ⟨{ e with reserved := d } :: es, .event ⟨?_, hd1, hd2, hnumOn⟩ ?_ ?_ ?_ hg, ?_⟩
            · simp only [e1]; exact hfree
            · simp only [e2]; exact hkind _ e1 rfl hv
            · simp only [e2]; omega
            · rw [hm]; omega
            · rw [hp]; rfl
    · rintro ⟨es, hg, rfl⟩
      cases hg with
      | noRoom hno =>
        refine ⟨_, _, (hstep (looping app0 p f i, log)).2 ⟨looping app0 p f i, none, (hrs _ _).2 (.inl ⟨rfl, rfl, (noRoom_iff hap hinv hfc).2 hno⟩), ?_⟩, rfl⟩
        exact returns_pure.2 rfl
      | timeUp htime hex =>
        obtain ⟨e, n, hal, hk, hn⟩ := hex
        obtain ⟨id, hev, hid, hv, hnd⟩ := eventOK_of_allowed (p := p) (i := i) hfc hap hoc hinv hal hk
        refine ⟨looping app0 p f id, log, (hstep _).2 ⟨looping app0 p f id, some _, (hrs _ _).2 (.inr ⟨_, rfl, hev⟩), ?_⟩, rfl⟩
        simp only
        have hl : ((arange e.start (e.start + n)).length : ℤ) = n := by rw [length_arange]; omega
        rw [hl, if_pos (by omega), if_neg (by rw [List.length_take, length_arange]; omega), returns_pure]
      | @cut _ e n hal hk hm hlt htime =>
        obtain ⟨id, hev, hid, hv, hnd⟩ := eventOK_of_allowed (p := p) (i := i) hfc hap hoc hinv hal hk
        rw [minutesOn_cons] at htime
        have hsh := hal.shortest
        obtain ⟨ha0, had⟩ := hday _ _ hal.free
        have hl : ((arange e.start (e.start + n)).length : ℤ) = n := by rw [length_arange]; omega
        have hkk : (arange e.start (e.start + n)).take ((arange e.start (e.start + n)).length - (tot + n - rt).toNat) =
            arange e.start (e.start + e.minutes) := by
          rw [take_arange _ _ _ (by rw [length_arange]; omega)]
          congr 1
          rw [length_arange]
          omega
        refine ⟨_, _, (hstep ({ looping app0 p f id with dailyUse := paintEvent p e, freeSpots := bookSpots f e.start (e.start + e.minutes - 1) },
          ⟨arange e.start (e.start + e.reserved), arange e.start (e.start + e.minutes), e.number, id⟩ :: log)).2
          ⟨looping app0 p f id, some _, (hrs _ _).2 (.inr ⟨_, rfl, hev⟩), ?_⟩, rfl⟩
        simp only
        rw [hl, if_pos (by omega), hkk, if_pos (by rw [length_arange]; omega), returns_bind (fin_bookEvent _ _ _ _)]
        refine ⟨({ looping app0 p f id with dailyUse := paintEvent p e, freeSpots := bookSpots f e.start (e.start + e.minutes - 1) }, e.number),
          (returns_bookEvent_iff (app := looping app0 p f id) hpk hnum hm ha0 (by omega) (hne _ _ (by omega) hal.free) hid).2
            ⟨e, rfl, rfl, rfl, hal.number, hv, rfl⟩, ?_⟩
        exact returns_pure.2 rfl
      | @event _ e es hal hk hm htime hg =>
        obtain ⟨id, hev, hid, hv, hnd⟩ := eventOK_of_allowed (p := p) (i := i) hfc hap hoc hinv hal hk
        have hsh := hal.shortest
        obtain ⟨ha0, had⟩ := hday _ _ hal.free
        have hl : ((arange e.start (e.start + e.minutes)).length : ℤ) = e.minutes := by rw [length_arange]; omega
        have hfr : ∃ s ∈ f, s.start ≤ e.start ∧ e.start + e.reserved ≤ s.stop := (free_iff hap hinv (by omega)).2 hal.free
        have hinv' := hinv.book e hm (by
          obtain ⟨s, hs, h3, h4⟩ := hfr
          exact ⟨s, hs, h3, by omega⟩)
        have hmm := minutesOn_cons e done
        obtain ⟨app', log', hr, hp⟩ := (ih (paintEvent p e) (bookSpots f e.start (e.start + e.minutes - 1)) id (e :: done)
          (⟨arange e.start (e.start + e.reserved), arange e.start (e.start + e.minutes), e.number, id⟩ :: log) (tot + e.minutes) hinv'
          (by omega) (by omega) (by push_cast at hfuel; omega)).2 ⟨es, hg, rfl⟩
        refine ⟨app', log', (hstep _).2 ⟨looping app0 p f id, some _, (hrs _ _).2 (.inr ⟨_, rfl, hev⟩), ?_⟩, hp⟩
        simp only
        rw [hl, if_neg (by omega), returns_bind (fin_bookEvent _ _ _ _)]
        exact ⟨({ looping app0 p f id with dailyUse := paintEvent p e, freeSpots := bookSpots f e.start (e.start + e.minutes - 1) }, e.number),
          (returns_bookEvent_iff (app := looping app0 p f id) hpk hnum hm ha0 (by omega) (hne _ _ (by omega) hal.free) hid).2
            ⟨e, rfl, rfl, rfl, hal.number, hv, rfl⟩, hr⟩

end Ramp
