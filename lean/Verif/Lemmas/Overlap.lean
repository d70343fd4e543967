import Verif.Spec7
import Verif.Lemmas.Possible
import Verif.Props.PossibleDays

/-! # Events that meet -/

set_option autoImplicit false

namespace Ramp

/-- `CanClash` for free ranges. -/
def SpotClash (fc : ℤ) (s t : Spot) : Prop :=
  (fc ≤ s.stop - s.start ∧ fc ≤ t.stop - t.start ∧ s.start < t.stop ∧ t.start < s.stop) ∨
    ∃ a, (t.start ≤ a ∧ a + fc ≤ t.stop) ∧ (s.start ≤ a ∧ a + fc - 1 ≤ s.stop)

theorem SpotClash.mono {fc : ℤ} {s s' t t' : Spot} (h : SpotClash fc s' t') (h1 : s.start ≤ s'.start) (h2 : s'.stop ≤ s.stop)
    (h3 : t.start ≤ t'.start) (h4 : t'.stop ≤ t.stop) : SpotClash fc s t := by
  rcases h with ⟨a, b, c, d⟩ | ⟨a, b, c⟩
  · left; omega
  · right; exact ⟨a, by omega, by omega⟩

theorem pairwise_not_clash_append {fc : ℤ} {l1 l l' l2 : List Spot} (h : (l1 ++ l ++ l2).Pairwise (fun s t => ¬ SpotClash fc s t))
    (hl : l'.Pairwise (fun s t => ¬ SpotClash fc s t))
    (hsub : ∀ t ∈ l', ∃ s ∈ l, s.start ≤ t.start ∧ t.stop ≤ s.stop) : (l1 ++ l' ++ l2).Pairwise (fun s t => ¬ SpotClash fc s t) := by
  rw [List.pairwise_append, List.pairwise_append] at h ⊢
  obtain ⟨⟨a, b, c⟩, d, e⟩ := h
  refine ⟨⟨a, hl, ?_⟩, d, ?_⟩
  · intro s hs t ht hc
    obtain ⟨t', ht', q1, q2⟩ := hsub t ht
    exact c s hs t' ht' (hc.mono le_rfl le_rfl q1 q2)
  · intro s hs t ht hc
    rcases List.mem_append.1 hs with hs | hs
    · exact e s (by simp [hs]) t ht hc
    · obtain ⟨s', hs', q1, q2⟩ := hsub s hs
      exact e s' (by simp [hs']) t ht (hc.mono q1 q2 le_rfl le_rfl)

/-- Booking an event that is not cut: it is taken from the range it was drawn from. -/
theorem bookSpots_own {fc : ℤ} {spots : List Spot} {i0 i1 : ℤ} (hfc : 1 ≤ fc) (hlen : fc ≤ i1 - i0 + 1)
    (hp : spots.Pairwise (fun s t => ¬ SpotClash fc s t)) {t : Spot} (ht : t ∈ spots) (h0 : t.start ≤ i0) (h1 : i1 < t.stop) :
    (bookSpots spots i0 i1).Pairwise (fun s t => ¬ SpotClash fc s t) ∧
    ∀ s ∈ bookSpots spots i0 i1, (∃ s' ∈ spots, s'.start ≤ s.start ∧ s.stop ≤ s'.stop) ∧
      (fc ≤ s.stop - s.start → s.stop ≤ i0 ∨ i1 < s.start) := by
  rcases bookSpots_cases spots i0 i1 with ⟨_, h⟩ | ⟨l1, s, l2, rfl, hc, hno, e⟩
  · exact absurd ⟨h0, by omega⟩ (h t ht)
  · -- the range found is the one the event was drawn from
    have hst : s = t := by
      rcases List.mem_append.1 ht with hm | hm
      · exact absurd ⟨h0, by omega⟩ (hno t hm)
      · rcases List.mem_cons.1 hm with rfl | hm
        · rfl
        · exfalso
          rw [List.pairwise_append] at hp
          refine (List.pairwise_cons.1 hp.2.1).1 t hm (.inr ⟨i0, ⟨h0, by omega⟩, hc.1, by omega⟩)
    subst hst
    have hcut : ∀ u ∈ cutSpot s i0 i1, s.start ≤ u.start ∧ u.stop ≤ s.stop ∧ (u.stop ≤ i0 ∨ i1 < u.start) := by
      intro u hu
      unfold cutSpot at hu
      split_ifs at hu <;> simp at hu
      · subst hu; simp; omega
      · subst hu; simp; omega
      · rcases hu with rfl | rfl <;> simp <;> omega
    rw [e]
    constructor
    · refine pairwise_not_clash_append (l := [s]) (by simpa using hp) ?_ fun u hu => ⟨s, by simp, (hcut u hu).1, (hcut u hu).2.1⟩
      unfold cutSpot
      split_ifs <;> simp [SpotClash]
      exact ⟨fun _ _ _ => by omega, fun x hx _ _ => by omega⟩
    · intro u hu
      simp only [List.mem_append] at hu
      have other : ∀ u, (u ∈ l1 ∨ u ∈ l2) → fc ≤ u.stop - u.start → u.stop ≤ i0 ∨ i1 < u.start := by
        intro u hu hl
        by_contra hcon
        rw [List.pairwise_append] at hp
        rcases hu with hu | hu
        · exact hp.2.2 u hu s (by simp) (.inl ⟨hl, by omega, by omega, by omega⟩)
        · exact (List.pairwise_cons.1 hp.2.1).1 u hu (.inl ⟨by omega, hl, by omega, by omega⟩)
      rcases hu with (hu | hu) | hu
      · exact ⟨⟨u, by simp [hu], le_rfl, le_rfl⟩, other u (.inl hu)⟩
      · exact ⟨⟨s, by simp, (hcut u hu).1, (hcut u hu).2.1⟩, fun _ => (hcut u hu).2.2⟩
      · exact ⟨⟨u, by simp [hu], le_rfl, le_rfl⟩, other u (.inr hu)⟩

/-- The later event `b` keeps clear of the earlier event `c`, also with the minutes it would have used had it not been cut. -/
def KeepsClear (b c : Booking) : Prop := (∀ m, m ∈ b.indexes → m ∉ c.indexes) ∧ ∀ m, m ∈ b.drawn → m ∉ c.indexes

/-- The events so far do not meet, and will not. -/
structure ClearInv (fc : ℤ) (spots : List Spot) (log : List Booking) : Prop where
  pair : spots.Pairwise (fun s t => ¬ SpotClash fc s t)
  free : ∀ s ∈ spots, fc ≤ s.stop - s.start → ∀ m, s.start ≤ m → m < s.stop → ∀ b ∈ log, m ∉ b.indexes
  log : log.Pairwise KeepsClear

theorem sat_putEvent_cfg (app : Appliance) (c : ℤ) (power : ℚ) (l : List ℤ) :
    Sat (putEvent app c power l) (fun a => ∃ d, a = { app with dailyUse := d }) (fun _ => True) := by
  unfold putEvent
  refine sat_ite (fun _ => ?_) (fun _ => ?_)
  · refine sat_ite (fun _ => ?_) (fun _ => sat_ite (fun _ => ?_) (fun _ => sat_ite (fun _ => ?_) (fun _ => sat_pure ⟨app.dailyUse, rfl⟩)))
    all_goals exact sat_bind' sat_true fun d _ => sat_pure ⟨d, rfl⟩
  · exact sat_bind' sat_true fun v _ => sat_bind' sat_true fun d _ => sat_pure ⟨d, rfl⟩

theorem sat_bookEvent_cfg (app : Appliance) (peak : List ℤ) (power : ℚ) (a n : ℤ) (hn : 1 ≤ n) (hne : app.freeSpots ≠ []) :
    Sat (bookEvent app peak power (arange a (a + n)))
      (fun r => ∃ d, r.1 = { app with dailyUse := d, freeSpots := bookSpots app.freeSpots a (a + n - 1) }) (fun _ => True) := by
  unfold bookEvent
  rw [head?_arange (by omega), getLast?_arange (by omega)]
  cases peak.head? with
  | none => exact sat_raise trivial
  | some q0 =>
    cases peak.getLast? with
    | none => exact sat_raise trivial
    | some q1 =>
      refine sat_bind' sat_true fun c _ => ?_
      refine sat_bind' (P := fun a' => ∃ d, a' = { app with dailyUse := d, freeSpots := bookSpots app.freeSpots a (a + n - 1) }) ?_
        fun a' h => sat_pure h
      unfold updateDailyUse
      refine sat_bind' (sat_putEvent_cfg app c power _) ?_
      rintro _ ⟨d, rfl⟩
      refine sat_bind (sat_liftE (fun sp hsp => sat_pure ⟨d, ?_⟩) (fun _ _ => trivial))
      unfold updateAvailableTime at hsp
      simp only at hsp
      rw [if_neg hne, head?_arange (by omega), getLast?_arange (by omega)] at hsp
      cases hsp
      rfl

/-- Events of full length never meet when no two ranges can clash. -/
theorem sat_loop_clear (depth : ℕ) (peak : List ℤ) (power : ℚ) (rt : ℤ) (fuel : ℕ) (app : Appliance) (tot : ℤ) (log : List Booking)
    (hfc : 1 ≤ app.funcCycle) (hrt : app.funcCycle ≤ rt) (hfull : app.fixedCycle ≤ 0 ∨ app.continuousDutyCycle ≠ 0)
    (hinv : ClearInv app.funcCycle app.freeSpots log) :
    Sat (switchOnLoop depth peak power rt fuel app tot log)
      (fun r => r.2.Pairwise KeepsClear) (fun _ => True) := by
  induction fuel generalizing app tot log with
  | zero => exact sat_raise trivial
  | succ fuel ih =>
    rw [switchOnLoop]
    refine sat_ite (fun _ => ?_) (fun _ => sat_pure hinv.log)
    refine sat_bind' ((sat_randSwitchOnWindow depth app rt hfc hrt).mono (fun _ h => h) (fun _ _ => trivial)) ?_
    rintro ⟨app', event⟩ hr
    simp only at hr
    rcases hr with ⟨rfl, rfl, hno⟩ | ⟨⟨drawn, indexes⟩, rfl, hev⟩
    · exact sat_pure hinv.log
    · obtain ⟨s, hs, a, d, hdr, ha, had, hd1, hd2, hcase⟩ := hev
      simp only at hdr hcase
      have hidx : indexes = arange a (a + d) ∧ ∃ i, app' = { app with currentDutyCycleId := i } := by
        rcases hcase with ⟨_, rfl, h⟩ | ⟨h0, i, _, rfl, h⟩
        · exact ⟨by rw [h, hdr], app'.currentDutyCycleId, rfl⟩
        · rw [if_neg (by omega)] at h
          exact ⟨h, i, rfl⟩
      obtain ⟨rfl, i, rfl⟩ := hidx
      have hlen : ((arange a (a + d)).length : ℤ) = d := by rw [length_arange]; omega
      have hne : app.freeSpots ≠ [] := by intro h; rw [h] at hs; simp at hs
      have hnew : ∀ n : ℤ, n ≤ d → ∀ b ∈ log, ∀ m, m ∈ arange a (a + n) → m ∉ b.indexes := by
        intro n hn b hb m hm
        rw [mem_arange] at hm
        exact hinv.free s hs (by omega) m (by omega) (by omega) b hb
      simp only [hlen]
      refine sat_ite (fun hgt => ?_) (fun hgt => ?_)
      · refine sat_ite (fun hpos => ?_) (fun _ => sat_pure hinv.log)
        rw [take_arange _ _ _ (by rw [length_arange]; omega)] at hpos ⊢
        generalize hn : (((arange a (a + d)).length - (tot + d - rt).toNat : ℕ) : ℤ) = n at hpos ⊢
        rw [length_arange] at hpos hn
        have hn1 : 1 ≤ n := by omega
        have hnd : n ≤ d := by omega
        refine sat_bind' (sat_bookEvent_cfg { app with currentDutyCycleId := i } peak power a n hn1 hne) ?_
        rintro ⟨app2, c⟩ ⟨p, h2⟩
        refine sat_pure ?_
        rw [List.pairwise_cons]
        exact ⟨fun b hb => ⟨fun m hm => hnew n hnd b hb m hm, fun m hm => hnew d le_rfl b hb m (by rw [← hdr]; exact hm)⟩, hinv.log⟩
      · refine sat_bind' (sat_bookEvent_cfg { app with currentDutyCycleId := i } peak power a d (by omega) hne) ?_
        rintro ⟨app2, c⟩ ⟨p, h2⟩
        simp only at h2
        subst h2
        obtain ⟨g1, g2⟩ := bookSpots_own (i0 := a) (i1 := a + d - 1) hfc (by omega) hinv.pair hs ha (by omega)
        refine ih _ _ _ hfc hrt hfull ⟨g1, ?_, ?_⟩
        · intro t ht hl m hm1 hm2 b hb
          obtain ⟨⟨t', ht', q1, q2⟩, q3⟩ := g2 t ht
          have := q3 hl
          rcases List.mem_cons.1 hb with rfl | hb
          · simp only [mem_arange]; omega
          · exact hinv.free t' ht' (by simp only at hl; omega) m (by omega) (by omega) b hb
        · rw [List.pairwise_cons]
          exact ⟨fun b hb => ⟨fun m hm => hnew d le_rfl b hb m hm, fun m hm => hnew d le_rfl b hb m (by rw [← hdr]; exact hm)⟩, hinv.log⟩

/-! ## Runs in which events meet -/

theorem reach_shortest (depth : ℕ) (app : Appliance) {rt : ℤ} (h1 : 1 ≤ app.funcCycle) (hrt : app.funcCycle ≤ rt)
    (hfix : app.fixedCycle ≤ 0) {s : Spot} (hs : s ∈ app.freeSpots) {a : ℤ} (ha : s.start ≤ a) (had : a + app.funcCycle ≤ s.stop) :
    Returns (randSwitchOnWindow (depth + 1) app rt)
      (app, some ⟨arange a (a + app.funcCycle), arange a (a + app.funcCycle)⟩) := by
  have hmem : a ∈ switchOnChoices app.freeSpots app.funcCycle := mem_switchOnChoices.2 ⟨s, hs, ha, by omega, by omega⟩
  obtain ⟨k, hk, hka⟩ := List.mem_iff_getElem.1 hmem
  rw [randSwitchOnWindow_succ, if_pos (by omega)]
  refine Reach.returns (reach_bind (reach_randint (k := (k : ℤ)) (by omega) (by omega)) ?_)
  rw [Int.toNat_natCast, List.getElem?_eq_getElem hk, hka]
  simp only
  obtain ⟨s', hf, hs', hp⟩ := find?_exists
    (p := fun fs : Spot => decide (fs.start ≤ a) && decide (a ≤ fs.stop - app.funcCycle)) hs (by simp; omega)
  rw [hf]
  simp only [Bool.and_eq_true, decide_eq_true_eq] at hp
  simp only
  unfold afterStart
  refine reach_bind (reach_duration (d := app.funcCycle) h1 le_rfl (by omega)) ?_
  rw [if_neg (by omega)]
  exact reach_pure _

/-- The free ranges lie inside the day. -/
def DaySpots (f : List Spot) : Prop := ∀ s ∈ f, s.start ≤ s.stop ∧ 0 ≤ s.start ∧ s.stop ≤ 1440

theorem DaySpots.book {f : List Spot} (h : DaySpots f) {a n : ℤ} (hn : 1 ≤ n) : DaySpots (bookSpots f a (a + n - 1)) := by
  intro s hs
  obtain ⟨h1, t, ht, h2, h3⟩ := bookSpots_sub (by omega) (fun s hs => (h s hs).1) s hs
  have := h t ht
  exact ⟨h1, by omega, by omega⟩

theorem returns_book {app0 : Appliance} {peak : List ℤ} {power : ℚ} (hnum : 1 ≤ app0.number) (hpk : peak ≠ [])
    (hfix : app0.fixedCycle ≤ 0) (p : Profile) (f : List Spot) (i : ℤ) {a n : ℤ} (hn : 1 ≤ n) (h0 : 0 ≤ a) (h1 : a + n ≤ 1440)
    (hne : f ≠ []) : ∃ p' c, Returns (bookEvent (looping app0 p f i) peak power (arange a (a + n)))
      (looping app0 p' (bookSpots f a (a + n - 1)) i, c) := by
  refine ⟨paintEvent p ⟨a, n, n, app0.number, [app0.number * power * 1]⟩, app0.number,
    (returns_bookEvent_iff (app := looping app0 p f i) hpk hnum hn h0 h1 hne (fun h => by
      have : 0 < app0.fixedCycle := h
      omega)).2 ⟨⟨a, n, n, app0.number, [app0.number * power * 1]⟩, rfl, rfl, rfl, ?_, .inl ⟨hfix, 1, by simp, rfl⟩, rfl⟩⟩
  unfold NumberOn
  split_ifs
  · exact ⟨hnum, le_rfl⟩
  · rfl

/-- An event of the shortest length, then whatever follows. -/
theorem loop_step {app0 : Appliance} {power : ℚ} {rt : ℤ} {peak : List ℤ} {depth : ℕ}
    (hfc : 1 ≤ app0.funcCycle) (hrt : app0.funcCycle ≤ rt) (hnum : 1 ≤ app0.number) (hpk : peak ≠ []) (hfix : app0.fixedCycle ≤ 0)
    (fuel : ℕ) (p : Profile) (f : List Spot) (i : ℤ) (log : List Booking) (tot : ℤ) (hf : DaySpots f)
    (hle : tot + app0.funcCycle ≤ rt) {s : Spot} (hs : s ∈ f) {a : ℤ} (ha : s.start ≤ a) (had : a + app0.funcCycle ≤ s.stop) :
    ∃ p' c id, ∀ r, Returns (switchOnLoop (depth + 1) peak power rt fuel
        (looping app0 p' (bookSpots f a (a + app0.funcCycle - 1)) i) (tot + app0.funcCycle)
        (⟨arange a (a + app0.funcCycle), arange a (a + app0.funcCycle), c, id⟩ :: log)) r →
      Returns (switchOnLoop (depth + 1) peak power rt (fuel + 1) (looping app0 p f i) tot log) r := by
  have hd := hf s hs
  obtain ⟨p', c, hb⟩ := returns_book (power := power) hnum hpk hfix p f i hfc (show 0 ≤ a by omega) (show a + app0.funcCycle ≤ 1440 by omega)
    (by intro h; rw [h] at hs; simp at hs)
  refine ⟨p', c, i, fun r hr => ?_⟩
  rw [switchOnLoop, if_pos ⟨by omega, by omega⟩, returns_bind (fin_randSwitchOnWindow _ _ _)]
  refine ⟨_, reach_shortest depth (looping app0 p f i) hfc hrt hfix hs ha had, ?_⟩
  have hlen : ((arange a (a + app0.funcCycle)).length : ℤ) = app0.funcCycle := by rw [length_arange]; omega
  simp only [looping, hlen] at hb ⊢
  rw [if_neg (by omega), returns_bind (fin_bookEvent _ _ _ _)]
  exact ⟨_, hb, hr⟩

/-- The loop can always come to an end. -/
theorem loop_total {app0 : Appliance} {power : ℚ} {rt : ℤ} {peak : List ℤ} {depth : ℕ}
    (hfc : 1 ≤ app0.funcCycle) (hrt : app0.funcCycle ≤ rt) (hnum : 1 ≤ app0.number) (hpk : peak ≠ []) (hfix : app0.fixedCycle ≤ 0)
    (fuel : ℕ) (p : Profile) (f : List Spot) (i : ℤ) (log : List Booking) (tot : ℤ) (hf : DaySpots f)
    (hle : tot ≤ rt) (hfuel : rt - tot + 1 ≤ fuel) :
    ∃ app' l, Returns (switchOnLoop (depth + 1) peak power rt fuel (looping app0 p f i) tot log) (app', l ++ log) := by
  induction fuel generalizing p f i log tot with
  | zero => simp at hfuel; omega
  | succ fuel ih =>
    by_cases hroom : ∃ s ∈ f, app0.funcCycle ≤ s.stop - s.start
    · obtain ⟨s, hs, hl⟩ := hroom
      have hd := hf s hs
      by_cases hfit : tot + app0.funcCycle ≤ rt
      · obtain ⟨p', c, id, H⟩ := loop_step (depth := depth) (power := power) hfc hrt hnum hpk hfix fuel p f i log tot hf hfit hs le_rfl (by omega)
        obtain ⟨app', l, hr⟩ := ih p' (bookSpots f s.start (s.start + app0.funcCycle - 1)) i (_ :: log) (tot + app0.funcCycle) (hf.book hfc)
          hfit (by push_cast at hfuel; omega)
        exact ⟨app', l ++ [_], H (app', (l ++ [_]) ++ log) (by rw [List.append_assoc]; exact hr)⟩
      · -- the event is cut
        rw [switchOnLoop, if_pos ⟨by omega, by omega⟩]
        have hlen : ((arange s.start (s.start + app0.funcCycle)).length : ℤ) = app0.funcCycle := by rw [length_arange]; omega
        simp only [returns_bind (fin_randSwitchOnWindow _ _ _)]
        rcases eq_or_lt_of_le hle with heq | hlt
        · refine ⟨looping app0 p f i, [], _, reach_shortest depth (looping app0 p f i) hfc hrt hfix hs le_rfl (by simp only [looping]; omega), ?_⟩
          simp only [looping, hlen]
          rw [if_pos (by omega), if_neg (by rw [List.length_take, length_arange]; omega), returns_pure]
          rfl
        · obtain ⟨p', c, hb⟩ := returns_book (power := power) hnum hpk hfix p f i (show 1 ≤ rt - tot by omega) (show 0 ≤ s.start by omega)
            (show s.start + (rt - tot) ≤ 1440 by omega) (by intro h; rw [h] at hs; simp at hs)
          refine ⟨looping app0 p' (bookSpots f s.start (s.start + (rt - tot) - 1)) i,
            [⟨arange s.start (s.start + app0.funcCycle), arange s.start (s.start + (rt - tot)), c, i⟩], _,
            reach_shortest depth (looping app0 p f i) hfc hrt hfix hs le_rfl (by simp only [looping]; omega), ?_⟩
          have hk : (arange s.start (s.start + app0.funcCycle)).take
              ((arange s.start (s.start + app0.funcCycle)).length - (tot + app0.funcCycle - rt).toNat) = arange s.start (s.start + (rt - tot)) := by
            rw [take_arange _ _ _ (by rw [length_arange]; omega)]
            congr 1
            rw [length_arange]
            omega
          simp only [looping, hlen] at hb hk ⊢
          rw [if_pos (by omega), hk, if_pos (by rw [length_arange]; omega), returns_bind (fin_bookEvent _ _ _ _)]
          exact ⟨_, hb, returns_pure.2 rfl⟩
    · push Not at hroom
      refine ⟨looping app0 p f i, [], ?_⟩
      rw [switchOnLoop, if_pos ⟨by omega, by omega⟩, returns_bind (fin_randSwitchOnWindow _ _ _)]
      refine ⟨(looping app0 p f i, none), ?_, returns_pure.2 rfl⟩
      rw [randSwitchOnWindow_succ, if_neg]
      · exact returns_pure.2 rfl
      · have : (switchOnChoices (looping app0 p f i).freeSpots (looping app0 p f i).funcCycle).length = 0 :=
          switchOnChoices_eq_nil.2 hroom
        rw [this]; simp

/-- Two events of the shortest length that meet. -/
theorem loop_clash {app0 : Appliance} {power : ℚ} {rt : ℤ} {peak : List ℤ} {depth : ℕ}
    (hfc : 1 ≤ app0.funcCycle) (hrt : app0.funcCycle < rt) (hnum : 1 ≤ app0.number) (hpk : peak ≠ []) (hfix : app0.fixedCycle ≤ 0)
    (fuel : ℕ) (p : Profile) (f : List Spot) (i : ℤ) (hf : DaySpots f) (hfuel : rt + 1 ≤ fuel) {a b : ℤ} {s t : Spot} (hs : s ∈ f)
    (ha : s.start ≤ a) (had : a + app0.funcCycle ≤ s.stop) (ht : t ∈ bookSpots f a (a + app0.funcCycle - 1))
    (hb : t.start ≤ b) (hbd : b + app0.funcCycle ≤ t.stop) (hab : a ≤ b) (hba : b < a + app0.funcCycle) :
    ∃ app' l e1 e2, Returns (switchOnLoop (depth + 1) peak power rt fuel (looping app0 p f i) 0 []) (app', l ++ [e2, e1]) ∧
      b ∈ e1.indexes ∧ b ∈ e2.indexes := by
  obtain ⟨fuel, rfl⟩ : ∃ k, fuel = k + 2 := ⟨fuel - 2, by omega⟩
  have hf1 : DaySpots (bookSpots f a (a + app0.funcCycle - 1)) := hf.book hfc
  obtain ⟨p1, c1, id1, H1⟩ := loop_step (depth := depth) (power := power) hfc hrt.le hnum hpk hfix (fuel + 1) p f i [] 0 hf (by omega) hs ha had
  have hd := hf1 t ht
  by_cases hfit : 0 + app0.funcCycle + app0.funcCycle ≤ rt
  · obtain ⟨p2, c2, id2, H2⟩ := loop_step (depth := depth) (power := power) hfc hrt.le hnum hpk hfix fuel p1 _ i
      [⟨arange a (a + app0.funcCycle), arange a (a + app0.funcCycle), c1, id1⟩] (0 + app0.funcCycle) hf1 hfit ht hb hbd
    obtain ⟨app', l, hr⟩ := loop_total (depth := depth) (power := power) hfc hrt.le hnum hpk hfix fuel p2
      (bookSpots (bookSpots f a (a + app0.funcCycle - 1)) b (b + app0.funcCycle - 1)) i _ (0 + app0.funcCycle + app0.funcCycle) (hf1.book hfc)
      hfit (by push_cast at hfuel; omega)
    exact ⟨app', l, _, _, H1 _ (H2 _ hr), by simp only [mem_arange]; omega, by simp only [mem_arange]; omega⟩
  · obtain ⟨p2, c2, hbk⟩ := returns_book (power := power) hnum hpk hfix p1 (bookSpots f a (a + app0.funcCycle - 1)) i
      (show 1 ≤ rt - app0.funcCycle by omega) (show 0 ≤ b by omega) (show b + (rt - app0.funcCycle) ≤ 1440 by omega)
      (by intro h; rw [h] at ht; simp at ht)
    refine ⟨looping app0 p2 (bookSpots (bookSpots f a (a + app0.funcCycle - 1)) b (b + (rt - app0.funcCycle) - 1)) i, [],
      ⟨arange a (a + app0.funcCycle), arange a (a + app0.funcCycle), c1, id1⟩,
      ⟨arange b (b + app0.funcCycle), arange b (b + (rt - app0.funcCycle)), c2, i⟩, H1 _ ?_,
      by simp only [mem_arange]; omega, by simp only [mem_arange]; omega⟩
    have hlen : ((arange b (b + app0.funcCycle)).length : ℤ) = app0.funcCycle := by rw [length_arange]; omega
    have hk : (arange b (b + app0.funcCycle)).take
        ((arange b (b + app0.funcCycle)).length - (0 + app0.funcCycle + app0.funcCycle - rt).toNat) = arange b (b + (rt - app0.funcCycle)) := by
      rw [take_arange _ _ _ (by rw [length_arange]; omega)]
      congr 1
      rw [length_arange]
      omega
    rw [switchOnLoop, if_pos ⟨by omega, by omega⟩, returns_bind (fin_randSwitchOnWindow _ _ _)]
    refine ⟨_, reach_shortest depth (looping app0 p1 _ i) hfc hrt.le hfix ht hb hbd, ?_⟩
    simp only [looping] at hbk ⊢
    rw [hlen]
    rw [if_pos (by omega), hk, if_pos (by rw [length_arange]; omega), returns_bind (fin_bookEvent _ _ _ _)]
    exact ⟨_, hbk, returns_pure.2 rfl⟩

/-- A used day of an appliance that is not flat, call by call. -/
theorem returns_info_iff {app : Appliance} (hw : ValidWindows app) (hfl : app.flat ≠ "yes") {depth : ℕ} {pref : ℤ} {profI : ℕ}
    {peak : List ℤ} {dayType : ℤ} {power : ℚ} {app' : Appliance} {info : RunInfo} :
    Returns (generateLoadProfileInfo app depth pref profI peak dayType power) (app', some info) ↔
      ¬ SkippedForSure app pref dayType ∧ 0 ≤ app.occasionalUse ∧ MovedWindow app.window1 app.randomVar1 info.w1 ∧
      MovedWindow app.window2 app.randomVar2 info.w2 ∧ MovedWindow app.window3 app.randomVar3 info.w3 ∧
      Returns (randTotalTimeOfUse { app with dailyUse := zeros } info.w1 info.w2 info.w3) info.randTime ∧
      ∃ d, fillWindows info.w1 info.w2 info.w3 (1 / 1000) = .ok d ∧ ∃ app2, Returns (assignRandomCycles { app with dailyUse := d }) app2 ∧
        Returns (switchOnLoop depth peak power info.randTime (info.randTime.toNat + 2)
          { app2 with freeSpots := initialSpots [info.w1, info.w2, info.w3] } 0 []) (app', info.bookings.reverse) := by
  have hskip : ∀ x : ℚ, ((x > app.occasionalUse ∨ (app.prefIndex ≠ 0 ∧ pref ≠ app.prefIndex) ∨
      ¬ (app.wdWeType = dayType ∨ app.wdWeType = 2) ∨ app.funcTime = 0) ↔ x > app.occasionalUse ∨ SkippedForSure app pref dayType) := by
    intro x
    unfold SkippedForSure
    push Not
    tauto
  unfold generateLoadProfileInfo
  simp only [returns_bind (fin_uniform _ _), if_neg hfl]
  have hu : ∀ x, Returns (uniform 0 1) x ↔ 0 ≤ x ∧ x ≤ 1 := by
    intro x
    constructor
    · intro h
      exact (sat_uniform (a := 0) (b := 1) (Q := fun x => 0 ≤ x ∧ x ≤ 1) (E := fun _ => True)
        (fun u h0 h1 => ⟨by linarith, by linarith⟩)).ret h
    · rintro ⟨h0, h1⟩
      exact (reach_uniform_of_mem h0 h1).returns
  constructor
  · rintro ⟨x, hx, h⟩
    obtain ⟨h0, h1⟩ := (hu x).1 hx
    by_cases hc : x > app.occasionalUse ∨ SkippedForSure app pref dayType
    · rw [if_pos ((hskip x).2 hc), returns_pure] at h
      cases h
    · rw [if_neg (fun h => hc ((hskip x).1 h))] at h
      push Not at hc
      simp only [returns_bind (fin_calcRandWindow _ _), returns_bind (fin_randTotalTimeOfUse _ _ _ _), returns_bind (fin_liftE _),
        returns_bind (fin_assignRandomCycles _), returns_bind (fin_switchOnLoop _ _ _ _ _ _ _ _), returns_liftE, returns_pure,
        movedWindow_iff hw.r1.1, movedWindow_iff hw.r2.1, movedWindow_iff hw.r3.1] at h
      obtain ⟨w1, m1, w2, m2, w3, m3, rt, hrt, d, hd, app2, h2, ⟨a, log⟩, h3, h4⟩ := h
      cases h4
      refine ⟨hc.2, by linarith, m1, m2, m3, hrt, d, hd, app2, h2, ?_⟩
      simp only [List.reverse_reverse]
      exact h3
  · rintro ⟨hns, hocc, m1, m2, m3, hrt, d, hd, app2, h2, h3⟩
    refine ⟨0, (hu 0).2 ⟨le_rfl, by norm_num⟩, ?_⟩
    rw [if_neg (fun h => absurd ((hskip 0).1 h) (by push Not; exact ⟨hocc, hns⟩))]
    simp only [returns_bind (fin_calcRandWindow _ _), returns_bind (fin_randTotalTimeOfUse _ _ _ _), returns_bind (fin_liftE _),
      returns_bind (fin_assignRandomCycles _), returns_bind (fin_switchOnLoop _ _ _ _ _ _ _ _), returns_liftE, returns_pure,
      movedWindow_iff hw.r1.1, movedWindow_iff hw.r2.1, movedWindow_iff hw.r3.1]
    refine ⟨info.w1, m1, info.w2, m2, info.w3, m3, info.randTime, hrt, d, hd, app2, h2, ⟨app', info.bookings.reverse⟩, h3, ?_⟩
    simp only [List.reverse_reverse]

end Ramp
