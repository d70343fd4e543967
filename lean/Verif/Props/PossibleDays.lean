import Verif.Lemmas.Possible
import Verif.Props.Cycles
import Verif.Props.TimeOfUse

/-! # C83: the possible days of an appliance, exactly -/

set_option autoImplicit false

namespace Ramp

/-! ## Schedules, step by step and all at once -/

theorem EventAllowed.congr {app : Appliance} {ws : List (ℤ × ℤ)} {time : ℤ} {l l' : List SwitchEvent} {e : SwitchEvent}
    (h : ∀ x, x ∈ l' → x ∈ l) (ha : EventAllowed app ws time l e) : EventAllowed app ws time l' e :=
  ⟨⟨ha.free.1, fun m h1 h2 x hx => ha.free.2 m h1 h2 x (h x hx)⟩, ha.shortest, ha.longest, ha.number⟩

theorem FreeRun.congr {ws : List (ℤ × ℤ)} {l l' : List SwitchEvent} {a n : ℤ}
    (h : ∀ x, x ∈ l' → x ∈ l) (ha : FreeRun ws l a n) : FreeRun ws l' a n :=
  ⟨ha.1, fun m h1 h2 x hx => ha.2 m h1 h2 x (h x hx)⟩

theorem chosenCycle_unique {app : Appliance} {lo hi i j : ℤ} (h : ChosenCycle app lo hi i) (h' : ChosenCycle app lo hi j) : i = j := by
  unfold ChosenCycle at h h'
  rcases h with ⟨rfl, a⟩ | ⟨rfl, a, b⟩ | ⟨rfl, a, b, c⟩ <;> rcases h' with ⟨rfl, a'⟩ | ⟨rfl, a', b'⟩ | ⟨rfl, a', b', c'⟩ <;> first | rfl | contradiction

theorem EventKind.unique {app : Appliance} {power : ℚ} {e : SwitchEvent} {n n' : ℤ} (h : EventKind app power e n)
    (h' : EventKind app power e n') : n = n' := by
  rcases h with ⟨a, rfl, _⟩ | ⟨a, i, hi, _, rfl⟩ <;> rcases h' with ⟨a', rfl, _⟩ | ⟨a', i', hi', _, rfl⟩
  · rfl
  · omega
  · omega
  · rw [chosenCycle_unique hi hi']

theorem minutesOn_nonneg {es : List SwitchEvent} (h : ∀ e ∈ es, 1 ≤ e.minutes) : 0 ≤ minutesOn es := by
  induction es with
  | nil => exact le_rfl
  | cons e es ih =>
    rw [minutesOn_cons]
    have := h e (List.mem_cons_self ..)
    have := ih (fun x hx => h x (List.mem_cons_of_mem _ hx))
    omega

/-- What `DaySchedule` says after the events `done`. -/
structure Remaining (app : Appliance) (power : ℚ) (ws : List (ℤ × ℤ)) (time : ℤ) (done es : List SwitchEvent) : Prop where
  allowed : ∀ l e r, es = l ++ e :: r → EventAllowed app ws time (done ++ l) e
  length : ∀ l e r, es = l ++ e :: r → ∃ n, EventKind app power e n ∧ 1 ≤ e.minutes ∧
    (e.minutes = n ∨ (r = [] ∧ e.minutes < n ∧ minutesOn es + minutesOn done = time))
  total : minutesOn es + minutesOn done ≤ time
  stop : (∃ l e n, es = l ++ [e] ∧ EventKind app power e n ∧ e.minutes < n) ∨ (∀ a, ¬ FreeRun ws (done ++ es) a app.funcCycle) ∨
    (minutesOn es + minutesOn done = time ∧ ∃ e n, EventAllowed app ws time (done ++ es) e ∧ EventKind app power e n ∧ 1 ≤ n)

theorem goes_iff {app : Appliance} {power : ℚ} {ws : List (ℤ × ℤ)} {time : ℤ} (es : List SwitchEvent) :
    ∀ (done : List SwitchEvent), minutesOn done ≤ time → (Goes app power ws time done es ↔ Remaining app power ws time done es) := by
  induction es with
  | nil =>
    intro done hle
    have h0 : minutesOn [] = 0 := rfl
    constructor
    · intro h
      refine ⟨fun l e r h => by simp at h, fun l e r h => by simp at h, by omega, ?_⟩
      cases h with
      | noRoom h => right; left; simpa using h
      | timeUp h1 h2 => right; right; exact ⟨by omega, by simpa using h2⟩
    · rintro ⟨_, _, _, h | h | h⟩
      · obtain ⟨l, e, n, h, _⟩ := h; simp at h
      · exact .noRoom (by simpa using h)
      · exact .timeUp (by omega) (by simpa using h.2)
  | cons e es ih =>
    intro done hle
    have hc1 : ∀ x : SwitchEvent, ∀ l, x ∈ e :: done ++ l ↔ x ∈ done ++ e :: l := by
      intro x l; simp only [List.cons_append, List.mem_cons, List.mem_append]; tauto
    have hc := minutesOn_cons e es
    have hd := minutesOn_cons e done
    constructor
    · intro h
      cases h with
      | @cut _ _ n hal hk hm hlt htime =>
        rw [minutesOn_cons] at htime
        have h1 : minutesOn [e] = e.minutes := by simp [minutesOn]
        refine ⟨?_, ?_, by omega, .inl ⟨[], e, n, rfl, hk, hlt⟩⟩
        · intro l x r h
          have : l = [] ∧ x = e ∧ r = [] := by
            cases l with
            | nil => simp at h; exact ⟨rfl, h.1.symm, h.2⟩
            | cons y l => simp at h
          obtain ⟨rfl, rfl, rfl⟩ := this
          simpa using hal
        · intro l x r h
          have : l = [] ∧ x = e ∧ r = [] := by
            cases l with
            | nil => simp at h; exact ⟨rfl, h.1.symm, h.2⟩
            | cons y l => simp at h
          obtain ⟨rfl, rfl, rfl⟩ := this
          exact ⟨n, hk, hm, .inr ⟨rfl, hlt, by omega⟩⟩
      | event hal hk hm htot hg =>
        have hR := (ih (e :: done) htot).1 hg
        refine ⟨?_, ?_, by have := hR.total; omega, ?_⟩
        · intro l x r h
          cases l with
          | nil =>
            simp only [List.nil_append, List.cons.injEq] at h
            obtain ⟨rfl, rfl⟩ := h
            simpa using hal
          | cons y l =>
            simp only [List.cons_append, List.cons.injEq] at h
            obtain ⟨rfl, rfl⟩ := h
            exact (hR.allowed l x r rfl).congr (fun z hz => (hc1 z l).2 hz)
        · intro l x r h
          cases l with
          | nil =>
            simp only [List.nil_append, List.cons.injEq] at h
            obtain ⟨rfl, rfl⟩ := h
            exact ⟨_, hk, hm, .inl rfl⟩
          | cons y l =>
            simp only [List.cons_append, List.cons.injEq] at h
            obtain ⟨rfl, rfl⟩ := h
            obtain ⟨n, hn, hm, hcase⟩ := hR.length l x r rfl
            refine ⟨n, hn, hm, hcase.imp id ?_⟩
            rintro ⟨h1, h2, h3⟩
            exact ⟨h1, h2, by omega⟩
        · rcases hR.stop with ⟨l, x, n, rfl, h⟩ | h | ⟨h1, x, n, h2, h3⟩
          · exact .inl ⟨e :: l, x, n, rfl, h⟩
          · exact .inr (.inl fun a ha => h a (ha.congr (fun z hz => (hc1 z es).1 hz)))
          · exact .inr (.inr ⟨by omega, x, n, h2.congr (fun z hz => (hc1 z es).2 hz), h3⟩)
    · intro hR
      obtain ⟨n, hk, hm, hcase⟩ := hR.length [] e es rfl
      have hal : EventAllowed app ws time done e := by simpa using hR.allowed [] e es rfl
      have hpos : ∀ x ∈ es, 1 ≤ x.minutes := by
        intro x hx
        obtain ⟨l, r, rfl⟩ := List.append_of_mem hx
        exact (hR.length (e :: l) x r rfl).choose_spec.2.1
      have hnn := minutesOn_nonneg hpos
      have htot := hR.total
      rcases hcase with rfl | ⟨rfl, hlt, htime⟩
      · refine .event hal hk hm (by omega) ((ih (e :: done) (by omega)).2 ⟨?_, ?_, by omega, ?_⟩)
        · intro l x r h
          subst h
          exact (hR.allowed (e :: l) x r rfl).congr (fun z hz => (hc1 z l).1 hz)
        · intro l x r h
          subst h
          obtain ⟨n, hn, hm, hcase⟩ := hR.length (e :: l) x r rfl
          refine ⟨n, hn, hm, hcase.imp id ?_⟩
          rintro ⟨h1, h2, h3⟩
          exact ⟨h1, h2, by omega⟩
        · rcases hR.stop with ⟨l, x, n, h, hk', hlt⟩ | h | ⟨h1, x, n, h2, h3⟩
          · cases l with
            | nil =>
              simp only [List.nil_append, List.cons.injEq] at h
              obtain ⟨rfl, rfl⟩ := h
              have := hk.unique hk'
              omega
            | cons y l =>
              simp only [List.cons_append, List.cons.injEq] at h
              obtain ⟨rfl, rfl⟩ := h
              exact .inl ⟨l, x, n, rfl, hk', hlt⟩
          · exact .inr (.inl fun a ha => h a (ha.congr (fun z hz => (hc1 z es).2 hz)))
          · exact .inr (.inr ⟨by omega, x, n, h2.congr (fun z hz => (hc1 z es).1 hz), h3⟩)
      · have h0 : minutesOn [] = 0 := rfl
        exact .cut hal hk hm hlt (by omega)

theorem remaining_nil_iff {app : Appliance} {power : ℚ} {ws : List (ℤ × ℤ)} {time : ℤ} {es : List SwitchEvent} :
    Remaining app power ws time [] es ↔ DaySchedule app power ws time es := by
  have h0 : minutesOn [] = 0 := rfl
  constructor
  · intro h
    refine ⟨fun l e r hh => by simpa using h.allowed l e r hh, fun l e r hh => ?_, by have := h.total; omega, ?_⟩
    · simpa [h0] using h.length l e r hh
    · simpa [h0] using h.stop
  · intro h
    refine ⟨fun l e r hh => by simpa using h.allowed l e r hh, fun l e r hh => ?_, by have := h.total; omega, ?_⟩
    · simpa [h0] using h.length l e r hh
    · simpa [h0] using h.stop

/-! ## Empty windows do not matter -/

theorem freeRun_filter {w1 w2 w3 : ℤ × ℤ} {es : List SwitchEvent} {a n : ℤ} (hn : 1 ≤ n) :
    FreeRun ([w1, w2, w3].filter (fun w => decide (w.1 ≠ w.2))) es a n ↔ FreeRun [w1, w2, w3] es a n := by
  unfold FreeRun
  refine and_congr ?_ Iff.rfl
  constructor
  · rintro ⟨w, hw, h⟩
    exact ⟨w, List.mem_of_mem_filter hw, h⟩
  · rintro ⟨w, hw, h⟩
    refine ⟨w, List.mem_filter.2 ⟨hw, ?_⟩, h⟩
    simp only [decide_eq_true_eq]
    omega

theorem allowed_filter {app : Appliance} (hfc : 1 ≤ app.funcCycle) {w1 w2 w3 : ℤ × ℤ} {time : ℤ} {es : List SwitchEvent} {e : SwitchEvent} :
    EventAllowed app ([w1, w2, w3].filter (fun w => decide (w.1 ≠ w.2))) time es e ↔ EventAllowed app [w1, w2, w3] time es e := by
  constructor
  · rintro ⟨h1, h2, h3, h4⟩
    exact ⟨(freeRun_filter (by omega)).1 h1, h2, h3, h4⟩
  · rintro ⟨h1, h2, h3, h4⟩
    exact ⟨(freeRun_filter (by omega)).2 h1, h2, h3, h4⟩

theorem schedule_filter {app : Appliance} (hfc : 1 ≤ app.funcCycle) {power : ℚ} {w1 w2 w3 : ℤ × ℤ} {time : ℤ} {es : List SwitchEvent} :
    DaySchedule app power ([w1, w2, w3].filter (fun w => decide (w.1 ≠ w.2))) time es ↔ DaySchedule app power [w1, w2, w3] time es := by
  constructor
  · intro h
    refine ⟨fun l e r hh => (allowed_filter hfc).1 (h.allowed l e r hh), h.length, h.total, ?_⟩
    rcases h.stop with h | h | ⟨h1, e, n, h2, h3⟩
    · exact .inl h
    · exact .inr (.inl fun a ha => h a ((freeRun_filter hfc).2 ha))
    · exact .inr (.inr ⟨h1, e, n, (allowed_filter hfc).1 h2, h3⟩)
  · intro h
    refine ⟨fun l e r hh => (allowed_filter hfc).2 (h.allowed l e r hh), h.length, h.total, ?_⟩
    rcases h.stop with h | h | ⟨h1, e, n, h2, h3⟩
    · exact .inl h
    · exact .inr (.inl fun a ha => h a ((freeRun_filter hfc).1 ha))
    · exact .inr (.inr ⟨h1, e, n, (allowed_filter hfc).2 h2, h3⟩)

/-! ## The profile of a schedule -/

theorem foldl_paint_off (es : List SwitchEvent) : ∀ (p : Profile) (i : Fin 1440), (∀ e ∈ es, e.On i → e.values = []) →
    es.foldl paintEvent p i = p i := by
  induction es with
  | nil => intro p i _; rfl
  | cons e es ih =>
    intro p i h
    rw [List.foldl_cons, ih _ _ (fun x hx => h x (List.mem_cons_of_mem _ hx))]
    unfold paintEvent
    rw [if_neg]
    rintro ⟨h1, h2⟩
    exact h2 (h e (List.mem_cons_self ..) h1)

theorem foldl_paint_on (es : List SwitchEvent) : ∀ (p : Profile) (i : Fin 1440) (e : SwitchEvent), e ∈ es → e.On i → e.values ≠ [] →
    es.Pairwise (fun x y => ∀ m, x.On m → ¬ y.On m) → es.foldl paintEvent p i = e.valueAt i := by
  induction es with
  | nil => intro p i e h; simp at h
  | cons x es ih =>
    intro p i e he hon hv hd
    rw [List.pairwise_cons] at hd
    rw [List.foldl_cons]
    rcases List.mem_cons.1 he with rfl | he
    · rw [foldl_paint_off es _ i (fun y hy hy' => absurd hy' (hd.1 y hy i hon))]
      unfold paintEvent
      rw [if_pos ⟨hon, hv⟩]
    · exact ih _ i e he hon hv hd.2

theorem dayProfile_iff {w1 w2 w3 : ℤ × ℤ} {es : List SwitchEvent} {p : Profile}
    (hd : es.Pairwise (fun x y => ∀ m, x.On m → ¬ y.On m)) :
    DayProfile [w1, w2, w3] es p ↔ p = es.foldl paintEvent (windowProfile w1 w2 w3 (1 / 1000)) := by
  have hw : ∀ i : Fin 1440, (∃ w ∈ [w1, w2, w3], InWindow w i) ↔ (InWindow w1 i ∨ InWindow w2 i ∨ InWindow w3 i) := by
    intro i; simp
  constructor
  · intro h
    funext i
    obtain ⟨h1, h2, h3⟩ := h i
    by_cases hon : ∃ e ∈ es, e.On i ∧ e.values ≠ []
    · obtain ⟨e, he, ho, hv⟩ := hon
      rw [h1 e he ho hv, foldl_paint_on es _ i e he ho hv hd]
    · have hoff : ∀ e ∈ es, e.On i → e.values = [] := fun e he ho => by
        by_contra hv; exact hon ⟨e, he, ho, hv⟩
      rw [foldl_paint_off es _ i hoff]
      unfold windowProfile
      by_cases hin : InWindow w1 i ∨ InWindow w2 i ∨ InWindow w3 i
      · rw [if_pos hin, h2 hoff ((hw i).2 hin)]
      · rw [if_neg hin, h3 hoff (fun h => hin ((hw i).1 h))]
  · rintro rfl i
    refine ⟨fun e he ho hv => foldl_paint_on es _ i e he ho hv hd, fun hoff hin => ?_, fun hoff hin => ?_⟩
    · rw [foldl_paint_off es _ i hoff]
      unfold windowProfile
      rw [if_pos ((hw i).1 hin)]
    · rw [foldl_paint_off es _ i hoff]
      unfold windowProfile
      rw [if_neg (fun h => hin ((hw i).2 h))]

theorem DaySchedule.disjoint {app : Appliance} {power : ℚ} {ws : List (ℤ × ℤ)} {time : ℤ} {es : List SwitchEvent}
    (h : DaySchedule app power ws time es) : es.Pairwise (fun x y => ∀ m, x.On m → ¬ y.On m) := by
  have hmin : ∀ e ∈ es, e.minutes ≤ e.reserved := by
    intro e he
    obtain ⟨l, r, rfl⟩ := List.append_of_mem he
    obtain ⟨n, hk, _, hc⟩ := h.length l e r rfl
    have : n ≤ e.reserved := by
      rcases hk with ⟨_, rfl, _⟩ | ⟨_, i, _, _, rfl⟩
      · exact le_rfl
      · split_ifs <;> omega
    rcases hc with h | ⟨_, h, _⟩ <;> omega
  rw [List.pairwise_iff_getElem]
  intro a b ha hb hab m hm hm'
  have hsplit : es = es.take b ++ es[b] :: es.drop (b + 1) := by
    rw [List.getElem_cons_drop hb, List.take_append_drop]
  have hf := (h.allowed _ _ _ hsplit).free.2
  have hx : es[a] ∈ es.take b := List.mem_take_iff_getElem.2 ⟨a, by omega, rfl⟩
  have hle := hmin es[b] (List.getElem_mem hb)
  unfold SwitchEvent.On at hm'
  exact hf m hm'.1 (by omega) _ hx hm

/-! ## C71, exactly -/

theorem band_iff {tv p x : ℚ} (h : 0 ≤ tv) : Returns (randomVariation tv p) x ↔ ∃ f, |f - 1| ≤ tv ∧ x = p * f := by
  rw [inBand_iff, abs_of_nonneg h]

/-- **C71, exactly.** The duty cycles that a day can have are exactly the ones described by the parameters of the appliance: every
combination of lengths and powers within the variabilities can be drawn, and no other. -/
theorem C71_cycles_exact (app : Appliance) (hv : ValidCycles app) (app' : Appliance) :
    Returns (assignRandomCycles app) app' ↔ ∃ c1 c2 c3, CyclesOfDay app c1 c2 c3 ∧
      app' = { app with randomCycle1 := c1, randomCycle2 := c2, randomCycle3 := c3 } := by
  have e1 := fun a b l => (C02_duty_cycle_shape app.rc1 app.t11 app.t12 a b l hv.rc1.1 hv.rc1.2 hv.t11 hv.t12).1
  have e2 := fun a b l => (C02_duty_cycle_shape app.rc2 app.t21 app.t22 a b l hv.rc2.1 hv.rc2.2 hv.t21 hv.t22).1
  have f1 := fun a b l => (C03_random_choice app.rc1 app.t11 app.t12 a b l hv.rc1.1 hv.rc1.2 hv.t11 hv.t12).1
  have f2 := fun a b l => (C03_random_choice app.rc2 app.t21 app.t22 a b l hv.rc2.1 hv.rc2.2 hv.t21 hv.t22).1
  have f3 := fun a b l => (C03_random_choice app.rc3 app.t31 app.t32 a b l hv.rc3.1 hv.rc3.2 hv.t31 hv.t32).1
  have two : ∀ {rc p1 p2 : ℚ} {t1 t2 : ℤ} {l : List ℚ}, TwoPart rc t1 p1 t2 p2 app.thermalPVar l ↔
      ∃ a b, Returns (randomVariation app.thermalPVar p1) a ∧ Returns (randomVariation app.thermalPVar p2) b ∧
        ∃ k1 k2, PartLength rc t1 k1 ∧ PartLength rc t2 k2 ∧ l = List.replicate k1 a ++ List.replicate k2 b := by
    intro rc p1 p2 t1 t2 l
    constructor
    · rintro ⟨k1, k2, g1, g2, h1, h2, h3, h4, h5⟩
      exact ⟨_, _, (band_iff hv.tv).2 ⟨g1, h3, rfl⟩, (band_iff hv.tv).2 ⟨g2, h4, rfl⟩, k1, k2, h1, h2, h5⟩
    · rintro ⟨a, b, ha, hb, k1, k2, h1, h2, h5⟩
      obtain ⟨g1, h3, rfl⟩ := (band_iff hv.tv).1 ha
      obtain ⟨g2, h4, rfl⟩ := (band_iff hv.tv).1 hb
      exact ⟨k1, k2, g1, g2, h1, h2, h3, h4, h5⟩
  have either : ∀ {rc p1 p2 : ℚ} {t1 t2 : ℤ} {l : List ℚ}, TwoPartEither rc t1 p1 t2 p2 app.thermalPVar l ↔
      ∃ a b, Returns (randomVariation app.thermalPVar p1) a ∧ Returns (randomVariation app.thermalPVar p2) b ∧
        ∃ k1 k2, PartLength rc t1 k1 ∧ PartLength rc t2 k2 ∧
          (l = List.replicate k1 a ++ List.replicate k2 b ∨ l = List.replicate k2 b ++ List.replicate k1 a) := by
    intro rc p1 p2 t1 t2 l
    unfold TwoPartEither
    rw [two, two]
    constructor
    · rintro (⟨a, b, ha, hb, k1, k2, h1, h2, h3⟩ | ⟨a, b, ha, hb, k1, k2, h1, h2, h3⟩)
      · exact ⟨a, b, ha, hb, k1, k2, h1, h2, .inl h3⟩
      · exact ⟨b, a, hb, ha, k2, k1, h2, h1, .inr h3⟩
    · rintro ⟨a, b, ha, hb, k1, k2, h1, h2, h3 | h3⟩
      · exact .inl ⟨a, b, ha, hb, k1, k2, h1, h2, h3⟩
      · exact .inr ⟨b, a, hb, ha, k2, k1, h2, h1, h3⟩
  unfold assignRandomCycles
  by_cases h1 : app.fixedCycle ≥ 1
  · rw [if_pos h1]
    have n1 := PartLength.exists hv.rc1.1 hv.rc1.2 hv.t11
    have n1' := PartLength.exists hv.rc1.1 hv.rc1.2 hv.t12
    have n2 := PartLength.exists hv.rc2.1 hv.rc2.2 hv.t21
    have n2' := PartLength.exists hv.rc2.1 hv.rc2.2 hv.t22
    rw [returns_bind (fin_randomVariation _ _)]
    simp only [returns_bind (fin_randomVariation _ _), returns_bind (fin_dutyCycle _ _ _ _ _), e1]
    by_cases h2 : app.fixedCycle ≥ 2
    · simp only [if_pos h2, returns_bind (fin_randomVariation _ _), returns_bind (fin_dutyCycle _ _ _ _ _), e2]
      by_cases h3 : app.fixedCycle ≥ 3
      · simp only [if_pos h3, returns_bind (fin_randomVariation _ _), returns_bind (fin_randomChoice _ _ _ _ _), f1, f2, f3, returns_pure]
        constructor
        · rintro ⟨a1, ha1, b1, hb1, x1, _, a2, ha2, b2, hb2, x2, _, a3, ha3, b3, hb3, c1, hc1, c2, hc2, c3, hc3, rfl⟩
          exact ⟨c1, c2, c3, ⟨fun h => by omega, fun h => by omega, fun h => by omega, fun _ =>
            ⟨either.2 ⟨a1, b1, ha1, hb1, hc1⟩, either.2 ⟨a2, b2, ha2, hb2, hc2⟩, either.2 ⟨a3, b3, ha3, hb3, hc3⟩⟩⟩, rfl⟩
        · rintro ⟨c1, c2, c3, ⟨_, _, _, h⟩, rfl⟩
          obtain ⟨t1, t2, t3⟩ := h h3
          obtain ⟨a1, b1, ha1, hb1, hc1⟩ := either.1 t1
          obtain ⟨a2, b2, ha2, hb2, hc2⟩ := either.1 t2
          obtain ⟨a3, b3, ha3, hb3, hc3⟩ := either.1 t3
          exact ⟨a1, ha1, b1, hb1, _, ⟨_, _, n1, n1', rfl⟩, a2, ha2, b2, hb2, _, ⟨_, _, n2, n2', rfl⟩, a3, ha3, b3, hb3, c1, hc1, c2, hc2, c3, hc3, rfl⟩
      · simp only [if_neg h3, returns_pure]
        constructor
        · rintro ⟨a1, ha1, b1, hb1, c1, hc1, a2, ha2, b2, hb2, c2, hc2, rfl⟩
          exact ⟨c1, c2, c1, ⟨fun h => by omega, fun h => by omega, fun h =>
            ⟨two.2 ⟨a1, b1, ha1, hb1, hc1⟩, two.2 ⟨a2, b2, ha2, hb2, hc2⟩, rfl⟩, fun h => by omega⟩, rfl⟩
        · rintro ⟨c1, c2, c3, ⟨_, _, h, _⟩, rfl⟩
          obtain ⟨t1, t2, rfl⟩ := h (by omega)
          obtain ⟨a1, b1, ha1, hb1, hc1⟩ := two.1 t1
          obtain ⟨a2, b2, ha2, hb2, hc2⟩ := two.1 t2
          exact ⟨a1, ha1, b1, hb1, c3, hc1, a2, ha2, b2, hb2, c2, hc2, rfl⟩
    · simp only [if_neg h2, returns_pure]
      constructor
      · rintro ⟨a1, ha1, b1, hb1, c1, hc1, rfl⟩
        exact ⟨c1, c1, c1, ⟨fun h => by omega, fun h => ⟨two.2 ⟨a1, b1, ha1, hb1, hc1⟩, rfl, rfl⟩, fun h => by omega, fun h => by omega⟩, rfl⟩
      · rintro ⟨c1, c2, c3, ⟨_, h, _⟩, rfl⟩
        obtain ⟨t1, rfl, rfl⟩ := h (by omega)
        obtain ⟨a1, b1, ha1, hb1, hc1⟩ := two.1 t1
        exact ⟨a1, ha1, b1, hb1, _, hc1, rfl⟩
  · rw [if_neg h1, returns_pure]
    constructor
    · rintro rfl
      exact ⟨_, _, _, ⟨fun _ => ⟨rfl, rfl, rfl⟩, fun h => by omega, fun h => by omega, fun h => by omega⟩, rfl⟩
    · rintro ⟨c1, c2, c3, ⟨h, _⟩, rfl⟩
      obtain ⟨rfl, rfl, rfl⟩ := h (by omega)
      rfl

/-! ## C83 -/

theorem movedWindow_iff {w v : ℤ × ℤ} {r : ℤ} (hr : 0 ≤ r) : Returns (calcRandWindow w r) v ↔ MovedWindow w r v :=
  ⟨fun h => (sat_calcRandWindow hr (E := fun _ => True)).ret h, fun h => (reach_calcRandWindow h).returns⟩

theorem spots_start {w1 w2 w3 : ℤ × ℤ} (d1 : DayWindow w1) (d2 : DayWindow w2) (d3 : DayWindow w3)
    (hap : ([w1, w2, w3].filter (fun w => decide (w.1 ≠ w.2))).Pairwise Apart) :
    FreeInv ([w1, w2, w3].filter (fun w => decide (w.1 ≠ w.2))) (initialSpots [w1, w2, w3]) [] := by
  have h := (loop_start {} w1 w2 w3 0 [] 0 zeros d1 d2 d3 rfl).sep hap
  exact ⟨h.1, fun m => by simpa using h.2.1 m⟩

/-- **C83.** The daily profiles that an appliance can produce are exactly those of the days described by its parameters.  On a day on
which it is not used the profile is zero; otherwise the windows of the day are windows moved within their variability, the time of
use lies within its own variability, and the events are any events that fit one after the other into the free time of the windows,
each at least `func_cycle` long, until the time of use is reached (cutting the last event if need be) or no room is left.  Both
directions: every profile produced is of this form, and every profile of this form is produced by some random draws. -/
theorem C83_possible_days {app : Appliance} (hs : WellSeparated app) (hfl : app.flat ≠ "yes") {depth : ℕ} {pref : ℤ} {profI : ℕ}
    {peak : List ℤ} (hpk : peak ≠ []) {dayType : ℤ} {power : ℚ} (p : Profile) :
    (∃ app', Returns (generateLoadProfile app (depth + 1) pref profI peak dayType power) app' ∧ app'.dailyUse = p) ↔
      (p = zeros ∧ (SkippedForSure app pref dayType ∨ app.occasionalUse < 1)) ∨
      (¬ SkippedForSure app pref dayType ∧ 0 ≤ app.occasionalUse ∧ UsedDay app power p) := by
  have hskip : ∀ x : ℚ, ((x > app.occasionalUse ∨ (app.prefIndex ≠ 0 ∧ pref ≠ app.prefIndex) ∨
      ¬ (app.wdWeType = dayType ∨ app.wdWeType = 2) ∨ app.funcTime = 0) ↔ x > app.occasionalUse ∨ SkippedForSure app pref dayType) := by
    intro x
    unfold SkippedForSure
    push Not
    tauto
  -- what happens when the appliance is used
  have hrun : ∀ app', (∃ o, Returns (do
      let w1 ← calcRandWindow app.window1 app.randomVar1
      let w2 ← calcRandWindow app.window2 app.randomVar2
      let w3 ← calcRandWindow app.window3 app.randomVar3
      let randTime ← randTotalTimeOfUse { app with dailyUse := zeros } w1 w2 w3
      let d ← liftE (fillWindows w1 w2 w3 (1 / 1000))
      let app2 ← assignRandomCycles { { app with dailyUse := zeros } with dailyUse := d }
      let app3 := { app2 with freeSpots := initialSpots [w1, w2, w3] }
      let (app4, log) ← switchOnLoop (depth + 1) peak power randTime (randTime.toNat + 2) app3 0 []
      pure (app4, some ⟨w1, w2, w3, randTime, log.reverse⟩) : Sim (Appliance × Option RunInfo)) (app', o)) ↔
      ∃ w1 w2 w3, MovedWindow app.window1 app.randomVar1 w1 ∧ MovedWindow app.window2 app.randomVar2 w2 ∧
        MovedWindow app.window3 app.randomVar3 w3 ∧ ∃ rt, Returns (randTotalTimeOfUse { app with dailyUse := zeros } w1 w2 w3) rt ∧
        ∃ d, fillWindows w1 w2 w3 (1 / 1000) = .ok d ∧ ∃ app2, Returns (assignRandomCycles { app with dailyUse := d }) app2 ∧
        ∃ log, Returns (switchOnLoop (depth + 1) peak power rt (rt.toNat + 2) { app2 with freeSpots := initialSpots [w1, w2, w3] } 0 [])
          (app', log) := by
    intro app'
    simp only [returns_bind (fin_calcRandWindow _ _), returns_bind (fin_randTotalTimeOfUse _ _ _ _), returns_bind (fin_liftE _),
      returns_bind (fin_assignRandomCycles _), returns_bind (fin_switchOnLoop _ _ _ _ _ _ _ _), returns_liftE, returns_pure,
      movedWindow_iff hs.windows.r1.1, movedWindow_iff hs.windows.r2.1, movedWindow_iff hs.windows.r3.1]
    constructor
    · rintro ⟨o, w1, m1, w2, m2, w3, m3, rt, hrt, d, hd, app2, h2, ⟨a, log⟩, h3, h4⟩
      cases h4
      exact ⟨w1, w2, w3, m1, m2, m3, rt, hrt, d, hd, app2, h2, log, h3⟩
    · rintro ⟨w1, w2, w3, m1, m2, m3, rt, hrt, d, hd, app2, h2, log, h3⟩
      exact ⟨_, w1, m1, w2, m2, w3, m3, rt, hrt, d, hd, app2, h2, ⟨app', log⟩, h3, rfl⟩
  -- the day as a whole
  have hday : (∃ app' w1 w2 w3, MovedWindow app.window1 app.randomVar1 w1 ∧ MovedWindow app.window2 app.randomVar2 w2 ∧
        MovedWindow app.window3 app.randomVar3 w3 ∧ (∃ rt, Returns (randTotalTimeOfUse { app with dailyUse := zeros } w1 w2 w3) rt ∧
        ∃ d, fillWindows w1 w2 w3 (1 / 1000) = .ok d ∧ ∃ app2, Returns (assignRandomCycles { app with dailyUse := d }) app2 ∧
        ∃ log, Returns (switchOnLoop (depth + 1) peak power rt (rt.toNat + 2) { app2 with freeSpots := initialSpots [w1, w2, w3] } 0 [])
          (app', log)) ∧ app'.dailyUse = p) ↔ UsedDay app power p := by
    have hcyc : ∀ d, ValidCycles { app with dailyUse := d } := fun d =>
      ⟨hs.cycles.tv, hs.cycles.t11, hs.cycles.t12, hs.cycles.t21, hs.cycles.t22, hs.cycles.t31, hs.cycles.t32, hs.cycles.rc1,
        hs.cycles.rc2, hs.cycles.rc3⟩
    have htime : ∀ w1 w2 w3 rt, DayWindow w1 → DayWindow w2 → DayWindow w3 →
        (Returns (randTotalTimeOfUse { app with dailyUse := zeros } w1 w2 w3) rt ↔ TimeOfUse app w1 w2 w3 rt) := by
      intro w1 w2 w3 rt d1 d2 d3
      refine C07_time_of_use_exact { app with dailyUse := zeros } w1 w2 w3 rt hs.time hs.variability.1 hs.variability.2 ?_
      unfold DayWindow at d1 d2 d3
      unfold totalTime
      omega
    have hloop : ∀ w1 w2 w3 rt c1 c2 c3, WindowsApart w1 w2 w3 → DayWindow w1 → DayWindow w2 → DayWindow w3 → app.funcCycle ≤ rt →
        ((∃ app' log, Returns (switchOnLoop (depth + 1) peak power rt (rt.toNat + 2)
            { app with
              dailyUse := windowProfile w1 w2 w3 (1 / 1000), randomCycle1 := c1, randomCycle2 := c2, randomCycle3 := c3,
              freeSpots := initialSpots [w1, w2, w3] } 0 []) (app', log) ∧ app'.dailyUse = p) ↔
          ∃ es, DaySchedule { app with randomCycle1 := c1, randomCycle2 := c2, randomCycle3 := c3 } power [w1, w2, w3] rt es ∧
            DayProfile [w1, w2, w3] es p) := by
      intro w1 w2 w3 rt c1 c2 c3 hap d1 d2 d3 hrt
      have hap' := windowsApart_pairwise hap
      have hsh := hs.shortest
      have := returns_loop_iff (app0 := { app with randomCycle1 := c1, randomCycle2 := c2, randomCycle3 := c3 }) (power := power) (peak := peak)
        (depth := depth) (rt := rt) hs.shortest hrt hs.number hpk hap' (by
          intro w hw
          have hm := List.mem_of_mem_filter hw
          simp only [List.mem_cons, List.not_mem_nil, or_false] at hm
          rcases hm with rfl | rfl | rfl
          · exact ⟨d1.1, d1.2.2⟩
          · exact ⟨d2.1, d2.2.2⟩
          · exact ⟨d3.1, d3.2.2⟩) (fun h => by have := hs.cycleWindows h; exact ⟨this.c11, this.c12, this.c21, this.c22, this.c31, this.c32⟩)
        (rt.toNat + 2) (windowProfile w1 w2 w3 (1 / 1000)) (initialSpots [w1, w2, w3]) app.currentDutyCycleId [] [] 0
        (spots_start d1 d2 d3 hap') rfl (by omega) (by push_cast; omega) p
      refine this.trans ?_
      constructor
      · rintro ⟨es, hg, rfl⟩
        have hsch := (schedule_filter (app := { app with randomCycle1 := c1, randomCycle2 := c2, randomCycle3 := c3 }) hs.shortest).1
          (remaining_nil_iff.1 ((goes_iff es [] (by show (0 : ℤ) ≤ rt; omega)).1 hg))
        exact ⟨es, hsch, (dayProfile_iff hsch.disjoint).2 rfl⟩
      · rintro ⟨es, hsch, hp⟩
        exact ⟨es, (goes_iff es [] (by show (0 : ℤ) ≤ rt; omega)).2 (remaining_nil_iff.2
          ((schedule_filter (app := { app with randomCycle1 := c1, randomCycle2 := c2, randomCycle3 := c3 }) hs.shortest).2 hsch)),
          (dayProfile_iff hsch.disjoint).1 hp⟩
    constructor
    · rintro ⟨app', w1, w2, w3, m1, m2, m3, ⟨rt, hrt, d, hd, app2, h2, log, h3⟩, hp⟩
      have b1 := m1.bounds hs.windows.w1 hs.windows.r1
      have b2 := m2.bounds hs.windows.w2 hs.windows.r2
      have b3 := m3.bounds hs.windows.w3 hs.windows.r3
      rcases fillWindows_cases (w1 := w1) (w2 := w2) (w3 := w3) (1 / 1000) ⟨b1.1, b1.2.2.2.1⟩ ⟨b2.1, b2.2.2.2.1⟩
        ⟨b3.1, b3.2.2.2.1⟩ with ⟨d1, d2, d3, hf⟩ | ⟨_, hf⟩
      · rw [hf] at hd
        cases hd
        obtain ⟨c1, c2, c3, hc, rfl⟩ := (C71_cycles_exact _ (hcyc _) app2).1 h2
        have hrt1 := (sat_randTime_ge { app with dailyUse := zeros } w1 w2 w3).ret hrt
        obtain ⟨es, h4, h5⟩ := (hloop w1 w2 w3 rt c1 c2 c3 (hs.apart _ _ _ m1 m2 m3) d1 d2 d3 hrt1).1 ⟨app', log, h3, hp⟩
        exact ⟨w1, w2, w3, rt, c1, c2, c3, es, m1, m2, m3, d1, d2, d3, (htime _ _ _ _ d1 d2 d3).1 hrt, hc, h4, h5⟩
      · rw [hf] at hd; cases hd
    · rintro ⟨w1, w2, w3, rt, c1, c2, c3, es, m1, m2, m3, d1, d2, d3, ht, hc, h4, h5⟩
      have hrt := (htime _ _ _ _ d1 d2 d3).2 ht
      have hrt1 := (sat_randTime_ge { app with dailyUse := zeros } w1 w2 w3).ret hrt
      obtain ⟨app', log, h6, h7⟩ := (hloop w1 w2 w3 rt c1 c2 c3 (hs.apart _ _ _ m1 m2 m3) d1 d2 d3 hrt1).2 ⟨es, h4, h5⟩
      exact ⟨app', w1, w2, w3, m1, m2, m3, ⟨rt, hrt, _, fillWindows_ok _ d1 d2 d3, _,
        (C71_cycles_exact _ (hcyc _) _).2 ⟨c1, c2, c3, hc, rfl⟩, log, h6⟩, h7⟩
  have hinfo : ∀ app', Returns (generateLoadProfile app (depth + 1) pref profI peak dayType power) app' ↔
      ∃ x : ℚ, 0 ≤ x ∧ x ≤ 1 ∧ (((x > app.occasionalUse ∨ SkippedForSure app pref dayType) ∧ app' = { app with dailyUse := zeros }) ∨
        (¬ (x > app.occasionalUse ∨ SkippedForSure app pref dayType) ∧
          ∃ w1 w2 w3, MovedWindow app.window1 app.randomVar1 w1 ∧ MovedWindow app.window2 app.randomVar2 w2 ∧
            MovedWindow app.window3 app.randomVar3 w3 ∧ ∃ rt, Returns (randTotalTimeOfUse { app with dailyUse := zeros } w1 w2 w3) rt ∧
            ∃ d, fillWindows w1 w2 w3 (1 / 1000) = .ok d ∧ ∃ app2, Returns (assignRandomCycles { app with dailyUse := d }) app2 ∧
            ∃ log, Returns (switchOnLoop (depth + 1) peak power rt (rt.toNat + 2) { app2 with freeSpots := initialSpots [w1, w2, w3] } 0 [])
              (app', log))) := by
    intro app'
    rw [returns_generate_iff]
    have hu : ∀ x, Returns (uniform 0 1) x ↔ 0 ≤ x ∧ x ≤ 1 := by
      intro x
      constructor
      · intro h
        exact (sat_uniform (a := 0) (b := 1) (Q := fun x => 0 ≤ x ∧ x ≤ 1) (E := fun _ => True)
          (fun u h0 h1 => ⟨by linarith, by linarith⟩)).ret h
      · rintro ⟨h0, h1⟩
        exact (reach_uniform_of_mem h0 h1).returns
    constructor
    · rintro ⟨o, h⟩
      unfold generateLoadProfileInfo at h
      rw [returns_bind (fin_uniform _ _)] at h
      obtain ⟨x, hx, h⟩ := h
      obtain ⟨h0, h1⟩ := (hu x).1 hx
      refine ⟨x, h0, h1, ?_⟩
      by_cases hc : x > app.occasionalUse ∨ SkippedForSure app pref dayType
      · rw [if_pos ((hskip x).2 hc), returns_pure] at h
        cases h
        exact .inl ⟨hc, rfl⟩
      · rw [if_neg (fun h => hc ((hskip x).1 h))] at h
        simp only [if_neg hfl] at h
        exact .inr ⟨hc, (hrun app').1 ⟨o, h⟩⟩
    · rintro ⟨x, h0, h1, h⟩
      unfold generateLoadProfileInfo
      simp only [returns_bind (fin_uniform _ _), if_neg hfl]
      rcases h with ⟨hc, rfl⟩ | ⟨hc, h⟩
      · exact ⟨none, x, (hu x).2 ⟨h0, h1⟩, by rw [if_pos ((hskip x).2 hc), returns_pure]⟩
      · obtain ⟨o, h⟩ := (hrun app').2 h
        exact ⟨o, x, (hu x).2 ⟨h0, h1⟩, by rw [if_neg (fun h => hc ((hskip x).1 h))]; exact h⟩
  rw [← hday]
  constructor
  · rintro ⟨app', h, rfl⟩
    obtain ⟨x, h0, h1, ⟨hc, rfl⟩ | ⟨hc, w1, w2, w3, m1, m2, m3, h⟩⟩ := (hinfo app').1 h
    · left
      refine ⟨rfl, ?_⟩
      rcases hc with hc | hc
      · right; linarith
      · exact .inl hc
    · right
      push Not at hc
      exact ⟨hc.2, by linarith, app', w1, w2, w3, m1, m2, m3, h, rfl⟩
  · rintro (⟨rfl, hc⟩ | ⟨hns, hocc, app', w1, w2, w3, m1, m2, m3, h, hp⟩)
    · refine ⟨_, (hinfo { app with dailyUse := zeros }).2 ⟨1, by norm_num, le_rfl, .inl ⟨?_, rfl⟩⟩, rfl⟩
      rcases hc with hc | hc
      · exact .inr hc
      · exact .inl hc
    · refine ⟨app', (hinfo app').2 ⟨0, le_rfl, by norm_num, .inr ⟨?_, w1, w2, w3, m1, m2, m3, h⟩⟩, hp⟩
      push Not
      exact ⟨hocc, hns⟩

/-! ### Without duty cycles -/

/-- The same event with the run that was needed for it. -/
def SwitchEvent.reserve (fc : ℤ) (e : SwitchEvent) : SwitchEvent := { e with reserved := max e.minutes fc }

theorem minutesOn_reserve (fc : ℤ) (es : List SwitchEvent) : minutesOn (es.map (SwitchEvent.reserve fc)) = minutesOn es := by
  unfold minutesOn
  rw [List.map_map]
  rfl

theorem freeRun_reserve {ws : List (ℤ × ℤ)} {es : List SwitchEvent} {fc a n : ℤ} :
    FreeRun ws (es.map (SwitchEvent.reserve fc)) a n ↔ FreeRun ws es a n := by
  unfold FreeRun
  refine and_congr Iff.rfl ?_
  constructor
  · intro h m h1 h2 e he
    exact h m h1 h2 (e.reserve fc) (List.mem_map_of_mem he)
  · intro h m h1 h2 e he
    obtain ⟨e', he', rfl⟩ := List.mem_map.1 he
    exact h m h1 h2 e' he'

theorem dayProfile_reserve {ws : List (ℤ × ℤ)} {es : List SwitchEvent} {fc : ℤ} {p : Profile} :
    DayProfile ws (es.map (SwitchEvent.reserve fc)) p ↔ DayProfile ws es p := by
  unfold DayProfile
  refine forall_congr' fun i => and_congr ?_ (and_congr (imp_congr ?_ Iff.rfl) (imp_congr ?_ Iff.rfl))
  all_goals
    constructor
    · intro h e he
      exact h (e.reserve fc) (List.mem_map_of_mem he)
    · intro h e he
      obtain ⟨e', he', rfl⟩ := List.mem_map.1 he
      exact h e' he'

theorem PlainDay.of_schedule {app : Appliance} {power : ℚ} {ws : List (ℤ × ℤ)} {time : ℤ} {es : List SwitchEvent} (hfix : app.fixedCycle ≤ 0)
    (h : DaySchedule app power ws time es) : PlainDay app power ws time es := by
  have hkind : ∀ e n, EventKind app power e n → n = e.reserved ∧ ∃ f, |f - 1| ≤ |app.thermalPVar| ∧ e.values = [e.number * power * f] := by
    rintro e n (⟨_, h1, h2⟩ | ⟨h1, _⟩)
    · exact ⟨h1, h2⟩
    · omega
  have hmem : ∀ e ∈ es, 1 ≤ e.minutes ∧ NumberOn app e.number ∧ ∃ f, |f - 1| ≤ |app.thermalPVar| ∧ e.values = [e.number * power * f] := by
    intro e he
    obtain ⟨l, r, rfl⟩ := List.append_of_mem he
    obtain ⟨n, hk, hm, _⟩ := h.length l e r rfl
    exact ⟨hm, (h.allowed l e r rfl).number, (hkind e n hk).2⟩
  refine ⟨?_, fun e he => (hmem e he).1, fun e he => (hmem e he).2.1, fun e he => (hmem e he).2.2, h.total, ?_, ?_⟩
  · intro l e r hh
    have ha := h.allowed l e r hh
    obtain ⟨n, hk, hm, hc⟩ := h.length l e r hh
    obtain ⟨rfl, _⟩ := hkind e n hk
    have h1 := ha.shortest
    have h2 : e.minutes ≤ e.reserved := by rcases hc with h | ⟨_, h, _⟩ <;> omega
    obtain ⟨⟨w, hw, h3, h4⟩, h5⟩ := ha.free
    exact ⟨⟨w, hw, h3, by omega⟩, fun m a b => h5 m a (by omega)⟩
  · intro l e r hh hlt
    have ha := h.allowed l e r hh
    obtain ⟨n, hk, hm, hc⟩ := h.length l e r hh
    obtain ⟨rfl, _⟩ := hkind e n hk
    have h1 := ha.shortest
    rcases hc with h | ⟨h2, _, h3⟩
    · omega
    · exact ⟨h2, h3⟩
  · rcases h.stop with ⟨l, e, n, hh, hk, hlt⟩ | h1 | ⟨h1, _⟩
    · obtain ⟨n', hk', hm, hc⟩ := h.length l e [] hh
      have := hk.unique hk'
      rcases hc with h2 | ⟨_, _, h3⟩
      · omega
      · exact .inl h3
    · exact .inr h1
    · exact .inl h1

theorem PlainDay.schedule {app : Appliance} {power : ℚ} {ws : List (ℤ × ℤ)} {time : ℤ} {es : List SwitchEvent} (hfix : app.fixedCycle ≤ 0)
    (hnum : 1 ≤ app.number) (hfc : 1 ≤ app.funcCycle) (htime : app.funcCycle ≤ time) (h : PlainDay app power ws time es) :
    DaySchedule app power ws time (es.map (SwitchEvent.reserve app.funcCycle)) := by
  have hsplit : ∀ l e r, es.map (SwitchEvent.reserve app.funcCycle) = l ++ e :: r → ∃ l' e' r', es = l' ++ e' :: r' ∧
      l = l'.map (SwitchEvent.reserve app.funcCycle) ∧ e = e'.reserve app.funcCycle ∧ r = r'.map (SwitchEvent.reserve app.funcCycle) := by
    intro l e r hh
    obtain ⟨l', r0, h1, h2, h3⟩ := List.map_eq_append_iff.1 hh
    obtain ⟨e', r', h4, h5, h6⟩ := List.map_eq_cons_iff.1 h3
    exact ⟨l', e', r', by rw [h1, h4], h2.symm, h5.symm, h6.symm⟩
  have hle : ∀ e ∈ es, e.minutes ≤ time := by
    intro e he
    obtain ⟨l, r, hh⟩ := List.append_of_mem he
    have h0 := h.total
    have hl := minutesOn_nonneg (es := l) (fun x hx => h.minutes x (by rw [hh]; simp [hx]))
    have hr := minutesOn_nonneg (es := r) (fun x hx => h.minutes x (by rw [hh]; simp [hx]))
    have : minutesOn es = minutesOn l + (e.minutes + minutesOn r) := by rw [hh]; simp [minutesOn]
    omega
  have hkind : ∀ e ∈ es, EventKind app power (e.reserve app.funcCycle) (max e.minutes app.funcCycle) :=
    fun e he => .inl ⟨hfix, rfl, h.power e he⟩
  refine ⟨?_, ?_, by rw [minutesOn_reserve]; exact h.total, ?_⟩
  · intro l e r hh
    obtain ⟨l', e', r', h1, rfl, rfl, rfl⟩ := hsplit l e r hh
    have he : e' ∈ es := by rw [h1]; simp
    refine ⟨freeRun_reserve.2 (h.free l' e' r' h1), le_max_right _ _, max_le (hle e' he) htime, h.number e' he⟩
  · intro l e r hh
    obtain ⟨l', e', r', h1, rfl, rfl, rfl⟩ := hsplit l e r hh
    have he : e' ∈ es := by rw [h1]; simp
    refine ⟨_, hkind e' he, h.minutes e' he, ?_⟩
    show e'.minutes = max e'.minutes app.funcCycle ∨ _
    by_cases hlt : e'.minutes < app.funcCycle
    · obtain ⟨h2, h3⟩ := h.short l' e' r' h1 hlt
      subst h2
      exact .inr ⟨rfl, by show e'.minutes < _; omega, by rw [minutesOn_reserve]; exact h3⟩
    · exact .inl (by omega)
  · by_cases hno : ∀ a, ¬ FreeRun ws es a app.funcCycle
    · exact .inr (.inl fun a ha => hno a (freeRun_reserve.1 ha))
    · right; right
      rcases h.stop with h1 | h1
      · push Not at hno
        obtain ⟨a, ha⟩ := hno
        refine ⟨by rw [minutesOn_reserve]; exact h1, ⟨a, app.funcCycle, 1, app.number, [app.number * power * 1]⟩, app.funcCycle,
          ⟨freeRun_reserve.2 ha, le_rfl, htime, ?_⟩, .inl ⟨hfix, rfl, 1, by simp, rfl⟩, hfc⟩
        unfold NumberOn
        split_ifs
        · exact ⟨hnum, le_rfl⟩
        · rfl
      · exact absurd h1 hno

/-- **C83, without duty cycles.** The same for an appliance without duty cycles, in the simplest terms: a list of events of at least
`func_cycle` minutes, each with its own number of appliances and its own power, none overlapping another, whose total is the time of
use of the day, or less if no run of `func_cycle` minutes is left; only the last one may be shorter, when it ends the time of use. -/
theorem C83_possible_days_plain {app : Appliance} (hs : WellSeparated app) (hfix : app.fixedCycle ≤ 0) (hfl : app.flat ≠ "yes") {depth : ℕ}
    {pref : ℤ} {profI : ℕ} {peak : List ℤ} (hpk : peak ≠ []) {dayType : ℤ} {power : ℚ} (p : Profile) :
    (∃ app', Returns (generateLoadProfile app (depth + 1) pref profI peak dayType power) app' ∧ app'.dailyUse = p) ↔
      (p = zeros ∧ (SkippedForSure app pref dayType ∨ app.occasionalUse < 1)) ∨
      (¬ SkippedForSure app pref dayType ∧ 0 ≤ app.occasionalUse ∧ ∃ w1 w2 w3 time es,
        MovedWindow app.window1 app.randomVar1 w1 ∧ MovedWindow app.window2 app.randomVar2 w2 ∧
        MovedWindow app.window3 app.randomVar3 w3 ∧ DayWindow w1 ∧ DayWindow w2 ∧ DayWindow w3 ∧ TimeOfUse app w1 w2 w3 time ∧
        PlainDay app power [w1, w2, w3] time es ∧ DayProfile [w1, w2, w3] es p) := by
  rw [C83_possible_days hs hfl hpk]
  refine or_congr Iff.rfl (and_congr Iff.rfl (and_congr Iff.rfl ?_))
  constructor
  · rintro ⟨w1, w2, w3, time, c1, c2, c3, es, m1, m2, m3, d1, d2, d3, ht, hc, hsch, hp⟩
    obtain ⟨rfl, rfl, rfl⟩ := hc.1 hfix
    exact ⟨w1, w2, w3, time, es, m1, m2, m3, d1, d2, d3, ht, PlainDay.of_schedule hfix hsch, hp⟩
  · rintro ⟨w1, w2, w3, time, es, m1, m2, m3, d1, d2, d3, ht, hpl, hp⟩
    refine ⟨w1, w2, w3, time, app.randomCycle1, app.randomCycle2, app.randomCycle3, es.map (SwitchEvent.reserve app.funcCycle),
      m1, m2, m3, d1, d2, d3, ht, ⟨fun _ => ⟨rfl, rfl, rfl⟩, fun h => by omega, fun h => by omega, fun h => by omega⟩,
      hpl.schedule hfix hs.number hs.shortest ?_, dayProfile_reserve.2 hp⟩
    obtain ⟨h1, n, _, _, rfl⟩ := ht
    show app.funcCycle ≤ _
    omega

/-! ### A case for C83 -/

/-- Two radios, used 60 minutes a day between 8:00 and 10:00, at least 20 minutes each time. -/
def radios : Appliance := { number := 2, window1 := (480, 600), funcTime := 60, funcCycle := 20 }

theorem radios_moved {w1 w2 w3 : ℤ × ℤ} (m1 : MovedWindow radios.window1 radios.randomVar1 w1)
    (m2 : MovedWindow radios.window2 radios.randomVar2 w2) (m3 : MovedWindow radios.window3 radios.randomVar3 w3) :
    w1 = (480, 600) ∧ w2 = (0, 0) ∧ w3 = (0, 0) := by
  unfold MovedWindow radios at *
  simp only at m1 m2 m3
  obtain ⟨a, b, ⟨h1, h2⟩, ⟨h3, h4⟩, rfl⟩ := m1
  obtain ⟨a', b', ⟨h1', h2'⟩, ⟨h3', h4'⟩, rfl⟩ := m2
  obtain ⟨a'', b'', ⟨h1'', h2''⟩, ⟨h3'', h4''⟩, rfl⟩ := m3
  refine ⟨Prod.ext ?_ ?_, Prod.ext ?_ ?_, Prod.ext ?_ ?_⟩ <;> simp <;> omega

theorem radios_separated : WellSeparated radios := by
  refine ⟨⟨?_, ?_, ?_, ?_, ?_, ?_⟩, ?_, ?_, ?_, ?_, ?_, ?_, ?_⟩
  · unfold DayWindow radios; norm_num
  · unfold DayWindow radios; norm_num
  · unfold DayWindow radios; norm_num
  · unfold radios; norm_num
  · unfold radios; norm_num
  · unfold radios; norm_num
  · intro w1 w2 w3 m1 m2 m3
    obtain ⟨rfl, rfl, rfl⟩ := radios_moved m1 m2 m3
    unfold WindowsApart
    simp
  · constructor <;> norm_num [radios]
  · intro h; simp [radios] at h
  · norm_num [radios]
  · norm_num [radios]
  · norm_num [radios]
  · norm_num [radios]

/-- A day of the radios: both from 8:00 to 8:45, one from 9:00 on; the second event is cut after 15 minutes, when the hour is used up.
By C83 some random draws produce this day. -/
example : ∃ p app', Returns (generateLoadProfile radios 1 0 0 [600] 0 10) app' ∧ app'.dailyUse = p ∧
    p ⟨480, by omega⟩ = 20 ∧ p ⟨554, by omega⟩ = 10 ∧ p ⟨555, by omega⟩ = 1 / 1000 ∧ p ⟨600, by omega⟩ = 0 := by
  have hd : ([⟨480, 45, 45, 2, [20]⟩, ⟨540, 15, 15, 1, [10]⟩] : List SwitchEvent).Pairwise (fun x y => ∀ m, x.On m → ¬ y.On m) := by
    simp only [List.pairwise_cons, SwitchEvent.On]
    refine ⟨?_, by simp, by simp⟩
    intro y hy
    simp only [List.mem_singleton] at hy
    subst hy
    simp only
    intro m h1 h2
    omega
  have hp := (dayProfile_iff (w1 := (480, 600)) (w2 := (0, 0)) (w3 := (0, 0)) hd).2 rfl
  set es : List SwitchEvent := [⟨480, 45, 45, 2, [20]⟩, ⟨540, 15, 15, 1, [10]⟩] with hes
  have hsplit : ∀ l e r, es = l ++ e :: r → (l = [] ∧ e = ⟨480, 45, 45, 2, [20]⟩ ∧ r = [⟨540, 15, 15, 1, [10]⟩]) ∨
      (l = [⟨480, 45, 45, 2, [20]⟩] ∧ e = ⟨540, 15, 15, 1, [10]⟩ ∧ r = []) := by
    intro l e r h
    rw [hes] at h
    match l, h with
    | [], h => simp at h; exact .inl ⟨rfl, h.1.symm, h.2.symm⟩
    | [x], h => simp at h; exact .inr ⟨by rw [h.1], h.2.1.symm, h.2.2⟩
    | x :: y :: l, h => simp at h
  have htot : minutesOn es = 60 := by rw [hes]; rfl
  have hmem : ∀ e ∈ es, e = ⟨480, 45, 45, 2, [20]⟩ ∨ e = ⟨540, 15, 15, 1, [10]⟩ := by
    intro e he; simpa [hes] using he
  have hplain : PlainDay radios 10 [(480, 600), (0, 0), (0, 0)] 60 es := by
    refine ⟨?_, ?_, ?_, ?_, by omega, ?_, .inl htot⟩
    · intro l e r h
      rcases hsplit l e r h with ⟨rfl, rfl, rfl⟩ | ⟨rfl, rfl, rfl⟩
      · refine ⟨⟨(480, 600), by simp, by norm_num, by norm_num [radios]⟩, ?_⟩
        intro m _ _ e he; simp at he
      · refine ⟨⟨(480, 600), by simp, by norm_num, by norm_num [radios]⟩, ?_⟩
        intro m h1 h2 e he
        simp only [List.mem_singleton] at he
        subst he
        unfold SwitchEvent.On
        simp only at h1 ⊢
        omega
    · intro e he; rcases hmem e he with rfl | rfl <;> norm_num
    · intro e he; rcases hmem e he with rfl | rfl <;> norm_num [NumberOn, radios]
    · intro e he; rcases hmem e he with rfl | rfl <;> exact ⟨1, by norm_num [radios], by norm_num⟩
    · intro l e r h hlt
      rcases hsplit l e r h with ⟨rfl, rfl, rfl⟩ | ⟨rfl, rfl, rfl⟩
      · norm_num [radios] at hlt
      · exact ⟨rfl, htot⟩
  have ht : TimeOfUse radios (480, 600) (0, 0) (0, 0) 60 := by
    have e1 : totalTime (480, 600) (0, 0) (0, 0) = 120 := by norm_num [totalTime]
    have e2 : ⌊(99 / 100 : ℚ) * ((120 : ℤ) : ℚ)⌋ = 118 := by rw [Int.floor_eq_iff]; norm_num
    refine ⟨by rw [e1, e2]; norm_num [radios], 60, ?_, ?_, by rw [e1, e2]; norm_num [radios]⟩
    · norm_num [radios]
    · norm_num [radios]
  obtain ⟨app', h1, h2⟩ := (C83_possible_days_plain radios_separated (by norm_num [radios]) (by simp [radios]) (depth := 0) (pref := 0)
    (profI := 0) (peak := [600]) (by simp) (dayType := 0) (power := 10) _).2 (.inr ⟨by norm_num [SkippedForSure, radios], by norm_num [radios],
      (480, 600), (0, 0), (0, 0), 60, es, ⟨480, 600, by norm_num [radios], by norm_num [radios], by norm_num⟩,
      ⟨0, 0, by norm_num [radios], by norm_num [radios], by norm_num⟩, ⟨0, 0, by norm_num [radios], by norm_num [radios], by norm_num⟩,
      by unfold DayWindow; norm_num, by unfold DayWindow; norm_num, by unfold DayWindow; norm_num, ht, hplain, hp⟩)
  · refine ⟨_, app', h1, rfl, ?_, ?_, ?_, ?_⟩
    · rw [h2, (hp _).1 ⟨480, 45, 45, 2, [20]⟩ (by rw [hes]; simp) (by unfold SwitchEvent.On; norm_num) (by simp)]; norm_num [SwitchEvent.valueAt]
    · rw [h2, (hp _).1 ⟨540, 15, 15, 1, [10]⟩ (by rw [hes]; simp) (by unfold SwitchEvent.On; norm_num) (by simp)]
      simp [SwitchEvent.valueAt, Nat.mod_one]
    · rw [h2, (hp _).2.1 ?_ ⟨(480, 600), by simp, by unfold InWindow; norm_num⟩]
      intro e he ho
      rcases hmem e he with rfl | rfl <;> (unfold SwitchEvent.On at ho; norm_num at ho)
    · rw [h2, (hp _).2.2 ?_ ?_]
      · intro e he ho
        rcases hmem e he with rfl | rfl <;> (unfold SwitchEvent.On at ho; norm_num at ho)
      · rintro ⟨w, hw, h⟩
        simp only [List.mem_cons, List.not_mem_nil, or_false] at hw
        rcases hw with rfl | rfl | rfl <;> (unfold InWindow at h; norm_num at h)

end Ramp
