import Verif.Props.Switch
import Verif.Props.TimeOfUse

/-! # Reading a profile: which booking wrote which minute, and with what value -/

set_option autoImplicit false

namespace Ramp

/-! ## Samples of the duty cycles -/

/-- `x` is `p` times a factor of the band of width `tv` around 1. -/
def InBand (tv p x : ℚ) : Prop := ∃ f, |f - 1| ≤ |tv| ∧ x = p * f

theorem sat_randomVariation (tv p : ℚ) {E : Err → Prop} : Sat (randomVariation tv p) (InBand tv p) E := by
  refine sat_bind (sat_uniform fun u h0 h1 => sat_pure ⟨_, ?_, rfl⟩)
  rw [show 1 - tv + (1 + tv - (1 - tv)) * u - 1 = tv * (2 * u - 1) by ring, abs_mul]
  refine mul_le_of_le_one_right (abs_nonneg _) ?_
  rw [abs_le]; constructor <;> linarith

theorem onesTimes_mem {n : ℤ} {p x : ℚ} {l : List ℚ} (h : onesTimes n p = .ok l) (hx : x ∈ l) : x = p := by
  unfold onesTimes at h
  split_ifs at h
  cases h
  exact (List.mem_replicate.1 hx).2

theorem sat_dutyCycle_samples (var : ℚ) (t1 : ℤ) (p1 : ℚ) (t2 : ℤ) (p2 : ℚ) :
    Sat (dutyCycle var t1 p1 t2 p2) (fun l => ∀ x ∈ l, x = p1 ∨ x = p2) (fun _ => True) := by
  unfold dutyCycle
  refine sat_bind' sat_true fun d1 _ => ?_
  refine sat_bind (sat_liftE (fun a ha => ?_) (fun _ _ => trivial))
  refine sat_bind' sat_true fun d2 _ => ?_
  refine sat_bind (sat_liftE (fun b hb => ?_) (fun _ _ => trivial))
  refine sat_pure fun x hx => ?_
  rcases List.mem_append.1 hx with h | h
  · exact .inl (onesTimes_mem ha h)
  · exact .inr (onesTimes_mem hb h)

theorem sat_randomChoice_samples (var : ℚ) (t1 : ℤ) (p1 : ℚ) (t2 : ℤ) (p2 : ℚ) :
    Sat (randomChoice var t1 p1 t2 p2) (fun l => ∀ x ∈ l, x = p1 ∨ x = p2) (fun _ => True) := by
  unfold randomChoice
  refine sat_bind' (sat_dutyCycle_samples var t1 p1 t2 p2) fun a ha => ?_
  refine sat_bind' (sat_dutyCycle_samples var t2 p2 t1 p1) fun b hb => ?_
  exact sat_choice2 ha (fun x hx => (hb x hx).symm)

/-- Every sample of the cycle lies in the band of one of the six powers of the duty cycles. -/
def SampleOK (app : Appliance) (x : ℚ) : Prop :=
  ∃ p ∈ [app.p11, app.p12, app.p21, app.p22, app.p31, app.p32], InBand app.thermalPVar p x

theorem sat_assign_samples (app : Appliance) (h : 0 < app.fixedCycle) :
    Sat (assignRandomCycles app) (fun app' => (∀ x ∈ app'.randomCycle1, SampleOK app x) ∧
      (∀ x ∈ app'.randomCycle2, SampleOK app x) ∧ (∀ x ∈ app'.randomCycle3, SampleOK app x)) (fun _ => True) := by
  have key : ∀ {l : List ℚ} {a b p q : ℚ}, p ∈ [app.p11, app.p12, app.p21, app.p22, app.p31, app.p32] →
      q ∈ [app.p11, app.p12, app.p21, app.p22, app.p31, app.p32] → InBand app.thermalPVar p a → InBand app.thermalPVar q b →
      (∀ x ∈ l, x = a ∨ x = b) → ∀ x ∈ l, SampleOK app x := by
    intro l a b p q hp hq ha hb hl x hx
    rcases hl x hx with rfl | rfl
    · exact ⟨p, hp, ha⟩
    · exact ⟨q, hq, hb⟩
  unfold assignRandomCycles
  rw [if_pos (by omega)]
  refine sat_bind' (sat_randomVariation _ _) fun a1 ha1 => ?_
  refine sat_bind' (sat_randomVariation _ _) fun b1 hb1 => ?_
  refine sat_bind' (sat_dutyCycle_samples _ _ _ _ _) fun c1 hc1 => ?_
  have k1 := key (by simp) (by simp) ha1 hb1 hc1
  refine sat_ite (fun _ => ?_) (fun _ => sat_pure ⟨k1, k1, k1⟩)
  refine sat_bind' (sat_randomVariation _ _) fun a2 ha2 => ?_
  refine sat_bind' (sat_randomVariation _ _) fun b2 hb2 => ?_
  refine sat_bind' (sat_dutyCycle_samples _ _ _ _ _) fun c2 hc2 => ?_
  have k2 := key (by simp) (by simp) ha2 hb2 hc2
  refine sat_ite (fun _ => ?_) (fun _ => sat_pure ⟨k1, k2, k1⟩)
  refine sat_bind' (sat_randomVariation _ _) fun a3 ha3 => ?_
  refine sat_bind' (sat_randomVariation _ _) fun b3 hb3 => ?_
  refine sat_bind' (sat_randomChoice_samples _ _ _ _ _) fun d1 hd1 => ?_
  refine sat_bind' (sat_randomChoice_samples _ _ _ _ _) fun d2 hd2 => ?_
  refine sat_bind' (sat_randomChoice_samples _ _ _ _ _) fun d3 hd3 => ?_
  exact sat_pure ⟨key (by simp) (by simp) ha1 hb1 hd1, key (by simp) (by simp) ha2 hb2 hd2, key (by simp) (by simp) ha3 hb3 hd3⟩

/-! ## Painted profiles -/

/-- The booking covers a run of minutes of the day. -/
def RunOfDay (b : Booking) : Prop := ∃ (a : ℤ) (n : ℕ), b.indexes = arange a (a + n) ∧ 0 ≤ a ∧ a + n ≤ 1440

theorem npPut_value {p p' : Profile} {b : Booking} {v : List ℚ} (hb : RunOfDay b) (h : npPut p b.indexes v = .ok p')
    (i : Fin 1440) :
    (v = [] ∧ p' i = p i) ∨ (v ≠ [] ∧ (i : ℤ) ∉ b.indexes ∧ p' i = p i) ∨
    (v ≠ [] ∧ ∃ k : ℕ, b.indexes[k]? = some (i : ℤ) ∧ p' i = v.getD (k % v.length) 0) := by
  obtain ⟨a, n, hidx, h0, h1⟩ := hb
  by_cases hv : v = []
  · left
    subst hv
    simp only [npPut, List.length_nil, if_pos] at h
    cases h; exact ⟨rfl, rfl⟩
  · right
    rw [hidx, npPut_arange v hv n a p h0 h1] at h
    cases h
    by_cases hi : a ≤ (i : ℤ) ∧ (i : ℤ) < a + n
    · right
      refine ⟨hv, ((i : ℤ) - a).toNat, ?_, ?_⟩
      · rw [hidx, getElem?_arange (by omega)]; congr 1; omega
      · exact if_pos hi
    · left
      refine ⟨hv, ?_, if_neg hi⟩
      rw [hidx, mem_arange]; exact hi

/-- The value of a painted profile at a minute. -/
theorem painted_value {app : Appliance} {power : ℚ} {base prof : Profile} {log : List Booking}
    (hp : Painted app power base log prof) (hb : ∀ b ∈ log, RunOfDay b) (i : Fin 1440) :
    (∃ b ∈ log, ∃ v, BookingValues app power b v ∧ v ≠ [] ∧ ∃ k : ℕ, b.indexes[k]? = some (i : ℤ) ∧
      prof i = v.getD (k % v.length) 0) ∨
    (prof i = base i ∧ ∀ b ∈ log, (i : ℤ) ∈ b.indexes → BookingValues app power b []) := by
  induction hp with
  | nil => right; simp
  | @cons b log v p p' hp hv hput ih =>
    rcases npPut_value (hb b (by simp)) hput i with ⟨rfl, e⟩ | ⟨hne, hni, e⟩ | ⟨hne, k, hk, e⟩
    · rcases ih (fun c hc => hb c (by simp [hc])) with ⟨c, hc, h⟩ | ⟨h1, h2⟩
      · left; rw [e]; exact ⟨c, by simp [hc], h⟩
      · right
        refine ⟨by rw [e, h1], ?_⟩
        intro c hc hi
        rcases List.mem_cons.1 hc with rfl | hc
        · exact hv
        · exact h2 c hc hi
    · rcases ih (fun c hc => hb c (by simp [hc])) with ⟨c, hc, h⟩ | ⟨h1, h2⟩
      · left; rw [e]; exact ⟨c, by simp [hc], h⟩
      · right
        refine ⟨by rw [e, h1], ?_⟩
        intro c hc hi
        rcases List.mem_cons.1 hc with rfl | hc
        · exact absurd hi hni
        · exact h2 c hc hi
    · left
      exact ⟨b, by simp, v, hv, hne, k, hk, e⟩

/-- With disjoint bookings every booking is visible in the profile. -/
theorem painted_disjoint {app : Appliance} {power : ℚ} {base prof : Profile} {log : List Booking}
    (hp : Painted app power base log prof) (hb : ∀ b ∈ log, RunOfDay b)
    (hd : log.Pairwise (fun b c => ∀ m, m ∈ b.indexes → m ∉ c.indexes)) :
    ∀ b ∈ log, ∃ v, BookingValues app power b v ∧ (v ≠ [] → ∀ (k : ℕ) (i : Fin 1440), b.indexes[k]? = some (i : ℤ) →
      prof i = v.getD (k % v.length) 0) := by
  induction hp with
  | nil => simp
  | @cons b log v p p' hp hv hput ih =>
    rw [List.pairwise_cons] at hd
    intro c hc
    rcases List.mem_cons.1 hc with rfl | hc
    · refine ⟨v, hv, fun hne k i hk => ?_⟩
      rcases npPut_value (hb c (by simp)) hput i with ⟨h, _⟩ | ⟨_, hni, _⟩ | ⟨_, k', hk', e⟩
      · exact absurd h hne
      · exact absurd (List.mem_of_getElem? hk) hni
      · obtain ⟨a, n, hidx, _, _⟩ := hb c (by simp)
        have hn := nodup_arange a (a + n)
        rw [← hidx] at hn
        have hkl : k < c.indexes.length := (List.getElem?_eq_some_iff.1 hk).1
        have : k = k' := (List.getElem?_inj hkl hn).1 (hk.trans hk'.symm)
        rw [e, this]
    · obtain ⟨w, hw, hval⟩ := ih (fun c hc => hb c (by simp [hc])) hd.2 c hc
      refine ⟨w, hw, fun hne k i hk => ?_⟩
      have hi : (i : ℤ) ∉ b.indexes := fun hh => hd.1 c hc _ hh (List.mem_of_getElem? hk)
      rcases npPut_value (hb b (by simp)) hput i with ⟨_, e⟩ | ⟨_, _, e⟩ | ⟨_, k', hk', _⟩
      · rw [e]; exact hval hne k i hk
      · rw [e]; exact hval hne k i hk
      · exact absurd (List.mem_of_getElem? hk') hi

/-- Whatever the windows, a booking is visible at the minutes that no later booking covers. -/
theorem painted_last {app : Appliance} {power : ℚ} {base prof : Profile} {log : List Booking}
    (hp : Painted app power base log prof) (hb : ∀ b ∈ log, RunOfDay b) {later earlier : List Booking} {b : Booking} (hlog : log = later ++ b :: earlier) :
    ∃ v, BookingValues app power b v ∧ (v ≠ [] → ∀ (k : ℕ) (i : Fin 1440), b.indexes[k]? = some (i : ℤ) → (∀ c ∈ later, (i : ℤ) ∉ c.indexes) →
      prof i = v.getD (k % v.length) 0) := by
  induction hp generalizing later with
  | nil => simp at hlog
  | @cons c log v p p' hp hv hput ih =>
    rcases later with _ | ⟨d, later⟩
    · obtain ⟨rfl, rfl⟩ := List.cons.inj hlog
      refine ⟨v, hv, fun hne k i hk _ => ?_⟩
      rcases npPut_value (hb c (by simp)) hput i with ⟨h, _⟩ | ⟨_, hni, _⟩ | ⟨_, k', hk', e⟩
      · exact absurd h hne
      · exact absurd (List.mem_of_getElem? hk) hni
      · obtain ⟨a, n, hidx, _, _⟩ := hb c (by simp)
        have hn := nodup_arange a (a + n)
        rw [← hidx] at hn
        have hkl : k < c.indexes.length := (List.getElem?_eq_some_iff.1 hk).1
        have : k = k' := (List.getElem?_inj hkl hn).1 (hk.trans hk'.symm)
        rw [e, this]
    · obtain ⟨rfl, rfl⟩ := List.cons.inj hlog
      obtain ⟨w, hw, hval⟩ := ih (fun c hc => hb c (List.mem_cons_of_mem _ hc)) rfl
      refine ⟨w, hw, fun hne k i hk hi => ?_⟩
      have := hval hne k i hk (fun c hc => hi c (List.mem_cons_of_mem _ hc))
      rcases npPut_value (hb c (by simp)) hput i with ⟨_, e⟩ | ⟨_, _, e⟩ | ⟨_, k', hk', _⟩
      · rw [e]; exact this
      · rw [e]; exact this
      · exact absurd (List.mem_of_getElem? hk') (hi c (by simp))

theorem BookingOK.runOfDay {app : Appliance} {ws : List (ℤ × ℤ)} {rt : ℤ} {peak : List ℤ} {b : Booking}
    (h : BookingOK app ws rt peak b) (hws : ∀ w ∈ ws, 0 ≤ w.1 ∧ w.2 ≤ 1440) : RunOfDay b := by
  obtain ⟨w, hw, a, d, n, _, hidx, ha, had, _, _, hn1, hnd, _⟩ := h.window
  have := hws w hw
  refine ⟨a, n.toNat, ?_, by omega, by omega⟩
  rw [hidx]; congr 2; omega

theorem BookingOK.mem_window {app : Appliance} {ws : List (ℤ × ℤ)} {rt : ℤ} {peak : List ℤ} {b : Booking}
    (h : BookingOK app ws rt peak b) {m : ℤ} (hm : m ∈ b.indexes) : ∃ w ∈ ws, InWindow w m := by
  obtain ⟨w, hw, a, d, n, _, hidx, ha, had, _, _, hn1, hnd, _⟩ := h.window
  rw [hidx, mem_arange] at hm
  exact ⟨w, hw, by omega, by omega⟩

/-! ## Windows -/

theorem mem_windows {w1 w2 w3 : ℤ × ℤ} {m : ℤ} :
    (∃ w ∈ [w1, w2, w3].filter (fun w => decide (w.1 ≠ w.2)), InWindow w m) ↔ InWindow w1 m ∨ InWindow w2 m ∨ InWindow w3 m := by
  simp only [List.mem_filter, List.mem_cons, List.not_mem_nil, or_false, decide_eq_true_eq]
  unfold InWindow
  constructor
  · rintro ⟨w, ⟨rfl | rfl | rfl, _⟩, h⟩
    · exact .inl h
    · exact .inr (.inl h)
    · exact .inr (.inr h)
  · rintro (h | h | h)
    · exact ⟨w1, ⟨.inl rfl, by omega⟩, h⟩
    · exact ⟨w2, ⟨.inr (.inl rfl), by omega⟩, h⟩
    · exact ⟨w3, ⟨.inr (.inr rfl), by omega⟩, h⟩

theorem windowsApart_pairwise {w1 w2 w3 : ℤ × ℤ} (h : WindowsApart w1 w2 w3) :
    ([w1, w2, w3].filter (fun w => decide (w.1 ≠ w.2))).Pairwise Apart := by
  obtain ⟨h12, h13, h23⟩ := h
  by_cases e1 : w1.1 = w1.2 <;> by_cases e2 : w2.1 = w2.2 <;> by_cases e3 : w3.1 = w3.2 <;>
    simp_all

theorem filter_day {w1 w2 w3 : ℤ × ℤ} (d1 : DayWindow w1) (d2 : DayWindow w2) (d3 : DayWindow w3) :
    ∀ w ∈ [w1, w2, w3].filter (fun w => decide (w.1 ≠ w.2)), 0 ≤ w.1 ∧ w.2 ≤ 1440 := by
  intro w hw
  have hm := List.mem_of_mem_filter hw
  simp only [List.mem_cons, List.not_mem_nil, or_false] at hm
  rcases hm with rfl | rfl | rfl
  · exact ⟨d1.1, d1.2.2⟩
  · exact ⟨d2.1, d2.2.2⟩
  · exact ⟨d3.1, d3.2.2⟩

end Ramp
