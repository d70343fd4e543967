import Verif.Props.Independent
import Verif.Props.Laws
import Verif.Props.Energy
import Verif.Lemmas.PythonRandom

/-! # C102: how often appliances are used -/

set_option autoImplicit false

open MeasureTheory ENNReal

namespace Ramp

variable {μ : Measure Draw}

/-- A day on which the appliance is used can be told from its load: the windows do not touch, wherever the day moves them, powers are not negative,
and those of a flat appliance are positive. -/
structure VisibleUse (a : Appliance) : Prop where
  apart : ∀ w1 w2 w3, MovedWindow a.window1 a.randomVar1 w1 → MovedWindow a.window2 a.randomVar2 w2 →
    MovedWindow a.window3 a.randomVar3 w3 → WindowsApart w1 w2 w3
  powers : ∃ P, PowersUpTo P a
  flat : a.flat = "yes" → ∀ p ∈ a.power, 0 < p

theorem used_shows {a a' : Appliance} (hs : SafeConfig a) (hv : VisibleUse a) {depth : ℕ} {pref : ℤ} {k : ℕ} {peak : List ℤ} {dt : ℤ} {power : ℚ} {info : RunInfo}
    (h : Returns (generateLoadProfileInfo a depth pref k peak dt power) (a', some info)) : a'.dailyUse ≠ zeros := by
  intro hz
  have hr := runOK_of_returns hs.windows hs.fc h
  have hap := hv.apart _ _ _ hr.m1 hr.m2 hr.m3
  have d1 := hr.d1.2.1
  have d2 := hr.d2.2.1
  have d3 := hr.d3.2.1
  have ht : 0 ≤ totalTime info.w1 info.w2 info.w3 := by unfold totalTime; omega
  obtain ⟨t1, t2, _, _⟩ := C07_time_of_use_bounds a info.w1 info.w2 info.w3 info.randTime hs.ft hs.var.1 hs.var.2 ht hr.time
  have hfc := hs.fc
  have hpos : (1 : ℚ) ≤ info.randTime := by exact_mod_cast (by omega : (1 : ℤ) ≤ info.randTime)
  have htot : (0 : ℚ) < totalTime info.w1 info.w2 info.w3 := by linarith
  have hcount := energy_windowProfile hap hr.d1 hr.d2 hr.d3 1
  rw [one_mul] at hcount
  by_cases hfl : a.flat = "yes"
  · rcases hr.run with ⟨_, _, pw, hpw, e⟩ | ⟨hn, _⟩
    · have h1 : energy a'.dailyUse = pw * a.number * totalTime info.w1 info.w2 info.w3 := by
        rw [e]
        exact energy_windowProfile hap hr.d1 hr.d2 hr.d3 _
      rw [hz] at h1
      have h2 : energy zeros = 0 := by unfold energy zeros; simp
      have h3 := hv.flat hfl pw (List.mem_of_getElem? hpw)
      have h4 : (0 : ℚ) < a.number := by exact_mod_cast (by have := hs.number; omega : (0 : ℤ) < a.number)
      rw [h2] at h1
      exact absurd h1.symm (mul_pos (mul_pos h3 h4) htot).ne'
    · exact hn hfl
  · have hsw := switchRun_of_returns hs.windows hs.fc hfl h
    have hsum : bookedTime info.bookings ≤ info.randTime := by rcases hsw.time with h | h <;> omega
    have hbt : bookedTime info.bookings = ((info.bookings.map (fun b => b.indexes.length)).sum : ℕ) := by
      unfold bookedTime
      generalize info.bookings = bs
      induction bs with
      | nil => simp
      | cons b bs ih => simp [ih]
    have hle : energy (windowProfile info.w1 info.w2 info.w3 1) ≤
        (((Finset.univ : Finset (Fin 1440)).filter (fun i : Fin 1440 => ∃ b ∈ info.bookings, (i : ℤ) ∈ b.indexes)).card : ℚ) := by
      unfold energy
      rw [Finset.card_filter, Nat.cast_sum]
      refine Finset.sum_le_sum fun i _ => ?_
      rw [windowProfile_def]
      split_ifs with hin hc
      · simp
      · exfalso
        rcases run_value hsw i with ⟨b, hb, hib, _⟩ | ⟨e, _⟩
        · exact hc ⟨b, hb, hib⟩
        · rw [hz, windowProfile_def, if_pos hin] at e
          simp only [zeros] at e
          norm_num at e
      · simp
      · simp
    have hcov := card_covered info.bookings
    have hcov' : (((Finset.univ : Finset (Fin 1440)).filter (fun i : Fin 1440 => ∃ b ∈ info.bookings, (i : ℤ) ∈ b.indexes)).card : ℚ) ≤ info.randTime := by
      exact_mod_cast (by omega : (((Finset.univ : Finset (Fin 1440)).filter (fun i : Fin 1440 => ∃ b ∈ info.bookings, (i : ℤ) ∈ b.indexes)).card : ℤ) ≤ info.randTime)
    rw [hcount] at hle
    linarith

theorem chanceOf_nextDraw [IsProbabilityMeasure μ] (φ : Draw → Prop) : ChanceOf μ nextDraw φ = μ {d | φ d} := by
  classical
  rw [chanceOf_eq fin_nextDraw, meanOf_nextDraw, ← lintegral_indicator_one (MeasurableSet.of_discrete (s := {d | φ d}))]
  refine lintegral_congr fun d => ?_
  simp [Set.indicator]

theorem first_draw [IsProbabilityMeasure μ] (φ : Draw → Prop) : stream μ {r | φ (r 0)} = μ {d | φ d} := by
  rw [← chanceOf_nextDraw]
  unfold ChanceOf Chance
  congr 1
  ext r
  exact ⟨fun h => ⟨r 0, rfl, h⟩, fun ⟨a, h1, h2⟩ => by
    have : r 0 = a := by cases h1; rfl
    rw [← this] at h2
    exact h2⟩

/-- An appliance stays off with the probability that the first number drawn is greater than its frequency of use. -/
theorem chance_appliance [IsProbabilityMeasure μ] {a : Appliance} (hs : SafeConfig a) (hv : VisibleUse a) {depth k : ℕ} {peak : List ℤ} {dt pref : ℤ}
    (hd : ¬ SkippedForSure a pref dt) {p : ℚ} (hp : a.power[k]? = some p) (hn : NeverRaises (generateLoadProfile a depth pref k peak dt p)) :
    ChanceOf μ (applianceRun depth k peak dt pref a) (fun q => q = zeros) = chanceAbove μ a.occasionalUse := by
  unfold chanceAbove
  rw [← first_draw (fun d => a.occasionalUse < d.u)]
  unfold ChanceOf Chance
  congr 1
  ext r
  show (∃ q, endOf (applianceRun depth k peak dt pref a) r = .ok q ∧ q = zeros) ↔ a.occasionalUse < (r 0).u
  obtain ⟨h1, h2⟩ := C92_frequency_of_use (depth := depth) (profI := k) (peak := peak) (power := p) hd r
  have hrun : applianceRun depth k peak dt pref a = generateLoadProfile a depth pref k peak dt p >>= fun a' => pure a'.dailyUse := by
    unfold applianceRun
    rw [hp]
  rw [hrun]
  constructor
  · rintro ⟨q, hq, hq0⟩
    by_contra hlt
    cases hg : generateLoadProfileInfo a depth pref k peak dt p r with
    | error e =>
      refine hn e ⟨r, ?_⟩
      unfold generateLoadProfile
      exact bind_error hg
    | ok x =>
      obtain ⟨⟨a', info⟩, r'⟩ := x
      have hi := h2 (not_lt.1 hlt) a' info r' hg
      obtain ⟨i, rfl⟩ := Option.ne_none_iff_exists'.1 hi
      have hgen : generateLoadProfile a depth pref k peak dt p r = .ok (a', r') := by
        unfold generateLoadProfile
        exact (bind_ok hg).trans rfl
      have : endOf (generateLoadProfile a depth pref k peak dt p >>= fun a' => pure a'.dailyUse) r = .ok a'.dailyUse := by
        unfold endOf
        rw [bind_ok hgen]
        rfl
      rw [this] at hq
      have hq' : a'.dailyUse = q := Except.ok.inj hq
      exact used_shows hs hv ⟨r, r', hg⟩ (hq'.trans hq0)
  · intro hlt
    refine ⟨zeros, ?_, rfl⟩
    have hgen : generateLoadProfile a depth pref k peak dt p r = .ok ({ a with dailyUse := zeros }, later r 1) := by
      unfold generateLoadProfile
      exact (bind_ok (h1 hlt)).trans rfl
    unfold endOf
    rw [bind_ok hgen]
    rfl

/-! ## Sums of runs -/

open Classical in
/-- One when the statement holds, zero otherwise. -/
noncomputable def ind (P : Prop) : ℝ≥0∞ := if P then 1 else 0

theorem ind_true {P : Prop} (h : P) : ind P = 1 := if_pos h

theorem ind_false {P : Prop} (h : ¬ P) : ind P = 0 := if_neg h

theorem ind_congr {P Q : Prop} (h : P ↔ Q) : ind P = ind Q := by rw [propext h]

theorem ind_and {P Q : Prop} : ind (P ∧ Q) = ind P * ind Q := by
  by_cases hp : P
  · by_cases hq : Q
    · rw [ind_true ⟨hp, hq⟩, ind_true hp, ind_true hq, one_mul]
    · rw [ind_false fun h => hq h.2, ind_false hq, mul_zero]
  · rw [ind_false fun h => hp h.1, ind_false hp, zero_mul]

theorem chanceOf_ind {α : Type} {m : Sim α} (hm : Finitary m) (φ : α → Prop) : ChanceOf μ m φ = MeanOf μ m (fun a => ind (φ a)) := chanceOf_eq hm φ

theorem returns_applianceRun {depth k : ℕ} {peak : List ℤ} {dt pref : ℤ} {a : Appliance} {p : Profile} :
    Returns (applianceRun depth k peak dt pref a) p ↔ ApplianceDay depth k peak dt pref a p := by
  unfold applianceRun ApplianceDay
  cases a.power[k]? with
  | none => exact ⟨fun h => absurd h returns_raise, fun ⟨_, _, h, _⟩ => by cases h⟩
  | some w =>
    rw [returns_bind (fin_generate _ _ _ _ _ _ _)]
    simp only [returns_pure]
    exact ⟨fun ⟨a', h1, h2⟩ => ⟨w, a', rfl, h1, h2⟩, fun ⟨_, a', e, h1, h2⟩ => by cases e; exact ⟨a', h1, h2⟩⟩

theorem returns_sumRuns_nonneg : ∀ {ms : List (Sim Profile)}, (∀ m ∈ ms, Finitary m ∧ ∀ p, Returns m p → ∀ i, 0 ≤ p i) → ∀ p, Returns (sumRuns ms) p → ∀ i, 0 ≤ p i
  | [], _, p, h, i => by
    unfold sumRuns at h
    rw [returns_pure.1 h]
  | m :: ms, hm, p, h, i => by
    unfold sumRuns at h
    obtain ⟨q, h1, h2⟩ := (returns_bind (hm m (by simp)).1).1 h
    obtain ⟨s, h3, h4⟩ := (returns_bind (fin_sumRuns fun n hn => (hm n (by simp [hn])).1)).1 h2
    rw [returns_pure.1 h4]
    exact add_nonneg ((hm m (by simp)).2 q h1 i) (returns_sumRuns_nonneg (fun n hn => hm n (by simp [hn])) s h3 i)

/-- A sum of runs without negative loads is zero when all runs are. -/
theorem chance_sumRuns [IsProbabilityMeasure μ] : ∀ {ms : List (Sim Profile)}, (∀ m ∈ ms, Finitary m ∧ ∀ p, Returns m p → ∀ i, 0 ≤ p i) →
    ChanceOf μ (sumRuns ms) (fun q => q = zeros) = (ms.map (fun m => ChanceOf μ m (fun q => q = zeros))).prod
  | [], _ => by
    rw [chanceOf_ind (fin_sumRuns (by simp)), meanOf_sumRuns_nil, List.map_nil, List.prod_nil]
    exact ind_true rfl
  | m :: ms, hm => by
    have h1 := hm m (by simp)
    have hms : ∀ n ∈ ms, Finitary n ∧ ∀ p, Returns n p → ∀ i, 0 ≤ p i := fun n hn => hm n (by simp [hn])
    have hf : ∀ n ∈ ms, Finitary n := fun n hn => (hms n hn).1
    rw [chanceOf_ind (fin_sumRuns fun n hn => (hm n hn).1), meanOf_sumRuns_cons h1.1 hf, List.map_cons, List.prod_cons, ← chance_sumRuns hms,
      chanceOf_ind h1.1, chanceOf_ind (fin_sumRuns hf), ← meanOf_mul_right h1.1]
    refine meanOf_congr fun p hp => ?_
    rw [← meanOf_mul_left (fin_sumRuns hf)]
    refine meanOf_congr fun q hq => ?_
    have hiff : (fun i => p i + q i) = zeros ↔ p = zeros ∧ q = zeros := by
      constructor
      · intro h
        have hi : ∀ i, p i + q i = 0 := fun i => congrFun h i
        have p0 := h1.2 p hp
        have q0 := returns_sumRuns_nonneg hms q hq
        exact ⟨funext fun i => by have := hi i; have := p0 i; have := q0 i; simp only [zeros]; linarith,
          funext fun i => by have := hi i; have := p0 i; have := q0 i; simp only [zeros]; linarith⟩
      · rintro ⟨rfl, rfl⟩
        funext i
        simp [zeros]
    exact (ind_congr hiff).trans ind_and

/-! ## A day -/

theorem run_nonneg {depth k : ℕ} {peak : List ℤ} {dt : ℤ} {u : User} (hv : ∀ a ∈ u.appList, VisibleUse a) (pref : ℤ) :
    ∀ m ∈ u.appList.map (applianceRun depth k peak dt pref), Finitary m ∧ ∀ p, Returns m p → ∀ i, 0 ≤ p i := by
  intro m hm
  obtain ⟨a, ha, rfl⟩ := List.mem_map.1 hm
  refine ⟨fin_applianceRun _ _ _ _ _ _, fun p hp i => ?_⟩
  obtain ⟨P, hP⟩ := (hv a ha).powers
  exact (applianceDay_bounds (P := fun _ => P) hP (returns_applianceRun.1 hp) i).1

theorem member_nonneg {depth k : ℕ} {peak : List ℤ} {dt : ℤ} {u : User} (hv : ∀ a ∈ u.appList, VisibleUse a) (p : Profile) (h : Returns (memberRun depth k peak dt u) p) (i : Fin 1440) :
    0 ≤ p i := by
  unfold memberRun at h
  obtain ⟨pref, _, h2⟩ := (returns_bind (fin_drawPreference _)).1 h
  exact returns_sumRuns_nonneg (run_nonneg hv pref) p h2 i

theorem meanOf_zero {α : Type} (m : Sim α) : MeanOf μ m (fun _ => 0) = 0 := by
  unfold MeanOf Mean
  show (∫⁻ r, (match endOf m r with | .ok _ => 0 | .error _ => 0) ∂(stream μ)) = 0
  have : ∀ r, (match endOf m r with | .ok _ => (0 : ℝ≥0∞) | .error _ => 0) = 0 := by
    intro r
    cases endOf m r <;> rfl
  rw [lintegral_congr this, lintegral_zero]

theorem meanOf_const [IsProbabilityMeasure μ] {α : Type} {m : Sim α} (h : NeverRaises m) (c : ℝ≥0∞) : MeanOf μ m (fun _ => c) = c := by
  unfold MeanOf Mean
  show (∫⁻ r, (match endOf m r with | .ok _ => c | .error _ => 0) ∂(stream μ)) = c
  have : ∀ r, (match endOf m r with | .ok _ => c | .error _ => 0) = c := by
    intro r
    unfold endOf
    cases hr : m r with
    | error e => exact absurd ⟨r, hr⟩ (h e)
    | ok x => rfl
  rw [lintegral_congr this, lintegral_const]
  unfold stream
  rw [measure_univ, mul_one]

theorem chance_member [IsProbabilityMeasure μ] {u : User} (hu : SensibleUser u) (hv : ∀ a ∈ u.appList, VisibleUse a) {depth k : ℕ} {peak : List ℤ} (hp : peak ≠ []) {dt : ℤ}
    (hl : ∀ a ∈ u.appList, k < a.power.length) (hd : ∀ pref, PreferenceOf u pref → ∀ a ∈ u.appList, ¬ SkippedForSure a pref dt) :
    ChanceOf μ (memberRun (depth + 1) k peak dt u) (fun q => q = zeros) = (u.appList.map (fun a => chanceAbove μ a.occasionalUse)).prod := by
  rw [chanceOf_ind (fin_memberRun _ _ _ _ _)]
  unfold memberRun
  rw [meanOf_bind (fin_drawPreference _) fun pref => fin_sumRuns fun m hm => (run_nonneg hv pref m hm).1]
  have e1 : ∀ pref, Returns (drawPreference u.userPreference) pref →
      MeanOf μ (sumRuns (u.appList.map (applianceRun (depth + 1) k peak dt pref))) (fun q => ind (q = zeros)) = (u.appList.map (fun a => chanceAbove μ a.occasionalUse)).prod := by
    intro pref hpref
    rw [← chanceOf_ind (fin_sumRuns fun m hm => (run_nonneg hv pref m hm).1), chance_sumRuns (run_nonneg hv pref), List.map_map]
    congr 1
    refine List.map_congr_left fun a ha => ?_
    obtain ⟨h1, h2, h3⟩ := hu.appliances a ha
    exact chance_appliance h1 (hv a ha) (hd pref (returns_drawPreference.1 hpref) a ha) (List.getElem?_eq_getElem (hl a ha)) (C72_never_raises h1 hp (fun _ => hl a ha) h2 h3)
  rw [meanOf_congr e1, meanOf_const (never_drawPreference.2 hu.preference)]

/-- The probability of a day without any load. -/
theorem chance_case [IsProbabilityMeasure μ] {us : List User} (hu : ∀ u ∈ us, SensibleUser u) (hv : ∀ u ∈ us, ∀ a ∈ u.appList, VisibleUse a) {depth k : ℕ} {peak : List ℤ} (hp : peak ≠ [])
    {dt : ℤ} (hl : ∀ u ∈ us, ∀ a ∈ u.appList, k < a.power.length) (hd : ∀ u ∈ us, ∀ pref, PreferenceOf u pref → ∀ a ∈ u.appList, ¬ SkippedForSure a pref dt) :
    ChanceOf μ (caseRun (depth + 1) k peak dt us) (fun q => q = zeros) = chanceOff μ us := by
  have hmem : ∀ u ∈ us, ∀ m ∈ List.replicate u.numUsers.toNat (memberRun (depth + 1) k peak dt u), Finitary m ∧ ∀ p, Returns m p → ∀ i, 0 ≤ p i := by
    intro u huu m hm
    rw [List.eq_of_mem_replicate hm]
    exact ⟨fin_memberRun _ _ _ _ _, fun p hp i => member_nonneg (hv u huu) p hp i⟩
  have husr : ∀ m ∈ us.map (userRun (depth + 1) k peak dt), Finitary m ∧ ∀ p, Returns m p → ∀ i, 0 ≤ p i := by
    intro m hm
    obtain ⟨u, huu, rfl⟩ := List.mem_map.1 hm
    exact ⟨fin_userRun _ _ _ _ _, returns_sumRuns_nonneg (hmem u huu)⟩
  unfold caseRun chanceOff
  rw [chance_sumRuns husr, List.map_map]
  congr 1
  refine List.map_congr_left fun u huu => ?_
  show ChanceOf μ (userRun (depth + 1) k peak dt u) _ = _
  unfold userRun
  rw [chance_sumRuns (hmem u huu), List.map_replicate, List.prod_replicate, chance_member (hu u huu) (hv u huu) hp (hl u huu) (hd u huu)]

/-! ## The number of days with a load -/

theorem binomial_zero (n : ℕ) (p q : ℝ≥0∞) : binomial n 0 p q = q ^ n := by simp [binomial]

theorem binomial_succ (n j : ℕ) (p q : ℝ≥0∞) : binomial (n + 1) (j + 1) p q = p * binomial n j p q + q * binomial n (j + 1) p q := by
  unfold binomial
  rw [Nat.choose_succ_succ]
  push_cast
  rcases lt_or_ge j n with h | h
  · obtain ⟨m, rfl⟩ : ∃ m, n = j + 1 + m := ⟨n - (j + 1), by omega⟩
    rw [show j + 1 + m - j = m + 1 by omega, show j + 1 + m - (j + 1) = m by omega]
    ring
  · rw [Nat.choose_eq_zero_of_lt (by omega : n < j + 1)]
    simp only [Nat.cast_zero, add_zero, zero_mul, mul_zero]
    ring

theorem meanOf_count [IsProbabilityMeasure μ] (depth : ℕ) (peak : List ℤ) (us : List User) {p q : ℝ≥0∞} : ∀ (ds : List ℤ) (k : ℕ)
    (_ : ∀ j : Fin ds.length, ChanceOf μ (caseRun depth (k + j) peak (typeOfDay ds[j]) us) (fun x => x = zeros) = q ∧
      ChanceOf μ (caseRun depth (k + j) peak (typeOfDay ds[j]) us) (fun x => x ≠ zeros) = p) (j : ℕ),
    MeanOf μ (rowsRun depth peak us k ds) (fun rows => ind (daysWithLoad rows = j)) = binomial ds.length j p q
  | [], k, _, j => by
    unfold rowsRun
    rw [meanOf_pure]
    cases j with
    | zero => simp [daysWithLoad, binomial, ind_true]
    | succ j => simp [daysWithLoad, binomial, ind_false]
  | d :: ds, k, h, j => by
    have h0 := h ⟨0, by simp⟩
    simp only [add_zero] at h0
    have h0' : ChanceOf μ (caseRun depth k peak (typeOfDay d) us) (fun x => x = zeros) = q ∧ ChanceOf μ (caseRun depth k peak (typeOfDay d) us) (fun x => x ≠ zeros) = p := h0
    have ih := meanOf_count (p := p) (q := q) depth peak us ds (k + 1) (fun i => by
      have := h ⟨i + 1, by simp⟩
      rw [show k + 1 + (i : ℕ) = k + (i + 1) by omega]
      exact this)
    show MeanOf μ (caseRun depth k peak (typeOfDay d) us >>= fun p => rowsRun depth peak us (k + 1) ds >>= fun ps => pure (p :: ps)) _ = _
    rw [meanOf_bind (fin_caseRun _ _ _ _ _) fun p => fin_bind (fin_rowsRun _ _ _ _ _) fun ps => fin_pure _]
    have e1 : ∀ x : Profile, MeanOf μ (rowsRun depth peak us (k + 1) ds >>= fun ps => pure (x :: ps)) (fun rows => ind (daysWithLoad rows = j)) =
        ind (x ≠ zeros) * (match j with | 0 => 0 | j + 1 => binomial ds.length j p q) + ind (x = zeros) * binomial ds.length j p q := by
      intro x
      rw [meanOf_bind (fin_rowsRun _ _ _ _ _) fun ps => fin_pure _]
      simp only [meanOf_pure]
      by_cases hx : x = zeros
      · have : ∀ ps : List Profile, daysWithLoad (x :: ps) = daysWithLoad ps := fun ps => by simp [daysWithLoad, hx]
        simp only [this, ih]
        rw [ind_true hx, ind_false (not_not.2 hx), zero_mul, zero_add, one_mul]
      · have : ∀ ps : List Profile, daysWithLoad (x :: ps) = daysWithLoad ps + 1 := fun ps => by simp [daysWithLoad, hx]
        simp only [this]
        rw [ind_true (show x ≠ zeros from hx), ind_false hx, zero_mul, add_zero, one_mul]
        cases j with
        | zero =>
          have h0 : ∀ ps : List Profile, ind (daysWithLoad ps + 1 = 0) = 0 := fun ps => ind_false (by omega)
          simp only [h0]
          exact meanOf_zero _
        | succ j =>
          simp only [Nat.add_right_cancel_iff]
          exact ih j
    simp only [e1]
    rw [meanOf_add (fin_caseRun _ _ _ _ _), meanOf_mul_right (fin_caseRun _ _ _ _ _), meanOf_mul_right (fin_caseRun _ _ _ _ _), ← chanceOf_ind (fin_caseRun _ _ _ _ _),
      ← chanceOf_ind (fin_caseRun _ _ _ _ _), h0'.1, h0'.2]
    cases j with
    | zero =>
      simp only [mul_zero, zero_add, binomial_zero, List.length_cons]
      ring
    | succ j => rw [List.length_cons, binomial_succ]

/-! ## The theorems -/

theorem chanceOf_compl [IsProbabilityMeasure μ] {α : Type} {m : Sim α} (hm : Finitary m) (φ : α → Prop) :
    ChanceOf μ m φ + ChanceOf μ m (fun a => ¬ φ a) = ChanceOf μ m (fun _ => True) := by
  rw [chanceOf_ind hm, chanceOf_ind hm, chanceOf_ind hm, ← meanOf_add hm]
  refine meanOf_congr fun a _ => ?_
  by_cases h : φ a
  · rw [ind_true h, ind_false (not_not.2 h), ind_true trivial, add_zero]
  · rw [ind_false h, ind_true h, ind_true trivial, zero_add]

theorem chanceOf_sure [IsProbabilityMeasure μ] {α : Type} {m : Sim α} (hm : Finitary m) (h : NeverRaises m) : ChanceOf μ m (fun _ => True) = 1 := by
  rw [chanceOf_ind hm]
  exact (meanOf_congr fun a _ => ind_true trivial).trans (meanOf_const h 1)

theorem never_dailyRows {env : Env} {depth : ℕ} {uc : UseCase} {days : Option (List ℤ)} (h : NeverRaises (generateDaily env depth uc days)) :
    NeverRaises (dailyRows env depth uc days) := by
  rintro e ⟨r, hr⟩
  unfold dailyRows at hr
  cases hg : generateDaily env depth uc days r with
  | error e' => exact h e' ⟨r, hg⟩
  | ok x =>
    rw [bind_ok hg] at hr
    cases hr

theorem day_sure [IsProbabilityMeasure μ] {env : Env} {depth : ℕ} {uc : UseCase} {ds peak : List ℤ} {days : Option (List ℤ)} (hr : Ready uc ds peak)
    (hn : ChanceOf μ (dailyRows env depth uc days) (fun _ => True) = 1) (k : Fin ds.length) :
    ChanceOf μ (caseRun depth k peak (typeOfDay ds[k]) uc.users) (fun _ => True) = 1 := by
  have h := C101_days (μ := μ) (env := env) (depth := depth) days hr (fun _ _ => True)
  simp only [implies_true] at h
  rw [hn] at h
  exact (Finset.prod_eq_one_iff_of_le_one' fun k _ => chanceOf_le_one _).1 h.symm k (Finset.mem_univ k)

/-- **C102.** In a simulation of users whose appliances are all in use on every day of the simulation (except for their frequency of use), whose use
shows in the load, and with a power value for every day, the number of days with a load has the binomial distribution: each day, independently, stays
empty with the probability that every appliance of every member draws a number above its frequency of use. -/
theorem C102_days_in_use [IsProbabilityMeasure μ] {env : Env} {depth : ℕ} {uc : UseCase} {ds peak : List ℤ} (days : Option (List ℤ)) (hr : Ready uc ds peak)
    (hp : peak ≠ []) (hs : ∀ u ∈ uc.users, SensibleUser u) (hl : ∀ u ∈ uc.users, ∀ a ∈ u.appList, ds.length ≤ a.power.length)
    (hv : ∀ u ∈ uc.users, ∀ a ∈ u.appList, VisibleUse a)
    (hd : ∀ d ∈ ds, ∀ u ∈ uc.users, ∀ pref, PreferenceOf u pref → ∀ a ∈ u.appList, ¬ SkippedForSure a pref (typeOfDay d)) (j : ℕ) :
    ChanceOf μ (dailyRows env (depth + 1) uc days) (fun rows => daysWithLoad rows = j) =
      binomial ds.length j (1 - chanceOff μ uc.users) (chanceOff μ uc.users) := by
  have hn : NeverRaises (dailyRows env (depth + 1) uc days) := never_dailyRows (C82_sensible_never_fails days hr hp hs hl)
  rw [chanceOf_ind (fin_dailyRows days hr), dailyRows_eq days hr]
  refine meanOf_count (depth + 1) peak uc.users ds 0 (fun k => ?_) j
  have h0 : ChanceOf μ (caseRun (depth + 1) (0 + k) peak (typeOfDay ds[k]) uc.users) (fun x => x = zeros) = chanceOff μ uc.users :=
    chance_case hs hv hp (fun u hu a ha => by have := hl u hu a ha; have := k.2; omega) (fun u hu pref hpref a ha => hd _ (List.getElem_mem _) u hu pref hpref a ha)
  refine ⟨h0, ?_⟩
  have h1 := chanceOf_compl (μ := μ) (fin_caseRun (depth + 1) (0 + k) peak (typeOfDay ds[k]) uc.users) (fun x => x = zeros)
  have h2 : ChanceOf μ (caseRun (depth + 1) (0 + k) peak (typeOfDay ds[k]) uc.users) (fun _ => True) = 1 := by
    rw [zero_add]
    exact day_sure hr (chanceOf_sure (fin_dailyRows days hr) hn) k
  rw [h2, h0] at h1
  refine ENNReal.eq_sub_of_add_eq' one_ne_top ?_
  rw [add_comm]
  exact h1

theorem one_sub_above [IsProbabilityMeasure μ] (q : ℚ) : 1 - chanceAbove μ q = μ {d | d.u ≤ q} := by
  unfold chanceAbove
  have := prob_compl_eq_one_sub (μ := μ) (s := {d : Draw | q < d.u}) MeasurableSet.of_discrete
  rw [← this]
  congr 1
  ext d
  exact (not_lt (a := q) (b := d.u))

/-- **C102.** A single appliance of a single user is used on each day, independently, with the probability that the number drawn is at most its
frequency of use. -/
theorem C102_one_appliance [IsProbabilityMeasure μ] {env : Env} {depth : ℕ} {uc : UseCase} {ds peak : List ℤ} {u : User} {a : Appliance} (days : Option (List ℤ))
    (hr : Ready uc ds peak) (hp : peak ≠ []) (hu : uc.users = [u]) (hnum : u.numUsers = 1) (hap : u.appList = [a]) (hpref : 0 ≤ u.userPreference)
    (hs : SensibleAppliance a) (hl : ds.length ≤ a.power.length) (hv : VisibleUse a)
    (hd : ∀ d ∈ ds, ∀ pref, PreferenceOf u pref → ¬ SkippedForSure a pref (typeOfDay d)) (j : ℕ) :
    ChanceOf μ (dailyRows env (depth + 1) uc days) (fun rows => daysWithLoad rows = j) =
      binomial ds.length j (μ {d | d.u ≤ a.occasionalUse}) (μ {d | a.occasionalUse < d.u}) := by
  have hmem : ∀ w ∈ uc.users, w = u := by simp [hu]
  have hamem : ∀ b ∈ u.appList, b = a := by simp [hap]
  have h := C102_days_in_use (μ := μ) (env := env) (depth := depth) days hr hp
    (fun w hw => by rw [hmem w hw]; exact ⟨hpref, fun b hb => by rw [hamem b hb]; exact hs⟩)
    (fun w hw b hb => by rw [hmem w hw] at hb; rw [hamem b hb]; exact hl)
    (fun w hw b hb => by rw [hmem w hw] at hb; rw [hamem b hb]; exact hv)
    (fun d hdd w hw pref hpr b hb => by rw [hmem w hw] at hb hpr; rw [hamem b hb]; exact hd d hdd pref hpr) j
  have hoff : chanceOff μ uc.users = chanceAbove μ a.occasionalUse := by
    unfold chanceOff
    rw [hu]
    simp [hap, hnum]
  rw [h, hoff, one_sub_above]
  rfl

/-- **C102.** With the random numbers of Python, an appliance with the frequency of use `q`, `0 ≤ q < 1`, is used with the probability
`(⌊q · 2^53⌋ + 1) / 2^53`, which exceeds `q` by at most `2^-53`: a frequency of 0 does not quite mean never. -/
theorem C102_python_frequency {N : ℕ} (h : PythonRandom N μ) {q : ℚ} (h0 : 0 ≤ q) (h1 : q < 1) :
    μ {d | d.u ≤ q} = ((⌊q * 2 ^ 53⌋₊ + 1 : ℕ) : ℝ≥0∞) / 2 ^ 53 ∧
    (q : ℝ) < (μ {d | d.u ≤ q}).toReal ∧ (μ {d | d.u ≤ q}).toReal ≤ q + 1 / 2 ^ 53 := by
  have hprob := h.probability
  have e := grid_atMost (by positivity) h.grid h0 h1
  rw [Nat.cast_pow, Nat.cast_pow, Nat.cast_ofNat, Nat.cast_ofNat] at e
  refine ⟨e, ?_⟩
  rw [e, ENNReal.toReal_div, ENNReal.toReal_natCast, ENNReal.toReal_pow, ENNReal.toReal_ofNat]
  have hM : (0 : ℚ) < 2 ^ 53 := by positivity
  have hMr : (0 : ℝ) < 2 ^ 53 := by positivity
  have f1 : ((⌊q * 2 ^ 53⌋₊ : ℕ) : ℚ) ≤ q * 2 ^ 53 := Nat.floor_le (by positivity)
  have f2 : q * 2 ^ 53 < ((⌊q * 2 ^ 53⌋₊ : ℕ) : ℚ) + 1 := Nat.lt_floor_add_one _
  generalize ⌊q * 2 ^ 53⌋₊ = n at f1 f2 ⊢
  have g1 : (n : ℝ) ≤ q * 2 ^ 53 := by exact_mod_cast f1
  have g2 : (q : ℝ) * 2 ^ 53 < n + 1 := by exact_mod_cast f2
  rw [Nat.cast_add, Nat.cast_one]
  generalize (2 ^ 53 : ℝ) = M at g1 g2 hMr ⊢
  constructor
  · rw [lt_div_iff₀ hMr]
    exact g2
  · rw [add_div]
    have : (n : ℝ) / M ≤ q := (div_le_iff₀ hMr).2 g1
    linarith

/-- **C102.** A frequency of use of 1 or more means every day, with any random numbers between 0 and 1. -/
theorem C102_every_day [IsProbabilityMeasure μ] {q : ℚ} (h : 1 ≤ q) : μ {d | d.u ≤ q} = 1 := by
  have : {d : Draw | d.u ≤ q} = Set.univ := Set.eq_univ_of_forall fun d => d.u_le_one.trans h
  rw [this, measure_univ]

/-- **C102.** The distribution of Python's random numbers is one to which these theorems apply. -/
theorem C102_python_exists (N : ℕ) : ∃ μ, PythonRandom N μ := pythonRandom_exists N

/-! ## A case -/

/-- A lamp used from 10:00 to 13:20, an hour in all, three days out of ten. -/
def sometimesLamp : Appliance where
  number := 1
  power := List.replicate 367 7
  window1 := (600, 800)
  funcTime := 60
  funcCycle := 10
  occasionalUse := 3 / 10

theorem sometimes_sensible : SensibleAppliance sometimesLamp := by
  refine ⟨⟨⟨?_, ?_, ?_, ?_, ?_, ?_⟩, ?_, ?_, ?_, ?_, ?_, ?_, ?_, ?_, ⟨?_, ?_, ?_, ?_, ?_, ?_, ?_, ?_, ?_, ?_⟩⟩, ⟨?_, ?_, ?_, ?_, ?_, ?_⟩, .inl ?_⟩
  all_goals simp only [DayWindow, sometimesLamp, totalTime]
  all_goals norm_num

theorem sometimes_powers : 3 ≤ sometimesLamp.power.length := by
  show 3 ≤ (List.replicate 367 (7 : ℚ)).length
  rw [List.length_replicate]
  norm_num

/-- The lamp in `users`, on three days. -/
def lampDays (users : List User) : UseCase where
  users := users
  days := some [0, 1, 2]
  numDays := some 3
  peakTimeRange := some [700]

theorem sometimes_visible : VisibleUse sometimesLamp := by
  refine ⟨fun w1 w2 w3 h1 h2 h3 => ?_, ⟨7, sometimes_sensible.config.windows, ?_, ?_, ?_, ?_, ?_⟩, fun h => absurd h (by decide)⟩
  · have empty : ∀ w, MovedWindow (0, 0) 0 w → w.1 = w.2 := by
      rintro w ⟨a, b, h1, h2, rfl⟩
      simp only at h1 h2 ⊢
      omega
    have e2 := empty w2 h2
    have e3 := empty w3 h3
    exact ⟨.inr (.inl e2), .inr (.inl e3), .inl e2⟩
  · norm_num [sometimesLamp]
  · norm_num [sometimesLamp]
  · norm_num [sometimesLamp]
  · intro p hp
    rw [List.eq_of_mem_replicate hp]
    norm_num
  · intro p hp
    have hp' : p ∈ [(0 : ℚ), 0, 0, 0, 0, 0] := hp
    have h0 : p = 0 := by simpa using hp'
    rw [h0]
    norm_num

/-- A case for C102: the lamp in one household, simulated for three days with a peak time range; any probability distribution of the random numbers.
The number of days on which the lamp is used is that of three trials with the probability that a number of at most 0.3 is drawn. -/
example [IsProbabilityMeasure μ] (j : ℕ) :
    ChanceOf μ (dailyRows ⟨0, none⟩ 1000 (lampDays [{ numUsers := 1, appList := [sometimesLamp] }]) none)
      (fun rows => daysWithLoad rows = j) = binomial 3 j (μ {d | d.u ≤ 3 / 10}) (μ {d | 3 / 10 < d.u}) :=
  C102_one_appliance (depth := 999) (ds := [0, 1, 2]) (peak := [700]) none ⟨rfl, rfl, rfl⟩ (by simp) rfl rfl rfl (by norm_num) sometimes_sensible sometimes_powers
    sometimes_visible (fun d _ pref _ h => by
      rcases h with h | h | h
      · exact h.1 rfl
      · exact h.2 rfl
      · exact absurd h (by norm_num [sometimesLamp])) j

/-- A case for C101 and C103: this use case never raises, with any probability distribution of the random numbers. -/
theorem sometimes_sure [IsProbabilityMeasure μ] : ChanceOf μ (dailyRows ⟨0, none⟩ 1000 (lampDays [{ numUsers := 2, appList := [sometimesLamp] }]) none) (fun _ => True) = 1 :=
  chanceOf_sure (fin_dailyRows (ds := [0, 1, 2]) (peak := [700]) none ⟨rfl, rfl, rfl⟩) (never_dailyRows (C82_sensible_never_fails (depth := 999) (ds := [0, 1, 2]) (peak := [700]) none
    ⟨rfl, rfl, rfl⟩ (by simp) (by simp only [lampDays, List.mem_singleton, forall_eq]; exact ⟨le_refl _, by simpa using sometimes_sensible⟩)
    (by simp only [lampDays, List.mem_singleton, forall_eq]; exact sometimes_powers)))

/-- A case for C101: the days of this use case are independent. -/
example [IsProbabilityMeasure μ] (φ : ℕ → Profile → Prop) :
    ChanceOf μ (dailyRows ⟨0, none⟩ 1000 (lampDays [{ numUsers := 2, appList := [sometimesLamp] }]) none)
      (fun rows => ∀ k p, rows[k]? = some p → φ k p) = ∏ k : Fin 3,
        ChanceOf μ (dailyRows ⟨0, none⟩ 1000 (lampDays [{ numUsers := 2, appList := [sometimesLamp] }]) none)
          (fun rows => ∀ p, rows[(k : ℕ)]? = some p → φ k p) :=
  C101_independent_days (ds := [0, 1, 2]) (peak := [700]) ⟨rfl, rfl, rfl⟩ sometimes_sure φ

/-- A case for C103: two households with the lamp have the distribution of two categories of one household each. -/
example [IsProbabilityMeasure μ] (φ : List Profile → Prop) :
    ChanceOf μ (dailyRows ⟨0, none⟩ 1000 (lampDays [{ numUsers := 1 + 1, appList := [sometimesLamp] }]) none) φ =
    ChanceOf μ (dailyRows ⟨0, none⟩ 1000 (lampDays [{ numUsers := 1, appList := [sometimesLamp] }, { numUsers := 1, appList := [sometimesLamp] }]) none) φ :=
  (C103_split (ds := [0, 1, 2]) (peak := [700]) (before := []) (after := []) (u := { appList := [sometimesLamp] }) (n := 1) (m := 1) none ⟨rfl, rfl, rfl⟩ (by norm_num)
    (by norm_num) rfl).1 φ

end Ramp
