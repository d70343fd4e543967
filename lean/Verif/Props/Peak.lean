import Verif.Lemmas.Peak
import Verif.Lemmas.Init
import Verif.Lemmas.Witness

/-! # C40-C42: the peak time range -/

set_option autoImplicit false

namespace Ramp

theorem maximumLoad_eq (us : List User) : totalMaximumProfile us = maximumLoad us := by
  funext i
  rw [totalMaximumProfile_eq]
  rfl

theorem arange_sym (c e : ℤ) (he : 1 ≤ e) : arange (c - e) (c + e) = minutesFrom (c - e) (2 * e).toNat := by
  rw [← arange_eq_minutesFrom]
  congr 1
  omega

theorem returns_gauss {mu sigma x : ℚ} : Returns (gauss mu sigma) x ↔ ∃ z, x = mu + z * sigma := by
  constructor
  · rintro ⟨r, r', h⟩
    unfold gauss at h
    rw [bind_ok (show nextDraw r = .ok (r 0, fun n => r (n + 1)) from rfl)] at h
    cases h
    exact ⟨_, rfl⟩
  · rintro ⟨z, rfl⟩
    exact ⟨fun _ => ⟨0, le_rfl, by norm_num, 0, z⟩, _, rfl⟩

theorem returns_peakRest {pe mu sigma : ℚ} (hs : 0 < sigma) {r : List ℤ} :
    Returns (peakRest pe mu sigma) r ↔ ∃ c e : ℤ, 1 ≤ e ∧ (e = 1 ∨ pe * c ≠ 0) ∧ r = minutesFrom (c - e) (2 * e).toNat := by
  unfold peakRest
  rw [returns_bind (fin_gauss _ _)]
  constructor
  · rintro ⟨t, _, h2⟩
    obtain ⟨g, h3, h4⟩ := (returns_bind (fin_gauss _ _)).1 h2
    obtain ⟨z, rfl⟩ := returns_gauss.1 h3
    have := returns_pure.1 h4
    subst this
    have h1 : (1 : ℤ) ≤ max (pyRound |((pyRound t : ℤ) : ℚ) - (((pyRound t : ℤ) : ℚ) + z * (pe * ((pyRound t : ℤ) : ℚ)))|) 1 := le_max_right _ _
    refine ⟨pyRound t, _, h1, ?_, arange_sym _ _ h1⟩
    by_cases hz : pe * ((pyRound t : ℤ) : ℚ) = 0
    · left
      rw [hz]
      simp only [mul_zero, add_zero, sub_self, abs_zero]
      have : pyRound (0 : ℚ) = 0 := by exact_mod_cast pyRound_intCast 0
      rw [this]
      rfl
    · exact .inr hz
  · rintro ⟨c, e, he, h, rfl⟩
    refine ⟨c, returns_gauss.2 ⟨((c : ℚ) - mu) / sigma, by field_simp; ring⟩, ?_⟩
    rw [returns_bind (fin_gauss _ _)]
    rw [pyRound_intCast]
    rcases h with rfl | h
    · refine ⟨c, returns_gauss.2 ⟨0, by ring⟩, ?_⟩
      rw [returns_pure]
      simp only [sub_self, abs_zero]
      have : pyRound (0 : ℚ) = 0 := by exact_mod_cast pyRound_intCast 0
      rw [this, ← arange_sym c 1 le_rfl]
      rfl
    · refine ⟨c + e, returns_gauss.2 ⟨(e : ℚ) / (pe * c), by rw [div_mul_cancel₀ _ h]⟩, ?_⟩
      rw [returns_pure]
      have habs : |((c : ℤ) : ℚ) - (c + e)| = ((e : ℤ) : ℚ) := by
        rw [show ((c : ℤ) : ℚ) - (c + e) = -(e : ℚ) by ring, abs_neg, abs_of_nonneg]
        exact_mod_cast (by omega : (0 : ℤ) ≤ e)
      rw [habs, pyRound_intCast, max_eq_left he, arange_sym c e he]

/-- **C40.** A peak time range is a run of `2e ≥ 2` consecutive minutes from `c - e` on, for some centre `c`: never empty, of even
length, and with the centre inside. -/
theorem C40_never_empty {us : List User} {pe : ℚ} {r : List ℤ} (h : Returns (peakTimeRangeOf us pe) r) :
    ∃ c e : ℤ, 1 ≤ e ∧ r = minutesFrom (c - e) (2 * e).toNat ∧ c ∈ r ∧ Even r.length := by
  by_cases hu : ∃! i : Fin 1440, ∀ k, totalMaximumProfile us k ≤ totalMaximumProfile us i
  · rw [peak_one hu] at h
    exact absurd h returns_raise
  · obtain ⟨mu, sigma, hs, heq⟩ := peak_many (pe := pe) hu
    rw [heq] at h
    obtain ⟨c, e, he, _, rfl⟩ := (returns_peakRest hs).1 h
    refine ⟨c, e, he, rfl, mem_minutesFrom.2 ⟨by omega, by omega⟩, ?_⟩
    rw [length_minutesFrom]
    exact ⟨e.toNat, by omega⟩

/-- **C40.** The possible peak time ranges: any centre, and any half-length when neither `peak_enlarge` nor the centre is 0,
otherwise 1.  (The model lets normal deviates be arbitrarily large.) -/
theorem C40_possible_ranges {us : List User} {pe : ℚ} (hu : ¬ ∃! i, IsPeak (maximumLoad us) i) (r : List ℤ) :
    Returns (peakTimeRangeOf us pe) r ↔ ∃ c e : ℤ, 1 ≤ e ∧ (e = 1 ∨ pe * c ≠ 0) ∧ r = minutesFrom (c - e) (2 * e).toNat := by
  obtain ⟨mu, sigma, hs, heq⟩ := peak_many (us := us) (pe := pe) (by rw [maximumLoad_eq]; exact hu)
  rw [heq]
  exact returns_peakRest hs

/-- **C40.** The same for the method: with or without an argument. -/
theorem C40_method {uc uc' : UseCase} {x : Option PyNum} {r : List ℤ} (h : Returns (calcPeakTimeRange uc x) (uc', .ok r)) :
    ∃ c e : ℤ, 1 ≤ e ∧ r = minutesFrom (c - e) (2 * e).toNat ∧ c ∈ r ∧ Even r.length := by
  cases x with
  | none =>
    obtain ⟨a, h1, h2⟩ := returns_of_bind h
    have := returns_pure.1 h2
    cases this
    exact C40_never_empty (returns_attempt_ok.1 h1)
  | some x =>
    obtain ⟨⟨uc1, r1⟩, h1, h2⟩ := returns_of_bind h
    cases r1 with
    | error e => have := returns_pure.1 h2; cases this
    | ok _ =>
      obtain ⟨a, h3, h4⟩ := returns_of_bind h2
      have := returns_pure.1 h4
      cases this
      exact C40_never_empty (returns_attempt_ok.1 h3)

theorem raises_peak {us : List User} {pe : ℚ} (e : Err) :
    Raises (peakTimeRangeOf us pe) e ↔ e = .indexError ∧ ∃! i, IsPeak (maximumLoad us) i := by
  rw [← maximumLoad_eq]
  constructor
  · rintro ⟨r, h⟩
    by_cases hu : ∃! i : Fin 1440, ∀ k, totalMaximumProfile us k ≤ totalMaximumProfile us i
    · rw [peak_one hu] at h
      cases h
      exact ⟨rfl, hu⟩
    · obtain ⟨mu, sigma, hs, heq⟩ := peak_many (pe := pe) hu
      rw [heq] at h
      cases h
  · rintro ⟨rfl, hu⟩
    refine ⟨constantDraws 0, ?_⟩
    rw [peak_one hu]
    rfl

/-- **C41 (partial).** `calc_peak_time_range()` raises exactly when the maximum load has a single peak minute, whatever the draws,
and then an `IndexError` (`np.squeeze` turns the window of one minute into a number).  Missing: it should not raise at all. -/
theorem C41_fails_only_for_one_minute_partial (us : List User) (pe : ℚ) (e : Err) :
    Raises (peakTimeRangeOf us pe) e ↔ e = .indexError ∧ ∃! i, IsPeak (maximumLoad us) i := raises_peak e

/-- **C41 (partial).** The negation of the full statement: an appliance used during one minute of the day (all its arguments are
accepted) makes the peak time range impossible to compute. -/
def oneMinuteArgs : AddArgs := { app := { power := .number 5, funcTime := 1 }, windows := some { window1 := some (600, 601) } }

/-- A use case of one user with one appliance. -/
def oneUser (a : Appliance) : List User := [{ appList := [a] }]

theorem maximumLoad_one (a : Appliance) (i : Fin 1440) : maximumLoad (oneUser a) i = a.dailyUse i * (a.power.sum / (a.power.length : ℚ)) * (a.number : ℚ) := by
  simp [maximumLoad, oneUser]

/-- What `add_appliance` makes of the arguments above. -/
theorem oneMinute_built : ∃ app, BuiltAs oneMinuteArgs app ∧ app.number = 1 ∧ app.power.sum / (app.power.length : ℚ) = 5 ∧
    app.dailyUse = fun (i : Fin 1440) => if (i : ℕ) = 600 then 1 / 1000 else 0 := by
  have h : ∃ app, builtBy oneMinuteArgs = some app ∧ app.number = 1 ∧ app.power.sum / (app.power.length : ℚ) = 5 := by
    have : ((builtBy oneMinuteArgs).map (fun a => (a.number, decide (a.power.sum / (a.power.length : ℚ) = 5)))) = some (1, true) := by
      decide +kernel
    cases hb : builtBy oneMinuteArgs with
    | none => rw [hb] at this; cases this
    | some app =>
      rw [hb] at this
      simp only [Option.map_some, Option.some.injEq, Prod.mk.injEq, decide_eq_true_eq] at this
      exact ⟨app, rfl, this.1, this.2⟩
  obtain ⟨app, h1, h2, h3⟩ := h
  refine ⟨app, builtBy_some h1, h2, h3, ?_⟩
  have hd : ∀ i : Fin 1440, ((builtBy oneMinuteArgs).map (fun a => a.dailyUse i)) = some (if (i : ℕ) = 600 then 1 / 1000 else 0) := by
    decide +kernel
  funext i
  have := hd i
  rw [h1] at this
  simpa using this

theorem C41_full_statement_is_false_partial : ∃ app, BuiltAs oneMinuteArgs app ∧ ∀ pe, Raises (peakTimeRangeOf (oneUser app) pe) .indexError := by
  obtain ⟨app, h1, h2, h3, h4⟩ := oneMinute_built
  refine ⟨app, h1, fun pe => (raises_peak _).2 ⟨rfl, ⟨600, by omega⟩, ?_, ?_⟩⟩
  · intro j
    simp only [maximumLoad_one, h2, h3, h4]
    split_ifs <;> norm_num
  · intro i hi
    have := hi ⟨600, by omega⟩
    simp only [maximumLoad_one, h2, h3, h4] at this
    by_contra hc
    have hne : ¬ (i : ℕ) = 600 := fun h => hc (Fin.ext h)
    rw [if_neg hne] at this
    norm_num at this

/-- A lamp with a long window: the peak time range can be computed (cases for C40 and C41). -/
theorem peak_of_two {us : List User} (i j : Fin 1440) (hij : i ≠ j) (hi : IsPeak (maximumLoad us) i) (hj : IsPeak (maximumLoad us) j) :
    ¬ ∃! i, IsPeak (maximumLoad us) i := by
  rintro ⟨k, _, hk⟩
  exact hij ((hk i hi).trans (hk j hj).symm)

/-- Without load every minute is a peak. -/
theorem peak_no_users : ¬ ∃! i, IsPeak (maximumLoad []) i :=
  peak_of_two 0 1 (by decide) (fun _ => le_rfl) (fun _ => le_rfl)

/-- **C42.** The setter of `peak_enlarge` raises `TypeError` for anything but a float, `ValueError` for a negative float, and in both
cases changes nothing; a float `≥ 0` is stored, also when the computation of the new range then fails, and the new range is stored
when it succeeds. -/
theorem C42_peak_enlarge {uc uc' : UseCase} {x : PyNum} {res : Except Err Unit} (h : Returns (setPeakEnlarge uc x) (uc', res)) :
    (x = .other → res = .error .typeError ∧ uc' = uc) ∧
    (∀ q, x = .float q → q < 0 → res = .error .valueError ∧ uc' = uc) ∧
    (∀ q, x = .float q → 0 ≤ q → uc'.peakEnlarge = q ∧
      ((∃ r, Returns (peakTimeRangeOf uc.users q) r ∧ res = .ok () ∧ uc' = { uc with peakEnlarge := q, peakTimeRange := some r }) ∨
       (res = .error .indexError ∧ (∃! i, IsPeak (maximumLoad uc.users) i) ∧ uc' = { uc with peakEnlarge := q }))) := by
  rcases returns_setPeak h with ⟨q, r, rfl, hq, hret, rfl, rfl⟩ | ⟨q, e, rfl, hq, hret, rfl, rfl⟩ | ⟨q, rfl, hq, rfl, rfl⟩ | ⟨rfl, rfl, rfl⟩
  · refine ⟨fun h => (by cases h), fun q' h h' => ?_, fun q' h h' => ?_⟩
    · cases h; exact absurd hq (not_le.2 h')
    · cases h; exact ⟨rfl, .inl ⟨r, hret, rfl, rfl⟩⟩
  · refine ⟨fun h => (by cases h), fun q' h h' => ?_, fun q' h h' => ?_⟩
    · cases h; exact absurd hq (not_le.2 h')
    · cases h
      obtain ⟨rfl, hu⟩ := (raises_peak _).1 hret
      exact ⟨rfl, .inr ⟨rfl, hu, rfl⟩⟩
  · refine ⟨fun h => (by cases h), fun q' h h' => ?_, fun q' h h' => ?_⟩
    · cases h; exact ⟨rfl, rfl⟩
    · cases h; exact absurd h' (not_le.2 hq)
  · refine ⟨fun _ => ⟨rfl, rfl⟩, fun q h => (by cases h), fun q h => by cases h⟩

/-- The setter always returns or raises: the theorem above covers every call. -/
theorem C42_total (uc : UseCase) (x : PyNum) (rng : Rng) : ∃ uc' res rng', setPeakEnlarge uc x rng = .ok ((uc', res), rng') := by
  cases x with
  | other => exact ⟨_, _, _, rfl⟩
  | float q =>
    unfold setPeakEnlarge
    simp only
    split_ifs with hq
    · cases hp : peakTimeRangeOf uc.users q rng with
      | error e =>
        refine ⟨{ uc with peakEnlarge := q }, .error e, rng, ?_⟩
        rw [bind_ok (show attempt (peakTimeRangeOf uc.users q) rng = .ok (.error e, rng) by unfold attempt; rw [hp])]
        rfl
      | ok p =>
        refine ⟨{ uc with peakEnlarge := q, peakTimeRange := some p.1 }, .ok (), p.2, ?_⟩
        rw [bind_ok (show attempt (peakTimeRangeOf uc.users q) rng = .ok (.ok p.1, p.2) by unfold attempt; rw [hp])]
        rfl
    · exact ⟨_, _, _, rfl⟩

/-- Cases for C40 and C42: a use case without users has possible ranges, and a float is accepted. -/
example : Returns (peakTimeRangeOf [] (15 / 100)) (minutesFrom 710 20) :=
  (C40_possible_ranges peak_no_users _).2 ⟨720, 10, by norm_num, .inr (by norm_num), rfl⟩

example : ∃ uc', Returns (setPeakEnlarge {} (.float (1 / 5))) (uc', .ok ()) ∧ uc'.peakEnlarge = 1 / 5 := by
  obtain ⟨uc', res, rng', h⟩ := C42_total {} (.float (1 / 5)) (constantDraws 0)
  rcases ((C42_peak_enlarge ⟨_, _, h⟩).2.2 (1 / 5) rfl (by norm_num)) with ⟨h1, ⟨r, _, rfl, _⟩ | ⟨_, hu, _⟩⟩
  · exact ⟨uc', ⟨_, _, h⟩, h1⟩
  · exact absurd hu peak_no_users

end Ramp
