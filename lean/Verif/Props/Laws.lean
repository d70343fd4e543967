import Verif.Props.Switch
import Verif.Props.Profile
import Verif.Props.TimeOfUse
import Verif.Lemmas.Days

/-! # C92: the laws of the random decisions

Each decision as a function of the numbers that the random module delivers: `u`, uniform on `[0,1]`, and `k`, whose remainder modulo `n` chooses
one of `n` values. -/

set_option autoImplicit false

namespace Ramp

/-- The draws that remain after the first `n`. -/
def later (rng : Rng) (n : ℕ) : Rng := fun k => rng (k + n)

/-- `m` makes one draw and each of the `values`, which are all different, is chosen by one and the same share of the random numbers. -/
def EquallyLikely {α : Type} (m : Sim α) (values : List α) : Prop :=
  values ≠ [] ∧ values.Nodup ∧ ∀ rng, ∃ v, values[(rng 0).k % values.length]? = some v ∧ m rng = .ok (v, later rng 1)

theorem arange_nodup (a b : ℤ) : (arange a b).Nodup := by
  unfold arange
  refine List.nodup_range.map fun i j h => ?_
  omega

theorem equallyLikely_randint {a b : ℤ} (h : a ≤ b) : EquallyLikely (randint a b) (arange a (b + 1)) := by
  have hlen : (arange a (b + 1)).length = (b - a + 1).toNat := by rw [length_arange]; congr 1; ring
  refine ⟨fun he => ?_, arange_nodup _ _, fun rng => ⟨a + ((rng 0).k : ℤ) % (b - a + 1), ?_, ?_⟩⟩
  · rw [he] at hlen
    simp at hlen
    omega
  · rw [hlen]
    have hpos : 0 < (b - a + 1).toNat := by omega
    have hlt := Nat.mod_lt (rng 0).k hpos
    rw [getElem?_arange (by omega)]
    congr 2
    rw [Int.natCast_mod, Int.toNat_of_nonneg (by omega)]
  · unfold randint
    rw [if_neg (by omega)]
    rfl

/-- **C92.** Frequency of use: an appliance that matches the day and the preference stays off exactly when the first random number of the day is
larger than `occasional_use` (so on the share `occasional_use` of the days it is used); then nothing else is drawn. -/
theorem C92_frequency_of_use {app : Appliance} {depth : ℕ} {pref : ℤ} {profI : ℕ} {peak : List ℤ} {dayType : ℤ} {power : ℚ}
    (hm : ¬ SkippedForSure app pref dayType) (rng : Rng) :
    (app.occasionalUse < (rng 0).u → generateLoadProfileInfo app depth pref profI peak dayType power rng =
      .ok (({ app with dailyUse := zeros }, none), later rng 1)) ∧
    ((rng 0).u ≤ app.occasionalUse → ∀ app' info rng', generateLoadProfileInfo app depth pref profI peak dayType power rng = .ok ((app', info), rng') →
      info ≠ none) := by
  have hu : (uniform 0 1) rng = .ok ((rng 0).u, later rng 1) := by
    unfold uniform
    refine (bind_ok (m := nextDraw) rfl).trans ?_
    refine congrArg Except.ok (Prod.ext ?_ rfl)
    simp
  constructor
  · intro h
    unfold generateLoadProfileInfo
    refine (bind_ok hu).trans ?_
    rw [if_pos (.inl h)]
    rfl
  · intro h app' info rng' hrun
    unfold generateLoadProfileInfo at hrun
    rw [bind_ok hu] at hrun
    rw [if_neg ?_] at hrun
    · have hsat : ∀ {m : Sim (Appliance × Option RunInfo)}, Sat m (fun r => r.2 ≠ none) (fun _ => True) → m (later rng 1) = .ok ((app', info), rng') → info ≠ none := by
        intro m hs hr
        have := hs (later rng 1)
        rw [hr] at this
        exact this
      refine hsat ?_ hrun
      refine sat_bind' sat_true fun w1 _ => sat_bind' sat_true fun w2 _ => sat_bind' sat_true fun w3 _ =>
        sat_bind' sat_true fun rt _ => ?_
      refine sat_ite (fun _ => ?_) (fun _ => ?_)
      · split
        · exact sat_raise trivial
        · exact sat_bind' sat_true fun _ _ => sat_pure (by simp)
      · refine sat_bind' sat_true fun _ _ => sat_bind' sat_true fun _ _ => ?_
        refine sat_bind' sat_true fun r _ => ?_
        exact sat_pure (by simp)
    · intro hc
      rcases hc with hc | hc | hc | hc
      · simp only at hc; linarith
      · exact hm (.inl hc)
      · exact hm (.inr (.inl (by push Not at hc; exact hc)))
      · exact hm (.inr (.inr hc))

/-- **C92.** The preference of a member for the day: each of `1..user_preference` is equally likely. -/
theorem C92_daily_preference {p : ℤ} (hp : 1 ≤ p) : EquallyLikely (drawPreference p) (arange 1 (p + 1)) := by
  unfold drawPreference
  rw [if_neg (by omega)]
  exact equallyLikely_randint hp

/-- **C92.** The bounds of a window move independently, each by one of `-r..r` minutes, all equally likely, and are then kept in the day. -/
theorem C92_window_bounds (w : ℤ × ℤ) {r : ℤ} (hr : 0 ≤ r) (rng : Rng) :
    calcRandWindow w r rng = .ok ((max 0 (w.1 - r + ((rng 0).k : ℤ) % (2 * r + 1)), min 1440 (w.2 - r + ((rng 1).k : ℤ) % (2 * r + 1))), later rng 2) := by
  have hri : ∀ (c : ℤ) (g : Rng), randint (c - r) (c + r) g = .ok (c - r + ((g 0).k : ℤ) % (2 * r + 1), later g 1) := by
    intro c g
    unfold randint
    rw [if_neg (by omega)]
    show Except.ok (_, _) = _
    refine congrArg Except.ok (Prod.ext ?_ rfl)
    show c - r + ((g 0).k : ℤ) % (c + r - (c - r) + 1) = _
    congr 2
    ring
  unfold calcRandWindow
  refine (bind_ok (hri _ rng)).trans ((bind_ok (hri _ _)).trans ?_)
  show Except.ok (_, _) = _
  refine congrArg Except.ok (Prod.ext ?_ rfl)
  simp only [later, Nat.zero_add]
  refine Prod.ext ?_ ?_
  · simp only
    split_ifs with h
    · rw [max_eq_left (by omega)]
    · rw [max_eq_right (by omega)]
  · simp only
    split_ifs with h
    · rw [min_eq_left (by omega)]
    · rw [min_eq_right (by omega)]

/-- **C92.** The time of use: with the random numbers `u` and `v` it is the rounded point at the fraction `v` between `func_time` and the time varied
by the factor at the fraction `u` between `1 - variability` and `1 + variability`; at least `func_cycle`, at most 99 % of the windows. -/
theorem C92_time_of_use {app : Appliance} {w1 w2 w3 : ℤ × ℤ} (hfit : app.funcCycle ≤ pyInt (99 / 100 * (totalTime w1 w2 w3 : ℚ))) (rng : Rng) :
    ∃ varied : ℤ, varied = pyInt (app.funcTime * (1 - app.timeFractionRandomVariability + 2 * app.timeFractionRandomVariability * (rng 0).u)) ∧
    ∃ t : ℤ, t = max app.funcCycle (pyRound (app.funcTime + (varied - app.funcTime) * (rng 1).u)) ∧
    randTotalTimeOfUse app w1 w2 w3 rng =
      .ok (if (99 / 100 : ℚ) * totalTime w1 w2 w3 < t then pyInt (99 / 100 * (totalTime w1 w2 w3 : ℚ)) else t, later rng 2) := by
  refine ⟨_, rfl, _, rfl, ?_⟩
  have h1 : randomVariation app.timeFractionRandomVariability 1 rng =
      .ok (1 - app.timeFractionRandomVariability + 2 * app.timeFractionRandomVariability * (rng 0).u, later rng 1) := by
    unfold randomVariation uniform
    show Except.ok (_, _) = _
    refine congrArg Except.ok (Prod.ext ?_ rfl)
    simp only
    ring
  have h2 : ∀ a b : ℚ, uniform a b (later rng 1) = .ok (a + (b - a) * (rng 1).u, later rng 2) := fun a b => rfl
  unfold randTotalTimeOfUse
  refine (bind_ok h1).trans ((bind_ok (h2 _ _)).trans ?_)
  have hmax : ∀ x : ℤ, (if x < app.funcCycle then app.funcCycle else x) = max app.funcCycle x := by
    intro x
    split_ifs with h
    · exact (max_eq_left h.le).symm
    · exact (max_eq_right (not_lt.1 h)).symm
  have htt : (((w1.2 - w1.1) + (w2.2 - w2.1) + (w3.2 - w3.1) : ℤ) : ℚ) = (totalTime w1 w2 w3 : ℚ) := rfl
  rw [hmax, htt]
  rw [if_neg ?_]
  · rfl
  · split_ifs with h
    · exact not_lt.2 hfit
    · exact not_lt.2 (le_max_left _ _)

theorem choices_nodup {spots : List Spot} {fc : ℤ} (hs : SpotsApart spots) (h1 : 1 ≤ fc) : (switchOnChoices spots fc).Nodup := by
  unfold switchOnChoices
  rw [List.nodup_flatMap]
  refine ⟨fun s _ => ?_, hs.2.imp fun {s t} hst => ?_⟩
  · split_ifs
    · exact arange_nodup _ _
    · exact List.nodup_nil
  · intro x hx hy
    simp only at hx hy
    split_ifs at hx hy
    · rw [mem_arange] at hx hy
      unfold Apart at hst
      simp only at hst
      omega
    · simp at hy
    · simp at hx
    · simp at hx

/-- **C92.** The start of a switch-on event of an appliance without duty cycle: all minutes from which `func_cycle` minutes are free in one range are
equally likely; the duration is `⌊func_cycle + (longest - func_cycle) * u⌋` minutes, where `longest` is the rest of the range or of the time of use. -/
theorem C92_switch_on {app : Appliance} {randTime : ℤ} (hs : SpotsApart app.freeSpots) (h1 : 1 ≤ app.funcCycle) (hf : app.fixedCycle = 0)
    (hrt : app.funcCycle ≤ randTime) :
    ∃ starts : List ℤ, starts.Nodup ∧ (∀ m, m ∈ starts ↔ ∃ s ∈ app.freeSpots, s.start ≤ m ∧ m + app.funcCycle ≤ s.stop) ∧
      (starts = [] → ∀ depth rng, randSwitchOnWindow (depth + 1) app randTime rng = .ok ((app, none), rng)) ∧
      (starts ≠ [] → ∀ depth rng, ∃ m s rng', starts[(rng 0).k % starts.length]? = some m ∧ s ∈ app.freeSpots ∧ s.start ≤ m ∧ m + app.funcCycle ≤ s.stop ∧
        ∃ ev : SwitchOn, randSwitchOnWindow (depth + 1) app randTime rng = .ok ((app, some ev), rng') ∧
          ev.indexes = minutesFrom m (⌊(app.funcCycle : ℚ) + ((min randTime (s.stop - m) : ℤ) - app.funcCycle) * (rng 1).u⌋).toNat) := by
  refine ⟨switchOnChoices app.freeSpots app.funcCycle, choices_nodup hs h1, fun m => ?_, fun hnil depth rng => ?_, fun hne depth rng => ?_⟩
  · rw [mem_switchOnChoices]
    constructor
    · rintro ⟨s, hs, h⟩; exact ⟨s, hs, by omega⟩
    · rintro ⟨s, hs, h⟩; exact ⟨s, hs, by omega⟩
  · rw [randSwitchOnWindow_succ, if_neg (by rw [hnil]; simp)]
    rfl
  · set choices := switchOnChoices app.freeSpots app.funcCycle with hch
    have hpos : 0 < choices.length := List.length_pos_of_ne_nil hne
    have hlt := Nat.mod_lt (rng 0).k hpos
    obtain ⟨m, hm⟩ : ∃ m, choices[(rng 0).k % choices.length]? = some m := ⟨_, List.getElem?_eq_getElem hlt⟩
    have hmem : m ∈ choices := List.mem_of_getElem? hm
    obtain ⟨s0, hs0, b1, b2, b3⟩ := mem_switchOnChoices.1 hmem
    obtain ⟨s, hfind, hsm, hsp⟩ := find?_exists (p := fun fs : Spot => decide (fs.start ≤ m) && decide (m ≤ fs.stop - app.funcCycle)) hs0
      (by simp only [Bool.and_eq_true, decide_eq_true_eq]; exact ⟨b1, b2⟩)
    simp only [Bool.and_eq_true, decide_eq_true_eq] at hsp
    have hri : randint 0 ((choices.length : ℤ) - 1) rng = .ok ((((rng 0).k % choices.length : ℕ) : ℤ), later rng 1) := by
      unfold randint
      rw [if_neg (by omega)]
      show Except.ok (_, _) = _
      refine congrArg Except.ok (Prod.ext ?_ rfl)
      show 0 + ((rng 0).k : ℤ) % ((choices.length : ℤ) - 1 - 0 + 1) = _
      rw [zero_add, Int.natCast_mod]
      congr 1
      ring
    set L := min randTime (s.stop - m) with hL
    have hLf : app.funcCycle ≤ L := le_min hrt (by omega)
    set x : ℚ := (app.funcCycle : ℚ) + ((L : ℤ) - app.funcCycle) * (rng 1).u with hx
    have hx0 : (app.funcCycle : ℚ) ≤ x := by
      have hq : (app.funcCycle : ℚ) ≤ L := by exact_mod_cast hLf
      have hu0 := (rng 1).u_nonneg
      rw [hx]; nlinarith
    have hfcq : (0 : ℚ) ≤ (app.funcCycle : ℚ) := by exact_mod_cast (by omega : (0 : ℤ) ≤ app.funcCycle)
    obtain ⟨rng', hdraw⟩ : ∃ rng', drawIndexes app.funcCycle L m (later rng 1) = .ok (minutesFrom m ⌊x⌋.toNat, rng') := by
      have hfl : 0 ≤ ⌊x⌋ := Int.floor_nonneg.2 (hfcq.trans hx0)
      have hmin : arange m (m + ⌊x⌋) = minutesFrom m ⌊x⌋.toNat := by
        rw [← arange_eq_minutesFrom, Int.toNat_of_nonneg hfl]
      unfold drawIndexes
      by_cases hgt : L > app.funcCycle
      · rw [if_pos hgt]
        refine ⟨later rng 2, (bind_ok (a := x) (r' := later rng 2) rfl).trans ?_⟩
        have hpi : pyInt x = ⌊x⌋ := by unfold pyInt; rw [if_pos (hfcq.trans hx0)]
        rw [hpi, hmin]
        rfl
      · have he : L = app.funcCycle := by omega
        rw [if_neg hgt, if_pos he]
        refine ⟨later rng 1, ?_⟩
        have hxe : ⌊x⌋ = L := by
          have : x = (L : ℚ) := by rw [hx, he]; ring
          rw [this, Int.floor_intCast]
        rw [← hmin, hxe]
        rfl
    refine ⟨m, s, rng', hm, hsm, hsp.1, by omega, ⟨minutesFrom m ⌊x⌋.toNat, minutesFrom m ⌊x⌋.toNat⟩, ?_, rfl⟩
    rw [randSwitchOnWindow_succ, ← hch, if_pos (by exact_mod_cast hpos)]
    refine (bind_ok hri).trans ?_
    simp only [Int.toNat_natCast, hm, hfind]
    unfold afterStart
    simp only [← hL]
    refine (bind_ok hdraw).trans ?_
    rw [if_neg (by omega)]
    rfl

/-- A case for C92: two free ranges, ten and five possible starts. -/
example : SpotsApart ({ freeSpots := [⟨0, 20⟩, ⟨30, 45⟩], funcCycle := 11 } : Appliance).freeSpots := by
  refine ⟨by simp, ?_⟩
  simp [Apart]

/-- A case for the frequency of use: a lamp used on three of ten days. -/
example : ¬ SkippedForSure ({ funcTime := 30, occasionalUse := 3 / 10, wdWeType := 2 } : Appliance) 0 1 := by
  unfold SkippedForSure
  simp

end Ramp
