import Verif.Props.Retries
import Verif.Props.ParallelLaw

/-! # C117 for `input_file_3.py`

`C86_input_file_3`: a simulation of this file can fail with `RecursionError`.  Here: how unlikely that is. -/

set_option autoImplicit false

open MeasureTheory ENNReal

namespace Ramp

variable {μ : Measure Draw}

/-- **C117, parallel mode.** Under the same conditions as for `C117_rare` a simulation with worker processes, whose random numbers are independent, ends without an exception but
for the same probability, in whatever order the results arrive. -/
theorem C117_rare_parallel {N : ℕ} (h : PythonRandom N μ) (hN : 1440 ≤ N) {depth : ℕ} {uc : UseCase} {ds peak : List ℤ} (hr : Ready uc ds peak)
    (hp : peak ≠ []) (hd : DistinctAppliances uc.users) (ht : 0 < runsPerDay uc.users) (hpref : ∀ u ∈ uc.users, u.randDailyPref = 0)
    (hs : ∀ u ∈ uc.users, ∀ a ∈ u.appList, SafeConfig a ∧ OrderedCycleWindows a ∧ (0 < a.fixedCycle → a.continuousDutyCycle ≠ 0) ∧ ds.length ≤ a.power.length) {c T : ℕ}
    (hc : ∀ u ∈ uc.users, ∀ a ∈ u.appList, 0 < a.fixedCycle → a.flat ≠ "yes" → UncoveredEvent a → WellSeparated a ∧ WellCovered c T a)
    {order : List ℕ} (ho : ArrivalOrder uc.users ds order) :
    1 - numRuns ds.length uc.users * (T * (1 - c / T) ^ (depth + 1)) ≤ ParallelChance μ (depth + 1) uc order (fun _ => True) := by
  have := h.probability
  rw [C105_same_chances (env := ⟨0, none⟩) none hr hd ht hpref ho]
  have hmem : ∀ v ∈ noPreferences uc.users, ∃ u ∈ uc.users, v = { u with userPreference := 0 } := by
    intro v hv
    obtain ⟨u, hu, rfl⟩ := List.mem_map.1 hv
    exact ⟨u, hu, rfl⟩
  have key := (C117_rare (env := ⟨0, none⟩) (depth := depth) (uc := { uc with users := noPreferences uc.users }) h hN none ⟨hr.days, hr.numDays, hr.peak⟩ hp
    (fun v hv => by obtain ⟨u, _, rfl⟩ := hmem v hv; exact le_refl _)
    (fun v hv a ha => by obtain ⟨u, hu, rfl⟩ := hmem v hv; exact hs u hu a ha) (fun v hv a ha => by obtain ⟨u, hu, rfl⟩ := hmem v hv; exact hc u hu a ha)).2
  have e1 : numRuns ds.length (noPreferences uc.users) = numRuns ds.length uc.users := by
    unfold numRuns runsPerDay noPreferences
    rw [List.map_map]
    rfl
  have e2 : ChanceOf μ (generateDaily ⟨0, none⟩ (depth + 1) { uc with users := noPreferences uc.users } none) (fun _ => True) =
      ChanceOf μ (dailyRows ⟨0, none⟩ (depth + 1) { uc with users := noPreferences uc.users } none) (fun _ => True) := by
    exact (returned_map _ _).symm
  rw [← e2, ← e1]
  exact key

/-- The cooler with worker processes. -/
example {N : ℕ} (h : PythonRandom N μ) (hN : 1440 ≤ N) :
    1 - ((1 : ℕ) : ℝ≥0∞) * ((900 : ℕ) * (1 - (650 : ℕ) / (900 : ℕ)) ^ (999 + 1)) ≤ ParallelChance μ (999 + 1) coolerCase [0] (fun _ => True) := by
  refine C117_rare_parallel h hN coolerCase_ready (by simp [minutesFrom]) (fun u hu => ?_) (by decide) (fun u hu => ?_) coolerCase_safe (c := 650) (T := 900) (fun u hu a ha _ _ _ => ?_)
    (List.Perm.refl _)
  · obtain rfl := List.mem_singleton.1 hu
    exact List.nodup_singleton _
  · obtain rfl := List.mem_singleton.1 hu
    rfl
  · obtain rfl := List.mem_singleton.1 hu
    obtain rfl := List.mem_singleton.1 ha
    exact ⟨gapCooler_separated, gapCooler_covered⟩

/-- A check of an appliance with one window of use: no duty cycles; or no gap between the window, wherever it moves, and the first duty cycle window that has room for an event;
or `WellCovered 50 234`. -/
def rareB (a : Appliance) : Bool := decide (a.fixedCycle ≤ 0) || (decide (a.window2 = (0, 0)) && decide (a.window3 = (0, 0)) && decide (a.randomVar2 = 0) && decide (a.randomVar3 = 0) &&
  ((decide (a.cw11.1 - (a.window1.1 - a.randomVar1) < a.funcCycle) && decide (a.window1.2 + a.randomVar1 - a.cw11.2 < a.funcCycle) && decide (a.cw11.1 ≤ a.cw11.2)) ||
   (decide (0 ≤ a.window1.1 - a.randomVar1) && decide (a.window1.2 + a.randomVar1 ≤ 1440) && decide (a.window1.2 - a.window1.1 + 2 * a.randomVar1 ≤ 234) &&
    decide (50 + 2 * max ⌊(a.funcTime : ℚ) * (1 + a.timeFractionRandomVariability)⌋ a.funcCycle + a.funcCycle ≤
      min (a.window1.2 - a.randomVar1) a.cw11.2 - max (a.window1.1 + a.randomVar1) a.cw11.1))))

theorem rareB_sound {a : Appliance} (h : rareB a = true) (hs : SafeConfig a) (ho : OrderedCycleWindows a) (hn : 1 ≤ a.number) (hfix : 0 < a.fixedCycle) (hun : UncoveredEvent a) :
    WellSeparated a ∧ WellCovered 50 234 a := by
  simp only [rareB, Bool.or_eq_true, Bool.and_eq_true, decide_eq_true_eq, and_assoc] at h
  rcases h with h | ⟨e2, e3, v2, v3, h⟩
  · omega
  have hmoved : ∀ {w2 w3 : ℤ × ℤ}, MovedWindow a.window2 a.randomVar2 w2 → MovedWindow a.window3 a.randomVar3 w3 → w2 = (0, 0) ∧ w3 = (0, 0) := by
    intro w2 w3 m2 m3
    rw [e2, v2] at m2
    rw [e3, v3] at m3
    exact ⟨moved_zero (by unfold DayWindow; norm_num) m2, moved_zero (by unfold DayWindow; norm_num) m3⟩
  have hfc := hs.fc
  rcases h with ⟨g1, g2, g3⟩ | ⟨g1, g2, g3, g4⟩
  · exfalso
    obtain ⟨w, s, hm, h1, h2, n1, _⟩ := hun
    rcases hm with hm | hm | hm
    · obtain ⟨p, q, hp, hq, rfl⟩ := hm
      simp only at h1 h2
      refine n1 (.inl ⟨max s a.cw11.1, by omega, by omega⟩)
    · rw [e2, v2] at hm
      rw [moved_zero (w := (0, 0)) (by unfold DayWindow; norm_num) hm] at h1 h2
      simp only at h1 h2
      omega
    · rw [e3, v3] at hm
      rw [moved_zero (w := (0, 0)) (by unfold DayWindow; norm_num) hm] at h1 h2
      simp only at h1 h2
      omega
  refine ⟨⟨hs.windows, fun w1 w2 w3 _ m2 m3 => ?_, hs.cycles, fun _ => ho, hfc, hs.ft, hs.var, hn⟩, ?_⟩
  · obtain ⟨rfl, rfl⟩ := hmoved m2 m3
    exact ⟨.inr (.inl rfl), .inr (.inl rfl), .inl rfl⟩
  · intro w1 w2 w3 t m1 m2 m3 ht
    obtain ⟨rfl, rfl⟩ := hmoved m2 m3
    obtain ⟨p, q, hp, hq, rfl⟩ := m1
    obtain ⟨_, n, _, hn, rfl⟩ := ht
    have hp0 : max 0 p = p := by omega
    have hq0 : min 1440 q = q := by omega
    rw [hp0, hq0]
    refine ⟨by unfold totalTime; simp only; push_cast; omega, ?_⟩
    have hsub : ((Finset.Ico (max p a.cw11.1) (min q a.cw11.2) : Finset ℤ) : Set ℤ) ⊆ coveredMinutes a (p, q) (0, 0) (0, 0) := by
      intro m hm
      rw [Finset.coe_Ico, Set.mem_Ico] at hm
      exact ⟨.inl ⟨by simp only; omega, by simp only; omega⟩, .inl ⟨by omega, by omega⟩⟩
    have hfin : (coveredMinutes a (p, q) (0, 0) (0, 0)).Finite := by
      refine (Set.finite_Ico (0 : ℤ) 1440).subset ?_
      rintro m ⟨h1, _⟩
      simp only [InWindow] at h1
      rw [Set.mem_Ico]
      omega
    have h1 := Set.ncard_le_ncard hsub hfin
    rw [Set.ncard_coe_finset, Int.card_Ico] at h1
    have hlen : ([(p, q), ((0 : ℤ), (0 : ℤ)), (0, 0)].filter (fun w => w.1 ≠ w.2)).length ≤ 1 := by
      rw [show [(p, q), ((0 : ℤ), (0 : ℤ)), (0, 0)] = [(p, q)] ++ [((0 : ℤ), (0 : ℤ)), (0, 0)] from rfl, List.filter_append,
        show [((0 : ℤ), (0 : ℤ)), (0, 0)].filter (fun w => decide (w.1 ≠ w.2)) = [] from rfl, List.append_nil]
      exact List.length_filter_le _ _
    have h2 : (([(p, q), ((0 : ℤ), (0 : ℤ)), (0, 0)].filter (fun w => w.1 ≠ w.2)).length : ℤ) * a.funcCycle ≤ 1 * a.funcCycle :=
      mul_le_mul_of_nonneg_right (by exact_mod_cast hlen) (by omega)
    have h3 := min_le_left (max n a.funcCycle) ⌊(99 / 100 : ℚ) * totalTime (p, q) (0, 0) (0, 0)⌋
    omega

def user3R (u : User) : Bool := decide (u.numUsers = 1) && decide (u.appList.length = 12) && decide (0 ≤ u.userPreference) && decide ((u.appList.map Appliance.oid).Nodup) &&
  u.appList.all fun a => configB a && continuousB a && rareB a

/-- What the check says. -/
structure RareCooking (u : User) : Prop where
  members : u.numUsers = 1
  dishes : u.appList.length = 12
  preference : 0 ≤ u.userPreference
  distinct : (u.appList.map Appliance.oid).Nodup
  safe : ∀ a ∈ u.appList, configB a = true ∧ continuousB a = true ∧ rareB a = true

theorem rareCooking_sync {u : User} (h : RareCooking u) (a : Appliance) (ha : a ∈ u.appList) (l : List ℚ) : RareCooking (u.sync { a with power := l }) := by
  have ho := sync_oids u { a with power := l }
  refine ⟨h.members, ?_, h.preference, ?_, ?_⟩
  · have := congrArg List.length ho
    rw [List.length_map, List.length_map] at this
    rw [this, h.dishes]
  · rw [ho]
    exact h.distinct
  · intro b hb
    rcases mem_sync hb with ⟨h1, _⟩ | ⟨rfl, _⟩
    · exact h.safe b h1
    · exact h.safe a ha

theorem file3_rare : ∀ strict, callsPass user3R strict file3HH = true := by decide +kernel

/-- **C117.** With Python's generator a simulation of `n` days of `input_file_3.py`, which can fail with `RecursionError` (`C86_input_file_3`), fails with a probability of at most
`n · 12 · 234 · (1 - 50 / 234) ^ depth` when `rand_switch_on_window` may call itself `depth` times, and otherwise returns. -/
theorem C117_input_file_3 (strict : Bool) : ∃ us, UserList strict inputFile3 us ∧ (∀ vs, UserList strict inputFile3 vs → vs = us) ∧
    ∀ (today n : ℤ) (depth : ℕ) (pe : ℚ), 1 ≤ n → 0 ≤ pe → ∀ uc' res,
      Returns (initUseCase ⟨today, some n⟩ (collectAppliances { users := us }) { peakEnlarge := some (.float pe) }) (uc', res) →
      ∀ N, PythonRandom N μ → 1440 ≤ N →
        Crash μ (generateDaily ⟨today, some n⟩ (depth + 1) uc' none) ≤ (n.toNat * 12 : ℕ) * ((234 : ℕ) * (1 - (50 : ℕ) / (234 : ℕ)) ^ (depth + 1)) ∧
        1 - (n.toNat * 12 : ℕ) * ((234 : ℕ) * (1 - (50 : ℕ) / (234 : ℕ)) ^ (depth + 1)) ≤ ChanceOf μ (generateDaily ⟨today, some n⟩ (depth + 1) uc' none) (fun _ => True) := by
  obtain ⟨us, h1, hlen, h3, hmain⟩ := C86_input_file_3 strict
  refine ⟨us, h1, h3, ?_⟩
  obtain ⟨us', g1, g2, _⟩ := userList_of_check (file := inputFile3) (check := user3R) (strict := strict) (by
    simp only [inputFile3, List.all_cons, List.all_nil, Bool.and_true]
    exact file3_rare strict)
  obtain rfl := h3 us' g1
  have hu : ∀ u ∈ us', RareCooking u := by
    intro u hu
    have := g2 u hu
    simp only [user3R, Bool.and_eq_true, decide_eq_true_eq, List.all_eq_true, and_assoc] at this
    obtain ⟨k1, k2, k3, k4, k5⟩ := this
    exact ⟨k1, k2, k3, k4, k5⟩
  intro today n depth pe hn hpe uc' res h N hN hN2
  obtain ⟨rfl, _⟩ := hmain today n depth pe hn hpe uc' res h
  have hc : Collected (collectAppliances { users := us' }) := ⟨rfl, fun u h => (hu u h).distinct⟩
  have hd : ChoosesDays (collectAppliances { users := us' }) { peakEnlarge := some (.float pe) } := .inl ⟨rfl, rfl⟩
  have ha : AsksForDays ⟨today, some n⟩ (collectAppliances { users := us' }) { peakEnlarge := some (.float pe) } n :=
    .inr ⟨rfl, .inr ⟨rfl, .inr ⟨.inl rfl, rfl⟩⟩⟩
  obtain ⟨_, peak, hr, hp, hdl, hQ, hpow⟩ := after_initialize (Q := RareCooking) (fun u h a ha l => rareCooking_sync h a ha l) hc (fun u h => hu u h) hd ha h
  have hul : uc'.users.length = 1 := by
    have := init_users_length hd.runs h
    rw [this]
    exact hlen
  obtain ⟨u, hus⟩ := List.length_eq_one_iff.1 hul
  have hnum : numRuns (daysFrom (firstDay ⟨today, some n⟩ (collectAppliances { users := us' }) n) n.toNat).length uc'.users = n.toNat * 12 := by
    have hq := hQ u (by rw [hus]; exact List.mem_singleton.2 rfl)
    unfold numRuns runsPerDay
    rw [hdl, hus, List.map_singleton, List.sum_singleton, hq.members, hq.dishes]
    rfl
  have key := C117_rare (env := ⟨today, some n⟩) (depth := depth) (uc := uc') hN hN2 none hr hp (fun u h => (hQ u h).preference) (fun u hm a ha => by
    obtain ⟨k1, k2⟩ := configB_sound ((hQ u hm).safe a ha).1
    have k3 := ((hQ u hm).safe a ha).2.1
    simp only [continuousB, Bool.or_eq_true, decide_eq_true_eq] at k3
    refine ⟨k1, k2, fun hf => k3.resolve_left (by omega), ?_⟩
    have := hpow u hm a ha
    rw [hdl]
    omega) (c := 50) (T := 234) (fun u hm a ha hfix _ hun => by
    obtain ⟨k1, k2⟩ := configB_sound ((hQ u hm).safe a ha).1
    have k3 := ((hQ u hm).safe a ha).1
    simp only [configB, Bool.and_eq_true, decide_eq_true_eq, and_assoc] at k3
    exact rareB_sound ((hQ u hm).safe a ha).2.2 k1 k2 (by tauto) hfix hun)
  rw [hnum] at key
  exact key

/-- With 900 calls this is less than `10 ^ (-90)` for each day. -/
theorem rare_number (n : ℕ) : ((n * 12 : ℕ) : ℝ≥0∞) * ((234 : ℕ) * (1 - (50 : ℕ) / (234 : ℕ)) ^ 900) ≤ n * ENNReal.ofReal (1 / 10 ^ 90) := by
  have e1 : (1 - ((50 : ℕ) : ℝ≥0∞) / (234 : ℕ)) = ENNReal.ofReal (92 / 117) := by
    have : (((50 : ℕ) : ℝ≥0∞) / (234 : ℕ)) = ENNReal.ofReal (25 / 117) := by
      rw [show (25 / 117 : ℝ) = 50 / 234 by norm_num, ENNReal.ofReal_div_of_pos (by norm_num)]
      simp
    rw [this, ← ENNReal.ofReal_one, ← ENNReal.ofReal_sub _ (by norm_num)]
    norm_num
  rw [e1, ← ENNReal.ofReal_pow (by norm_num), Nat.cast_mul, mul_assoc]
  refine mul_le_mul' (le_refl _) ?_
  rw [show ((12 : ℕ) : ℝ≥0∞) = ENNReal.ofReal 12 by simp, show ((234 : ℕ) : ℝ≥0∞) = ENNReal.ofReal 234 by simp, ← ENNReal.ofReal_mul (by norm_num), ← ENNReal.ofReal_mul (by norm_num)]
  refine ENNReal.ofReal_le_ofReal ?_
  have e2 : (92 / 117 : ℝ) ^ 225 ≤ 1 / 10 ^ 23 * (1 / 3) := by norm_num
  have e3 : (92 / 117 : ℝ) ^ 900 ≤ (1 / 10 ^ 23 * (1 / 3)) ^ 4 := by
    rw [show 900 = 225 * 4 from rfl, pow_mul]
    exact pow_le_pow_left₀ (by positivity) e2 4
  refine le_trans (mul_le_mul_of_nonneg_left (mul_le_mul_of_nonneg_left e3 (by norm_num)) (by norm_num)) ?_
  norm_num

end Ramp
