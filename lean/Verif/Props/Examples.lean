import Verif.Model.Examples
import Verif.Props.NeverFails
import Verif.Props.CyclesExact
import Verif.Props.Aligned
import Verif.Props.Failures

/-! # C86: the example input files can be simulated -/

set_option autoImplicit false

namespace Ramp

/-- A new user and these calls give the user `u`: none of the calls raises.  (`strict` is the rule by which the installed numpy compares arrays
of different length, see the model of `==`.) -/
def MadeByCalls (strict : Bool) (p : User × List ApiOp) (u : User) : Prop := ∃ s, apiRunUncaught strict { user := p.1 } p.2 = (s, .ok ()) ∧ s.user = u

/-- The `User_list` at the end of an input file. -/
def UserList (strict : Bool) (file : List (User × List ApiOp)) (us : List User) : Prop := List.Forall₂ (MadeByCalls strict) file us

/-- The rest of an example file, `UseCase(users=User_list)`, `initialize(peak_enlarge=...)` and `generate_daily_load_profiles()`, run without
error whatever the random draws and the date of today, when `n` days are asked for at the prompt. -/
def RunsFor (us : List User) (n : ℤ) : Prop := ∀ (stream : ℤ → Rng) (today : ℤ) (depth : ℕ) (pe : ℚ), 0 ≤ pe →
  (∃ uc, ∀ rng, mkUseCase ⟨today, some n⟩ stream { users := us.map .user } rng = .ok (uc, rng)) ∧
  ∀ uc, Returns (mkUseCase ⟨today, some n⟩ stream { users := us.map .user }) uc →
    NeverRaises (initUseCase ⟨today, some n⟩ uc { peakEnlarge := some (.float pe) }) ∧
    ∀ uc' res, Returns (initUseCase ⟨today, some n⟩ uc { peakEnlarge := some (.float pe) }) (uc', res) →
      res = .ok () ∧ NeverRaises (generateDaily ⟨today, some n⟩ (depth + 1) uc' none)

/-! ## A check of sensible appliances -/

def shareB (a b c d : ℤ) : Bool := decide (max a c ≤ min b d)

theorem shareB_iff {a b c d : ℤ} : shareB a b c d = true ↔ ShareMinute a b c d := by
  unfold shareB ShareMinute
  rw [decide_eq_true_eq]
  constructor
  · exact fun h => ⟨max a c, by omega, by omega⟩
  · rintro ⟨m, h1, h2⟩
    omega

def overlapsB (a : Appliance) (lo hi : ℤ) : Bool :=
  shareB lo hi a.cw11.1 a.cw11.2 || shareB lo hi a.cw12.1 a.cw12.2 || shareB lo hi a.cw21.1 a.cw21.2 || shareB lo hi a.cw22.1 a.cw22.2 ||
    shareB lo hi a.cw31.1 a.cw31.2 || shareB lo hi a.cw32.1 a.cw32.2

theorem overlapsB_iff {a : Appliance} {lo hi : ℤ} : overlapsB a lo hi = true ↔ (Overlaps1 a lo hi ∨ Overlaps2 a lo hi ∨ Overlaps3 a lo hi) := by
  unfold overlapsB Overlaps1 Overlaps2 Overlaps3
  simp only [Bool.or_eq_true, shareB_iff]
  tauto

/-- The shortest events in the window `w`, moved by up to `r` minutes, all overlap a duty cycle window. -/
def windowCovered (a : Appliance) (w : ℤ × ℤ) (r : ℤ) : Bool := (List.range 1441).all fun (s : ℕ) =>
  decide ((s : ℤ) < w.1 - r) || decide (w.2 + r < (s : ℤ) + a.funcCycle) || decide (1440 < (s : ℤ) + a.funcCycle) || overlapsB a (s : ℤ) ((s : ℤ) + a.funcCycle - 1)

theorem windowCovered_sound {a : Appliance} {w : ℤ × ℤ} {r : ℤ} (h : windowCovered a w r = true) (h0 : 0 ≤ a.funcCycle) {v : ℤ × ℤ} (hv : MovedWindow w r v)
    {s d : ℤ} (h1 : v.1 ≤ s) (h2 : s + d ≤ v.2) (h3 : a.funcCycle ≤ d) :
    Overlaps1 a s (s + d - 1) ∨ Overlaps2 a s (s + d - 1) ∨ Overlaps3 a s (s + d - 1) := by
  obtain ⟨x, y, hx, hy, rfl⟩ := hv
  simp only at h1 h2
  have hs0 : 0 ≤ s := by omega
  have hs1 : s + a.funcCycle ≤ 1440 := by omega
  unfold windowCovered at h
  rw [List.all_eq_true] at h
  have := h s.toNat (List.mem_range.2 (by omega))
  rw [Int.toNat_of_nonneg hs0] at this
  simp only [Bool.or_eq_true, decide_eq_true_eq, overlapsB_iff] at this
  have hm := overlaps_mono (app := a) (a := s) h3
  rcases this with ((h | h) | h) | h
  · omega
  · omega
  · omega
  · exact h.imp hm.1 (Or.imp hm.2.1 hm.2.2)

def dayB (w : ℤ × ℤ) : Bool := decide (0 ≤ w.1) && decide (w.1 ≤ w.2) && decide (w.2 ≤ 1440)

def configB (a : Appliance) : Bool :=
  dayB a.window1 && dayB a.window2 && dayB a.window3 &&
  decide (0 ≤ a.randomVar1) && decide (0 ≤ a.randomVar2) && decide (0 ≤ a.randomVar3) &&
  decide (2 * a.randomVar1 ≤ a.window1.2 - a.window1.1) && decide (2 * a.randomVar2 ≤ a.window2.2 - a.window2.1) &&
  decide (2 * a.randomVar3 ≤ a.window3.2 - a.window3.1) &&
  decide (1 ≤ a.funcCycle) && decide (0 ≤ a.funcTime) && decide (0 ≤ a.timeFractionRandomVariability) && decide (a.timeFractionRandomVariability ≤ 1) &&
  decide ((a.funcCycle : ℚ) ≤ 99 / 100 * ((totalTime a.window1 a.window2 a.window3 - 2 * (a.randomVar1 + a.randomVar2 + a.randomVar3) : ℤ) : ℚ)) &&
  decide (1 ≤ a.number) && decide (0 ≤ a.thermalPVar) && decide (0 ≤ a.t11) && decide (0 ≤ a.t12) && decide (0 ≤ a.t21) && decide (0 ≤ a.t22) &&
  decide (0 ≤ a.t31) && decide (0 ≤ a.t32) && decide (0 ≤ a.rc1) && decide (a.rc1 ≤ 1) && decide (0 ≤ a.rc2) && decide (a.rc2 ≤ 1) &&
  decide (0 ≤ a.rc3) && decide (a.rc3 ≤ 1) && decide (a.cw11.1 ≤ a.cw11.2) && decide (a.cw12.1 ≤ a.cw12.2) && decide (a.cw21.1 ≤ a.cw21.2) &&
  decide (a.cw22.1 ≤ a.cw22.2) && decide (a.cw31.1 ≤ a.cw31.2) && decide (a.cw32.1 ≤ a.cw32.2)

theorem configB_sound {a : Appliance} (h : configB a = true) : SafeConfig a ∧ OrderedCycleWindows a := by
  simp only [configB, dayB, Bool.and_eq_true, decide_eq_true_eq, and_assoc] at h
  obtain ⟨a1, a2, a3, b1, b2, b3, c1, c2, c3, r1, r2, r3, g1, g2, g3, hfc, hft, hv0, hv1, hroom, hnum, htv, t1, t2, t3, t4, t5, t6,
    q1, q2, q3, q4, q5, q6, o1, o2, o3, o4, o5, o6⟩ := h
  exact ⟨⟨⟨⟨a1, a2, a3⟩, ⟨b1, b2, b3⟩, ⟨c1, c2, c3⟩, ⟨r1, by omega⟩, ⟨r2, by omega⟩, ⟨r3, by omega⟩⟩, hfc, hft, ⟨hv0, hv1⟩, g1, g2, g3, hroom, hnum,
    ⟨htv, t1, t2, t3, t4, t5, t6, ⟨q1, q2⟩, ⟨q3, q4⟩, ⟨q5, q6⟩⟩⟩, ⟨o1, o2, o3, o4, o5, o6⟩⟩

def coveredB (a : Appliance) : Bool := decide (a.fixedCycle ≤ 0) ||
  (decide (a.continuousDutyCycle ≠ 0) && windowCovered a a.window1 a.randomVar1 && windowCovered a a.window2 a.randomVar2 &&
    windowCovered a a.window3 a.randomVar3)

theorem sensible_of_check {a : Appliance} (h : configB a = true) (h' : coveredB a = true) : SensibleAppliance a := by
  obtain ⟨hs, ho⟩ := configB_sound h
  refine ⟨hs, ho, ?_⟩
  simp only [coveredB, Bool.or_eq_true, Bool.and_eq_true, decide_eq_true_eq, and_assoc] at h'
  have h0 : 0 ≤ a.funcCycle := by have := hs.fc; omega
  refine h'.imp id fun h => ⟨h.1, fun w s d hw h1 h2 h3 => ?_⟩
  rcases hw with hw | hw | hw
  · exact windowCovered_sound h.2.1 h0 hw h1 h2 h3
  · exact windowCovered_sound h.2.2.1 h0 hw h1 h2 h3
  · exact windowCovered_sound h.2.2.2 h0 hw h1 h2 h3

/-- The power is a constant, as the constructor leaves it. -/
def constB (a : Appliance) : Bool := a.constantPower && decide (a.power = List.replicate 367 (a.power.headD 0))

theorem constB_sound {a : Appliance} (h : constB a = true) : PowersAsBuilt a ∧ a.constantPower = true := by
  simp only [constB, Bool.and_eq_true, decide_eq_true_eq] at h
  exact ⟨fun _ => ⟨366, _, h.2⟩, h.1⟩

/-- The calls succeed and the user passes the check. -/
def callsPass (check : User → Bool) (strict : Bool) (p : User × List ApiOp) : Bool :=
  match apiRunUncaught strict { user := p.1 } p.2 with
  | (s, .ok ()) => check s.user
  | _ => false

theorem callsPass_sound {check : User → Bool} {strict : Bool} {p : User × List ApiOp} (h : callsPass check strict p = true) :
    ∃ u, MadeByCalls strict p u ∧ check u = true ∧ ∀ v, MadeByCalls strict p v → v = u := by
  unfold callsPass at h
  split at h
  · rename_i s hs
    refine ⟨s.user, ⟨s, hs, rfl⟩, h, ?_⟩
    rintro v ⟨s', hs', rfl⟩
    rw [hs] at hs'
    cases hs'
    rfl
  · cases h

theorem userList_of_check {check : User → Bool} {strict : Bool} : ∀ {file : List (User × List ApiOp)}, file.all (callsPass check strict) = true →
    ∃ us, UserList strict file us ∧ (∀ u ∈ us, check u = true) ∧ ∀ vs, UserList strict file vs → vs = us
  | [], _ => ⟨[], .nil, by simp, fun vs h => by cases h; rfl⟩
  | p :: file, h => by
    rw [List.all_cons, Bool.and_eq_true] at h
    obtain ⟨u, h1, h2, h3⟩ := callsPass_sound h.1
    obtain ⟨us, g1, g2, g3⟩ := userList_of_check h.2
    refine ⟨u :: us, .cons h1 g1, ?_, ?_⟩
    · intro v hv
      rcases List.mem_cons.1 hv with rfl | hv
      · exact h2
      · exact g2 v hv
    · intro vs hvs
      cases hvs with
      | cons a b => rw [h3 _ a, g3 _ b]

def userB (u : User) : Bool := decide (0 ≤ u.userPreference) && decide ((u.appList.map Appliance.oid).Nodup) &&
  u.appList.all fun a => configB a && coveredB a && constB a

theorem mkUseCase_users (env : Env) (stream : ℤ → Rng) (us : List User) (rng : Rng) :
    mkUseCase env stream { users := us.map .user } rng = .ok (collectAppliances { users := us }, rng) := by
  have h1 := (C36_add_user {} (.list (us.map .user))).1 us (by
    unfold leaves
    induction us with
    | nil => rfl
    | cons u us ih => rw [List.map_cons, leavesOfList, ih]; rfl)
  unfold addUser at h1
  unfold mkUseCase
  simp only [h1]
  rfl

/-- Users without reason to fail can be simulated. -/
theorem runsFor_of_sensible {us : List User} {n : ℤ} (h1 : 1 ≤ n) (hs : ∀ u ∈ us, SensibleUser u) (hd : ∀ u ∈ us, (u.appList.map Appliance.oid).Nodup)
    (hpow : ∀ u ∈ us, ∀ a ∈ u.appList, PowersAsBuilt a) (hlong : ∀ u ∈ us, ∀ a ∈ u.appList, a.constantPower = false → n ≤ a.power.length)
    (hpeak : ¬ ∃! i, IsPeak (maximumLoad us) i) : RunsFor us n := by
  intro stream today depth pe hpe
  refine ⟨⟨_, mkUseCase_users _ _ _⟩, ?_⟩
  rintro uc ⟨rng, rng', h⟩
  rw [mkUseCase_users] at h
  cases h
  have := C82_usual_program (env := ⟨today, some n⟩) (env' := ⟨today, some n⟩) (depth := depth) (uc := collectAppliances { users := us })
    (args := { peakEnlarge := some (.float pe) }) (n := n) ⟨rfl, hd⟩ hs hpow hlong hpeak (.inl ⟨rfl, rfl⟩)
    (.inr ⟨rfl, .inr ⟨rfl, .inr ⟨.inl rfl, rfl⟩⟩⟩) h1 (.inr ⟨pe, rfl, hpe⟩)
  exact ⟨this.1, fun uc' res h => ⟨(this.2 uc' res h).1, (this.2 uc' res h).2 none⟩⟩

theorem userList_grid {k : ℤ} {strict : Bool} {file : List (User × List ApiOp)} {us : List User} (h : UserList strict file us)
    (h0 : ∀ p ∈ file, p.1.appList = [] ∧ ∀ op ∈ p.2, CallOnGrid k op) : ∀ u ∈ us, BuiltOnGrid k u := by
  induction h with
  | nil => simp
  | @cons p u file us hp _ ih =>
    intro v hv
    rcases List.mem_cons.1 hv with rfl | hv
    · obtain ⟨s, hs, rfl⟩ := hp
      exact ⟨strict, p.1, p.2, s, (h0 p (by simp)).1, (h0 p (by simp)).2, hs, rfl⟩
    · exact ih (fun q hq => h0 q (by simp [hq])) v hv

theorem grid_peak {k : ℤ} (hk : 2 ≤ k) (hd : k ∣ 1440) {us : List User} (h : ∀ u ∈ us, BuiltOnGrid k u) : ¬ ∃! i, IsPeak (maximumLoad us) i :=
  block_two_peaks hk hd (block_load fun u hu a ha => ((h u hu).apps (by omega) hd a ha).curve)

set_option maxRecDepth 100000 in
set_option maxHeartbeats 0 in
theorem file1_pass : ∀ strict, inputFile1.all (callsPass userB strict) = true := by decide +kernel

theorem file1_grid : ∀ p ∈ inputFile1, p.1.appList.isEmpty = true ∧ ∀ op ∈ p.2, CallOnGrid 6 op := by decide +kernel

/-- **C86.** `input_file_1.py` (a village of eight user categories): none of its calls raises, and the simulation of any number `n ≥ 1` of days
runs without error, whatever the random draws. -/
theorem C86_input_file_1 (strict : Bool) : ∃ us, UserList strict inputFile1 us ∧ us.length = 8 ∧ (∀ vs, UserList strict inputFile1 vs → vs = us) ∧
    ∀ n, 1 ≤ n → RunsFor us n := by
  obtain ⟨us, h1, h2, h3⟩ := userList_of_check (file1_pass strict)
  refine ⟨us, h1, ?_, h3, fun n hn => ?_⟩
  · rw [← h1.length_eq]
    rfl
  · have hu : ∀ u ∈ us, SensibleUser u ∧ (u.appList.map Appliance.oid).Nodup ∧ ∀ a ∈ u.appList, PowersAsBuilt a ∧ a.constantPower = true := by
      intro u hu
      have := h2 u hu
      simp only [userB, Bool.and_eq_true, decide_eq_true_eq, List.all_eq_true] at this
      obtain ⟨⟨g1, g2⟩, g3⟩ := this
      exact ⟨⟨g1, fun a ha => sensible_of_check (g3 a ha).1.1 (g3 a ha).1.2⟩, g2, fun a ha => constB_sound (g3 a ha).2⟩
    refine runsFor_of_sensible hn (fun u h => (hu u h).1) (fun u h => (hu u h).2.1) (fun u h a ha => ((hu u h).2.2 a ha).1) (fun u h a ha hc => ?_) ?_
    · rw [((hu u h).2.2 a ha).2] at hc
      cases hc
    · exact grid_peak (k := 6) (by norm_num) (by norm_num) (userList_grid h1 fun p hp => ⟨List.isEmpty_iff.1 (file1_grid p hp).1, (file1_grid p hp).2⟩)

/-! ## `input_file_2.py` -/

def user2B (u : User) : Bool := decide (0 ≤ u.userPreference) && decide ((u.appList.map Appliance.oid).Nodup) &&
  !u.appList.isEmpty && u.appList.all fun a => configB a && coveredB a

/-- The powers of the appliances are the values of the table. -/
def FromTable (power : List ℚ) (a : Appliance) : Prop := a.power = power ∧ a.constantPower = false

theorem file2_pass (power : List ℚ) : ∀ strict, callsPass user2B strict (file2HH power) = true := by
  have h0 : ∀ strict, callsPass user2B strict (file2HH []) = true := by decide +kernel
  intro strict
  rw [← h0 strict]
  rfl

theorem file2_table {power : List ℚ} {strict : Bool} {u : User} (h : MadeByCalls strict (file2HH power) u) : ∀ a ∈ u.appList, FromTable power a := by
  obtain ⟨s, hs, rfl⟩ := h
  have hk : Kept (FromTable power) := ⟨fun _ _ h => h, fun a h => by unfold windowsTail; split_ifs <;> exact h⟩
  refine (apiRun_kept hk strict _ _ s ?_ (by intro a ha; simp [file2HH] at ha) (by simp) hs).1
  intro op ho
  simp only [file2HH, List.mem_cons, List.not_mem_nil, or_false] at ho
  rcases ho with rfl | rfl
  · refine ⟨?_, by simp, by simp [AddArgs.cycles]⟩
    intro oid app hm
    simp only [mkAppliance] at hm
    cases hm
    exact ⟨rfl, rfl⟩
  · intro a a' ha hb
    obtain ⟨d, rfl, _⟩ := windowsBody_ok hb
    exact ha

/-- **C86.** `input_file_2.py` (a shower whose power of each day comes from a table): none of its calls raises; the simulation of `n` days runs
without error, whatever the random draws, when the table has at least `n` values (the shipped table has 365); with fewer values `initialize`
raises `ValueError`. -/
theorem C86_input_file_2 (strict : Bool) (power : List ℚ) : ∃ us, UserList strict (inputFile2 power) us ∧ us.length = 1 ∧
    (∀ vs, UserList strict (inputFile2 power) vs → vs = us) ∧ ∀ n : ℤ, 1 ≤ n → (n ≤ power.length → RunsFor us n) ∧
      (power.length < n → ∀ env args uc' res, args.numDays = some n →
        Returns (initUseCase env (collectAppliances { users := us }) args) (uc', res) → res = .error .valueError) := by
  obtain ⟨us, h1, h2, h3⟩ := userList_of_check (file := inputFile2 power) (check := user2B) (strict := strict) (by
    simp only [inputFile2, List.all_cons, List.all_nil, Bool.and_true]
    exact file2_pass power strict)
  have ht : ∀ u ∈ us, ∀ a ∈ u.appList, FromTable power a := by
    obtain ⟨u, us', hu, hus, rfl⟩ := List.forall₂_cons_left_iff.1 h1
    cases hus
    simp only [List.mem_singleton, forall_eq]
    exact file2_table hu
  have hu : ∀ u ∈ us, SensibleUser u ∧ (u.appList.map Appliance.oid).Nodup ∧ u.appList ≠ [] := by
    intro u hu
    have := h2 u hu
    simp only [user2B, Bool.and_eq_true, decide_eq_true_eq, List.all_eq_true, Bool.not_eq_true', List.isEmpty_eq_false_iff] at this
    exact ⟨⟨this.1.1.1, fun a ha => sensible_of_check (this.2 a ha).1 (this.2 a ha).2⟩, this.1.1.2, this.1.2⟩
  have hp : ∀ u ∈ us, ∀ a ∈ u.appList, PowersAsBuilt a := by
    intro u h a ha hc
    rw [(ht u h a ha).2] at hc
    cases hc
  have hlen : us.length = 1 := by rw [← h1.length_eq]; rfl
  refine ⟨us, h1, hlen, h3, fun n hn => ⟨fun hl => ?_, fun hl env args uc' res hargs hr => ?_⟩⟩
  · refine runsFor_of_sensible hn (fun u h => (hu u h).1) (fun u h => (hu u h).2.1) hp (fun u h a ha _ => ?_) ?_
    · rw [(ht u h a ha).1]
      exact hl
    · refine grid_peak (k := 30) (by norm_num) (by norm_num) (userList_grid h1 ?_)
      simp only [inputFile2, file2HH, forall_eq, true_and, List.mem_cons, List.not_mem_nil, or_false, forall_eq_or_imp]
      exact ⟨trivial, by decide⟩
  · have := C82_initialize_outcome (n := n) ⟨rfl, fun u h => (hu u h).2.1⟩ hp (.inl ⟨rfl, rfl⟩) (.inl hargs) hn hr
    rw [this, if_pos]
    obtain ⟨u, hmem⟩ : ∃ u, u ∈ us := List.exists_mem_of_length_pos (by omega)
    obtain ⟨a, ha⟩ := List.exists_mem_of_ne_nil _ (hu u hmem).2.2
    exact ⟨u, hmem, a, ha, (ht u hmem a ha).2, by rw [(ht u hmem a ha).1]; exact hl⟩

/-! ## `input_file_3.py` -/

/-- A check of an appliance that can be used on every day, one of whose shortest events, at the beginning of a widened first window, overlaps no duty
cycle window. -/
def uncoveredB (a : Appliance) : Bool := decide (0 < a.fixedCycle) && decide (a.flat ≠ "yes") && decide (a.prefIndex = 0) && decide (a.wdWeType = 2) &&
  decide (a.funcTime ≠ 0) && decide (0 ≤ a.occasionalUse) && decide (0 ≤ a.window1.1 - a.randomVar1) && decide (0 ≤ a.randomVar1) && decide (a.window1.2 ≤ 1440) &&
  decide (a.window1.1 - a.randomVar1 + a.funcCycle ≤ a.window1.2) && !overlapsB a (a.window1.1 - a.randomVar1) (a.window1.1 - a.randomVar1 + a.funcCycle - 1)

theorem uncoveredB_sound {a : Appliance} (h : uncoveredB a = true) : 0 < a.fixedCycle ∧ a.flat ≠ "yes" ∧ (∀ pref dt, ¬ SkippedForSure a pref dt) ∧
    0 ≤ a.occasionalUse ∧ UncoveredEvent a := by
  simp only [uncoveredB, Bool.and_eq_true, decide_eq_true_eq, Bool.not_eq_true', and_assoc] at h
  obtain ⟨h1, h2, h3, h4, h5, h6, h7, h8, h9, h10, h11⟩ := h
  refine ⟨h1, h2, fun pref dt hs => ?_, h6, (a.window1.1 - a.randomVar1, a.window1.2), a.window1.1 - a.randomVar1, .inl ?_, le_rfl, h10, ?_⟩
  · rcases hs with hs | hs | hs
    · exact hs.1 h3
    · exact hs.2 h4
    · exact h5 hs
  · exact ⟨a.window1.1 - a.randomVar1, a.window1.2, by omega, by omega, by ext <;> simp <;> omega⟩
  · have : ¬ (Overlaps1 a (a.window1.1 - a.randomVar1) (a.window1.1 - a.randomVar1 + a.funcCycle - 1) ∨ _ ∨ _) := fun hc => by
      rw [← overlapsB_iff, h11] at hc
      cases hc
    exact ⟨fun h => this (.inl h), fun h => this (.inr (.inl h)), fun h => this (.inr (.inr h))⟩

def continuousB (a : Appliance) : Bool := decide (a.fixedCycle ≤ 0) || decide (a.continuousDutyCycle ≠ 0)

def user3B (u : User) : Bool := decide (0 < u.numUsers) && decide (0 ≤ u.userPreference) && decide ((u.appList.map Appliance.oid).Nodup) &&
  (u.appList.all fun a => configB a && continuousB a && constB a) && u.appList.any uncoveredB

/-- What the check says, without the power values. -/
structure Cooking (u : User) : Prop where
  members : 0 < u.numUsers
  preference : 0 ≤ u.userPreference
  distinct : (u.appList.map Appliance.oid).Nodup
  safe : ∀ a ∈ u.appList, configB a = true ∧ continuousB a = true
  uncovered : ∃ a ∈ u.appList, uncoveredB a = true

theorem cooking_sync {u : User} (h : Cooking u) (a : Appliance) (ha : a ∈ u.appList) (l : List ℚ) : Cooking (u.sync { a with power := l }) := by
  refine ⟨h.members, h.preference, ?_, ?_, ?_⟩
  · have := sync_oids u { a with power := l }
    rw [this]
    exact h.distinct
  · intro b hb
    rcases mem_sync hb with ⟨h1, _⟩ | ⟨rfl, _⟩
    · exact h.safe b h1
    · exact h.safe a ha
  · obtain ⟨b, hb, hun⟩ := h.uncovered
    by_cases ho : b.oid = a.oid
    · have hab : b = a := by
        have h1 := find_oid h.distinct hb
        have h2 := find_oid h.distinct ha
        rw [ho, h2] at h1
        cases h1
        rfl
      subst hab
      refine ⟨{ b with power := l }, ?_, hun⟩
      unfold User.sync
      exact List.mem_map.2 ⟨b, hb, if_pos rfl⟩
    · refine ⟨b, ?_, hun⟩
      unfold User.sync
      exact List.mem_map.2 ⟨b, hb, if_neg ho⟩

/-- A successful `initialize` keeps the number of users. -/
theorem init_users_length {env : Env} {uc uc' : UseCase} {args : InitArgs} (hi : ¬ (uc.isInitialized = true ∧ args.force = false))
    (h : Returns (initUseCase env uc args) (uc', .ok ())) : uc'.users.length = uc.users.length := by
  obtain ⟨uc1, pe, r, hcal, _, _, rfl⟩ := returns_init_done hi h
  obtain ⟨_, n, hn⟩ := initCalendar_days hcal
  have husers : (initIndex { uc1 with peakEnlarge := pe, peakTimeRange := some r }).users = uc1.users := by
    unfold initIndex; split <;> rfl
  rw [husers]
  obtain ⟨v, hv1, _, hv3⟩ := initCalendar_checked hcal hn
  have hoids := checkPowers_oids n v.appliances v
  rw [hv1, hv3] at hoids
  have := congrArg List.length hoids
  simpa using this

theorem file3_pass : ∀ strict, callsPass user3B strict file3HH = true := by decide +kernel

theorem file3_grid : ∀ op ∈ file3HH.2, CallOnGrid 60 op := by decide +kernel

/-- **C86.** `input_file_3.py` (cooking with preferences): none of its calls raises and `initialize` succeeds for any number of days; a simulation can
raise nothing but `RecursionError`, but `RecursionError` it can raise, for some draws, whatever the number of days and the recursion limit: the duty
cycle windows of some dishes are their windows of use, which the simulation moves by up to 27 minutes. -/
theorem C86_input_file_3 (strict : Bool) : ∃ us, UserList strict inputFile3 us ∧ us.length = 1 ∧ (∀ vs, UserList strict inputFile3 vs → vs = us) ∧
    ∀ (today n : ℤ) (depth : ℕ) (pe : ℚ), 1 ≤ n → 0 ≤ pe → ∀ uc' res,
      Returns (initUseCase ⟨today, some n⟩ (collectAppliances { users := us }) { peakEnlarge := some (.float pe) }) (uc', res) →
      res = .ok () ∧ ∀ e, Raises (generateDaily ⟨today, some n⟩ (depth + 1) uc' none) e ↔ e = .recursionError := by
  obtain ⟨us, h1, h2, h3⟩ := userList_of_check (file := inputFile3) (check := user3B) (strict := strict) (by
    simp only [inputFile3, List.all_cons, List.all_nil, Bool.and_true]
    exact file3_pass strict)
  have hlen : us.length = 1 := by rw [← h1.length_eq]; rfl
  have hu : ∀ u ∈ us, Cooking u ∧ ∀ a ∈ u.appList, PowersAsBuilt a ∧ a.constantPower = true := by
    intro u hu
    have := h2 u hu
    simp only [user3B, Bool.and_eq_true, decide_eq_true_eq, List.all_eq_true, List.any_eq_true, and_assoc] at this
    obtain ⟨g1, g2, g3, g4, g5⟩ := this
    exact ⟨⟨g1, g2, g3, fun a ha => ⟨(g4 a ha).1, (g4 a ha).2.1⟩, g5⟩, fun a ha => constB_sound (g4 a ha).2.2⟩
  refine ⟨us, h1, hlen, h3, ?_⟩
  intro today n depth pe hn hpe uc' res h
  have hc : Collected (collectAppliances { users := us }) := ⟨rfl, fun u h => (hu u h).1.distinct⟩
  have hd : ChoosesDays (collectAppliances { users := us }) { peakEnlarge := some (.float pe) } := .inl ⟨rfl, rfl⟩
  have ha : AsksForDays ⟨today, some n⟩ (collectAppliances { users := us }) { peakEnlarge := some (.float pe) } n :=
    .inr ⟨rfl, .inr ⟨rfl, .inr ⟨.inl rfl, rfl⟩⟩⟩
  have hres : res = .ok () := by
    have := C82_initialize_outcome hc (fun u h a ha => ((hu u h).2 a ha).1) hd ha hn h
    rw [this, if_neg, if_neg (by simp), if_neg, if_neg]
    · exact grid_peak (k := 60) (by norm_num) (by norm_num) (userList_grid h1 (by
        simp only [inputFile3, List.mem_singleton, forall_eq]
        exact ⟨rfl, file3_grid⟩))
    · rintro ⟨q, h1, h2⟩
      cases h1
      linarith
    · rintro ⟨u, hm, a, hma, h4, _⟩
      rw [((hu u hm).2 a hma).2] at h4
      cases h4
  subst hres
  refine ⟨rfl, fun e => ?_⟩
  obtain ⟨_, peak, hr, hp, hdl, hQ, hpow⟩ := after_initialize (Q := Cooking) (fun u h a ha l => cooking_sync h a ha l) hc (fun u h => (hu u h).1) hd ha h
  have honly : ∀ e, Raises (generateDaily ⟨today, some n⟩ (depth + 1) uc' none) e → e = .recursionError := by
    intro e he
    refine (C87_only_recursion none hr hp (fun u h => (hQ u h).preference) (fun u hm a ha => ?_) he).1
    obtain ⟨k1, k2⟩ := configB_sound ((hQ u hm).safe a ha).1
    have k3 := ((hQ u hm).safe a ha).2
    simp only [continuousB, Bool.or_eq_true, decide_eq_true_eq] at k3
    refine ⟨k1, k2, fun hf => k3.resolve_left (by omega), ?_⟩
    have := hpow u hm a ha
    rw [hdl]
    omega
  refine ⟨honly e, ?_⟩
  rintro rfl
  by_contra hne
  have hnever : NeverRaises (generateDaily ⟨today, some n⟩ (depth + 1) uc' none) := fun e he => hne (honly e he ▸ he)
  -- the users are still there
  have hne' : uc'.users ≠ [] := by
    intro h0
    have hf := init_users_length hd.runs h
    rw [h0] at hf
    have : (collectAppliances { users := us }).users = us := rfl
    rw [this, hlen] at hf
    simp at hf
  obtain ⟨u, hm⟩ := List.exists_mem_of_ne_nil _ hne'
  obtain ⟨a, hma, hun⟩ := (hQ u hm).uncovered
  obtain ⟨g1, g2, g3, g4, g5⟩ := uncoveredB_sound hun
  obtain ⟨k1, k2⟩ := configB_sound ((hQ u hm).safe a hma).1
  have hday : (daysFrom (firstDay ⟨today, some n⟩ (collectAppliances { users := us }) n) n.toNat)[0]? = some (firstDay ⟨today, some n⟩ (collectAppliances { users := us }) n) := by
    obtain ⟨m, hm⟩ : ∃ m, n.toNat = m + 1 := ⟨n.toNat - 1, by omega⟩
    rw [hm]
    rfl
  obtain ⟨_, hsafe⟩ := (C82_cannot_fail_iff none hr).1 hnever 0 _ hday u hm (hQ u hm).members
  obtain ⟨pref, hpref⟩ : ∃ pref, PreferenceOf u pref := by
    have := (hQ u hm).preference
    unfold PreferenceOf
    by_cases h0 : u.userPreference = 0
    · exact ⟨0, by rw [if_pos h0]⟩
    · exact ⟨1, by rw [if_neg h0]; omega⟩
  obtain ⟨p, _, hp2⟩ := hsafe pref hpref a hma
  exact hp2 .recursionError (raises_generate_iff.2 (raises_uncovered k1 k2 g1 g2 (g3 _ _) g4 g5))

end Ramp
