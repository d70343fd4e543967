import Verif.Props.NotLoadable

/-! # Concrete use cases for properties C53, C57 and C76 -/

set_option autoImplicit false

namespace Ramp

/-- A lamp and a fan with two windows. -/
def houseOps : List ApiOp :=
  [.add 1 { app := { name := "Lamp", power := .number 7, funcTime := 120 }, windows := some { window1 := some (1170, 1440) } },
   .add 1 { app := { name := "Fan", power := .number 50, numWindows := 2, funcTime := 300, number := 3 },
            windows := some { window1 := some (0, 600), window2 := some (700, 1000), randomVarW := 1 / 10 } }]

/-- A fridge with a duty cycle, built step by step. -/
def shopOps : List ApiOp :=
  [.construct 1 { name := "Fridge", power := .number 100, funcTime := 1440, funcCycle := 30, fixed := "yes", fixedCycle := 1 },
   .windows 0 { window1 := some (0, 1440) },
   .cycle 0 1 { p1 := 100, t1 := 10, p2 := 5, t2 := 20, rc := 0, cwa := some (0, 1440) },
   .addObjects [0]]

/-- The user that a program builds. -/
def userOf (name : String) (n : ℤ) (ops : List ApiOp) : User :=
  { (apiRunUncaught true {} ops).1.user with userName := name, numUsers := n }

/-- Two users. -/
def villageCase : UseCase := { users := [userOf "house" 4 houseOps, userOf "shop" 1 shopOps] }

theorem houseOps_saveable : ∀ op ∈ houseOps, SaveableOp op := by
  intro op hop
  simp only [houseOps, List.mem_cons, List.not_mem_nil, or_false] at hop
  rcases hop with rfl | rfl
  · refine ⟨⟨by show (0 : ℚ) ≤ 0; norm_num, ?_, by simp [AddArgs.cycles]⟩, ⟨by show (0 : ℤ) ≤ 1; norm_num, by decide, by decide⟩⟩
    intro w hw
    simp only [Option.some.injEq] at hw
    subst hw
    refine ⟨by simp, by simp, by simp, by norm_num, by norm_num⟩
  · refine ⟨⟨by show (0 : ℚ) ≤ 0; norm_num, ?_, by simp [AddArgs.cycles]⟩, ⟨by show (0 : ℤ) ≤ 1; norm_num, by decide, by decide⟩⟩
    intro w hw
    simp only [Option.some.injEq] at hw
    subst hw
    refine ⟨by simp, by simp, by simp, by norm_num, by norm_num⟩

theorem shopOps_saveable : ∀ op ∈ shopOps, SaveableOp op := by
  intro op hop
  simp only [shopOps, List.mem_cons, List.not_mem_nil, or_false] at hop
  rcases hop with rfl | rfl | rfl | rfl
  · exact ⟨by show (0 : ℚ) ≤ 0; norm_num, ⟨by show (0 : ℤ) ≤ 1; norm_num, by decide, by decide⟩⟩
  · refine ⟨⟨by simp, by simp, by simp, by norm_num, by norm_num⟩, trivial⟩
  · refine ⟨⟨by norm_num, by simp, by simp⟩, trivial⟩
  · exact ⟨trivial, trivial⟩

theorem builtOf {name : String} {n : ℤ} {ops : List ApiOp} (h : ∀ op ∈ ops, SaveableOp op) (hr : (apiRunUncaught true {} ops).2 = .ok ()) :
    BuiltByProgram true (userOf name n ops) :=
  ⟨ops, (apiRunUncaught true {} ops).1, h, by rw [← hr], rfl⟩

theorem village_users {P : User → Prop} (h1 : P (userOf "house" 4 houseOps)) (h2 : P (userOf "shop" 1 shopOps)) : ∀ u ∈ villageCase.users, P u := by
  intro u hu
  simp only [villageCase, List.mem_cons, List.not_mem_nil, or_false] at hu
  rcases hu with rfl | rfl <;> assumption

theorem pairwise_names {l : List Appliance} (h : (l.map (fun a => a.name)).Nodup) : l.Pairwise (fun a b => ¬ SameSaved a b) := by
  rw [List.Nodup, List.pairwise_map] at h
  refine h.imp ?_
  intro a b hne hs
  apply hne
  have := hs.1
  unfold savedAttributes at this
  simp only [SavedAttributes.mk.injEq, List.cons.injEq, and_true] at this
  exact this.1.1

theorem village_built : ∀ u ∈ villageCase.users, BuiltByProgram true u :=
  village_users (builtOf houseOps_saveable (by decide +kernel)) (builtOf shopOps_saveable (by decide +kernel))

theorem village_constant : ∀ u ∈ villageCase.users, ∀ a ∈ u.appList, ∃ p, ConstantPower a.power p := by
  have key : ∀ u ∈ villageCase.users, ∀ l ∈ u.appList.map (fun a => a.power), l ≠ [] ∧ ∀ x ∈ l, x = l.headD 0 := by
    apply village_users <;> decide +kernel
  intro u hu a ha
  obtain ⟨h1, h2⟩ := key u hu a.power (List.mem_map_of_mem (f := fun a : Appliance => a.power) ha)
  exact ⟨_, h1, h2⟩

theorem village_windows : ∀ u ∈ villageCase.users, ∀ a ∈ u.appList, a.window1 ≠ (0, 0) := by
  have key : ∀ u ∈ villageCase.users, ∀ w ∈ u.appList.map (fun a => a.window1), w ≠ (0, 0) := by
    apply village_users <;> decide +kernel
  intro u hu a ha
  exact key u hu a.window1 (List.mem_map_of_mem (f := fun a : Appliance => a.window1) ha)

theorem village_distinct : ∀ u ∈ villageCase.users, u.appList.Pairwise (fun a b => ¬ SameSaved a b) :=
  fun u hu => pairwise_names (village_users (P := fun u => (u.appList.map (fun a => a.name)).Nodup) (by decide +kernel) (by decide +kernel) u hu)

/-- Non-vacuity of C57_programs_partial, and through it of C53 and C76: two users, three appliances. -/
example : ∃ t uc' us, saveUseCase villageCase = .ok t ∧ loadUseCase true oneDayCase (toExcel t) = (uc', .ok ()) ∧ uc'.users = us ∧
    List.Forall₂ SameSavedUser villageCase.users us := by
  obtain ⟨t, uc', us, h1, h2, h3, h4, -⟩ := C57_programs_partial true true villageCase oneDayCase (by simp [villageCase])
    (by decide +kernel) village_built (village_users (by decide) (by decide))
    (village_users (P := fun u => u.appList ≠ []) (fun h => absurd (congrArg List.length h) (by decide +kernel))
      (fun h => absurd (congrArg List.length h) (by decide +kernel)))
    village_windows village_distinct (fun u hu => .inr (.inr (.inl (village_constant u hu)))) (by decide)
  exact ⟨t, uc', us, h1, h2, by rw [h3]; rfl, h4⟩

theorem village_valid : ∀ u ∈ villageCase.users, ValidUserToSave u := fun u hu =>
  ⟨village_users (P := fun u => u.userName ≠ "") (by decide) (by decide) u hu,
   village_users (P := fun u => u.appList ≠ []) (fun h => absurd (congrArg List.length h) (by decide +kernel))
      (fun h => absurd (congrArg List.length h) (by decide +kernel)) u hu,
   (program_valid (village_built u hu) (village_windows u hu)).1, village_distinct u hu⟩

/-- Non-vacuity of the hypotheses of C53 and C76. -/
example : villageCase.users ≠ [] ∧ (villageCase.users.map (fun u => u.userName)).Nodup ∧ (∀ u ∈ villageCase.users, ValidUserToSave u) ∧
    (∀ u ∈ villageCase.users, ComparableUser true oneDayCase.userDays u) ∧ 0 ≤ oneDayCase.userDays ∧
    (∀ u ∈ villageCase.users, ∀ a ∈ u.appList, WindowVariability a) :=
  ⟨by simp [villageCase], by decide +kernel, village_valid, fun u hu => .inr (.inr (.inl (village_constant u hu))), by decide,
    fun u hu => (program_valid (village_built u hu) (village_windows u hu)).2⟩

/-! ## Use cases that are saved but not loaded again -/

/-- A use case is saved, with `n` lines. -/
def savedLines (uc : UseCase) : Option ℕ := match saveUseCase uc with
  | .ok t => some t.length
  | .error _ => none

theorem savedLines_ok {uc : UseCase} {n : ℕ} (h : savedLines uc = some n) : ∃ t, saveUseCase uc = .ok t := by
  unfold savedLines at h
  cases hs : saveUseCase uc with
  | error e => rw [hs] at h; cases h
  | ok t => exact ⟨t, rfl⟩

/-- A lamp with the given power, for three days of use. -/
def lampUser (name : String) (p : PowerArg) : User :=
  userOf name 1 [.add 3 { app := { name := "Lamp", power := p, funcTime := 120 }, windows := some { window1 := some (1170, 1440) } }]

/-- Case for C57_other_length_partial: a power series for three days. -/
example : ∃ t, saveUseCase { users := [lampUser "house" (.series [1, 2, 3])] } = .ok t ∧
    loadUseCase true {} (toExcel t) = ({}, .error .valueError) := by
  obtain ⟨t, ht⟩ := savedLines_ok (uc := { users := [lampUser "house" (.series [1, 2, 3])] }) (n := 1) (by decide +kernel)
  refine ⟨t, ht, ?_⟩
  have key : ∃ a, (lampUser "house" (.series [1, 2, 3])).appList = [a] ∧ a.power = [1, 2, 3] := ⟨_, rfl, rfl⟩
  obtain ⟨a, ha, hp⟩ := key
  exact C57_other_length_partial true _ {} t _ List.mem_cons_self a (by rw [ha]; simp) (by rw [hp]; simp) (by rw [hp]; simp) ht

/-- Case for C57_nameless_user_partial. -/
example : ∃ t, saveUseCase { users := [lampUser "" (.number 7)] } = .ok t ∧ ∀ uc', loadUseCase true {} (toExcel t) ≠ (uc', .ok ()) := by
  obtain ⟨t, ht⟩ := savedLines_ok (uc := { users := [lampUser "" (.number 7)] }) (n := 1) (by decide +kernel)
  exact ⟨t, ht, fun uc' => C57_nameless_user_partial true _ {} uc' t _ List.mem_cons_self rfl ht⟩

/-- The lamp and the fan, in two users with one name. -/
def twinCase : UseCase := { users := [lampUser "house" (.number 7), userOf "house" 1 [.add 3
  { app := { name := "Fan", power := .number 50, funcTime := 60 }, windows := some { window1 := some (0, 600) } }]] }

/-- Case for C57_same_name_partial: two users of one name become one user with both appliances. -/
example : ∃ t uc', saveUseCase twinCase = .ok t ∧ loadUseCase true oneDayCase (toExcel t) = (uc', .ok ()) ∧ uc'.users.length = 1 ∧
    twinCase.users.length = 2 := by
  have h : (match saveUseCase twinCase with
    | .ok t => match loadUseCase true oneDayCase (toExcel t) with
      | (uc', .ok ()) => uc'.users.length
      | _ => 0
    | _ => 0) = 1 := by decide +kernel
  cases hs : saveUseCase twinCase with
  | error e => rw [hs] at h; cases h
  | ok t =>
    rw [hs] at h
    simp only at h
    cases hl : loadUseCase true oneDayCase (toExcel t) with
    | mk uc' r =>
      rw [hl] at h
      cases r with
      | error e => cases h
      | ok x => exact ⟨t, uc', rfl, hl, h, rfl⟩

/-- Case for C57_time_exceeds_windows_partial: `windows()` was never called. -/
example : ∃ t, saveUseCase { users := [userOf "house" 1 [.add 3 { app := { name := "Lamp", power := .number 7, funcTime := 120 } }]] } = .ok t ∧
    ∀ uc', loadUseCase true {} (toExcel t) ≠ (uc', .ok ()) := by
  obtain ⟨t, ht⟩ := savedLines_ok (uc := { users := [userOf "house" 1 [.add 3 { app := { name := "Lamp", power := .number 7, funcTime := 120 } }]] })
    (n := 1) (by decide +kernel)
  refine ⟨t, ht, fun uc' => ?_⟩
  have key : ∃ a, (userOf "house" 1 [.add 3 { app := { name := "Lamp", power := .number 7, funcTime := 120 } }]).appList = [a] ∧
      a.name = "Lamp" ∧ a.fixed = "no" ∧ a.flat = "no" ∧ a.numWindows = 1 ∧ a.window1 = (0, 0) ∧ a.window2 = (0, 0) ∧ a.window3 = (0, 0) ∧
      a.funcTime = 120 := ⟨_, rfl, rfl, rfl, rfl, rfl, rfl, rfl, rfl, rfl⟩
  obtain ⟨a, ha, h1, h2, h3, h4, h5, h6, h7, h8⟩ := key
  refine C57_time_exceeds_windows_partial true _ {} uc' t _ List.mem_cons_self a (by rw [ha]; simp) (by decide)
    ⟨by rw [h1]; decide, by rw [h2]; decide, by rw [h3]; decide⟩ ?_ ht
  rw [h4, h5, h6, h7, h8]
  decide

/-! ## Two kinds of power -/

/-- A lamp with a constant power and one with a power for each of 366 days. -/
def mixedUser : User := userOf "house" 1
  [.add 365 { app := { name := "Lamp", power := .number 7, funcTime := 120 }, windows := some { window1 := some (1170, 1440) } },
   .add 365 { app := { name := "Lamp", power := .series ((List.range 366).map (fun (k : ℕ) => (k : ℚ))), funcTime := 120 },
              windows := some { window1 := some (1170, 1440) } }]

/-- **C57 is false: two kinds of power.** With numpy 1.25 or later a user with a constant power and a power for each of 366 days,
built in a use case of 365 days, is saved; loading it into a use case that has not been initialised raises ValueError. -/
theorem C57_mixed_powers_partial : ∃ t, saveUseCase { users := [mixedUser] } = .ok t ∧ mixedUser.appList.length = 2 ∧
    (loadUseCase true {} (toExcel t)).2 = .error .valueError := by
  have h : (match saveUseCase { users := [mixedUser] } with
    | .ok t => decide ((loadUseCase true {} (toExcel t)).2 = .error .valueError)
    | _ => false) = true := by decide +kernel
  cases hs : saveUseCase { users := [mixedUser] } with
  | error e => rw [hs] at h; cases h
  | ok t =>
    rw [hs] at h
    exact ⟨t, rfl, by decide +kernel, of_decide_eq_true h⟩

end Ramp
