import Verif.Props.History
import Verif.Props.Peak

/-! # C41: use cases whose peak time range can always be computed -/

set_option autoImplicit false

namespace Ramp

/-- Both ends of a window given in a call are multiples of `k` minutes. -/
def GivenOnGrid (k : ℤ) : Option (ℤ × ℤ) → Prop
  | none => True
  | some w => k ∣ w.1 ∧ k ∣ w.2

/-- All windows given to a call of `windows()` are on the grid of `k` minutes. -/
def WindowsOnGrid (k : ℤ) (w : WindowsArgs) : Prop := GivenOnGrid k w.window1 ∧ GivenOnGrid k w.window2 ∧ GivenOnGrid k w.window3

/-- All windows given in a call are on the grid of `k` minutes. -/
def CallOnGrid (k : ℤ) : ApiOp → Prop
  | .windows _ w => WindowsOnGrid k w
  | .add _ a => match a.windows with
    | none => True
    | some w => WindowsOnGrid k w
  | _ => True

instance (k : ℤ) (w : Option (ℤ × ℤ)) : Decidable (GivenOnGrid k w) := by
  unfold GivenOnGrid
  cases w <;> exact inferInstance

instance (k : ℤ) (w : WindowsArgs) : Decidable (WindowsOnGrid k w) := by unfold WindowsOnGrid; exact inferInstance

instance (k : ℤ) (op : ApiOp) : Decidable (CallOnGrid k op) := by
  unfold CallOnGrid
  cases op with
  | windows _ w => exact inferInstance
  | add _ a => simp only; cases a.windows <;> exact inferInstance
  | _ => exact isTrue trivial

/-- The user is the result of a program that starts from a user without appliances, whose calls succeed and whose windows are on the grid. -/
def BuiltOnGrid (k : ℤ) (u : User) : Prop :=
  ∃ strict u0 ops s, u0.appList = [] ∧ (∀ op ∈ ops, CallOnGrid k op) ∧ apiRunUncaught strict { user := u0 } ops = (s, .ok ()) ∧ s.user = u

/-! ## The invariant -/

/-- The curve is constant on each of the blocks of `k` minutes. -/
def BlockConst (k : ℤ) (p : Profile) : Prop := ∀ i j : Fin 1440, ((i : ℕ) : ℤ) / k = ((j : ℕ) : ℤ) / k → p i = p j

structure GridApp (k : ℤ) (a : Appliance) : Prop where
  w2 : k ∣ a.window2.1 ∧ k ∣ a.window2.2
  w3 : k ∣ a.window3.1 ∧ k ∣ a.window3.2
  curve : BlockConst k a.dailyUse

theorem sliceBound_dvd {k x : ℤ} (hd : k ∣ 1440) (hx : k ∣ x) : k ∣ sliceBound x := by
  unfold sliceBound
  split_ifs
  · rcases le_total 0 (x + 1440) with h | h
    · rw [max_eq_right h]; exact dvd_add hx hd
    · rw [max_eq_left h]; exact dvd_zero k
  · rcases le_total x 1440 with h | h
    · rw [min_eq_left h]; exact hx
    · rw [min_eq_right h]; exact hd

theorem le_iff_div {k s x : ℤ} (hk : 0 < k) (hs : k ∣ s) : s ≤ x ↔ s / k ≤ x / k := by
  obtain ⟨m, rfl⟩ := hs
  rw [Int.mul_ediv_cancel_left _ hk.ne', Int.le_ediv_iff_mul_le hk, mul_comm]

theorem blockConst_fill {k : ℤ} (hk : 0 < k) (hd : k ∣ 1440) {p d : Profile} {lo hi n : ℤ} {v : ℚ} (hp : BlockConst k p) (h1 : k ∣ lo) (h2 : k ∣ hi)
    (h : fillSlice p lo hi n v = .ok d) : BlockConst k d := by
  unfold fillSlice at h
  split_ifs at h
  simp only at h
  split_ifs at h
  injection h with h
  subst h
  intro i j hij
  simp only
  have e1 : sliceBound lo ≤ ((i : ℕ) : ℤ) ↔ sliceBound lo ≤ ((j : ℕ) : ℤ) := by
    rw [le_iff_div hk (sliceBound_dvd hd h1), le_iff_div hk (sliceBound_dvd hd h1), hij]
  have e2 : ((i : ℕ) : ℤ) < sliceBound hi ↔ ((j : ℕ) : ℤ) < sliceBound hi := by
    rw [← not_le, ← not_le, le_iff_div hk (sliceBound_dvd hd h2), le_iff_div hk (sliceBound_dvd hd h2), hij]
  simp only [e1, e2, hp i j hij]

theorem blockConst_windows {k : ℤ} (hk : 0 < k) (hd : k ∣ 1440) {w1 w2 w3 : ℤ × ℤ} {d : Profile} {v : ℚ} (h1 : k ∣ w1.1 ∧ k ∣ w1.2)
    (h2 : k ∣ w2.1 ∧ k ∣ w2.2) (h3 : k ∣ w3.1 ∧ k ∣ w3.2) (h : fillWindows w1 w2 w3 v = .ok d) : BlockConst k d := by
  unfold fillWindows at h
  cases e1 : fillSlice zeros w1.1 w1.2 (w1.2 - w1.1) v with
  | error e => rw [e1] at h; cases h
  | ok d1 =>
    rw [e1] at h
    change (fillSlice d1 _ _ _ _ >>= _) = _ at h
    cases e2 : fillSlice d1 w2.1 w2.2 (w2.2 - w2.1) v with
    | error e => rw [e2] at h; cases h
    | ok d2 =>
      rw [e2] at h
      exact blockConst_fill hk hd (blockConst_fill hk hd (blockConst_fill hk hd (fun _ _ _ => rfl) h1.1 h1.2 e1) h2.1 h2.2 e2) h3.1 h3.2 h

theorem grid_kept (k : ℤ) : Kept (GridApp k) where
  rename := fun _ _ h => ⟨h.w2, h.w3, h.curve⟩
  tail := fun a h => by
    unfold windowsTail
    split_ifs
    · exact ⟨h.w2, h.w3, h.curve⟩
    · exact h

theorem grid_made {k : ℤ} {nd : ℤ} {a : AppArgs} : MadeBy (GridApp k) nd a := by
  intro oid app hm
  obtain ⟨p, c, rfl⟩ := mkAppliance_fields hm
  exact ⟨⟨dvd_zero k, dvd_zero k⟩, ⟨dvd_zero k, dvd_zero k⟩, fun _ _ _ => rfl⟩

theorem grid_getD {k : ℤ} {o : Option (ℤ × ℤ)} {d : ℤ × ℤ} (h : GivenOnGrid k o) (hd : k ∣ d.1 ∧ k ∣ d.2) : k ∣ (o.getD d).1 ∧ k ∣ (o.getD d).2 := by
  cases o with
  | none => exact hd
  | some w => exact h

theorem grid_windows {k : ℤ} (hk : 0 < k) (hd : k ∣ 1440) {w : WindowsArgs} (h : WindowsOnGrid k w) : KeptByWindows (GridApp k) w := by
  intro a a' ha hb
  obtain ⟨d, rfl, hf⟩ := windowsBody_ok hb
  have g1 : k ∣ (windowsAfter a w).1.1 ∧ k ∣ (windowsAfter a w).1.2 := grid_getD h.1 ⟨dvd_zero k, hd⟩
  have g2 : k ∣ (windowsAfter a w).2.1.1 ∧ k ∣ (windowsAfter a w).2.1.2 := grid_getD h.2.1 ha.w2
  have g3 : k ∣ (windowsAfter a w).2.2.1 ∧ k ∣ (windowsAfter a w).2.2.2 := grid_getD h.2.2 ha.w3
  exact ⟨g2, g3, blockConst_windows hk hd g1 g2 g3 hf⟩

theorem grid_cycle {k n : ℤ} {c : CycleArgs} : KeptByCycle (GridApp k) n c := by
  intro a ha _
  unfold specificCycle specificCycle1 specificCycle2 specificCycle3
  split_ifs <;> exact ⟨ha.w2, ha.w3, ha.curve⟩

theorem grid_op {k : ℤ} (hk : 0 < k) (hd : k ∣ 1440) {op : ApiOp} (h : CallOnGrid k op) : KeptByOp (GridApp k) op := by
  cases op with
  | construct nd a => exact grid_made
  | windows o w => exact grid_windows hk hd h
  | cycle o n c => exact grid_cycle
  | behaviour o c1 c2 c3 c4 c5 c6 => exact fun a ha => ⟨ha.w2, ha.w3, ha.curve⟩
  | addObjects os => trivial
  | add nd a =>
    refine ⟨grid_made, fun w hw => ?_, fun p _ => grid_cycle⟩
    simp only [CallOnGrid, hw] at h
    exact grid_windows hk hd h
  | legacy nd a => exact grid_made

theorem BuiltOnGrid.apps {k : ℤ} (hk : 0 < k) (hd : k ∣ 1440) {u : User} (h : BuiltOnGrid k u) : ∀ a ∈ u.appList, GridApp k a := by
  obtain ⟨strict, u0, ops, s, h0, hops, hrun, rfl⟩ := h
  exact (apiRun_kept (grid_kept k) strict ops { user := u0 } s (fun op ho => grid_op hk hd (hops op ho)) (by intro a ha; simp [h0] at ha)
    (by simp) hrun).1

theorem block_load {k : ℤ} {us : List User} (h : ∀ u ∈ us, ∀ a ∈ u.appList, BlockConst k a.dailyUse) : BlockConst k (maximumLoad us) := by
  intro i j hij
  unfold maximumLoad
  congr 1
  refine List.map_congr_left fun u hu => ?_
  congr 2
  refine List.map_congr_left fun a ha => ?_
  rw [h u hu a ha i j hij]

/-- In a load that is constant on blocks of `k ≥ 2` minutes the peak lasts at least a block. -/
theorem block_two_peaks {k : ℤ} (hk : 2 ≤ k) (hd : k ∣ 1440) {p : Profile} (h : BlockConst k p) : ¬ ∃! i, IsPeak p i := by
  rintro ⟨i, hi, hu⟩
  obtain ⟨m, hm⟩ := hd
  have hi1 : ((i : ℕ) : ℤ) < 1440 := by exact_mod_cast i.2
  have hdm := Int.mul_ediv_add_emod ((i : ℕ) : ℤ) k
  have hr0 := Int.emod_nonneg ((i : ℕ) : ℤ) (by omega : k ≠ 0)
  have hr1 := Int.emod_lt_of_pos ((i : ℕ) : ℤ) (by omega : 0 < k)
  have hq : ((i : ℕ) : ℤ) / k + 1 ≤ m := by
    have : ((i : ℕ) : ℤ) / k < m := (Int.ediv_lt_iff_lt_mul (by omega)).2 (by rw [mul_comm]; omega)
    omega
  have hq' : k * (((i : ℕ) : ℤ) / k) + k ≤ 1440 := by
    rw [hm]
    have := mul_le_mul_of_nonneg_left hq (by omega : (0 : ℤ) ≤ k)
    rwa [mul_add, mul_one] at this
  -- another minute of the same block
  obtain ⟨x, hx0, hx1, hxi, hxq⟩ : ∃ x : ℤ, 0 ≤ x ∧ x < 1440 ∧ x ≠ ((i : ℕ) : ℤ) ∧ x / k = ((i : ℕ) : ℤ) / k := by
    by_cases hr : ((i : ℕ) : ℤ) % k = 0
    · refine ⟨((i : ℕ) : ℤ) + 1, by omega, by omega, by omega, ?_⟩
      refine (Int.ediv_emod_unique (r := 1) (by omega)).2 ⟨by omega, by omega, by omega⟩ |>.1
    · have hi0 : ((i : ℕ) : ℤ) ≠ 0 := fun h0 => hr (by rw [h0]; exact Int.zero_emod k)
      refine ⟨((i : ℕ) : ℤ) - 1, by omega, by omega, by omega, ?_⟩
      refine (Int.ediv_emod_unique (r := ((i : ℕ) : ℤ) % k - 1) (by omega)).2 ⟨by omega, by omega, by omega⟩ |>.1
  let j : Fin 1440 := ⟨x.toNat, by omega⟩
  have hj : (((j : Fin 1440) : ℕ) : ℤ) = x := by simp [j, hx0]
  have hpj : p j = p i := h j i (by rw [hj]; exact hxq)
  have := hu j (fun l => by rw [hpj]; exact hi l)
  rw [this] at hj
  exact hxi hj.symm

/-- **C41 (partial).** When all windows given by the users' programs begin and end at multiples of `k` minutes (`k ≥ 2` a divisor of the day: 5, 10, 15,
30, 60, ...), `calc_peak_time_range()` never raises, whatever the powers, numbers and random draws.  Missing: other windows, for which it may
raise. -/
theorem C41_windows_on_a_grid_partial {k : ℤ} (hk : 2 ≤ k) (hd : k ∣ 1440) {us : List User} (h : ∀ u ∈ us, BuiltOnGrid k u) (pe : ℚ) :
    NeverRaises (peakTimeRangeOf us pe) := by
  intro e he
  exact block_two_peaks hk hd (block_load fun u hu a ha => ((h u hu).apps (by omega) hd a ha).curve) ((raises_peak e).1 he).2

/-- A case: the lamp of two windows. -/
theorem grid_example : ∃ s, apiRunUncaught true {} [.add 366 { app := { number := 6, power := .number 7, numWindows := 2, funcTime := 120 } },
    .windows 0 { window1 := some (1170, 1440), window2 := some (0, 30) }] = (s, .ok ()) ∧ s.user.appList.length = 1 ∧ BuiltOnGrid 30 s.user := by
  have h1 : (match (apiRunUncaught true {} [.add 366 { app := { number := 6, power := .number 7, numWindows := 2, funcTime := 120 } },
      .windows 0 { window1 := some (1170, 1440), window2 := some (0, 30) }]) with
      | (s, .ok ()) => s.user.appList.length
      | _ => 0) = 1 := by decide +kernel
  cases hr : apiRunUncaught true {} [.add 366 { app := { number := 6, power := .number 7, numWindows := 2, funcTime := 120 } },
      .windows 0 { window1 := some (1170, 1440), window2 := some (0, 30) }] with
  | mk s r =>
    rw [hr] at h1
    cases r with
    | error e => simp at h1
    | ok x => exact ⟨s, rfl, by simpa using h1, true, {}, _, s, rfl, by decide, hr, rfl⟩

end Ramp
