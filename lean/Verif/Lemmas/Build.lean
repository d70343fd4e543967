import Verif.Lemmas.Gen
import Verif.Model.Api

/-! # Helper lemmas about the construction API -/

set_option autoImplicit false

namespace Ramp

/-- When numpy accepts `a[lo:hi] = np.full(hi - lo, v)` on an array of 1440 values: the range is ordered and lies in the day, or
lies in the day when counted from its end, or is empty or a single minute. -/
def Writable (w : ℤ × ℤ) : Prop :=
  w.1 ≤ w.2 ∧ ((0 ≤ w.1 ∧ w.2 ≤ 1440) ∨ (-1440 ≤ w.1 ∧ w.2 < 0) ∨ w.2 ≤ w.1 + 1)

instance (w : ℤ × ℤ) : Decidable (Writable w) := by unfold Writable; infer_instance

theorem fillSlice_ok_iff (p : Profile) (w : ℤ × ℤ) (v : ℚ) :
    (∃ d, fillSlice p w.1 w.2 (winLen w) v = .ok d) ↔ Writable w := by
  unfold fillSlice winLen Writable
  by_cases h : w.2 - w.1 < 0
  · rw [if_pos h]
    constructor
    · rintro ⟨d, hd⟩; cases hd
    · rintro ⟨h', _⟩; omega
  · rw [if_neg h]
    simp only
    by_cases hc : w.2 - w.1 = max 0 (sliceBound w.2 - sliceBound w.1) ∨ w.2 - w.1 = 1
    · rw [if_pos hc]
      refine ⟨fun _ => ?_, fun _ => ⟨_, rfl⟩⟩
      unfold sliceBound at hc
      refine ⟨by omega, ?_⟩
      split_ifs at hc <;> omega
    · rw [if_neg hc]
      constructor
      · rintro ⟨d, hd⟩; cases hd
      · rintro ⟨h1, h2⟩
        exfalso; apply hc
        unfold sliceBound
        split_ifs <;> omega

theorem fillSlice_error {p : Profile} {w : ℤ × ℤ} {v : ℚ} {e : Err} (h : fillSlice p w.1 w.2 (winLen w) v = .error e) :
    e = .valueError := by
  unfold fillSlice at h
  split_ifs at h
  all_goals (first | (cases h; rfl) | skip)
  simp only at h
  split_ifs at h
  cases h; rfl

theorem dayWindow_writable {w : ℤ × ℤ} (h : DayWindow w) : Writable w := ⟨h.2.1, .inl ⟨h.1, h.2.2⟩⟩

/-- The windows of use after `windows()` stored its arguments. -/
def storedWindow1 (w : WindowsArgs) : ℤ × ℤ := w.window1.getD (0, 1440)

/-- `windowTime` without the attribute access. -/
theorem windowTime_of_le {app : Appliance} (h : app.numWindows ≤ 3) : windowTime app = .ok
    ((if app.numWindows ≥ 1 then winLen app.window1 else 0) + (if app.numWindows ≥ 2 then winLen app.window2 else 0)
      + (if app.numWindows ≥ 3 then winLen app.window3 else 0)) := by
  unfold windowTime; rw [if_neg (by omega)]

/-- Only the attributes set by `windows()` differ. -/
def WindowsChanged (a b : Appliance) : Prop :=
  ∃ w1 w2 w3 rv r1 r2 r3 d, b = { a with
    window1 := w1, window2 := w2, window3 := w3, randomVarW := rv, randomVar1 := r1, randomVar2 := r2, randomVar3 := r3,
    dailyUse := d }

theorem windowsBody_changed (app : Appliance) (w : WindowsArgs) : WindowsChanged app (windowsBody app w).1 := by
  unfold windowsBody
  simp only
  split_ifs
  · exact ⟨_, _, _, _, _, _, _, _, rfl⟩
  · exact ⟨_, _, _, _, _, _, _, _, rfl⟩
  · split
    · exact ⟨_, _, _, _, _, _, _, _, rfl⟩
    · split_ifs
      · exact ⟨_, _, _, _, _, _, _, _, rfl⟩
      · split
        · exact ⟨_, _, _, _, _, _, _, _, rfl⟩
        · split
          · exact ⟨_, _, _, _, _, _, _, _, rfl⟩
          · split
            · exact ⟨_, _, _, _, _, _, _, _, rfl⟩
            · exact ⟨_, _, _, _, _, _, _, _, rfl⟩

theorem WindowsChanged.oid {a b : Appliance} (h : WindowsChanged a b) : b.oid = a.oid := by
  obtain ⟨_, _, _, _, _, _, _, _, rfl⟩ := h; rfl

theorem WindowsChanged.name {a b : Appliance} (h : WindowsChanged a b) : b.name = a.name := by
  obtain ⟨_, _, _, _, _, _, _, _, rfl⟩ := h; rfl

theorem WindowsChanged.power {a b : Appliance} (h : WindowsChanged a b) : b.power = a.power := by
  obtain ⟨_, _, _, _, _, _, _, _, rfl⟩ := h; rfl

theorem windowsTail_oid (a : Appliance) : (windowsTail a).oid = a.oid := by unfold windowsTail; split_ifs <;> rfl
theorem windowsTail_name (a : Appliance) : (windowsTail a).name = a.name := by unfold windowsTail; split_ifs <;> rfl
theorem windowsTail_power (a : Appliance) : (windowsTail a).power = a.power := by unfold windowsTail; split_ifs <;> rfl

theorem specificCycle_oid (a : Appliance) (n : ℤ) (c : CycleArgs) : (specificCycle a n c).1.oid = a.oid := by
  unfold specificCycle; split_ifs <;> rfl
theorem specificCycle_name (a : Appliance) (n : ℤ) (c : CycleArgs) : (specificCycle a n c).1.name = a.name := by
  unfold specificCycle; split_ifs <;> rfl
theorem specificCycle_power (a : Appliance) (n : ℤ) (c : CycleArgs) : (specificCycle a n c).1.power = a.power := by
  unfold specificCycle; split_ifs <;> rfl

/-! ## `sync` -/

theorem sync_of_fresh {u : User} {app : Appliance} (h : ∀ a ∈ u.appList, a.oid ≠ app.oid) : u.sync app = u := by
  have : u.appList.map (fun a => if a.oid = app.oid then app else a) = u.appList := by
    conv_rhs => rw [← List.map_id u.appList]
    apply List.map_congr_left
    intro a ha
    rw [if_neg (h a ha)]; rfl
  unfold User.sync
  rw [this]

theorem sync_oids (u : User) (app : Appliance) : (u.sync app).appList.map Appliance.oid = u.appList.map Appliance.oid := by
  unfold User.sync
  rw [List.map_map]
  apply List.map_congr_left
  intro a _
  simp only [Function.comp]
  split_ifs with h
  · exact h.symm
  · rfl

theorem mem_sync {u : User} {app a : Appliance} (h : a ∈ (u.sync app).appList) :
    (a ∈ u.appList ∧ a.oid ≠ app.oid) ∨ (a = app ∧ ∃ b ∈ u.appList, b.oid = app.oid) := by
  unfold User.sync at h
  simp only [List.mem_map] at h
  obtain ⟨b, hb, rfl⟩ := h
  split_ifs with hh
  · exact .inr ⟨rfl, b, hb, hh⟩
  · exact .inl ⟨hb, hh⟩

theorem sync_append {u : User} {app app' : Appliance} {l : List Appliance} (h : ∀ a ∈ l, a.oid ≠ app.oid) (ho : app'.oid = app.oid) :
    ({ u with appList := l ++ [app'] }.sync app).appList = l ++ [app] := by
  unfold User.sync
  simp only [List.map_append, List.map_cons, List.map_nil, ho, if_true]
  congr 1
  conv_rhs => rw [← List.map_id l]
  apply List.map_congr_left
  intro a ha
  rw [if_neg (h a ha)]; rfl

/-! ## Equality and membership -/

/-- The power series are compared without exception. -/
def Comparable (strict : Bool) (p q : List ℚ) : Prop := ∃ b, powerEq strict p q = .ok b

theorem appEq_error {strict : Bool} {a b : Appliance} {e : Err} (h : appEq strict a b = .error e) :
    e = .valueError ∧ ¬ Comparable strict a.power b.power := by
  unfold appEq at h
  cases hp : powerEq strict a.power b.power with
  | error e' =>
    rw [hp] at h
    cases h
    refine ⟨?_, ?_⟩
    · unfold powerEq at hp
      split_ifs at hp
      cases hp; rfl
    · rintro ⟨b', hb⟩
      rw [hp] at hb; cases hb
  | ok p => rw [hp] at h; cases h

theorem memApps_error {strict : Bool} {app : Appliance} {l : List Appliance} {e : Err} (h : memApps strict app l = .error e) :
    e = .valueError ∧ ∃ a ∈ l, ¬ Comparable strict app.power a.power := by
  induction l with
  | nil => simp [memApps] at h
  | cons a l ih =>
    unfold memApps at h
    split_ifs at h
    cases hq : appEq strict app a with
    | error e' =>
      rw [hq] at h
      cases h
      have := appEq_error hq
      exact ⟨this.1, a, by simp, this.2⟩
    | ok b =>
      rw [hq] at h
      cases b with
      | true => cases h
      | false =>
        obtain ⟨h1, x, hx, h2⟩ := ih h
        exact ⟨h1, x, by simp [hx], h2⟩

theorem memApps_false {strict : Bool} {app : Appliance} {l : List Appliance} (h : memApps strict app l = .ok false) :
    ∀ a ∈ l, a.oid ≠ app.oid ∧ appEq strict app a = .ok false := by
  induction l with
  | nil => simp
  | cons a l ih =>
    unfold memApps at h
    split_ifs at h with ho
    · cases h
    cases hq : appEq strict app a with
    | error e' => rw [hq] at h; cases h
    | ok b =>
      rw [hq] at h
      cases b with
      | true => cases h
      | false =>
        intro x hx
        rcases List.mem_cons.1 hx with rfl | hx
        · exact ⟨ho, hq⟩
        · exact ih h x hx

theorem memApps_true {strict : Bool} {app : Appliance} {l : List Appliance} (h : memApps strict app l = .ok true) :
    ∃ a ∈ l, a.oid = app.oid ∨ appEq strict app a = .ok true := by
  induction l with
  | nil => simp [memApps] at h
  | cons a l ih =>
    unfold memApps at h
    split_ifs at h with ho
    · exact ⟨a, by simp, .inl ho⟩
    cases hq : appEq strict app a with
    | error e' => rw [hq] at h; cases h
    | ok b =>
      rw [hq] at h
      cases b with
      | true => exact ⟨a, by simp, .inr hq⟩
      | false =>
        obtain ⟨x, hx, h⟩ := ih h
        exact ⟨x, by simp [hx], h⟩

theorem comparable_of_appEq {strict : Bool} {a b : Appliance} {x : Bool} (h : appEq strict a b = .ok x) :
    Comparable strict a.power b.power := by
  unfold appEq at h
  cases hp : powerEq strict a.power b.power with
  | error e => rw [hp] at h; cases h
  | ok p => exact ⟨p, hp⟩

theorem appliance_name_ne (n : ℕ) : s!"appliance_{n}" ≠ "" := by
  intro h
  have h2 := congrArg String.length h
  simp [String.length_append, toString] at h2

/-- The outcomes of registering an appliance. -/
theorem addInstance_cases {strict : Bool} {u u' : User} {app app' : Appliance} (h : addInstance strict u app = .ok (u', app')) :
    (u' = u ∧ app' = app ∧ ∃ a ∈ u.appList, a.oid = app.oid ∨ appEq strict app a = .ok true) ∨
    (u' = { u with appList := u.appList ++ [app'] } ∧
      app' = { app with name := if app.name = "" then s!"appliance_{u.appList.length + 1}" else app.name } ∧
      ∀ a ∈ u.appList, a.oid ≠ app.oid ∧ appEq strict app a = .ok false) := by
  unfold addInstance at h
  cases hm : memApps strict app u.appList with
  | error e => rw [hm] at h; cases h
  | ok b =>
    rw [hm] at h
    cases b with
    | true => cases h; exact .inl ⟨rfl, rfl, memApps_true hm⟩
    | false =>
      simp only at h
      injection h with h
      injection h with h1 h2
      right
      refine ⟨?_, ?_, memApps_false hm⟩
      · rw [← h1, ← h2]
      · rw [← h2]
        split_ifs with hn
        · rfl
        · rfl

theorem addInstance_error {strict : Bool} {u : User} {app : Appliance} {e : Err} (h : addInstance strict u app = .error e) :
    e = .valueError ∧ ∃ a ∈ u.appList, ¬ Comparable strict app.power a.power := by
  unfold addInstance at h
  cases hm : memApps strict app u.appList with
  | error e' => rw [hm] at h; cases h; exact memApps_error hm
  | ok b => rw [hm] at h; cases b <;> cases h

/-! ## `windows()` -/

/-- A declared window is not given. -/
def MissingWindow (app : Appliance) (w : WindowsArgs) : Prop :=
  (2 ≤ app.numWindows ∧ w.window2 = none) ∨ (app.numWindows = 3 ∧ w.window3 = none)

instance (app : Appliance) (w : WindowsArgs) : Decidable (MissingWindow app w) := by unfold MissingWindow; infer_instance

/-- Total length of the declared windows among the three given. -/
def declaredTime (numWindows : ℤ) (w1 w2 w3 : ℤ × ℤ) : ℤ :=
  (if 1 ≤ numWindows then w1.2 - w1.1 else 0) + (if 2 ≤ numWindows then w2.2 - w2.1 else 0)
    + (if 3 ≤ numWindows then w3.2 - w3.1 else 0)

/-- The windows of use after the call: the given ones; the whole day for a missing first window, no change for the others. -/
def windowsAfter (app : Appliance) (w : WindowsArgs) : (ℤ × ℤ) × (ℤ × ℤ) × (ℤ × ℤ) :=
  (w.window1.getD (0, 1440), w.window2.getD app.window2, w.window3.getD app.window3)

theorem winLen_def (w : ℤ × ℤ) : winLen w = w.2 - w.1 := rfl

theorem windowsBody_outcome (app : Appliance) (w : WindowsArgs) : (windowsBody app w).2 =
    if MissingWindow app w then .error .invalidWindow
    else if 3 < app.numWindows then .error .attributeError
    else if declaredTime app.numWindows (windowsAfter app w).1 (windowsAfter app w).2.1 (windowsAfter app w).2.2 < app.funcTime then
      .error .invalidWindow
    else if Writable (windowsAfter app w).1 ∧ Writable (windowsAfter app w).2.1 ∧ Writable (windowsAfter app w).2.2 then .ok ()
    else .error .valueError := by
  unfold windowsBody MissingWindow windowsAfter
  simp only
  by_cases h2 : w.window2 = none ∧ app.numWindows ≥ 2
  · rw [if_pos h2, if_pos (.inl ⟨h2.2, h2.1⟩)]
  · rw [if_neg h2]
    by_cases h3 : w.window3 = none ∧ app.numWindows = 3
    · rw [if_pos h3, if_pos (.inr ⟨h3.2, h3.1⟩)]
    · rw [if_neg h3, if_neg (by rintro (h | h); exacts [h2 ⟨h.2, h.1⟩, h3 ⟨h.2, h.1⟩])]
      by_cases hn : 3 < app.numWindows
      · rw [if_pos hn]
        unfold windowTime
        rw [if_pos (by simpa using hn)]
      · rw [if_neg hn, windowTime_of_le (by simp only; omega)]
        simp only [winLen_def, ge_iff_le]
        by_cases ht : declaredTime app.numWindows (w.window1.getD (0, 1440)) (w.window2.getD app.window2) (w.window3.getD app.window3)
          < app.funcTime
        · rw [if_pos ht, if_pos (by unfold declaredTime at ht; exact ht)]
        · rw [if_neg ht, if_neg (by unfold declaredTime at ht; exact ht)]
          rcases hw1 : fillSlice zeros (w.window1.getD (0, 1440)).1 (w.window1.getD (0, 1440)).2
              ((w.window1.getD (0, 1440)).2 - (w.window1.getD (0, 1440)).1) (1 / 1000) with e | d1
          · have hn1 : ¬ Writable (w.window1.getD (0, 1440)) := by
              intro hc
              obtain ⟨d, hd⟩ := (fillSlice_ok_iff zeros _ (1 / 1000)).2 hc
              rw [winLen_def, hw1] at hd; cases hd
            rw [if_neg (fun h => hn1 h.1), fillSlice_error (w := w.window1.getD (0, 1440)) hw1]
          · have hy1 : Writable (w.window1.getD (0, 1440)) := (fillSlice_ok_iff zeros _ (1 / 1000)).1 ⟨d1, hw1⟩
            simp only
            rcases hw2 : fillSlice d1 (w.window2.getD app.window2).1 (w.window2.getD app.window2).2
              ((w.window2.getD app.window2).2 - (w.window2.getD app.window2).1) (1 / 1000) with e | d2
            · have hn2 : ¬ Writable (w.window2.getD app.window2) := by
                intro hc
                obtain ⟨d, hd⟩ := (fillSlice_ok_iff d1 _ (1 / 1000)).2 hc
                rw [winLen_def, hw2] at hd; cases hd
              rw [if_neg (fun h => hn2 h.2.1), fillSlice_error (w := w.window2.getD app.window2) hw2]
            · have hy2 : Writable (w.window2.getD app.window2) := (fillSlice_ok_iff d1 _ (1 / 1000)).1 ⟨d2, hw2⟩
              simp only
              rcases hw3 : fillSlice d2 (w.window3.getD app.window3).1 (w.window3.getD app.window3).2
                ((w.window3.getD app.window3).2 - (w.window3.getD app.window3).1) (1 / 1000) with e | d3
              · have hn3 : ¬ Writable (w.window3.getD app.window3) := by
                  intro hc
                  obtain ⟨d, hd⟩ := (fillSlice_ok_iff d2 _ (1 / 1000)).2 hc
                  rw [winLen_def, hw3] at hd; cases hd
                rw [if_neg (fun h => hn3 h.2.2), fillSlice_error (w := w.window3.getD app.window3) hw3]
              · have hy3 : Writable (w.window3.getD app.window3) := (fillSlice_ok_iff d2 _ (1 / 1000)).1 ⟨d3, hw3⟩
                rw [if_pos ⟨hy1, hy2, hy3⟩]

/-- What a successful `windows()` call stores. -/
theorem windowsBody_ok {app app' : Appliance} {w : WindowsArgs} (h : windowsBody app w = (app', .ok ())) :
    ∃ d, app' = { app with
      window1 := (windowsAfter app w).1, window2 := (windowsAfter app w).2.1, window3 := (windowsAfter app w).2.2
      randomVarW := w.randomVarW
      randomVar1 := pyInt (w.randomVarW * winLen (windowsAfter app w).1)
      randomVar2 := pyInt (w.randomVarW * winLen (windowsAfter app w).2.1)
      randomVar3 := pyInt (w.randomVarW * winLen (windowsAfter app w).2.2)
      dailyUse := d } ∧
      fillWindows (windowsAfter app w).1 (windowsAfter app w).2.1 (windowsAfter app w).2.2 (1 / 1000) = .ok d := by
  unfold windowsBody windowsAfter at *
  simp only at h
  split_ifs at h
  all_goals try (injection h with h1 h2; cases h2)
  split at h
  · injection h with h1 h2; cases h2
  split_ifs at h
  · injection h with h1 h2; cases h2
  split at h
  · injection h with h1 h2; cases h2
  rename_i d1 hd1
  split at h
  · injection h with h1 h2; cases h2
  rename_i d2 hd2
  split at h
  · injection h with h1 h2; cases h2
  rename_i d3 hd3
  injection h with h1 h2
  subst h1
  refine ⟨d3, rfl, ?_⟩
  unfold fillWindows
  simp only [winLen_def] at hd1 hd2 hd3
  rw [hd1]
  show (fillSlice d1 _ _ _ _ >>= _) = _
  rw [hd2]
  exact hd3

end Ramp
