import Verif.Lemmas.Restore
import Verif.Lemmas.Witness

/-! # Properties C53-C57: saving and loading -/

set_option autoImplicit false

namespace Ramp

/-! ## C54: the saved power -/

/-- **C54, partial.** A power that is the same on every day is saved as that number; a series whose last value differs from the first is
saved value by value.  Missing: series that come back to their first value on the last day (`C54_series_lost_partial`). -/
theorem C54_saved_power_partial (u : User) (a : Appliance) :
    (∀ p, ConstantPower a.power p → ∃ r, saveAppliance u a = .ok r ∧ r.lookup "power" = some (.num p)) ∧
    (a.power.getLast? ≠ a.power.head? → ∃ r, saveAppliance u a = .ok r ∧ r.lookup "power" = some (.array a.power)) := by
  constructor
  · intro p hp
    rw [saveAppliance_eq, savePower_constant hp]
    exact ⟨_, rfl, rfl⟩
  · intro h
    rw [saveAppliance_eq, savePower_series h]
    exact ⟨_, rfl, rfl⟩

/-- **C54, what the code really does.** The series is saved as a single number exactly when its last value equals its first. -/
theorem C54_number_iff_ends_agree_partial (u : User) (a : Appliance) (h : a.power ≠ []) :
    (∃ r p, saveAppliance u a = .ok r ∧ r.lookup "power" = some (.num p)) ↔ a.power.getLast? = a.power.head? := by
  rw [saveAppliance_eq, ← diffSum_eq_zero_iff h]
  constructor
  · rintro ⟨r, p, h1, h2⟩
    by_contra hc
    unfold savePower at h1
    rw [if_neg hc] at h1
    injection h1 with h1
    rw [← h1] at h2
    cases h2
  · intro hc
    unfold savePower
    rw [if_pos hc]
    obtain ⟨p, hp⟩ := Option.ne_none_iff_exists'.1 (show a.power.head? ≠ none by simpa using h)
    rw [hp]
    exact ⟨_, p, rfl, rfl⟩

/-- **C54 is false.** A series that is not constant can be saved as a single number: 10 W on the first and last day, 20 W between. -/
theorem C54_series_lost_partial : ∃ (u : User) (a : Appliance) (r : Row), a.power = [10, 20, 10] ∧ (¬ ∃ p, ConstantPower a.power p) ∧
    saveAppliance u a = .ok r ∧ r.lookup "power" = some (.num 10) := by
  refine ⟨{}, { power := [10, 20, 10] }, savedRow {} { power := [10, 20, 10] } (.num 10), rfl, ?_, ?_, rfl⟩
  · rintro ⟨p, -, h⟩
    have h1 := h 10 (by simp)
    have h2 := h 20 (by simp)
    rw [← h1] at h2
    norm_num at h2
  · rw [saveAppliance_eq]
    have : savePower [10, 20, 10] = .ok (.num 10) := by decide +kernel
    show (match savePower [10, 20, 10] with
      | .error e => Except.error e
      | .ok c => .ok (savedRow {} { power := [10, 20, 10] } c)) = _
    rw [this]

/-! ## C55: power series in a spreadsheet -/

/-- The power argument that `load` passes for the cell of the column `power`. -/
def loadedPower (c : Cell) : Except Err PowerArg := match readPower c with
  | .error e => .error e
  | .ok c => .ok (powerOfCell c)

/-- That this is what `load` passes: the arguments made from the row that `read_input_file` produces. -/
theorem loadedPower_spec (r r' : Row) (a : AddArgs) (c : Cell) (hc : r.lookup "power" = some c) (hk : (r.map Prod.fst).Nodup)
    (hr : readInput [r] = .ok [r']) (ha : rowArgs r' = .ok a) : loadedPower c = .ok a.app.power := by
  unfold readInput at hr
  rw [hc] at hr
  simp only at hr
  unfold loadedPower
  cases hp : readPower c with
  | error e => rw [hp] at hr; cases hr
  | ok c' =>
    rw [hp] at hr
    simp only [readInput] at hr
    injection hr with hr
    injection hr with hr
    have hl : r'.lookup "power" = some c' := by
      rw [← hr]
      clear hr ha hp
      induction r with
      | nil => cases hc
      | cons p r ih =>
        unfold setCell
        rw [List.map_cons]
        by_cases hpk : p.1 = "power"
        · rw [if_pos hpk, List.lookup_cons, hpk]; rfl
        · rw [if_neg hpk, List.lookup_cons]
          have hb : ("power" == p.1) = false := by rw [beq_eq_false_iff_ne]; exact fun h => hpk h.symm
          rw [hb]
          rw [List.lookup_cons, hb] at hc
          exact ih hc (by rw [List.map_cons, List.nodup_cons] at hk; exact hk.2)
    unfold rowArgs at ha
    cases hkw : rowKwargs r' with
    | error e => rw [hkw] at ha; cases ha
    | ok kw =>
      rw [hkw] at ha
      simp only at ha
      have hkp : kw.lookup "power" = some (.cell c') := by
        unfold rowKwargs at hkw
        cases h1 : paramKwargs r' "window" windowsParameters with
        | error e => rw [h1] at hkw; cases hkw
        | ok w =>
          rw [h1] at hkw
          cases h2 : paramKwargs r' "cw" dutyCycleParameters.flatten with
          | error e => rw [h2] at hkw; cases hkw
          | ok cs =>
            rw [h2] at hkw
            injection hkw with hkw
            rw [← hkw, List.append_assoc]
            unfold argKwargs applianceArgs
            rw [List.filterMap_cons]
            cases hnum : r'.lookup "number" with
            | none => simp only [Option.map_none]; rw [List.filterMap_cons, hl]; rfl
            | some x => simp only [Option.map_some]; rw [List.filterMap_cons, hl]; rfl
      have : a.app.power = kwPower kw := by
        unfold kwAddArgs at ha
        cases h1 : kwAppArgs kw with
        | error e => rw [h1] at ha; cases ha
        | ok app =>
          rw [h1] at ha
          have hap : app.power = kwPower kw := by
            unfold kwAppArgs at h1
            cases g1 : kwInt kw "number" 1 with
            | error e => rw [g1] at h1; cases h1
            | ok v1 =>
            cases g2 : kwInt kw "num_windows" 1 with
            | error e => rw [g1, g2] at h1; cases h1
            | ok v2 =>
            cases g3 : kwInt kw "func_time" 0 with
            | error e => rw [g1, g2, g3] at h1; cases h1
            | ok v3 =>
            cases g4 : kwRat kw "time_fraction_random_variability" 0 with
            | error e => rw [g1, g2, g3, g4] at h1; cases h1
            | ok v4 =>
            cases g5 : kwInt kw "func_cycle" 1 with
            | error e => rw [g1, g2, g3, g4, g5] at h1; cases h1
            | ok v5 =>
            cases g6 : kwText kw "fixed" "no" with
            | error e => rw [g1, g2, g3, g4, g5, g6] at h1; cases h1
            | ok v6 =>
            cases g7 : kwInt kw "fixed_cycle" 0 with
            | error e => rw [g1, g2, g3, g4, g5, g6, g7] at h1; cases h1
            | ok v7 =>
            cases g8 : kwInt kw "continuous_duty_cycle" 1 with
            | error e => rw [g1, g2, g3, g4, g5, g6, g7, g8] at h1; cases h1
            | ok v8 =>
            cases g9 : kwRat kw "occasional_use" 1 with
            | error e => rw [g1, g2, g3, g4, g5, g6, g7, g8, g9] at h1; cases h1
            | ok v9 =>
            cases g10 : kwText kw "flat" "no" with
            | error e => rw [g1, g2, g3, g4, g5, g6, g7, g8, g9, g10] at h1; cases h1
            | ok v10 =>
            cases g11 : kwRat kw "thermal_p_var" 0 with
            | error e => rw [g1, g2, g3, g4, g5, g6, g7, g8, g9, g10, g11] at h1; cases h1
            | ok v11 =>
            cases g12 : kwInt kw "pref_index" 0 with
            | error e => rw [g1, g2, g3, g4, g5, g6, g7, g8, g9, g10, g11, g12] at h1; cases h1
            | ok v12 =>
            cases g13 : kwInt kw "wd_we_type" 2 with
            | error e => rw [g1, g2, g3, g4, g5, g6, g7, g8, g9, g10, g11, g12, g13] at h1; cases h1
            | ok v13 =>
            cases g14 : kwText kw "name" "" with
            | error e => rw [g1, g2, g3, g4, g5, g6, g7, g8, g9, g10, g11, g12, g13, g14] at h1; cases h1
            | ok v14 =>
            rw [g1, g2, g3, g4, g5, g6, g7, g8, g9, g10, g11, g12, g13, g14] at h1
            cases h1
            rfl
          rw [← hap]
          change (kwWindows kw >>= _) = _ at ha
          cases g1 : kwWindows kw with
          | error e => rw [g1] at ha; cases ha
          | ok v1 =>
          rw [g1] at ha
          change (kwCycle kw _ >>= _) = _ at ha
          cases g2 : kwCycle kw ["p_11", "t_11", "cw11", "p_12", "t_12", "cw12", "r_c1"] with
          | error e => rw [g2] at ha; cases ha
          | ok v2 =>
          rw [g2] at ha
          change (kwCycle kw _ >>= _) = _ at ha
          cases g3 : kwCycle kw ["p_21", "t_21", "cw21", "p_22", "t_22", "cw22", "r_c2"] with
          | error e => rw [g3] at ha; cases ha
          | ok v3 =>
          rw [g3] at ha
          change (kwCycle kw _ >>= _) = _ at ha
          cases g4 : kwCycle kw ["p_31", "t_31", "cw31", "p_32", "t_32", "cw32", "r_c3"] with
          | error e => rw [g4] at ha; cases ha
          | ok v4 =>
          rw [g4] at ha
          cases ha
          rfl
      rw [this]
      simp only
      unfold kwPower
      rw [hkp]
      cases c' <;> rfl

/-- **C55, partial.** A range of one column and 366 rows gives its values, in order; a range of another size is rejected with
`ValueError`, and so is a JSON array whose length is not 366.  Missing: ranges of two columns (`C55_two_columns_partial`). -/
theorem C55_one_column_partial (col : List ℚ) :
    (col.length = 366 → loadedPower (.range [col]) = .ok (.series col) ∧ loadedPower (.array col) = .ok (.series col)) ∧
    (col.length ≠ 366 → loadedPower (.range [col]) = .error .valueError ∧ loadedPower (.array col) = .error .valueError ∧
      ∀ col', loadedPower (.range [col, col']) = .error .valueError) ∧
    (∀ cols : List (List ℚ), cols.length ≠ 1 → cols.length ≠ 2 → loadedPower (.range cols) = .error .valueError) := by
  refine ⟨?_, ?_, ?_⟩
  · intro h
    simp [loadedPower, readPower, h, powerOfCell]
  · intro h
    simp [loadedPower, readPower, h]
  · intro cols h1 h2
    match cols, h1, h2 with
    | [], _, _ => rfl
    | [_], h, _ => exact absurd rfl h
    | [_, _], _, h => exact absurd rfl h
    | _ :: _ :: _ :: _, _, _ => rfl

/-- **C55 is false for two columns.** Of a range of two columns (timestamps, values) the first column — the timestamps — becomes the
power series. -/
theorem C55_two_columns_partial (times vals : List ℚ) (h1 : times.length = 366) (h2 : vals.length = 366) :
    loadedPower (.range [times, vals]) = .ok (.series times) := by
  simp [loadedPower, readPower, h1, powerOfCell, List.map_fst_zip, h2]

/-- A concrete case: timestamps 0, 1, 2, ... and a power of 100 W on every day. -/
example : loadedPower (.range [(List.range 366).map (fun (k : ℕ) => (k : ℚ)), List.replicate 366 100]) =
    .ok (.series ((List.range 366).map (fun (k : ℕ) => (k : ℚ)))) := 
  C55_two_columns_partial _ _ (by rw [List.length_map, List.length_range]) (by rw [List.length_replicate])

/-! ## C56: grouping by user -/

/-- `u'` is `u` after one successful call of `add_appliance` per row, in order. -/
inductive AddedRows (strict : Bool) (n : ℤ) : ℕ → User → Table → User → Prop
  | nil (k : ℕ) (u : User) : AddedRows strict n k u [] u
  | cons {k : ℕ} {u u' u'' : User} {r : Row} {t : Table} {a : AddArgs} {app : Appliance} : rowArgs r = .ok a →
      addAppliance strict k n u a = (u', .ok app) → AddedRows strict n (k + 1) u' t u'' → AddedRows strict n k u (r :: t) u''

theorem loadRows_ok {strict : Bool} {n : ℤ} : ∀ {t : Table} {k : ℕ} {u u' : User}, loadRows strict n k u t = (u', .ok ()) ↔
    AddedRows strict n k u t u'
  | [], k, u, u' => by
    constructor
    · intro h
      simp only [loadRows, Prod.mk.injEq, and_true] at h
      subst h; exact .nil k u
    · intro h; cases h; rfl
  | r :: t, k, u, u' => by
    unfold loadRows
    constructor
    · intro h
      cases ha : rowArgs r with
      | error e => rw [ha] at h; cases h
      | ok a =>
        rw [ha] at h
        simp only at h
        cases hb : addAppliance strict k n u a with
        | mk u1 q =>
          rw [hb] at h
          cases q with
          | error e => cases h
          | ok app => exact .cons ha hb (loadRows_ok.1 h)
    · intro h
      cases h with
      | cons ha hb ht =>
        rw [ha]
        simp only
        rw [hb]
        exact loadRows_ok.2 ht

theorem addAppliance_head {strict : Bool} {k : ℕ} {n : ℤ} {u u' : User} {a : AddArgs} {r : Except Err Appliance}
    (hf : ∀ b ∈ u.appList, b.oid ≠ k) (h : addAppliance strict k n u a = (u', r)) :
    u' = { u with appList := u'.appList } ∧ ∀ b ∈ u'.appList, b.oid = k ∨ b ∈ u.appList := by
  rcases addAppliance_cases hf h with ⟨rfl, -⟩ | ⟨app, -, ho, -, -, rfl⟩ | ⟨app, -, ho, -, -, rfl, -⟩
  · exact ⟨rfl, fun b hb => .inr hb⟩
  · refine ⟨rfl, fun b hb => ?_⟩
    rcases List.mem_append.1 hb with hb | hb
    · exact .inr hb
    · simp only [List.mem_singleton] at hb; subst hb; exact .inl ho
  · refine ⟨rfl, fun b hb => ?_⟩
    rcases List.mem_append.1 hb with hb | hb
    · exact .inr hb
    · simp only [List.mem_singleton] at hb; subst hb; exact .inl ho

theorem AddedRows.head {strict : Bool} {n : ℤ} {k : ℕ} {u u' : User} {t : Table} (h : AddedRows strict n k u t u')
    (ho : ∀ b ∈ u.appList, b.oid < k) : u' = { u with appList := u'.appList } := by
  induction h with
  | nil k u => rfl
  | @cons k u u' u'' r t a app ha hb ht ih =>
    obtain ⟨h1, h2⟩ := addAppliance_head (fun b hb => Nat.ne_of_lt (ho b hb)) hb
    have := ih (by
      intro b hb
      rcases h2 b hb with h | h
      · omega
      · exact Nat.lt_succ_of_lt (ho b h))
    rw [this, h1]

/-- The user of `df` with name `s`, if the rows with that name agree on `num_users` and `user_preference`. -/
structure LoadedUser (strict : Bool) (n : ℤ) (df : Table) (u : User) : Prop where
  number : ∀ r ∈ df, rowGet r "user_name" = .text u.userName → rowGet r "num_users" = .num u.numUsers
  preference : ∀ r ∈ df, rowGet r "user_name" = .text u.userName → rowGet r "user_preference" = .num u.userPreference
  rows : AddedRows strict n 0 { userName := u.userName, numUsers := u.numUsers, userPreference := u.userPreference }
    (df.filter (fun r => rowGet r "user_name" = .text u.userName)) u

theorem userRows_text (df : Table) (s : String) : userRows df (.text s) = df.filter (fun r => rowGet r "user_name" = .text s) := by
  unfold userRows
  apply List.filter_congr
  intro r _
  simp

theorem loadUsers_ok {strict : Bool} {df : Table} : ∀ {names : List Cell} {uc uc' : UseCase},
    loadUsers strict df names uc = (uc', .ok ()) → ∃ us, uc' = { uc with users := uc.users ++ us } ∧
      us.map (fun u => Cell.text u.userName) = names ∧ ∀ u ∈ us, LoadedUser strict uc.userDays df u
  | [], uc, uc', h => by
    simp only [loadUsers, Prod.mk.injEq, and_true] at h
    subst h
    exact ⟨[], by simp, rfl, by simp⟩
  | name :: names, uc, uc', h => by
    unfold loadUsers at h
    cases hh : loadUserHead df name with
    | error e => rw [hh] at h; cases h
    | ok u0 =>
      rw [hh] at h
      simp only at h
      cases hr : loadRows strict uc.userDays 0 u0 (userRows df name) with
      | mk u q =>
        rw [hr] at h
        cases q with
        | error e => cases h
        | ok x =>
          cases x
          simp only at h
          obtain ⟨us, h1, h2, h3⟩ := loadUsers_ok h
          obtain ⟨s, n, p, rfl, rfl, hne, hall⟩ := loadUserHead_ok.1 hh
          have hadd := loadRows_ok.1 hr
          have hu := hadd.head (by simp)
          rw [userRows_text] at hadd hall
          refine ⟨u :: us, ?_, ?_, ?_⟩
          · rw [h1]; simp
          · rw [List.map_cons, h2, hu]
          · intro v hv
            rcases List.mem_cons.1 hv with rfl | hv
            · refine ⟨?_, ?_, ?_⟩
              · intro r hr hn
                rw [hu] at hn ⊢
                exact (hall r (List.mem_filter.2 ⟨hr, by simpa using hn⟩)).1
              · intro r hr hn
                rw [hu] at hn ⊢
                exact (hall r (List.mem_filter.2 ⟨hr, by simpa using hn⟩)).2
              · have e1 : v.userName = s := by rw [hu]
                have e2 : v.numUsers = n := by rw [hu]
                have e3 : v.userPreference = p := by rw [hu]
                rw [e1, e2, e3]; exact hadd
            · exact h3 v hv

/-- **C56.** A successful `load` adds one user per distinct user name, in the order of first appearance; the rows of each user agree with
its `num_users` and `user_preference`, and its appliances are those of its rows, added in order.  The users that were there stay. -/
theorem C56_grouping (strict : Bool) (uc uc' : UseCase) (df : Table) (h : loadTable strict uc df = (uc', .ok ())) :
    ∃ us, uc'.users = uc.users ++ us ∧
      us.map (fun u => Cell.text u.userName) = firstOccurrences (df.map (fun r => rowGet r "user_name")) ∧
      ∀ u ∈ us, LoadedUser strict uc.userDays df u := by
  unfold loadTable at h
  rw [unique_eq] at h
  cases hl : loadUsers strict df (firstOccurrences (df.map (fun r => rowGet r "user_name"))) uc with
  | mk uc1 q =>
    rw [hl] at h
    cases q with
    | error e => cases h
    | ok x =>
      cases x
      simp only [Prod.mk.injEq, and_true] at h
      obtain ⟨us, h1, h2, h3⟩ := loadUsers_ok hl
      refine ⟨us, ?_, h2, h3⟩
      rw [← h, h1]
      rfl

/-- Two rows of one user disagree. -/
def Disagree (df : Table) : Prop := ∃ r ∈ df, ∃ r' ∈ df, rowGet r "user_name" = rowGet r' "user_name" ∧
  rowGet r "user_name" ≠ .blank ∧
  (rowGet r "num_users" ≠ rowGet r' "num_users" ∨ rowGet r "user_preference" ≠ rowGet r' "user_preference")

/-- A row has no user name. -/
def NamelessRow (df : Table) : Prop := ∃ r ∈ df, rowGet r "user_name" = .blank

/-- The user columns have their types: names are texts (or missing), counts are integers. -/
def TypedTable (df : Table) : Prop := ∀ r ∈ df, (rowGet r "user_name" = .blank ∨ ∃ s, rowGet r "user_name" = .text s) ∧
  (∃ n : ℤ, rowGet r "num_users" = .num n) ∧ (∃ n : ℤ, rowGet r "user_preference" = .num n)

/-- The rows themselves can be added: no call of `add_appliance` fails. -/
def AddableRows (strict : Bool) (n : ℤ) (df : Table) : Prop := ∀ (s : String) (nu up : ℤ), ∃ u,
  AddedRows strict n 0 { userName := s, numUsers := nu, userPreference := up } (df.filter (fun r => rowGet r "user_name" = .text s)) u

theorem loadUserHead_typed {df : Table} (ht : TypedTable df) {name : Cell} (hname : name ∈ df.map (fun r => rowGet r "user_name")) :
    (∃ s n p, loadUserHead df name = .ok { userName := s, numUsers := n, userPreference := p } ∧ name = .text s) ∨
    (loadUserHead df name = .error .valueError ∧ (name = .blank ∨ Disagree df)) := by
  obtain ⟨r0, hr0, rfl⟩ := List.mem_map.1 hname
  rcases (ht r0 hr0).1 with hb | ⟨s, hs⟩
  · right
    rw [hb]
    refine ⟨?_, .inl rfl⟩
    have : userRows df .blank = [] := by
      unfold userRows
      rw [List.filter_eq_nil_iff]
      simp
    unfold loadUserHead
    rw [this]
    rfl
  · by_cases hd : Disagree df
    · by_cases hok : ∃ u, loadUserHead df (rowGet r0 "user_name") = .ok u
      · left
        obtain ⟨u, hu⟩ := hok
        obtain ⟨s', n, p, h1, rfl, -⟩ := loadUserHead_ok.1 hu
        exact ⟨s', n, p, hu, h1⟩
      · right
        refine ⟨?_, .inr hd⟩
        -- both values must be typed, so the failure is one of uniqueness
        unfold loadUserHead at hok ⊢
        cases h1 : sameValue (userRows df (rowGet r0 "user_name")) "num_users" with
        | error e => rw [sameValue_error h1]; rfl
        | ok c1 =>
          cases h2 : sameValue (userRows df (rowGet r0 "user_name")) "user_preference" with
          | error e => rw [sameValue_error h2]; rfl
          | ok c2 =>
            exfalso
            apply hok
            have hin : r0 ∈ userRows df (rowGet r0 "user_name") := by
              rw [hs, userRows_text, List.mem_filter]
              exact ⟨hr0, by simpa using hs⟩
            obtain ⟨n, hn⟩ := (ht r0 hr0).2.1
            obtain ⟨p, hp⟩ := (ht r0 hr0).2.2
            have g1 := (sameValue_eq.1 h1).2
            have g2 := (sameValue_eq.1 h2).2
            refine ⟨_, loadUserHead_ok.2 ⟨s, n, p, hs, rfl, (sameValue_eq.1 h1).1, ?_⟩⟩
            intro r hr
            exact ⟨by rw [g1 r hr, ← hn, g1 r0 hin], by rw [g2 r hr, ← hp, g2 r0 hin]⟩
    · left
      obtain ⟨n, hn⟩ := (ht r0 hr0).2.1
      obtain ⟨p, hp⟩ := (ht r0 hr0).2.2
      refine ⟨s, n, p, ?_, hs⟩
      apply loadUserHead_ok.2
      have hin : r0 ∈ userRows df (rowGet r0 "user_name") := by
        rw [hs, userRows_text, List.mem_filter]
        exact ⟨hr0, by simpa using hs⟩
      refine ⟨s, n, p, hs, rfl, List.ne_nil_of_mem hin, ?_⟩
      intro r hr
      rw [hs, userRows_text, List.mem_filter] at hr
      have hrs : rowGet r "user_name" = .text s := by simpa using hr.2
      constructor
      · by_contra hc
        exact hd ⟨r, hr.1, r0, hr0, by rw [hrs, hs], by rw [hrs]; simp, .inl (by rw [hn]; exact hc)⟩
      · by_contra hc
        exact hd ⟨r, hr.1, r0, hr0, by rw [hrs, hs], by rw [hrs]; simp, .inr (by rw [hp]; exact hc)⟩

theorem userDays_users (uc : UseCase) (us : List User) : UseCase.userDays { uc with users := us } = uc.userDays := rfl

theorem loadUsers_typed {strict : Bool} {df : Table} (ht : TypedTable df) : ∀ {names : List Cell} {uc : UseCase},
    AddableRows strict uc.userDays df → (∀ c ∈ names, c ∈ df.map (fun r => rowGet r "user_name")) →
    (loadUsers strict df names uc).2 = .ok () ∨
      ((loadUsers strict df names uc).2 = .error .valueError ∧ (Cell.blank ∈ names ∨ Disagree df))
  | [], uc, _, _ => .inl rfl
  | name :: names, uc, ha, hn => by
    unfold loadUsers
    rcases loadUserHead_typed ht (hn name (by simp)) with ⟨s, n, p, h, rfl⟩ | ⟨h, hc⟩
    · rw [h]
      simp only
      obtain ⟨u, hu⟩ := ha s n p
      rw [userRows_text, loadRows_ok.2 hu]
      simp only
      rcases loadUsers_typed ht (names := names) (uc := { uc with users := uc.users ++ [u] }) ha
        (fun c hc => hn c (List.mem_cons_of_mem _ hc)) with h | ⟨h, hc⟩
      · exact .inl h
      · right
        refine ⟨h, ?_⟩
        rcases hc with hc | hc
        · exact .inl (List.mem_cons_of_mem _ hc)
        · exact .inr hc
    · rw [h]
      right
      refine ⟨rfl, ?_⟩
      rcases hc with rfl | hc
      · exact .inl (by simp)
      · exact .inr hc

/-- **C56.** On a table whose rows can be added one by one, `load` raises exactly when two rows of one user disagree on `num_users` or
`user_preference`, or a row has no user name; the exception is `ValueError`. -/
theorem C56_value_error_iff (strict : Bool) (uc : UseCase) (df : Table) (ht : TypedTable df) (ha : AddableRows strict uc.userDays df) :
    ((loadTable strict uc df).2 = .error .valueError ↔ Disagree df ∨ NamelessRow df) ∧
    ((loadTable strict uc df).2 = .ok () ↔ ¬ (Disagree df ∨ NamelessRow df)) := by
  have hout : (loadTable strict uc df).2 = .ok () ∨ (loadTable strict uc df).2 = .error .valueError := by
    unfold loadTable
    rcases loadUsers_typed ht (names := unique (df.map (fun r => rowGet r "user_name"))) (uc := uc) ha
      (by intro c hc; rw [unique_eq] at hc; exact mem_firstOccurrences.1 hc) with h | ⟨h, -⟩
    · left
      cases hl : loadUsers strict df (unique (df.map (fun r => rowGet r "user_name"))) uc with
      | mk a b => rw [hl] at h; cases h; rfl
    · right
      cases hl : loadUsers strict df (unique (df.map (fun r => rowGet r "user_name"))) uc with
      | mk a b => rw [hl] at h; cases h; rfl
  have hbad : (loadTable strict uc df).2 = .ok () → ¬ (Disagree df ∨ NamelessRow df) := by
    intro hok
    have hq : loadTable strict uc df = ((loadTable strict uc df).1, .ok ()) := Prod.ext rfl hok
    obtain ⟨us, -, h2, h3⟩ := C56_grouping strict uc _ df hq
    have hmem : ∀ r ∈ df, ∃ u ∈ us, rowGet r "user_name" = .text u.userName := by
      intro r hr
      have : rowGet r "user_name" ∈ us.map (fun u => Cell.text u.userName) := by
        rw [h2]; exact mem_firstOccurrences.2 (List.mem_map_of_mem hr)
      obtain ⟨u, hu, he⟩ := List.mem_map.1 this
      exact ⟨u, hu, he.symm⟩
    rintro (⟨r, hr, r', hr', h1, -, hd⟩ | ⟨r, hr, hb⟩)
    · obtain ⟨u, hu, he⟩ := hmem r hr
      rcases hd with hd | hd
      · exact hd (by rw [(h3 u hu).number r hr he, (h3 u hu).number r' hr' (h1 ▸ he)])
      · exact hd (by rw [(h3 u hu).preference r hr he, (h3 u hu).preference r' hr' (h1 ▸ he)])
    · obtain ⟨u, hu, he⟩ := hmem r hr
      rw [hb] at he; cases he
  have hgood : (loadTable strict uc df).2 = .error .valueError → (Disagree df ∨ NamelessRow df) := by
    intro herr
    rcases loadUsers_typed ht (names := unique (df.map (fun r => rowGet r "user_name"))) (uc := uc) ha
      (by intro c hc; rw [unique_eq] at hc; exact mem_firstOccurrences.1 hc) with h | ⟨h, hc⟩
    · exfalso
      unfold loadTable at herr
      cases hl : loadUsers strict df (unique (df.map (fun r => rowGet r "user_name"))) uc with
      | mk a b => rw [hl] at h herr; cases h; cases herr
    · rcases hc with hc | hc
      · right
        rw [unique_eq] at hc
        obtain ⟨r, hr, he⟩ := List.mem_map.1 (mem_firstOccurrences.1 hc)
        exact ⟨r, hr, he⟩
      · exact .inl hc
  constructor
  · exact ⟨hgood, fun hb => hout.resolve_left (fun h => hbad h hb)⟩
  · exact ⟨hbad, fun hb => hout.resolve_right (fun h => hb (hgood h))⟩

/-- Non-vacuity: a small table of two users, one of them with two appliances. -/
def smallTable (second : ℚ) : Table :=
  [[("user_name", .text "a"), ("num_users", .num 2), ("user_preference", .num 0), ("name", .text "lamp"), ("power", .num 5)],
   [("user_name", .text "b"), ("num_users", .num 1), ("user_preference", .num 0), ("name", .text "radio"), ("power", .num 7)],
   [("user_name", .text "a"), ("num_users", .num second), ("user_preference", .num 0), ("name", .text "fan"), ("power", .num 9)]]

/-- A use case that has been initialised for one day. -/
def oneDayCase : UseCase := { numDays := some 1, datetimeindex := some [], peakTimeRange := some [] }

theorem smallTable_typed (k : ℤ) : TypedTable (smallTable k) := by
  intro r hr
  unfold smallTable at hr
  simp only [List.mem_cons, List.not_mem_nil, or_false] at hr
  rcases hr with rfl | rfl | rfl
  · exact ⟨.inr ⟨"a", rfl⟩, ⟨2, rfl⟩, ⟨0, rfl⟩⟩
  · exact ⟨.inr ⟨"b", rfl⟩, ⟨1, rfl⟩, ⟨0, rfl⟩⟩
  · exact ⟨.inr ⟨"a", rfl⟩, ⟨k, rfl⟩, ⟨0, rfl⟩⟩

theorem smallTable_addable (k : ℤ) : AddableRows true oneDayCase.userDays (smallTable k) := by
  intro s nu up
  by_cases ha : s = "a"
  · subst ha
    exact ⟨_, .cons (u' := _) rfl rfl (.cons rfl rfl (.nil _ _))⟩
  · by_cases hb : s = "b"
    · subst hb
      exact ⟨_, .cons rfl rfl (.nil _ _)⟩
    · refine ⟨{ userName := s, numUsers := nu, userPreference := up }, ?_⟩
      have : (smallTable k).filter (fun r => rowGet r "user_name" = .text s) = [] := by
        rw [List.filter_eq_nil_iff]
        intro r hr
        unfold smallTable at hr
        simp only [List.mem_cons, List.not_mem_nil, or_false] at hr
        rcases hr with rfl | rfl | rfl
        · simp [rowGet, List.lookup]; exact fun h => ha h.symm
        · simp [rowGet, List.lookup]; exact fun h => hb h.symm
        · simp [rowGet, List.lookup]; exact fun h => ha h.symm
      rw [this]
      exact .nil _ _

/-- Non-vacuity of C56: with equal `num_users` the table is loaded, with different ones it is refused. -/
example : (loadTable true oneDayCase (smallTable 2)).2 = .ok () ∧ (loadTable true oneDayCase (smallTable 3)).2 = .error .valueError := by
  have h2 := (C56_value_error_iff true oneDayCase (smallTable (2 : ℤ)) (smallTable_typed 2) (smallTable_addable 2)).2
  have h3 := (C56_value_error_iff true oneDayCase (smallTable (3 : ℤ)) (smallTable_typed 3) (smallTable_addable 3)).1
  constructor
  · apply h2.2
    rintro (⟨r, hr, r', hr', h1, -, hd⟩ | ⟨r, hr, hb⟩)
    · unfold smallTable at hr hr'
      simp only [List.mem_cons, List.not_mem_nil, or_false] at hr hr'
      rcases hr with rfl | rfl | rfl <;> rcases hr' with rfl | rfl | rfl <;>
        (revert h1 hd; decide)
    · unfold smallTable at hr
      simp only [List.mem_cons, List.not_mem_nil, or_false] at hr
      rcases hr with rfl | rfl | rfl <;> (revert hb; decide)
  · apply h3.2
    left
    refine ⟨_, List.mem_cons_self, _, List.mem_cons_of_mem _ (List.mem_cons_of_mem _ List.mem_cons_self), rfl, by decide, .inl (by decide)⟩

end Ramp
