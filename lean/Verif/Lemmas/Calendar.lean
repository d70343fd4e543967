import Verif.Spec2
import Verif.Lemmas.Sat
import Verif.Lemmas.Num

/-! # Lemmas on `initialize` -/

set_option autoImplicit false

namespace Ramp

theorem map_range_daysFrom (n : ℕ) : ∀ d : ℤ, (List.range n).map (fun (k : ℕ) => d + 1440 * (k : ℤ)) = daysFrom d n := by
  induction n with
  | zero => intro d; rfl
  | succ n ih =>
    intro d
    rw [List.range_succ_eq_map, List.map_cons, List.map_map, daysFrom, ← ih (d + 1440)]
    congr 1
    · simp
    · apply List.map_congr_left
      intro k _
      simp
      ring

theorem map_range_minutesFrom (n : ℕ) : ∀ d : ℤ, (List.range n).map (fun (k : ℕ) => d + (k : ℤ)) = minutesFrom d n := by
  induction n with
  | zero => intro d; rfl
  | succ n ih =>
    intro d
    rw [List.range_succ_eq_map, List.map_cons, List.map_map, minutesFrom, ← ih (d + 1)]
    congr 1
    · simp
    · apply List.map_congr_left
      intro k _
      simp
      ring

theorem daysFrom_length (n : ℕ) : ∀ d, (daysFrom d n).length = n := by
  induction n with
  | zero => intro d; rfl
  | succ n ih => intro d; simp [daysFrom, ih]

theorem mem_daysFrom {n : ℕ} : ∀ {d x : ℤ}, x ∈ daysFrom d n ↔ ∃ k : ℕ, k < n ∧ x = d + 1440 * k := by
  induction n with
  | zero => intro d x; simp [daysFrom]
  | succ n ih =>
    intro d x
    rw [daysFrom, List.mem_cons, ih]
    constructor
    · rintro (rfl | ⟨k, hk, rfl⟩)
      · exact ⟨0, by omega, by simp⟩
      · exact ⟨k + 1, by omega, by push_cast; ring⟩
    · rintro ⟨k, hk, rfl⟩
      cases k with
      | zero => left; simp
      | succ k => right; exact ⟨k, by omega, by push_cast; ring⟩

theorem daysFrom_get (n : ℕ) : ∀ (d : ℤ) (k : ℕ), k < n → (daysFrom d n)[k]? = some (d + 1440 * k) := by
  induction n with
  | zero => intro d k h; omega
  | succ n ih =>
    intro d k h
    cases k with
    | zero => simp [daysFrom]
    | succ k =>
      rw [daysFrom, List.getElem?_cons_succ, ih (d + 1440) k (by omega)]
      push_cast
      congr 1
      ring

theorem daysFrom_getLast (n : ℕ) : ∀ (d : ℤ) (h : daysFrom d (n + 1) ≠ []), (daysFrom d (n + 1)).getLast h = d + 1440 * n := by
  induction n with
  | zero => intro d h; simp [daysFrom]
  | succ n ih =>
    intro d h
    have h2 : daysFrom (d + 1440) (n + 1) ≠ [] := by simp [daysFrom]
    have : (daysFrom d (n + 1 + 1)).getLast h = (daysFrom (d + 1440) (n + 1)).getLast h2 := by
      simp only [daysFrom]
      rw [List.getLast_cons]
    rw [this, ih]
    push_cast
    ring

theorem dateRange_eq (s e : ℤ) : dateRange s e = daysFrom s ((e - s) / 1440 + 1).toNat := by
  unfold dateRange
  split_ifs with h
  · rw [show ((e - s) / 1440 + 1).toNat = 0 by omega]; rfl
  · exact map_range_daysFrom _ _

theorem dateRangeFrom_eq (s n : ℤ) : dateRangeFrom s n = if n < 0 then .error .valueError else .ok (daysFrom s n.toNat) := by
  unfold dateRangeFrom
  rw [map_range_daysFrom]

theorem dateRangeTo_eq (e n : ℤ) : dateRangeTo e n = if n < 0 then .error .valueError else .ok (daysFrom (e - 1440 * (n - 1)) n.toNat) := by
  unfold dateRangeTo
  rw [map_range_daysFrom]

theorem initIndex_daysFrom {uc : UseCase} {d : ℤ} {n : ℕ} (hn : 1 ≤ n) (h : uc.days = some (daysFrom d n)) :
    initIndex uc = { uc with datetimeindex := some (minutesFrom d (1440 * n)) } := by
  obtain ⟨m, rfl⟩ : ∃ m, n = m + 1 := ⟨n - 1, by omega⟩
  unfold initIndex
  rw [h]
  simp only [daysFrom]
  have h2 : d :: daysFrom (d + 1440) m ≠ [] := by simp
  have : (d :: daysFrom (d + 1440) m).getLast h2 = d + 1440 * m := daysFrom_getLast m d h2
  rw [this]
  unfold minuteRange
  rw [map_range_minutesFrom]
  congr 3
  omega

/-! ## The parts of `initialize` -/

/-- Everything but `days`, `num_days` and the users is as before. -/
def SameBut (uc uc' : UseCase) : Prop :=
  uc' = { uc with days := uc'.days, numDays := uc'.numDays, users := uc'.users }

theorem SameBut.trans {a b c : UseCase} (h : SameBut a b) (h' : SameBut b c) : SameBut a c := by
  unfold SameBut at *
  rw [h', h]

theorem initNumDays_same (uc : UseCase) (n : Option ℤ) : SameBut uc (initNumDays uc n) := by
  cases n <;> rfl

theorem initDates_same (uc : UseCase) : SameBut uc (initDates uc) := by
  unfold initDates
  split
  · simp only
    split
    · split_ifs <;> rfl
    · rfl
  · rfl

theorem initInput_same (env : Env) (uc : UseCase) : SameBut uc (initInput env uc).1 := by
  unfold initInput
  split
  · rfl
  · split <;> rfl

theorem showDays_fst (uc : UseCase) : (showDays uc).1 = uc := by
  unfold showDays
  split <;> rfl

theorem initDays_same (env : Env) (uc : UseCase) : SameBut uc (initDays env uc).1 := by
  unfold initDays
  split
  · rw [showDays_fst]; rfl
  · split
    · rfl
    · rw [showDays_fst]; rfl

theorem checkPowers_same (n : ℤ) : ∀ (rs : List (ℕ × ℕ)) (uc : UseCase),
    (checkPowers n rs uc).1 = { uc with users := (checkPowers n rs uc).1.users }
  | [], uc => rfl
  | r :: rs, uc => by
    unfold checkPowers
    split
    · rfl
    · split
      · rfl
      · rw [checkPowers_same n rs]; rfl

theorem initCalendar_same (env : Env) (uc : UseCase) (args : InitArgs) : SameBut uc (initCalendar env uc args).1 := by
  unfold initCalendar
  have h1 := (initNumDays_same uc args.numDays).trans (initDates_same _)
  have h2 := h1.trans (initInput_same env _)
  split
  · rename_i uc1 e he
    have : uc1 = (initInput env (initDates (initNumDays uc args.numDays))).1 := by rw [he]
    rw [this]; exact h2
  · rename_i uc1 he
    have e1 : uc1 = (initInput env (initDates (initNumDays uc args.numDays))).1 := by rw [he]
    rw [← e1] at h2
    have h3 := h2.trans (initDays_same env uc1)
    split
    · rename_i uc2 e he2
      have : uc2 = (initDays env uc1).1 := by rw [he2]
      rw [this]; exact h3
    · rename_i uc2 he2
      have e2 : uc2 = (initDays env uc1).1 := by rw [he2]
      rw [← e2] at h3
      refine h3.trans ?_
      unfold SameBut
      rw [checkPowers_same]

theorem chooseDays_eq (env : Env) (s e : Option ℤ) (n : ℤ) :
    ∃ d, chooseDays env s e n = if n < 0 then .error .valueError else .ok (daysFrom d n.toNat) := by
  cases s with
  | some s => exact ⟨s, dateRangeFrom_eq s n⟩
  | none => cases e with
    | some e => exact ⟨_, dateRangeTo_eq e n⟩
    | none => exact ⟨_, dateRangeFrom_eq _ n⟩

/-- Outcome of the choice of days (`core.py:236-303`) on a use case whose days are not known yet or whose dates are both known:
`num_days` consecutive days. -/
theorem initDays_consistent (env : Env) (uc uc1 uc2 : UseCase) (args : InitArgs)
    (h : uc.days = none ∨ (uc.dateStart.isSome ∧ uc.dateEnd.isSome))
    (h1 : initInput env (initDates (initNumDays uc args.numDays)) = (uc1, .ok ()))
    (h2 : initDays env uc1 = (uc2, .ok ())) :
    ∃ (d : ℤ) (n : ℕ), 1 ≤ n ∧ uc2.days = some (daysFrom d n) ∧ uc2.numDays = some (n : ℤ) := by
  -- before the prompt
  have key : ∀ v : UseCase, v = initDates (initNumDays uc args.numDays) →
      v.days = none ∨ ∃ d n, v.days = some (daysFrom d n) ∧ v.numDays = some (n : ℤ) := by
    rintro v rfl
    have hd : (initNumDays uc args.numDays).days = uc.days := by unfold initNumDays; split <;> rfl
    have hs : (initNumDays uc args.numDays).dateStart = uc.dateStart := by unfold initNumDays; split <;> rfl
    have he : (initNumDays uc args.numDays).dateEnd = uc.dateEnd := by unfold initNumDays; split <;> rfl
    unfold initDates
    rw [hs, he]
    cases hs' : uc.dateStart with
    | none =>
      rcases h with h | h
      · left; simp only; rw [hd, h]
      · rw [hs'] at h; simp at h
    | some s =>
      cases he' : uc.dateEnd with
      | none =>
        rcases h with h | h
        · left; simp only; rw [hd, h]
        · rw [he'] at h; simp at h
      | some e =>
        simp only
        cases hn : (initNumDays uc args.numDays).numDays with
        | none =>
          right
          simp only
          refine ⟨s, ((e - s) / 1440 + 1).toNat, by rw [dateRange_eq], ?_⟩
          rw [dateRange_eq, daysFrom_length]
        | some n =>
          simp only
          split_ifs
          · exact .inl rfl
          · right
            refine ⟨s, ((e - s) / 1440 + 1).toNat, by simp only; rw [dateRange_eq], ?_⟩
            simp only
            rw [dateRange_eq, daysFrom_length]
  obtain hv := key _ rfl
  -- after the prompt
  have hn1 : ∃ n, uc1.numDays = some n := by
    revert h1
    unfold initInput
    cases hnd : (initDates (initNumDays uc args.numDays)).numDays with
    | some n => intro h1; simp only at h1; cases h1; exact ⟨n, hnd⟩
    | none =>
      cases env.input with
      | none => intro h1; simp at h1
      | some n => intro h1; simp only at h1; cases h1; exact ⟨n, rfl⟩
  have hv1 : uc1.days = none ∨ ∃ d n, uc1.days = some (daysFrom d n) ∧ uc1.numDays = some (n : ℤ) := by
    revert h1
    unfold initInput
    cases hnd : (initDates (initNumDays uc args.numDays)).numDays with
    | some n => intro h1; simp only at h1; cases h1; exact hv
    | none =>
      cases env.input with
      | none => intro h1; simp at h1
      | some n =>
        intro h1; simp only at h1; cases h1
        rcases hv with hv | ⟨d, m, hv, hm⟩
        · exact .inl hv
        · rw [hnd] at hm; cases hm
  obtain ⟨n, hn⟩ := hn1
  unfold initDays at h2
  rcases hv1 with hv1 | ⟨d, m, hv1, hm⟩
  · rw [hv1] at h2
    simp only at h2
    obtain ⟨d, hd⟩ := chooseDays_eq env uc1.dateStart uc1.dateEnd n
    rw [hn, Option.getD_some, hd] at h2
    by_cases hneg : n < 0
    · rw [if_pos hneg] at h2; simp at h2
    rw [if_neg hneg] at h2
    simp only at h2
    cases hk : n.toNat with
    | zero => rw [hk] at h2; simp [showDays, daysFrom] at h2
    | succ k =>
      rw [hk] at h2
      simp only [showDays, daysFrom] at h2
      have h3 := congrArg Prod.fst h2
      simp only at h3
      refine ⟨d, k + 1, by omega, by rw [← h3]; rfl, ?_⟩
      rw [← h3]
      simp only
      congr 1
      omega
  · rw [hv1] at h2
    simp only [showDays, hv1] at h2
    cases m with
    | zero => simp [daysFrom] at h2
    | succ m =>
      simp only [daysFrom] at h2
      cases h2
      exact ⟨d, m + 1, by omega, hv1, hm⟩

theorem initCalendar_consistent {env : Env} {uc uc' : UseCase} {args : InitArgs}
    (h : uc.days = none ∨ (uc.dateStart.isSome ∧ uc.dateEnd.isSome)) (hok : initCalendar env uc args = (uc', .ok ())) :
    ∃ (d : ℤ) (n : ℕ), 1 ≤ n ∧ uc'.days = some (daysFrom d n) ∧ uc'.numDays = some (n : ℤ) := by
  unfold initCalendar at hok
  cases h1 : initInput env (initDates (initNumDays uc args.numDays)) with
  | mk uc1 r1 =>
    rw [h1] at hok
    cases r1 with
    | error e => simp at hok
    | ok _ =>
      simp only at hok
      cases h2 : initDays env uc1 with
      | mk uc2 r2 =>
        rw [h2] at hok
        cases r2 with
        | error e => simp at hok
        | ok _ =>
          simp only at hok
          obtain ⟨d, n, hn, hd, hnd⟩ := initDays_consistent env uc uc1 uc2 args h h1 h2
          have : uc' = { uc2 with users := uc'.users } := by
            have := checkPowers_same (uc2.numDays.getD 0) uc2.appliances uc2
            rw [hok] at this
            exact this
          exact ⟨d, n, hn, by rw [this]; exact hd, by rw [this]; exact hnd⟩

/-- After a successful choice of days there is a first day and a number of days, in every case. -/
theorem initCalendar_days {env : Env} {uc uc' : UseCase} {args : InitArgs} (hok : initCalendar env uc args = (uc', .ok ())) :
    (∃ d ds, uc'.days = some (d :: ds)) ∧ ∃ n, uc'.numDays = some n := by
  unfold initCalendar at hok
  cases h1 : initInput env (initDates (initNumDays uc args.numDays)) with
  | mk uc1 r1 =>
    rw [h1] at hok
    cases r1 with
    | error e => simp at hok
    | ok _ =>
      simp only at hok
      have hn1 : ∃ n, uc1.numDays = some n := by
        revert h1
        unfold initInput
        cases hnd : (initDates (initNumDays uc args.numDays)).numDays with
        | some n => intro h1; simp only at h1; cases h1; exact ⟨n, hnd⟩
        | none =>
          cases env.input with
          | none => intro h1; simp at h1
          | some n => intro h1; simp only at h1; cases h1; exact ⟨n, rfl⟩
      cases h2 : initDays env uc1 with
      | mk uc2 r2 =>
        rw [h2] at hok
        cases r2 with
        | error e => simp at hok
        | ok _ =>
          simp only at hok
          have hsame : uc' = { uc2 with users := uc'.users } := by
            have := checkPowers_same (uc2.numDays.getD 0) uc2.appliances uc2
            rw [hok] at this
            exact this
          have show_ok : ∀ v w : UseCase, showDays v = (w, .ok ()) → w = v ∧ ∃ d ds, v.days = some (d :: ds) := by
            intro v w hv
            unfold showDays at hv
            split at hv
            · simp at hv
            · simp at hv
            · rename_i ds hne hds
              cases ds with
              | nil => exact absurd rfl hne
              | cons d ds => cases hv; exact ⟨rfl, d, ds, hds⟩
          have : (∃ d ds, uc2.days = some (d :: ds)) ∧ uc2.numDays = uc1.numDays := by
            unfold initDays at h2
            split at h2
            · obtain ⟨rfl, d, ds, h⟩ := show_ok _ _ h2
              exact ⟨⟨d, ds, h⟩, rfl⟩
            · split at h2
              · simp at h2
              · obtain ⟨rfl, d, ds, h⟩ := show_ok _ _ h2
                exact ⟨⟨d, ds, h⟩, rfl⟩
          obtain ⟨⟨d, ds, hd⟩, hnn⟩ := this
          obtain ⟨n, hn⟩ := hn1
          exact ⟨⟨d, ds, by rw [hsame]; exact hd⟩, n, by rw [hsame]; show uc2.numDays = _; rw [hnn, hn]⟩

end Ramp
