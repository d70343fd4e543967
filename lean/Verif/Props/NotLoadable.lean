import Verif.Props.Programs

/-! # Property C57: use cases that cannot be saved, or not be loaded again -/

set_option autoImplicit false

namespace Ramp

theorem saveAppliances_mem {u : User} : ∀ {l : List Appliance} {t : Table}, saveAppliances u l = .ok t → ∀ a ∈ l, ∃ c,
    savePower a.power = .ok c ∧ savedRow u a c ∈ t
  | [], _, _, a, ha => by simp at ha
  | b :: l, t, h, a, ha => by
    unfold saveAppliances at h
    rw [saveAppliance_eq] at h
    cases hp : savePower b.power with
    | error e => rw [hp] at h; cases h
    | ok c =>
      rw [hp] at h
      simp only at h
      cases hl : saveAppliances u l with
      | error e => rw [hl] at h; cases h
      | ok t' =>
        rw [hl] at h
        cases h
        rcases List.mem_cons.1 ha with rfl | ha
        · exact ⟨c, hp, by simp⟩
        · obtain ⟨c', h1, h2⟩ := saveAppliances_mem hl a ha
          exact ⟨c', h1, List.mem_cons_of_mem _ h2⟩

theorem saveAppliances_rows {u : User} : ∀ {l : List Appliance} {t : Table}, saveAppliances u l = .ok t → ∀ r ∈ t, ∃ a ∈ l, ∃ c,
    savePower a.power = .ok c ∧ r = savedRow u a c
  | [], t, h, r, hr => by cases h; simp at hr
  | b :: l, t, h, r, hr => by
    unfold saveAppliances at h
    rw [saveAppliance_eq] at h
    cases hp : savePower b.power with
    | error e => rw [hp] at h; cases h
    | ok c =>
      rw [hp] at h
      simp only at h
      cases hl : saveAppliances u l with
      | error e => rw [hl] at h; cases h
      | ok t' =>
        rw [hl] at h
        cases h
        rcases List.mem_cons.1 hr with rfl | hr
        · exact ⟨b, by simp, c, hp, rfl⟩
        · obtain ⟨a, h1, c', h2, h3⟩ := saveAppliances_rows hl r hr
          exact ⟨a, List.mem_cons_of_mem _ h1, c', h2, h3⟩

theorem saveUser_ok {u : User} {t : Table} (h : saveUser u = .ok t) : u.appList ≠ [] ∧ saveAppliances u u.appList = .ok t := by
  unfold saveUser at h
  split_ifs at h with h0
  refine ⟨h0, ?_⟩
  split at h
  · cases h
  · exact h

theorem saveUsers_mem : ∀ {us : List User} {t : Table}, saveUsers us = .ok t → ∀ u ∈ us, ∃ t', saveUser u = .ok t' ∧ ∀ r ∈ t', r ∈ t
  | [], _, _, u, hu => by simp at hu
  | v :: us, t, h, u, hu => by
    unfold saveUsers at h
    cases hv : saveUser v with
    | error e => rw [hv] at h; cases h
    | ok t1 =>
      rw [hv] at h
      simp only at h
      cases hs : saveUsers us with
      | error e => rw [hs] at h; cases h
      | ok t2 =>
        rw [hs] at h
        cases h
        rcases List.mem_cons.1 hu with rfl | hu
        · exact ⟨t1, hv, fun r hr => List.mem_append_left _ hr⟩
        · obtain ⟨t', h1, h2⟩ := saveUsers_mem hs u hu
          exact ⟨t', h1, fun r hr => List.mem_append_right _ (h2 r hr)⟩

theorem saveUsers_rows : ∀ {us : List User} {t : Table}, saveUsers us = .ok t → ∀ r ∈ t, ∃ u ∈ us, ∃ a ∈ u.appList, ∃ c,
    savePower a.power = .ok c ∧ r = savedRow u a c
  | [], t, h, r, hr => by cases h; simp at hr
  | v :: us, t, h, r, hr => by
    unfold saveUsers at h
    cases hv : saveUser v with
    | error e => rw [hv] at h; cases h
    | ok t1 =>
      rw [hv] at h
      simp only at h
      cases hs : saveUsers us with
      | error e => rw [hs] at h; cases h
      | ok t2 =>
        rw [hs] at h
        cases h
        rcases List.mem_append.1 hr with hr | hr
        · obtain ⟨a, h1, c, h2, h3⟩ := saveAppliances_rows (saveUser_ok hv).2 r hr
          exact ⟨v, by simp, a, h1, c, h2, h3⟩
        · obtain ⟨u, h0, h1⟩ := saveUsers_rows hs r hr
          exact ⟨u, List.mem_cons_of_mem _ h0, h1⟩

theorem saveUseCase_ok {uc : UseCase} {t : Table} (h : saveUseCase uc = .ok t) : uc.users ≠ [] ∧ saveUsers uc.users = .ok t := by
  unfold saveUseCase at h
  split_ifs at h with h0
  exact ⟨by simpa using h0, h⟩

/-- The rows of the saved table: one per appliance. -/
theorem saveUseCase_mem {uc : UseCase} {t : Table} (h : saveUseCase uc = .ok t) {u : User} (hu : u ∈ uc.users) {a : Appliance}
    (ha : a ∈ u.appList) : ∃ c, savePower a.power = .ok c ∧ savedRow u a c ∈ t := by
  obtain ⟨t', h1, h2⟩ := saveUsers_mem (saveUseCase_ok h).2 u hu
  obtain ⟨c, h3, h4⟩ := saveAppliances_mem (saveUser_ok h1).2 a ha
  exact ⟨c, h3, h2 _ h4⟩

/-- **C57 is false: no appliances.** A use case with a user without appliances cannot be saved, nor one without users. -/
theorem C57_nothing_to_save_partial (uc : UseCase) (h : uc.users = [] ∨ ∃ u ∈ uc.users, u.appList = []) (t : Table) :
    saveUseCase uc ≠ .ok t := by
  intro hs
  obtain ⟨h1, h2⟩ := saveUseCase_ok hs
  rcases h with h | ⟨u, hu, h⟩
  · exact h1 h
  · obtain ⟨t', h3, -⟩ := saveUsers_mem h2 u hu
    exact (saveUser_ok h3).1 h

/-- A concrete case: a use case with one user without appliances. -/
example : saveUseCase { users := [{ userName := "house" }] } = .error .exception := rfl

theorem readInput_error : ∀ {t : Table} {r : Row} {c : Cell}, r ∈ t → r.lookup "power" = some c → readPower c = .error .valueError →
    (∀ r ∈ t, r.lookup "power" ≠ none) → readInput t = .error .valueError
  | [], _, _, hr, _, _, _ => by simp at hr
  | r' :: t, r, c, hr, hc, hp, hall => by
    unfold readInput
    cases hl : r'.lookup "power" with
    | none => exact absurd hl (hall r' (by simp))
    | some c' =>
      simp only
      cases hp' : readPower c' with
      | error e =>
        have : e = .valueError := by
          unfold readPower at hp'
          split at hp'
          · split_ifs at hp'; cases hp'; rfl
          · split_ifs at hp'; cases hp'; rfl
          · cases hp'; rfl
          · split_ifs at hp'; cases hp'; rfl
          · split_ifs at hp'; cases hp'; rfl
          · cases hp'; rfl
          · cases hp'
        rw [this]
      | ok c'' =>
        simp only
        rcases List.mem_cons.1 hr with rfl | hr
        · rw [hl] at hc
          injection hc with hc
          rw [hc, hp] at hp'
          cases hp'
        · rw [readInput_error hr hc hp (fun x hx => hall x (List.mem_cons_of_mem _ hx))]

/-- The row in the spreadsheet. -/
def sheetRow (r : Row) : Row := r.map (fun p => (p.1, writeCell p.2))

theorem mem_toExcel {t : Table} {r : Row} (h : r ∈ t) : sheetRow r ∈ toExcel t := List.mem_map_of_mem (f := sheetRow) h

theorem sheetRow_power (u : User) (a : Appliance) (c : Cell) : (sheetRow (savedRow u a c)).lookup "power" = some (writeCell c) := rfl

theorem sheetRow_user (u : User) (a : Appliance) (c : Cell) : rowGet (sheetRow (savedRow u a c)) "user_name" = writeCell (.text u.userName) := rfl

/-- **C57 is false: series of another length.** When some appliance has a power series whose length is not 366 (and whose last value is
not the first), the use case may be saved but the file is rejected, whatever the rest of it. -/
theorem C57_other_length_partial (strict : Bool) (uc uc0 : UseCase) (t : Table) (u : User) (hu : u ∈ uc.users) (a : Appliance)
    (ha : a ∈ u.appList) (h1 : a.power.length ≠ 366) (h2 : a.power.getLast? ≠ a.power.head?) (hs : saveUseCase uc = .ok t) :
    loadUseCase strict uc0 (toExcel t) = (uc0, .error .valueError) := by
  obtain ⟨c, h3, h4⟩ := saveUseCase_mem hs hu ha
  rw [savePower_series h2] at h3
  cases h3
  unfold loadUseCase
  rw [readInput_error (mem_toExcel h4) (sheetRow_power _ _ _) (by
    show (if a.power.length ≠ 366 then Except.error Err.valueError else .ok (Cell.array a.power)) = _
    rw [if_pos h1])]
  intro r hr
  obtain ⟨r', hr', rfl⟩ := List.mem_map.1 hr
  obtain ⟨v, -, b, -, c, -, rfl⟩ := saveUsers_rows (saveUseCase_ok hs).2 r' hr'
  rw [show (savedRow v b c).map (fun p => (p.1, writeCell p.2)) = sheetRow (savedRow v b c) from rfl, sheetRow_power]
  simp

theorem setCell_get (r : Row) (c : Cell) {k : String} (hk : k ≠ "power") : rowGet (setCell r "power" c) k = rowGet r k := by
  unfold rowGet setCell
  congr 1
  induction r with
  | nil => rfl
  | cons p r ih =>
    rw [List.map_cons, List.lookup_cons, List.lookup_cons]
    by_cases hp : p.1 = "power"
    · have : (k == p.1) = false := by
        rw [beq_eq_false_iff_ne]
        intro h
        exact hk (h.trans hp)
      rw [if_pos hp]
      simp only [this]
      exact ih
    · rw [if_neg hp, ih]

theorem readInput_mem : ∀ {t t' : Table}, readInput t = .ok t' → ∀ r ∈ t, ∃ c c', r.lookup "power" = some c ∧ readPower c = .ok c' ∧
    setCell r "power" c' ∈ t'
  | [], _, _, r, hr => by simp at hr
  | r' :: t, t', h, r, hr => by
    unfold readInput at h
    cases hl : r'.lookup "power" with
    | none => rw [hl] at h; cases h
    | some c =>
      rw [hl] at h
      simp only at h
      cases hp : readPower c with
      | error e => rw [hp] at h; cases h
      | ok c' =>
        rw [hp] at h
        simp only at h
        cases hi : readInput t with
        | error e => rw [hi] at h; cases h
        | ok t2 =>
          rw [hi] at h
          cases h
          rcases List.mem_cons.1 hr with rfl | hr
          · exact ⟨c, c', hl, hp, by simp⟩
          · obtain ⟨d, d', g1, g2, g3⟩ := readInput_mem hi r hr
            exact ⟨d, d', g1, g2, List.mem_cons_of_mem _ g3⟩

theorem readInput_rows_from : ∀ {t t' : Table}, readInput t = .ok t' → ∀ r ∈ t', ∃ r0 ∈ t, ∃ c, r = setCell r0 "power" c
  | [], t', h, r, hr => by cases h; simp at hr
  | r' :: t, t', h, r, hr => by
    unfold readInput at h
    cases hl : r'.lookup "power" with
    | none => rw [hl] at h; cases h
    | some c =>
      rw [hl] at h
      simp only at h
      cases hp : readPower c with
      | error e => rw [hp] at h; cases h
      | ok c' =>
        rw [hp] at h
        simp only at h
        cases hi : readInput t with
        | error e => rw [hi] at h; cases h
        | ok t2 =>
          rw [hi] at h
          cases h
          rcases List.mem_cons.1 hr with rfl | hr
          · exact ⟨r', by simp, c', rfl⟩
          · obtain ⟨r0, g1, g2⟩ := readInput_rows_from hi r hr
            exact ⟨r0, List.mem_cons_of_mem _ g1, g2⟩

theorem loadUseCase_ok {strict : Bool} {uc0 uc' : UseCase} {sheet : Table} (h : loadUseCase strict uc0 sheet = (uc', .ok ())) :
    ∃ df, readInput sheet = .ok df ∧ loadTable strict uc0 df = (uc', .ok ()) := by
  unfold loadUseCase at h
  cases hr : readInput sheet with
  | error e => rw [hr] at h; cases h
  | ok df => rw [hr] at h; exact ⟨df, rfl, h⟩

/-- **C57 is false: a user without name.** `User()` has the name `""`, which a spreadsheet cannot tell from an empty cell: a use case
with such a user is saved but not loaded, whatever the rest of it. -/
theorem C57_nameless_user_partial (strict : Bool) (uc uc0 uc' : UseCase) (t : Table) (u : User) (hu : u ∈ uc.users) (hn : u.userName = "")
    (hs : saveUseCase uc = .ok t) : loadUseCase strict uc0 (toExcel t) ≠ (uc', .ok ()) := by
  intro hl
  obtain ⟨df, h1, h2⟩ := loadUseCase_ok hl
  obtain ⟨t', h3, -⟩ := saveUsers_mem (saveUseCase_ok hs).2 u hu
  obtain ⟨a, ha⟩ := List.exists_mem_of_ne_nil _ (saveUser_ok h3).1
  obtain ⟨c, -, h5⟩ := saveUseCase_mem hs hu ha
  obtain ⟨d, d', -, -, h6⟩ := readInput_mem h1 _ (mem_toExcel h5)
  obtain ⟨us, -, h7, -⟩ := C56_grouping strict uc0 uc' df h2
  have hb : rowGet (setCell (sheetRow (savedRow u a c)) "power" d') "user_name" = .blank := by
    rw [setCell_get _ _ (by decide), sheetRow_user, hn]
    rfl
  have : Cell.blank ∈ us.map (fun u => Cell.text u.userName) := by
    rw [h7, mem_firstOccurrences, List.mem_map]
    exact ⟨_, h6, hb⟩
  obtain ⟨v, -, hv⟩ := List.mem_map.1 this
  cases hv

/-- **C57 is false: users with the same name.** When two users have the same name the loaded use case, if loading succeeds at all, has
fewer new users than were saved. -/
theorem C57_same_name_partial (strict : Bool) (uc uc0 uc' : UseCase) (t : Table) (hn : ¬ (uc.users.map (fun u => u.userName)).Nodup)
    (hs : saveUseCase uc = .ok t) (hl : loadUseCase strict uc0 (toExcel t) = (uc', .ok ())) :
    uc'.users.length < uc0.users.length + uc.users.length := by
  obtain ⟨df, h1, h2⟩ := loadUseCase_ok hl
  obtain ⟨us, h6, h7, -⟩ := C56_grouping strict uc0 uc' df h2
  have hnod : (us.map (fun u => u.userName)).Nodup := by
    have : (us.map (fun u => Cell.text u.userName)).Nodup := by rw [h7]; exact nodup_firstOccurrences _
    have e : us.map (fun u => Cell.text u.userName) = (us.map (fun u => u.userName)).map Cell.text := by
      rw [List.map_map]; rfl
    rw [e] at this
    exact List.Nodup.of_map _ this
  have hsub : ∀ s ∈ us.map (fun u => u.userName), s ∈ uc.users.map (fun u => u.userName) := by
    intro s hs'
    obtain ⟨v, hv, rfl⟩ := List.mem_map.1 hs'
    have : Cell.text v.userName ∈ us.map (fun u => Cell.text u.userName) := List.mem_map_of_mem (f := fun u : User => Cell.text u.userName) hv
    rw [h7, mem_firstOccurrences, List.mem_map] at this
    obtain ⟨r, hr, he⟩ := this
    obtain ⟨r0, hr0, c, rfl⟩ := readInput_rows_from h1 r hr
    obtain ⟨r1, hr1, rfl⟩ := List.mem_map.1 hr0
    obtain ⟨w, hw, b, -, c', -, rfl⟩ := saveUsers_rows (saveUseCase_ok hs).2 r1 hr1
    rw [setCell_get _ _ (by decide)] at he
    have he' : writeCell (.text w.userName) = .text v.userName := he
    unfold writeCell at he'
    simp only at he'
    split_ifs at he'
    injection he' with he'
    rw [← he']
    exact List.mem_map_of_mem (f := fun u : User => u.userName) hw
  have hcard : us.length < uc.users.length := by
    have h3 : (us.map (fun u => u.userName)).toFinset.card = us.length := by
      rw [List.toFinset_card_of_nodup hnod, List.length_map]
    have h4 : (us.map (fun u => u.userName)).toFinset ⊆ (uc.users.map (fun u => u.userName)).toFinset := by
      intro s hs
      rw [List.mem_toFinset] at hs ⊢
      exact hsub s hs
    have h5 : (uc.users.map (fun u => u.userName)).toFinset.card < uc.users.length := by
      have hle := List.toFinset_card_le (uc.users.map (fun u => u.userName))
      rw [List.length_map] at hle
      refine lt_of_le_of_ne hle ?_
      intro he
      apply hn
      have h7 : Multiset.toFinset ((uc.users.map (fun u => u.userName) : List String) : Multiset String)
          = (uc.users.map (fun u => u.userName)).toFinset := rfl
      have h8 := (Multiset.toFinset_card_eq_card_iff_nodup (m := ((uc.users.map (fun u => u.userName) : List String) : Multiset String))).1
        (by rw [h7, he, Multiset.coe_card, List.length_map])
      exact Multiset.coe_nodup.1 h8
    rw [← h3]
    exact lt_of_le_of_lt (Finset.card_le_card h4) h5
  rw [h6, List.length_append]
  omega

theorem AddedRows.mem {strict : Bool} {n : ℤ} {k : ℕ} {u u' : User} {t : Table} (h : AddedRows strict n k u t u') : ∀ r ∈ t, ∃ j v v' a app,
    rowArgs r = .ok a ∧ addAppliance strict j n v a = (v', .ok app) := by
  induction h with
  | nil => intro r hr; simp at hr
  | cons ha hb _ ih =>
    intro r hr
    rcases List.mem_cons.1 hr with rfl | hr
    · exact ⟨_, _, _, _, _, ha, hb⟩
    · exact ih r hr

theorem addAppliance_windows_ok {strict : Bool} {j : ℕ} {n : ℤ} {v v' : User} {a : AddArgs} {w : WindowsArgs} {app : Appliance}
    (hw : a.windows = some w) (h : addAppliance strict j n v a = (v', .ok app)) :
    ∃ app0 app1, mkAppliance j n a.app = .ok app0 ∧ windowsBody app0 w = (app1, .ok ()) := by
  unfold addAppliance at h
  cases hm : mkAppliance j n a.app with
  | error e => rw [hm] at h; cases h
  | ok app0 =>
    rw [hm, hw] at h
    simp only at h
    unfold windows at h
    cases hb : windowsBody app0 w with
    | mk app1 r =>
      cases r with
      | error e => rw [hb] at h; cases h
      | ok x => exact ⟨app0, app1, rfl, hb⟩

/-- **C57 is false: windows not set.** An appliance used for longer than its windows last — in particular one for which `windows()` was
never called, as its windows are then [0, 0] — is saved but not loaded, whatever the rest of the use case. -/
theorem C57_time_exceeds_windows_partial (strict : Bool) (uc uc0 uc' : UseCase) (t : Table) (u : User) (hu : u ∈ uc.users) (a : Appliance)
    (ha : a ∈ u.appList) (hname : u.userName ≠ "") (htexts : a.name ≠ "" ∧ a.fixed ≠ "" ∧ a.flat ≠ "")
    (ht : declaredTime a.numWindows a.window1 a.window2 a.window3 < a.funcTime) (hs : saveUseCase uc = .ok t) :
    loadUseCase strict uc0 (toExcel t) ≠ (uc', .ok ()) := by
  intro hl
  obtain ⟨df, h1, h2⟩ := loadUseCase_ok hl
  obtain ⟨c, h4, h5⟩ := saveUseCase_mem hs hu ha
  obtain ⟨d, d', h6, h7, h8⟩ := readInput_mem h1 _ (mem_toExcel h5)
  obtain ⟨us, -, h9, h10⟩ := C56_grouping strict uc0 uc' df h2
  have hw : writeCell c = c := by
    unfold savePower at h4
    split_ifs at h4
    · split at h4
      · cases h4; rfl
      · cases h4
    · cases h4; rfl
  have hrow : setCell (sheetRow (savedRow u a c)) "power" d' = savedRow u a d' := by
    have : sheetRow (savedRow u a c) = savedRow u a c := by
      unfold sheetRow savedRow
      simp only [List.map_cons, List.map_nil, writeCell_idem_text hname, writeCell_idem_text htexts.1, writeCell_idem_text htexts.2.1,
        writeCell_idem_text htexts.2.2, hw]
      rfl
    rw [this]
    rfl
  rw [hrow] at h8
  have hin : Cell.text u.userName ∈ us.map (fun u => Cell.text u.userName) := by
    rw [h9, mem_firstOccurrences, List.mem_map]
    exact ⟨_, h8, rfl⟩
  obtain ⟨v, hv, he⟩ := List.mem_map.1 hin
  injection he with he
  obtain ⟨j, x, x', args, app, g1, g2⟩ := (h10 v hv).rows.mem (savedRow u a d') (List.mem_filter.2 ⟨h8, by
    rw [he]; simp [show rowGet (savedRow u a d') "user_name" = .text u.userName from rfl]⟩)
  rw [rowArgs_saved] at g1
  injection g1 with g1
  subst g1
  obtain ⟨app0, app1, g3, g4⟩ := addAppliance_windows_ok (w := savedWindows a) rfl g2
  obtain ⟨p, cp, rfl⟩ := mkAppliance_fields g3
  have hout := windowsBody_outcome (newAppliance j (savedArgs a d').app p cp) (savedWindows a)
  rw [g4] at hout
  rw [if_neg (by unfold MissingWindow savedWindows; simp)] at hout
  split_ifs at hout with q1 q2 q3
  apply q2
  exact ht

end Ramp
