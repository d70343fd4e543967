import Verif.Lemmas.Restore

/-! # Helper lemmas: loading a saved use case -/

set_option autoImplicit false

namespace Ramp

theorem comparable_of_length {strict : Bool} {p q : List ℚ} (h : p.length = q.length) : Comparable strict p q := by
  unfold Comparable powerEq
  rw [if_pos h]
  exact ⟨_, rfl⟩

theorem comparable_of_lax (p q : List ℚ) : Comparable false p q := by
  unfold Comparable powerEq
  by_cases h1 : p.length = q.length
  · rw [if_pos h1]; exact ⟨_, rfl⟩
  · rw [if_neg h1]
    by_cases h2 : p.length = 1
    · rw [if_pos h2]; exact ⟨_, rfl⟩
    · rw [if_neg h2]
      by_cases h3 : q.length = 1
      · rw [if_pos h3]; exact ⟨_, rfl⟩
      · rw [if_neg h3]; exact ⟨false, rfl⟩

theorem comparable_restored {strict : Bool} {n : ℤ} {u : User} (h : ComparableUser strict n u) :
    ∀ a ∈ u.appList, ∀ b ∈ u.appList, ∀ m m', RestoredPower n a.power m → RestoredPower n b.power m' → Comparable strict m m' := by
  intro a ha b hb m m' hm hm'
  have hcon : ∀ {l : List ℚ} {p : ℚ}, ConstantPower l p → l.getLast? ≠ l.head? → False := by
    intro l p h1 h2
    apply h2
    rw [(constant_ends h1).1, (constant_ends h1).2]
  rcases h with rfl | rfl | h | h
  · exact comparable_of_lax _ _
  · apply comparable_of_length
    rcases hm with ⟨p, -, rfl⟩ | ⟨h1, -, rfl⟩ <;> rcases hm' with ⟨p', -, rfl⟩ | ⟨h1', -, rfl⟩
    · rw [List.length_replicate, List.length_replicate]
    · rw [List.length_replicate, h1']; rfl
    · rw [List.length_replicate, h1]; rfl
    · rw [h1, h1']
  · apply comparable_of_length
    obtain ⟨p, hp⟩ := h a ha
    obtain ⟨p', hp'⟩ := h b hb
    rcases hm with ⟨_, -, rfl⟩ | ⟨-, h1, -⟩
    · rcases hm' with ⟨_, -, rfl⟩ | ⟨-, h1, -⟩
      · rw [List.length_replicate, List.length_replicate]
      · exact (hcon hp' h1).elim
    · exact (hcon hp h1).elim
  · apply comparable_of_length
    rcases hm with ⟨p, hp, -⟩ | ⟨h1, -, rfl⟩
    · exact absurd ⟨p, hp⟩ (h a ha)
    · rcases hm' with ⟨p, hp, -⟩ | ⟨h1', -, rfl⟩
      · exact absurd ⟨p, hp⟩ (h b hb)
      · rw [h1, h1']

/-- The table of one user. -/
def SavedTable (u : User) (t : Table) : Prop := ∃ cs : List Cell,
  List.Forall₂ (fun a c => savePower a.power = .ok c ∧ writeCell c = c ∧ readPower c = .ok c) u.appList cs ∧
  t = List.zipWith (savedRow u) u.appList cs

theorem mem_zipWith_saved {u : User} {r : Row} : ∀ {l : List Appliance} {cs : List Cell}, r ∈ List.zipWith (savedRow u) l cs →
    ∃ a ∈ l, ∃ c ∈ cs, r = savedRow u a c
  | [], _, h => by simp at h
  | a :: l, [], h => by simp at h
  | a :: l, c :: cs, h => by
    rw [List.zipWith_cons_cons] at h
    rcases List.mem_cons.1 h with h | h
    · exact ⟨a, by simp, c, by simp, h⟩
    · obtain ⟨a', h1, c', h2, h3⟩ := mem_zipWith_saved h
      exact ⟨a', List.mem_cons_of_mem _ h1, c', List.mem_cons_of_mem _ h2, h3⟩

theorem savedTable_head {u : User} {t : Table} (h : SavedTable u t) : ∀ r ∈ t, rowGet r "user_name" = .text u.userName ∧
    rowGet r "num_users" = .num u.numUsers ∧ rowGet r "user_preference" = .num u.userPreference := by
  obtain ⟨cs, -, rfl⟩ := h
  intro r hr
  obtain ⟨a, -, c, -, rfl⟩ := mem_zipWith_saved hr
  exact ⟨rfl, rfl, rfl⟩

theorem savedTable_length {u : User} {t : Table} (h : SavedTable u t) : t.length = u.appList.length := by
  obtain ⟨cs, h1, rfl⟩ := h
  rw [List.length_zipWith, h1.length_eq, min_self]

theorem saveUser_valid {u : User} (h : ValidUserToSave u) : ∃ t, saveUser u = .ok t ∧ SavedTable u t := by
  obtain ⟨cs, h1, h2⟩ := saveAppliances_ok (u := u) h.valid
  refine ⟨_, ?_, cs, h1, rfl⟩
  unfold saveUser
  rw [if_neg h.some, h2]

theorem saveUsers_valid : ∀ {us : List User}, (∀ u ∈ us, ValidUserToSave u) → ∃ ts, saveUsers us = .ok ts.flatten ∧
    List.Forall₂ SavedTable us ts
  | [], _ => ⟨[], rfl, .nil⟩
  | u :: us, h => by
    obtain ⟨t, h1, h2⟩ := saveUser_valid (h u (by simp))
    obtain ⟨ts, h3, h4⟩ := saveUsers_valid (us := us) (fun v hv => h v (List.mem_cons_of_mem _ hv))
    refine ⟨t :: ts, ?_, .cons h2 h4⟩
    unfold saveUsers
    rw [h1, h3]
    rfl

theorem toExcel_append (s t : Table) : toExcel (s ++ t) = toExcel s ++ toExcel t := by
  unfold toExcel; rw [List.map_append]

theorem toExcel_saved {u : User} (hu : ValidUserToSave u) : ∀ {l : List Appliance} {cs : List Cell}, (∀ a ∈ l, ValidToSave a) →
    List.Forall₂ (fun a c => savePower a.power = .ok c ∧ writeCell c = c ∧ readPower c = .ok c) l cs →
    toExcel (List.zipWith (savedRow u) l cs) = List.zipWith (savedRow u) l cs
  | [], _, _, .nil => rfl
  | a :: l, c :: cs, hv, .cons hc hcs => by
    have := toExcel_saved hu (fun b hb => hv b (List.mem_cons_of_mem _ hb)) hcs
    rw [List.zipWith_cons_cons]
    show (savedRow u a c).map (fun p => (p.1, writeCell p.2)) :: toExcel (List.zipWith (savedRow u) l cs) = _
    rw [this, toExcel_row hu.name (hv a (by simp)) hc.2.1]

theorem toExcel_tables : ∀ {us : List User} {ts : List Table}, (∀ u ∈ us, ValidUserToSave u) → List.Forall₂ SavedTable us ts →
    toExcel ts.flatten = ts.flatten
  | [], _, _, .nil => rfl
  | u :: us, t :: ts, hv, .cons ht hts => by
    rw [List.flatten_cons, toExcel_append, toExcel_tables (fun v hv' => hv v (List.mem_cons_of_mem _ hv')) hts]
    obtain ⟨cs, h1, rfl⟩ := ht
    rw [toExcel_saved (hv u (by simp)) (hv u (by simp)).valid h1]

theorem readInput_rows : ∀ {t : Table}, (∀ r ∈ t, ∃ c, r.lookup "power" = some c ∧ readPower c = .ok c ∧ setCell r "power" c = r) →
    readInput t = .ok t
  | [], _ => rfl
  | r :: t, h => by
    obtain ⟨c, h1, h2, h3⟩ := h r (by simp)
    unfold readInput
    rw [h1]
    simp only
    rw [h2, readInput_rows (fun r hr => h r (List.mem_cons_of_mem _ hr))]
    simp only
    rw [h3]

theorem savedTable_rows {u : User} {t : Table} (h : SavedTable u t) : ∀ r ∈ t, ∃ c, r.lookup "power" = some c ∧ readPower c = .ok c ∧
    setCell r "power" c = r := by
  obtain ⟨cs, h1, rfl⟩ := h
  intro r hr
  obtain ⟨i, hi, rfl⟩ := List.mem_iff_getElem.1 hr
  have hlen := h1.length_eq
  rw [List.length_zipWith] at hi
  have h2 := (List.forall₂_iff_get.1 h1).2 i (by omega) (by omega)
  rw [List.getElem_zipWith]
  exact ⟨cs[i], (read_row _ _ _).1, h2.2.2, (read_row _ _ _).2⟩

theorem readInput_tables {us : List User} {ts : List Table} (h : List.Forall₂ SavedTable us ts) : readInput ts.flatten = .ok ts.flatten := by
  apply readInput_rows
  intro r hr
  obtain ⟨t, ht, hr⟩ := List.mem_flatten.1 hr
  obtain ⟨i, hi, rfl⟩ := List.mem_iff_getElem.1 ht
  have := h.length_eq
  exact savedTable_rows ((List.forall₂_iff_get.1 h).2 i (by omega) hi) r hr

theorem names_tables : ∀ {us : List User} {ts : List Table}, (∀ u ∈ us, u.appList ≠ []) → List.Forall₂ SavedTable us ts →
    ts.flatten.map (fun r => rowGet r "user_name") =
      ((us.map (fun u => (Cell.text u.userName, u.appList.length - 1))).map (fun p => List.replicate (p.2 + 1) p.1)).flatten
  | [], _, _, .nil => rfl
  | u :: us, t :: ts, hv, .cons ht hts => by
    rw [List.flatten_cons, List.map_append, names_tables (fun v hv' => hv v (List.mem_cons_of_mem _ hv')) hts, List.map_cons, List.map_cons,
      List.flatten_cons]
    congr 1
    apply List.eq_replicate_iff.2
    refine ⟨?_, ?_⟩
    · have := List.length_pos_of_ne_nil (hv u (by simp))
      rw [List.length_map, savedTable_length ht]
      simp only
      omega
    · intro c hc
      obtain ⟨r, hr, rfl⟩ := List.mem_map.1 hc
      exact (savedTable_head ht r hr).1

theorem unique_tables {us : List User} {ts : List Table} (hn : (us.map (fun u => u.userName)).Nodup) (hv : ∀ u ∈ us, u.appList ≠ [])
    (h : List.Forall₂ SavedTable us ts) :
    unique (ts.flatten.map (fun r => rowGet r "user_name")) = us.map (fun u => Cell.text u.userName) := by
  rw [unique_eq, names_tables hv h, firstOccurrences_blocks, List.map_map]
  · rfl
  · rw [List.map_map]
    have : (Prod.fst ∘ fun u : User => (Cell.text u.userName, u.appList.length - 1)) = Cell.text ∘ (fun u : User => u.userName) := rfl
    rw [this, ← List.map_map]
    exact hn.map (fun a b hab => by injection hab)

theorem userRows_append (s t : Table) (c : Cell) : userRows (s ++ t) c = userRows s c ++ userRows t c := by
  unfold userRows; rw [List.filter_append]

theorem userRows_none {t : Table} {s : String} (h : ∀ r ∈ t, rowGet r "user_name" ≠ .text s) : userRows t (.text s) = [] := by
  unfold userRows
  rw [List.filter_eq_nil_iff]
  intro r hr
  simp [h r hr]

theorem userRows_all {t : Table} {s : String} (h : ∀ r ∈ t, rowGet r "user_name" = .text s) : userRows t (.text s) = t := by
  unfold userRows
  rw [List.filter_eq_self]
  intro r hr
  simp [h r hr]

theorem userRows_tables : ∀ {us : List User} {ts : List Table} (pre : Table), (us.map (fun u => u.userName)).Nodup →
    List.Forall₂ SavedTable us ts → (∀ r ∈ pre, ∀ u ∈ us, rowGet r "user_name" ≠ .text u.userName) →
    List.Forall₂ (fun u t => userRows (pre ++ ts.flatten) (.text u.userName) = t) us ts
  | [], _, _, _, .nil, _ => .nil
  | u :: us, t :: ts, pre, hn, .cons ht hts, hp => by
    rw [List.map_cons, List.nodup_cons] at hn
    constructor
    · rw [List.flatten_cons, userRows_append, userRows_append, userRows_none (fun r hr => hp r hr u (by simp)),
        userRows_all (fun r hr => (savedTable_head ht r hr).1), userRows_none, List.nil_append, List.append_nil]
      intro r hr he
      obtain ⟨t', ht', hr⟩ := List.mem_flatten.1 hr
      obtain ⟨i, hi, rfl⟩ := List.mem_iff_getElem.1 ht'
      have hlen := hts.length_eq
      have := (savedTable_head ((List.forall₂_iff_get.1 hts).2 i (by omega) hi) r hr).1
      rw [this] at he
      injection he with he
      apply hn.1
      rw [← he]
      exact List.mem_map_of_mem (f := fun u : User => u.userName) (List.getElem_mem _)
    · have := userRows_tables (pre ++ t) hn.2 hts (by
        intro r hr v hv
        rcases List.mem_append.1 hr with hr | hr
        · exact hp r hr v (List.mem_cons_of_mem _ hv)
        · rw [(savedTable_head ht r hr).1]
          intro he
          injection he with he
          apply hn.1
          rw [he]
          exact List.mem_map_of_mem (f := fun u : User => u.userName) hv)
      rw [List.flatten_cons, ← List.append_assoc]
      exact this

/-- How a restored user is related to the saved one. -/
structure RestoredUser (n : ℤ) (u v : User) : Prop where
  head : v = { userName := u.userName, numUsers := u.numUsers, userPreference := u.userPreference, appList := v.appList }
  appliances : List.Forall₂ (RestoredApp n) u.appList v.appList

theorem RestoredUser.same {n : ℤ} (hn : 0 ≤ n) {u v : User} (h : RestoredUser n u v) : SameSavedUser u v := by
  refine ⟨by rw [h.head], by rw [h.head], by rw [h.head], h.appliances.imp ?_⟩
  intro a b hab
  exact ⟨hab.attributes, hab.power.same hn⟩

theorem loadHead_saved {df : Table} {u : User} {t : Table} (hv : u.appList ≠ []) (ht : SavedTable u t)
    (hr : userRows df (.text u.userName) = t) : loadUserHead df (.text u.userName) =
      .ok { userName := u.userName, numUsers := u.numUsers, userPreference := u.userPreference } := by
  apply loadUserHead_ok.2
  refine ⟨_, _, _, rfl, rfl, ?_, ?_⟩
  · rw [hr]
    intro h0
    have := savedTable_length ht
    rw [h0] at this
    exact hv (List.length_eq_zero_iff.1 this.symm)
  · rw [hr]
    intro r hrt
    exact (savedTable_head ht r hrt).2

/-- A new user. -/
def headOf (u : User) (l : List Appliance) : User where
  userName := u.userName
  numUsers := u.numUsers
  userPreference := u.userPreference
  appList := l

theorem loadRows_saved_user {strict : Bool} {n : ℤ} (hd : 0 ≤ n) {u : User} {t : Table} (hv : ValidUserToSave u)
    (hc : ComparableUser strict n u) (ht : SavedTable u t) :
    ∃ l', loadRows strict n 0 (headOf u []) t = (headOf u l', .ok ()) ∧ List.Forall₂ (RestoredApp n) u.appList l' := by
  obtain ⟨cs, hcs, rfl⟩ := ht
  exact loadRows_saved hd u u.appList cs 0 (headOf u []) [] hv.valid hv.distinct (comparable_restored hc) hcs .nil (by simp [headOf])

theorem loadUsers_cons {strict : Bool} {df : Table} {name : Cell} {names : List Cell} {uc : UseCase} {u v : User}
    (h1 : loadUserHead df name = .ok u) (h2 : loadRows strict uc.userDays 0 u (userRows df name) = (v, .ok ())) :
    loadUsers strict df (name :: names) uc = loadUsers strict df names { uc with users := uc.users ++ [v] } := by
  rw [loadUsers, h1]
  simp only
  rw [h2]

theorem loadUsers_saved {strict : Bool} {df : Table} {n : ℤ} (hd : 0 ≤ n) (us : List User) : ∀ (ts : List Table) (uc : UseCase),
    uc.userDays = n → (∀ u ∈ us, ValidUserToSave u) → (∀ u ∈ us, ComparableUser strict n u) → List.Forall₂ SavedTable us ts →
    List.Forall₂ (fun u t => userRows df (.text u.userName) = t) us ts →
    ∃ vs, loadUsers strict df (us.map (fun u => Cell.text u.userName)) uc = ({ uc with users := uc.users ++ vs }, .ok ()) ∧
      List.Forall₂ (RestoredUser n) us vs := by
  induction us with
  | nil =>
    intro ts uc _ _ _ _ _
    exact ⟨[], by simp [loadUsers], .nil⟩
  | cons u us ih =>
    intro ts uc hn hv hc hts hrs
    cases hts with
    | cons ht hts =>
    cases hrs with
    | cons hr hrs =>
    obtain ⟨l', h1, h2⟩ := loadRows_saved_user hd (hv u (by simp)) (hc u (by simp)) ht
    obtain ⟨vs, h3, h4⟩ := ih _ { uc with users := uc.users ++ [headOf u l'] } hn
      (fun w hw => hv w (List.mem_cons_of_mem _ hw)) (fun w hw => hc w (List.mem_cons_of_mem _ hw)) hts hrs
    refine ⟨headOf u l' :: vs, ?_, .cons ⟨rfl, h2⟩ h4⟩
    rw [List.map_cons, loadUsers_cons (loadHead_saved (hv u (by simp)).some ht hr) (v := headOf u l') (by rw [hr, hn]; exact h1), h3]
    simp

/-- Loading what has been saved. -/
theorem load_saved {strict : Bool} {uc uc0 : UseCase} (hne : uc.users ≠ []) (hn : (uc.users.map (fun u => u.userName)).Nodup)
    (hv : ∀ u ∈ uc.users, ValidUserToSave u) (hc : ∀ u ∈ uc.users, ComparableUser strict uc0.userDays u) (hd : 0 ≤ uc0.userDays) :
    ∃ t vs, saveUseCase uc = .ok t ∧
      loadUseCase strict uc0 (toExcel t) = (collectAppliances { uc0 with users := uc0.users ++ vs }, .ok ()) ∧
      List.Forall₂ (RestoredUser uc0.userDays) uc.users vs := by
  obtain ⟨ts, h1, h2⟩ := saveUsers_valid hv
  obtain ⟨vs, h3, h4⟩ := loadUsers_saved (df := ts.flatten) hd uc.users ts uc0 rfl hv hc h2 (by simpa using userRows_tables [] hn h2 (by simp))
  refine ⟨ts.flatten, vs, ?_, ?_, h4⟩
  · unfold saveUseCase
    rw [if_neg (by simpa using hne), h1]
  · unfold loadUseCase
    rw [toExcel_tables hv h2, readInput_tables h2]
    simp only
    unfold loadTable
    rw [unique_tables hn (fun u hu => (hv u hu).some) h2, h3]

end Ramp
