import Verif.Props.Days

/-! # Properties C80, C81: order and grouping of users and appliances -/

set_option autoImplicit false

namespace Ramp

/-! ## C80: the order does not matter -/

theorem total_append (ps qs : List Profile) : total (ps ++ qs) = fun i => total ps i + total qs i := by
  funext i
  simp [total]

theorem total_perm {ps qs : List Profile} (h : ps.Perm qs) : total ps = total qs := by
  funext i
  exact (h.map _).sum_eq

/-- Related lists stay related, with the same sum, when the left one is reordered. -/
theorem forall₂_total_perm {α : Type} {R : α → Profile → Prop} {l l' : List α} (hp : l.Perm l') {ps : List Profile} (h : List.Forall₂ R l ps) :
    ∃ qs, List.Forall₂ R l' qs ∧ total qs = total ps := by
  induction hp generalizing ps with
  | nil => exact ⟨ps, h, rfl⟩
  | cons a _ ih =>
    cases h with
    | cons h1 h2 =>
      obtain ⟨qs, h3, h4⟩ := ih h2
      exact ⟨_ :: qs, .cons h1 h3, by rw [total_cons, total_cons, h4]⟩
  | swap a b l =>
    cases h with
    | cons h1 h2 =>
      cases h2 with
      | cons h2 h3 =>
        refine ⟨_ :: _ :: _, .cons h2 (.cons h1 h3), ?_⟩
        funext i
        simp only [total_cons]
        ring
  | trans _ _ ih1 ih2 =>
    obtain ⟨qs, h1, h2⟩ := ih1 h
    obtain ⟨rs, h3, h4⟩ := ih2 h1
    exact ⟨rs, h3, h4.trans h2⟩

/-- The two users have the same members and preferences and the same appliances, perhaps in another order. -/
structure SameAppliances (u v : User) : Prop where
  number : v.numUsers = u.numUsers
  preference : v.userPreference = u.userPreference
  appliances : u.appList.Perm v.appList

theorem SameAppliances.symm {u v : User} (h : SameAppliances u v) : SameAppliances v u :=
  ⟨h.number.symm, h.preference.symm, h.appliances.symm⟩

/-- The same users, in any order, each with its appliances in any order. -/
def SameUpToOrder (us vs : List User) : Prop := ∃ ws, us.Perm ws ∧ List.Forall₂ SameAppliances ws vs

theorem memberDay_order {depth k : ℕ} {peak : List ℤ} {dt : ℤ} {u v : User} {p : Profile} (h : SameAppliances u v)
    (hp : MemberDay depth k peak dt u p) : MemberDay depth k peak dt v p := by
  obtain ⟨pref, ps, h1, h2, rfl⟩ := hp
  obtain ⟨qs, h3, h4⟩ := forall₂_total_perm h.appliances h2
  exact ⟨pref, qs, by unfold PreferenceOf at h1 ⊢; rw [h.preference]; exact h1, h3, h4.symm⟩

theorem userDay_order {depth k : ℕ} {peak : List ℤ} {dt : ℤ} {u v : User} {p : Profile} (h : SameAppliances u v)
    (hp : UserDay depth k peak dt u p) : UserDay depth k peak dt v p := by
  obtain ⟨ps, h1, h2, rfl⟩ := hp
  exact ⟨ps, by rw [h.number]; exact h1, fun q hq => memberDay_order h (h2 q hq), rfl⟩

theorem userDays_order {depth k : ℕ} {peak : List ℤ} {dt : ℤ} : ∀ {us vs : List User} {ps : List Profile},
    List.Forall₂ SameAppliances us vs → List.Forall₂ (UserDay depth k peak dt) us ps → List.Forall₂ (UserDay depth k peak dt) vs ps
  | _, _, _, .nil, .nil => .nil
  | _, _, _, .cons h1 h2, .cons h3 h4 => .cons (userDay_order h1 h3) (userDays_order h2 h4)

theorem sameUpToOrder_symm {us vs : List User} (h : SameUpToOrder us vs) : SameUpToOrder vs us := by
  obtain ⟨ws, h1, h2⟩ := h
  obtain ⟨xs, h4, h5⟩ := List.perm_comp_forall₂ h1 h2
  exact ⟨xs, h5.symm, (List.Forall₂.flip h4).imp fun a b hab => hab.symm⟩

theorem caseDay_order {depth k : ℕ} {peak : List ℤ} {dt : ℤ} {us vs : List User} {p : Profile} (h : SameUpToOrder us vs)
    (hp : CaseDay depth k peak dt us p) : CaseDay depth k peak dt vs p := by
  obtain ⟨ws, h1, h2⟩ := h
  obtain ⟨ps, h3, rfl⟩ := hp
  obtain ⟨qs, h4, h5⟩ := forall₂_total_perm h1 h3
  exact ⟨qs, userDays_order h2 h4, h5.symm⟩

theorem generate_iff_of_caseDay {env : Env} {depth : ℕ} {uc : UseCase} {ds peak : List ℤ} (days : Option (List ℤ)) (hr : Ready uc ds peak)
    {vs : List User} (h : ∀ k dt p, CaseDay depth k peak dt uc.users p ↔ CaseDay depth k peak dt vs p) (rows : List Profile) :
    (∃ uc', Returns (generateDaily env depth uc days) (uc', rows)) ↔
      ∃ uc', Returns (generateDaily env depth { uc with users := vs } days) (uc', rows) := by
  have hr' : Ready { uc with users := vs } ds peak := ⟨hr.days, hr.numDays, hr.peak⟩
  rw [C45_superposition days hr, C45_superposition days hr']
  simp only [h]

/-- **C80.** The users of a use case ready to simulate, and the appliances of each user, can be listed in any order: the possible results
are the same. -/
theorem C80_order_irrelevant {env : Env} {depth : ℕ} {uc : UseCase} {ds peak : List ℤ} (days : Option (List ℤ)) (hr : Ready uc ds peak)
    {vs : List User} (h : SameUpToOrder uc.users vs) (rows : List Profile) :
    (∃ uc', Returns (generateDaily env depth uc days) (uc', rows)) ↔
      ∃ uc', Returns (generateDaily env depth { uc with users := vs } days) (uc', rows) :=
  generate_iff_of_caseDay days hr (fun _ _ _ => ⟨caseDay_order h, caseDay_order (sameUpToOrder_symm h)⟩) rows

/-- **C80.** In particular any permutation of the users. -/
theorem C80_permuted_users {env : Env} {depth : ℕ} {uc : UseCase} {ds peak : List ℤ} (days : Option (List ℤ)) (hr : Ready uc ds peak)
    {vs : List User} (h : uc.users.Perm vs) (rows : List Profile) :
    (∃ uc', Returns (generateDaily env depth uc days) (uc', rows)) ↔
      ∃ uc', Returns (generateDaily env depth { uc with users := vs } days) (uc', rows) :=
  C80_order_irrelevant days hr ⟨vs, h, List.forall₂_same.2 fun _ _ => ⟨rfl, rfl, .refl _⟩⟩ rows

/-- A case for C80: two users, the second with two appliances, both lists reversed. -/
example : SameUpToOrder
    [{ userName := "a", appList := [flatLamp] }, { userName := "b", numUsers := 4, appList := [flatLamp, { flatLamp with name := "other", funcTime := 20 }] }]
    [{ userName := "b", numUsers := 4, appList := [{ flatLamp with name := "other", funcTime := 20 }, flatLamp] }, { userName := "a", appList := [flatLamp] }] :=
  ⟨_, .swap _ _ _, .cons ⟨rfl, rfl, .swap _ _ _⟩ (.cons ⟨rfl, rfl, .refl _⟩ .nil)⟩

/-! ## C81: members can be grouped at will -/

theorem forall₂_append_split {α β : Type} {R : α → β → Prop} : ∀ {l m : List α} {ps : List β}, List.Forall₂ R (l ++ m) ps →
    ∃ qs rs, List.Forall₂ R l qs ∧ List.Forall₂ R m rs ∧ ps = qs ++ rs
  | [], _, ps, h => ⟨[], ps, .nil, h, rfl⟩
  | _ :: _, _, _, .cons h1 h2 => by
    obtain ⟨qs, rs, h3, h4, rfl⟩ := forall₂_append_split h2
    exact ⟨_ :: qs, rs, .cons h1 h3, h4, rfl⟩

theorem caseDay_append {depth k : ℕ} {peak : List ℤ} {dt : ℤ} {us vs : List User} {p : Profile} :
    CaseDay depth k peak dt (us ++ vs) p ↔ ∃ q r, CaseDay depth k peak dt us q ∧ CaseDay depth k peak dt vs r ∧ p = fun i => q i + r i := by
  constructor
  · rintro ⟨ps, h, rfl⟩
    obtain ⟨qs, rs, h1, h2, rfl⟩ := forall₂_append_split h
    exact ⟨_, _, ⟨qs, h1, rfl⟩, ⟨rs, h2, rfl⟩, total_append qs rs⟩
  · rintro ⟨_, _, ⟨qs, h1, rfl⟩, ⟨rs, h2, rfl⟩, rfl⟩
    exact ⟨qs ++ rs, List.rel_append h1 h2, (total_append qs rs).symm⟩

theorem caseDay_singleton {depth k : ℕ} {peak : List ℤ} {dt : ℤ} {u : User} {p : Profile} :
    CaseDay depth k peak dt [u] p ↔ UserDay depth k peak dt u p := by
  constructor
  · rintro ⟨ps, h, rfl⟩
    cases h with
    | cons h1 h2 =>
      cases h2
      rw [total_cons, total_nil]
      simpa [zeros] using h1
  · intro h
    refine ⟨[p], .cons h .nil, ?_⟩
    rw [total_cons, total_nil]
    simp [zeros]

theorem caseDay_nil {depth k : ℕ} {peak : List ℤ} {dt : ℤ} {p : Profile} : CaseDay depth k peak dt [] p ↔ p = zeros := by
  constructor
  · rintro ⟨ps, h, rfl⟩
    cases h
    exact total_nil
  · rintro rfl
    exact ⟨[], .nil, total_nil.symm⟩

theorem memberDay_number {depth k : ℕ} {peak : List ℤ} {dt n : ℤ} {u : User} {p : Profile} :
    MemberDay depth k peak dt { u with numUsers := n } p ↔ MemberDay depth k peak dt u p := Iff.rfl

/-- The load of `n + m` members is the sum of a load of `n` members and of a load of `m` members. -/
theorem userDay_split {depth k : ℕ} {peak : List ℤ} {dt n m : ℤ} {u : User} (hn : 0 ≤ n) (hm : 0 ≤ m) {p : Profile} :
    UserDay depth k peak dt { u with numUsers := n + m } p ↔ ∃ q r, UserDay depth k peak dt { u with numUsers := n } q ∧
      UserDay depth k peak dt { u with numUsers := m } r ∧ p = fun i => q i + r i := by
  constructor
  · rintro ⟨ps, h1, h2, rfl⟩
    simp only at h1
    refine ⟨_, _, ⟨ps.take n.toNat, ?_, fun q hq => memberDay_number.2 (memberDay_number.1 (h2 q (List.mem_of_mem_take hq))), rfl⟩,
      ⟨ps.drop n.toNat, ?_, fun q hq => memberDay_number.2 (memberDay_number.1 (h2 q (List.mem_of_mem_drop hq))), rfl⟩, ?_⟩
    · simp only [List.length_take]; omega
    · simp only [List.length_drop]; omega
    · rw [← total_append, List.take_append_drop]
  · rintro ⟨_, _, ⟨qs, h1, h2, rfl⟩, ⟨rs, h3, h4, rfl⟩, rfl⟩
    simp only at h1 h3
    refine ⟨qs ++ rs, ?_, ?_, (total_append qs rs).symm⟩
    · simp only [List.length_append]; omega
    · intro q hq
      rcases List.mem_append.1 hq with hq | hq
      · exact memberDay_number.2 (memberDay_number.1 (h2 q hq))
      · exact memberDay_number.2 (memberDay_number.1 (h4 q hq))

/-- **C81.** A user category of `n + m` members is equivalent to two categories of `n` and of `m` members with the same appliances: the
possible results of the use case are the same. -/
theorem C81_split_members {env : Env} {depth : ℕ} {uc : UseCase} {ds peak : List ℤ} (days : Option (List ℤ)) (hr : Ready uc ds peak)
    {before after : List User} {u : User} {n m : ℤ} (hn : 0 ≤ n) (hm : 0 ≤ m) (hu : uc.users = before ++ { u with numUsers := n + m } :: after)
    (rows : List Profile) :
    (∃ uc', Returns (generateDaily env depth uc days) (uc', rows)) ↔
      ∃ uc', Returns (generateDaily env depth { uc with users := before ++ { u with numUsers := n } :: { u with numUsers := m } :: after } days)
        (uc', rows) := by
  refine generate_iff_of_caseDay days hr (fun k dt p => ?_) rows
  rw [hu, show before ++ { u with numUsers := n + m } :: after = before ++ ([{ u with numUsers := n + m }] ++ after) from rfl,
    show before ++ { u with numUsers := n } :: { u with numUsers := m } :: after
      = before ++ (([{ u with numUsers := n }] ++ [{ u with numUsers := m }]) ++ after) from rfl]
  rw [caseDay_append, caseDay_append]
  simp only [caseDay_append (us := [_]), caseDay_append (us := [_] ++ [_]), caseDay_singleton, userDay_split hn hm]

/-- **C81.** A user category without members (`num_users = 0`) or without appliances contributes nothing: the possible results are those of
the use case without it. -/
theorem C81_nobody {env : Env} {depth : ℕ} {uc : UseCase} {ds peak : List ℤ} (days : Option (List ℤ)) (hr : Ready uc ds peak)
    {before after : List User} {u : User} (h0 : u.numUsers ≤ 0 ∨ (u.appList = [] ∧ 0 ≤ u.userPreference)) (hu : uc.users = before ++ u :: after) (rows : List Profile) :
    (∃ uc', Returns (generateDaily env depth uc days) (uc', rows)) ↔
      ∃ uc', Returns (generateDaily env depth { uc with users := before ++ after } days) (uc', rows) := by
  refine generate_iff_of_caseDay days hr (fun k dt p => ?_) rows
  have hz : ∀ q, UserDay depth k peak dt u q ↔ q = zeros := by
    intro q
    constructor
    · rintro ⟨ps, h1, h2, rfl⟩
      rcases h0 with h0 | ⟨h0, _⟩
      · have : ps = [] := List.eq_nil_of_length_eq_zero (by omega)
        rw [this, total_nil]
      · have hall : ∀ q ∈ ps, q = zeros := by
          intro q hq
          obtain ⟨pref, qs, _, h3, rfl⟩ := h2 q hq
          rw [h0] at h3
          cases h3
          exact total_nil
        funext i
        unfold total
        rw [List.map_congr_left (g := fun _ => (0 : ℚ)) (fun q hq => by rw [hall q hq]; rfl)]
        simp [zeros]
    · rintro rfl
      rcases h0 with h0 | ⟨h0, hp⟩
      · exact ⟨[], by rw [List.length_nil]; omega, by simp, total_nil.symm⟩
      · refine ⟨List.replicate u.numUsers.toNat zeros, by simp, fun q hq => ?_, ?_⟩
        · rw [List.eq_of_mem_replicate hq]
          refine ⟨if u.userPreference = 0 then 0 else 1, [], ?_, ?_, total_nil.symm⟩
          · unfold PreferenceOf
            split_ifs with h <;> omega
          · rw [h0]; exact .nil
        · funext i
          simp [total, zeros]
  rw [hu, show before ++ u :: after = before ++ ([u] ++ after) from rfl, caseDay_append, caseDay_append]
  simp only [caseDay_append (us := [_]), caseDay_singleton, hz]
  constructor
  · rintro ⟨q, r, h1, ⟨_, r', rfl, h2, rfl⟩, rfl⟩
    exact ⟨q, r', h1, h2, by funext i; simp [zeros]⟩
  · rintro ⟨q, r, h1, h2, rfl⟩
    exact ⟨q, r, h1, ⟨zeros, r, rfl, h2, by funext i; simp [zeros]⟩, rfl⟩

/-- **C81.** Adding a user adds its load: the possible days of the use case with one more user are the sums of a possible day of the use
case and of a possible day of the new user. -/
theorem C81_added_user {env : Env} {depth : ℕ} {uc : UseCase} {ds peak : List ℤ} (days : Option (List ℤ)) (hr : Ready uc ds peak) (u : User)
    (rows : List Profile) :
    (∃ uc', Returns (generateDaily env depth (addUser uc (.user u)).1 days) (uc', rows)) ↔
      ∃ rows₁ rows₂ : List Profile, (∃ uc', Returns (generateDaily env depth uc days) (uc', rows₁)) ∧
        (∃ uc', Returns (generateDaily env depth { uc with users := [u] } days) (uc', rows₂)) ∧
        rows = List.zipWith (fun p q i => p i + q i) rows₁ rows₂ := by
  have hr' : Ready (addUser uc (.user u)).1 ds peak := ⟨hr.days, hr.numDays, hr.peak⟩
  have hr'' : Ready { uc with users := [u] } ds peak := ⟨hr.days, hr.numDays, hr.peak⟩
  rw [C45_superposition days hr']
  simp only [C45_superposition days hr, C45_superposition days hr'']
  have hus : (addUser uc (.user u)).1.users = uc.users ++ [u] := rfl
  rw [hus]
  constructor
  · rintro ⟨hlen, h⟩
    have hch : ∀ k : Fin ds.length, ∃ q r, CaseDay depth k peak (typeOfDay ds[k]) uc.users q ∧ CaseDay depth k peak (typeOfDay ds[k]) [u] r ∧
        (rows[k]'(by rw [hlen]; exact k.2)) = fun i => q i + r i := by
      intro k
      have hk := k.2
      exact caseDay_append.1 (h k ds[k] _ (List.getElem?_eq_getElem hk) (List.getElem?_eq_getElem (by omega)))
    choose q r h1 h2 h3 using hch
    refine ⟨List.ofFn q, List.ofFn r, ⟨by simp, fun k d p hd hp => ?_⟩, ⟨by simp, fun k d p hd hp => ?_⟩, ?_⟩
    · obtain ⟨hk, rfl⟩ := List.getElem?_eq_some_iff.1 hd
      obtain ⟨hk', rfl⟩ := List.getElem?_eq_some_iff.1 hp
      simpa using h1 ⟨k, hk⟩
    · obtain ⟨hk, rfl⟩ := List.getElem?_eq_some_iff.1 hd
      obtain ⟨hk', rfl⟩ := List.getElem?_eq_some_iff.1 hp
      simpa using h2 ⟨k, hk⟩
    · apply List.ext_getElem
      · simp [hlen]
      · intro k hk hk'
        simp only [List.getElem_zipWith, List.getElem_ofFn]
        exact h3 ⟨k, by omega⟩
  · rintro ⟨rows₁, rows₂, ⟨l1, h1⟩, ⟨l2, h2⟩, rfl⟩
    refine ⟨by simp [l1, l2], fun k d p hd hp => ?_⟩
    obtain ⟨hk, rfl⟩ := List.getElem?_eq_some_iff.1 hd
    obtain ⟨hk', rfl⟩ := List.getElem?_eq_some_iff.1 hp
    rw [List.getElem_zipWith]
    exact caseDay_append.2 ⟨_, _, h1 k _ _ hd (List.getElem?_eq_getElem (by omega)), h2 k _ _ hd (List.getElem?_eq_getElem (by omega)), rfl⟩

/-- A case for C81: the three members of the use case `weekendCase` as one and two members. -/
example : weekendCase.users = [] ++ { ({ userName := "u", appList := [flatLamp] } : User) with numUsers := 1 + 2 } :: [] := rfl

end Ramp
