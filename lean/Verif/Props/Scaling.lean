import Verif.Lemmas.Scale
import Verif.Lemmas.Days
import Verif.Lemmas.Peak

/-! # Property C93: other powers, the same schedule -/

set_option autoImplicit false

namespace Ramp

/-- **C93.** Two appliances that differ only in their powers, all those of the second being `c` times those of the first, simulated with the
same random numbers: either both raise the same exception, or both leave the generator in the same state, both stay off or both use
the same windows, the same time of use and the same events with the same numbers of units, and the profile of the second is `c` times
that of the first except where both stand at the value 0.001 of an unused window; for an appliance marked flat there is no such
exception. -/
theorem C93_same_schedule (c : ℚ) (a : Appliance) (depth : ℕ) (pref : ℤ) (day : ℕ) (peak : List ℤ) (dayType : ℤ) (power : ℚ) (rng : Rng) :
    (∃ e, generateLoadProfileInfo a depth pref day peak dayType power rng = .error e ∧
      generateLoadProfileInfo (withPowers c a) depth pref day peak dayType (c * power) rng = .error e) ∨
    ∃ a' b' i j rng', generateLoadProfileInfo a depth pref day peak dayType power rng = .ok ((a', i), rng') ∧
      generateLoadProfileInfo (withPowers c a) depth pref day peak dayType (c * power) rng = .ok ((b', j), rng') ∧
      SameEvents (decide (0 < a.fixedCycle)) i j ∧
      (∀ m, b'.dailyUse m = c * a'.dailyUse m ∨ (b'.dailyUse m = 1 / 1000 ∧ a'.dailyUse m = 1 / 1000)) ∧
      (a.flat = "yes" → ∀ m, b'.dailyUse m = c * a'.dailyUse m) := by
  have hdef : ScaledDef c a (withPowers c a) := ⟨_, _, _, _, _, _, rfl⟩
  rcases rel_scaled_info hdef depth pref day peak dayType power rng with h | ⟨⟨a', i⟩, ⟨b', j⟩, rng', h1, h2, h3, h4, h5, h6⟩
  · exact .inl h
  · refine .inr ⟨a', b', i, j, rng', h1, h2, h5, fun m => ?_, h6⟩
    rcases h4 m with h | ⟨h, h0 | h0⟩
    · exact .inl h
    · left
      simp only at h h0 ⊢
      rw [h, h0, mul_zero]
    · right
      simp only at h h0 ⊢
      exact ⟨h.trans h0, h0⟩

/-- A case for C93: a flat lamp on all evening, all its powers three times as high. -/
example : (withPowers 3 { ({} : Appliance) with flat := "yes", power := [20, 20], window1 := (1080, 1320), funcTime := 240 }).power = [60, 60] := by
  norm_num [withPowers]

/-! ## Use cases -/

/-- The user with the powers of all its appliances multiplied by `c`. -/
def usersWithPowers (c : ℚ) (us : List User) : List User := us.map (fun u => { u with appList := u.appList.map (withPowers c) })

/-- The number of runs per day of appliances that are not marked flat. -/
def unflatRuns (us : List User) : ℕ := (us.map (fun u => u.numUsers.toNat * (u.appList.filter (fun a => a.flat ≠ "yes")).length)).sum

/-- At most `n` times `|1 - c| / 1000` away from `c` times. -/
def Near (c : ℚ) (n : ℕ) (p p' : Profile) : Prop := ∀ i, |p' i - c * p i| ≤ n * (|1 - c| / 1000)

theorem near_add {c : ℚ} {n m : ℕ} {p p' q q' : Profile} (h : Near c n p p') (h' : Near c m q q') :
    Near c (n + m) (fun i => p i + q i) (fun i => p' i + q' i) := by
  intro i
  have h1 := h i
  have h2 := h' i
  have : p' i + q' i - c * (p i + q i) = (p' i - c * p i) + (q' i - c * q i) := by ring
  rw [this]
  push_cast
  rw [add_mul]
  exact (abs_add_le _ _).trans (add_le_add h1 h2)

theorem near_zeros (c : ℚ) : Near c 0 zeros zeros := fun i => by simp [zeros]

theorem multiplied_near {c : ℚ} {p p' : Profile} (h : Multiplied c p p') : Near c 1 p p' := by
  intro i
  rcases h i with h | ⟨h, h0 | h0⟩
  · rw [h, sub_self, abs_zero]; positivity
  · rw [h, h0, mul_zero, sub_zero, abs_zero]; positivity
  · rw [h, h0]
    have : (1 / 1000 - c * (1 / 1000) : ℚ) = (1 - c) * (1 / 1000) := by ring
    rw [this, abs_mul]
    norm_num
    linarith

theorem near_mono {c : ℚ} {n m : ℕ} {p p' : Profile} (h : Near c n p p') (hnm : n ≤ m) : Near c m p p' := fun i =>
  (h i).trans (mul_le_mul_of_nonneg_right (by exact_mod_cast hnm) (by positivity))

theorem rel_bind_same' {α γ δ : Type} {m : Sim α} {P : α → Prop} {f : α → Sim γ} {f' : α → Sim δ} {Q : γ → δ → Prop}
    (h : ∀ r, (∃ e, m r = .error e) ∨ ∃ a r', m r = .ok (a, r') ∧ P a) (hf : ∀ a, P a → Rel (f a) (f' a) Q) : Rel (m >>= f) (m >>= f') Q := by
  refine rel_bind (P := fun x y => x = y ∧ P x) (fun r => ?_) (fun x y hxy => ?_)
  · rcases h r with ⟨e, h⟩ | ⟨a, r', h1, h2⟩
    · exact .inl ⟨e, h, h⟩
    · exact .inr ⟨a, a, r', h1, h1, rfl, h2⟩
  · obtain ⟨rfl, h⟩ := hxy
    exact hf x h

theorem rel_sat {α β : Type} {m : Sim α} {m' : Sim β} {Q : α → β → Prop} {P : α → Prop} {E : Err → Prop} (h : Rel m m' Q) (hs : Sat m P E) :
    Rel m m' (fun x y => Q x y ∧ P x) := by
  intro r
  rcases h r with h | ⟨x, y, r', h1, h2, h3⟩
  · exact .inl h
  · refine .inr ⟨x, y, r', h1, h2, h3, ?_⟩
    have := hs r
    rw [h1] at this
    exact this

theorem rel_imp {α β : Type} {m : Sim α} {m' : Sim β} {Q Q' : α → β → Prop} (h : Rel m m' Q) (hq : ∀ x y, Q x y → Q' x y) : Rel m m' Q' := by
  intro r
  rcases h r with h | ⟨x, y, r', h1, h2, h3⟩
  · exact .inl h
  · exact .inr ⟨x, y, r', h1, h2, hq _ _ h3⟩

def unflat (l : List Appliance) : ℕ := (l.filter (fun a => a.flat ≠ "yes")).length

theorem unflat_cons (a : Appliance) (l : List Appliance) : unflat (a :: l) = (if a.flat = "yes" then 0 else 1) + unflat l := by
  unfold unflat
  rw [List.filter_cons]
  by_cases h : a.flat = "yes"
  · simp [h]
  · simp [h, add_comm]

theorem SameDefinition.flat {a b : Appliance} (h : SameDefinition a b) : b.flat = a.flat := by
  rw [show b = _ from h]

theorem rel_scaled_generate {c : ℚ} {a b : Appliance} (h : ScaledDef c a b) (depth : ℕ) (pref : ℤ) (profI : ℕ) (peak : List ℤ) (dayType : ℤ) (power : ℚ) :
    Rel (generateLoadProfile a depth pref profI peak dayType power) (generateLoadProfile b depth pref profI peak dayType (c * power))
      (fun x y => ScaledDef c x y ∧ Near c (if a.flat = "yes" then 0 else 1) x.dailyUse y.dailyUse ∧ x.flat = a.flat) := by
  refine rel_imp (rel_sat (Q := fun x y => ScaledDef c x y ∧ Near c (if a.flat = "yes" then 0 else 1) x.dailyUse y.dailyUse) ?_
    (sat_generate_same a depth pref profI peak dayType power)) (fun x y ⟨⟨h1, h2⟩, h3⟩ => ⟨h1, h2, h3.flat⟩)
  unfold generateLoadProfile
  refine rel_bind (rel_scaled_info h depth pref profI peak dayType power) ?_
  rintro ⟨x, i⟩ ⟨y, j⟩ ⟨h1, h2, _, h3⟩
  refine rel_pure ⟨h1, ?_⟩
  split_ifs with hf
  · intro m
    simp only at h3
    rw [h3 hf m, sub_self, abs_zero]
    simp
  · exact multiplied_near h2

theorem ScaledDef.power {c : ℚ} {a b : Appliance} (h : ScaledDef c a b) : b.power = a.power.map (c * ·) := by
  obtain ⟨d, f, k1, k2, k3, i, rfl⟩ := h; rfl

theorem rel_scaled_single (c : ℚ) (depth profI : ℕ) (peak : List ℤ) (dayType pref : ℤ) : ∀ {as bs : List Appliance}, List.Forall₂ (ScaledDef c) as bs →
    ∀ {n : ℕ} {p p' : Profile}, Near c n p p' → Rel (singleLoop depth profI peak dayType pref as p) (singleLoop depth profI peak dayType pref bs p')
      (fun x y => List.Forall₂ (ScaledDef c) x.1 y.1 ∧ Near c (n + unflat as) x.2 y.2 ∧ unflat x.1 = unflat as)
  | _, _, .nil, n, p, p', hp => rel_pure ⟨.nil, hp, rfl⟩
  | a :: as, b :: bs, .cons hab h, n, p, p', hp => by
    unfold singleLoop
    rw [hab.power, List.getElem?_map]
    cases a.power[profI]? with
    | none => exact rel_raise
    | some w =>
      simp only [Option.map_some]
      refine rel_bind (rel_scaled_generate hab depth pref profI peak dayType w) ?_
      rintro x y ⟨hxy, hn, hfl⟩
      refine rel_bind (rel_scaled_single c depth profI peak dayType pref h (near_add hp hn)) ?_
      rintro ⟨xs, q⟩ ⟨ys, q'⟩ ⟨h1, h2, h3⟩
      refine rel_pure ⟨.cons hxy h1, ?_, ?_⟩
      · simp only at h2 ⊢
        rw [unflat_cons, ← add_assoc]
        exact h2
      · simp only at h3 ⊢
        rw [unflat_cons, unflat_cons, hfl, h3]

/-- The second user is the first with the powers of its appliances multiplied by `c`. -/
structure ScaledUser (c : ℚ) (u v : User) : Prop where
  number : v.numUsers = u.numUsers
  preference : v.userPreference = u.userPreference
  appliances : List.Forall₂ (ScaledDef c) u.appList v.appList

theorem rel_scaled_member (c : ℚ) (depth profI : ℕ) (peak : List ℤ) (dayType : ℤ) {u v : User} (h : ScaledUser c u v) :
    Rel (generateSingleLoadProfile depth u profI peak dayType) (generateSingleLoadProfile depth v profI peak dayType)
      (fun x y => ScaledUser c x.1 y.1 ∧ Near c (unflat u.appList) x.2 y.2 ∧ unflat x.1.appList = unflat u.appList ∧ x.1.numUsers = u.numUsers) := by
  unfold generateSingleLoadProfile
  rw [h.preference]
  refine rel_bind_same fun pref => ?_
  simp only
  refine rel_bind (rel_scaled_single c depth profI peak dayType pref h.appliances (near_zeros c)) ?_
  rintro ⟨xs, q⟩ ⟨ys, q'⟩ ⟨h1, h2, h3⟩
  refine rel_pure ⟨⟨h.number, rfl, h1⟩, ?_, h3, rfl⟩
  simpa using h2

theorem rel_scaled_members (c : ℚ) (depth profI : ℕ) (peak : List ℤ) (dayType : ℤ) : ∀ (k : ℕ) {u v : User}, ScaledUser c u v → ∀ {n : ℕ} {p p' : Profile},
    Near c n p p' → Rel (aggregatedLoop depth profI peak dayType k u p) (aggregatedLoop depth profI peak dayType k v p')
      (fun x y => ScaledUser c x.1 y.1 ∧ Near c (n + k * unflat u.appList) x.2 y.2 ∧ unflat x.1.appList = unflat u.appList ∧ x.1.numUsers = u.numUsers)
  | 0, u, v, h, n, p, p', hp => rel_pure ⟨h, by simpa using hp, rfl, rfl⟩
  | k + 1, u, v, h, n, p, p', hp => by
    unfold aggregatedLoop
    refine rel_bind (rel_scaled_member c depth profI peak dayType h) ?_
    rintro ⟨x, q⟩ ⟨y, q'⟩ ⟨h1, h2, h3, h4⟩
    refine rel_imp (rel_scaled_members c depth profI peak dayType k h1 (near_add hp h2)) ?_
    rintro ⟨x', r⟩ ⟨y', r'⟩ ⟨h5, h6, h7, h8⟩
    simp only at h3 h4 h6 h7 h8
    rw [h3] at h6
    refine ⟨h5, ?_, h7.trans h3, h8.trans h4⟩
    have : n + (k + 1) * unflat u.appList = n + unflat u.appList + k * unflat u.appList := by ring
    simp only
    rw [this]
    exact h6

theorem unflatRuns_cons (u : User) (us : List User) : unflatRuns (u :: us) = u.numUsers.toNat * unflat u.appList + unflatRuns us := by
  simp [unflatRuns, unflat]

theorem rel_scaled_users (c : ℚ) (depth profI : ℕ) (peak : List ℤ) (dayType : ℤ) : ∀ {us vs : List User}, List.Forall₂ (ScaledUser c) us vs →
    ∀ {n : ℕ} {p p' : Profile}, Near c n p p' → Rel (usersOfDay depth profI peak dayType us p) (usersOfDay depth profI peak dayType vs p')
      (fun x y => List.Forall₂ (ScaledUser c) x.1 y.1 ∧ Near c (n + unflatRuns us) x.2 y.2 ∧ unflatRuns x.1 = unflatRuns us)
  | _, _, .nil, n, p, p', hp => rel_pure ⟨.nil, hp, rfl⟩
  | u :: us, v :: vs, .cons huv h, n, p, p', hp => by
    unfold usersOfDay generateAggregatedLoadProfile
    rw [huv.number]
    refine rel_bind (P := fun x y => ScaledUser c x.1 y.1 ∧ Near c (u.numUsers.toNat * unflat u.appList) x.2 y.2 ∧
      unflat x.1.appList = unflat u.appList ∧ x.1.numUsers = u.numUsers) ?_ ?_
    · refine rel_bind (rel_scaled_members c depth profI peak dayType _ huv (near_zeros c)) ?_
      rintro ⟨x, q⟩ ⟨y, q'⟩ ⟨h1, h2, h3, h4⟩
      exact rel_pure ⟨⟨h1.number, h1.preference, h1.appliances⟩, by simpa using h2, h3, h4⟩
    rintro ⟨x, q⟩ ⟨y, q'⟩ ⟨h1, h2, h3, h4⟩
    refine rel_bind (rel_scaled_users c depth profI peak dayType h (near_add hp h2)) ?_
    rintro ⟨xs, r⟩ ⟨ys, r'⟩ ⟨h5, h6, h7⟩
    refine rel_pure ⟨.cons h1 h5, ?_, ?_⟩
    · simp only at h6 ⊢
      rw [unflatRuns_cons, ← add_assoc]
      exact h6
    · simp only at h3 h4 h7 ⊢
      rw [unflatRuns_cons, unflatRuns_cons, h3, h4, h7]

theorem forall₂_set {α β : Type} {R : α → β → Prop} {a : α} {b : β} (hab : R a b) : ∀ {l : List α} {m : List β} (k : ℕ), List.Forall₂ R l m →
    List.Forall₂ R (l.set k a) (m.set k b)
  | _, _, _, .nil => by simp
  | _ :: _, _ :: _, 0, .cons _ h2 => .cons hab h2
  | _ :: _, _ :: _, k + 1, .cons h1 h2 => .cons h1 (forall₂_set hab k h2)

theorem rel_scaled_days (c : ℚ) (depth : ℕ) (peak : List ℤ) : ∀ (k : ℕ) (ds : List ℤ) {us vs : List User}, List.Forall₂ (ScaledUser c) us vs →
    ∀ {rows rows' : List Profile}, List.Forall₂ (Near c (unflatRuns us)) rows rows' →
    Rel (daysLoop depth peak k ds us rows) (daysLoop depth peak k ds vs rows')
      (fun x y => List.Forall₂ (ScaledUser c) x.1 y.1 ∧ List.Forall₂ (Near c (unflatRuns us)) x.2 y.2)
  | k, [], us, vs, h, rows, rows', hr => by
    unfold daysLoop
    exact rel_pure ⟨h, hr⟩
  | k, d :: ds, us, vs, h, rows, rows', hr => by
    unfold daysLoop
    rw [← hr.length_eq]
    refine rel_bind (rel_scaled_users c depth k peak (getDayType (dayOf d)) h (near_zeros c)) ?_
    rintro ⟨xs, q⟩ ⟨ys, q'⟩ ⟨h1, h2, h3⟩
    refine rel_ite (fun _ => ?_) (fun _ => rel_raise)
    have h2' : Near c (unflatRuns xs) q q' := by
      simp only at h2 h3
      rw [h3]
      simpa using h2
    have hr' : List.Forall₂ (Near c (unflatRuns xs)) rows rows' := by
      simp only at h3
      rw [h3]
      exact hr
    have := rel_scaled_days c depth peak (k + 1) ds h1 (forall₂_set h2' k hr')
    simp only at h3
    rw [h3] at this
    exact this

theorem scaledUsers (c : ℚ) : ∀ us : List User, List.Forall₂ (ScaledUser c) us (usersWithPowers c us)
  | [] => .nil
  | u :: us => .cons ⟨rfl, rfl, by
      simp only
      induction u.appList with
      | nil => exact .nil
      | cons a l ih => exact .cons ⟨_, _, _, _, _, _, rfl⟩ ih⟩ (scaledUsers c us)

/-- **C93.** Multiplying all powers of a use case ready to simulate by `c`, and simulating with the same random numbers: either both
simulations raise the same exception, or both give the same number of days and leave the generator in the same state, and at every
minute of every day the new load is `c` times the old one up to `|1 - c| / 1000` for every appliance not marked flat of every member:
the 0.001 of unused windows is not multiplied. -/
theorem C93_use_case {env : Env} {depth : ℕ} {uc : UseCase} {ds peak : List ℤ} (days : Option (List ℤ)) (hr : Ready uc ds peak) (c : ℚ) (rng : Rng) :
    (∃ e, generateDaily env depth uc days rng = .error e ∧ generateDaily env depth { uc with users := usersWithPowers c uc.users } days rng = .error e) ∨
    ∃ uc1 uc2 rows rows' rng', generateDaily env depth uc days rng = .ok ((uc1, rows), rng') ∧
      generateDaily env depth { uc with users := usersWithPowers c uc.users } days rng = .ok ((uc2, rows'), rng') ∧
      List.Forall₂ (fun p p' => ∀ i, |p' i - c * p i| ≤ unflatRuns uc.users * (|1 - c| / 1000)) rows rows' := by
  have hgen : Rel (generateDaily env depth uc days) (generateDaily env depth { uc with users := usersWithPowers c uc.users } days)
      (fun x y => List.Forall₂ (Near c (unflatRuns uc.users)) x.2 y.2) := by
    unfold generateDaily resolveDays
    simp only [hr.days]
    refine rel_bind (P := fun x y => x = (uc, .ok (ds.length : ℤ)) ∧ y = ({ uc with users := usersWithPowers c uc.users }, .ok (ds.length : ℤ))) ?_ ?_
    · unfold numDaysProperty
      simp only [hr.numDays, hr.days]
      exact rel_pure ⟨rfl, rfl⟩
    rintro ⟨x, n⟩ ⟨y, m⟩ ⟨h1, h2⟩
    obtain ⟨rfl, rfl⟩ := Prod.mk.inj h1
    obtain ⟨rfl, rfl⟩ := Prod.mk.inj h2
    simp only
    refine rel_bind_same' ?_ (fun rows hz => rel_bind (rel_scaled_days c depth _ 0 _ (scaledUsers c x.users) hz) ?_)
    · intro r
      unfold emptyRows liftE
      rw [if_neg (by omega)]
      refine .inr ⟨_, r, rfl, ?_⟩
      rw [List.forall₂_same]
      intro p hp
      rw [List.eq_of_mem_replicate hp]
      exact near_mono (near_zeros c) (Nat.zero_le _)
    · rintro ⟨xs, p⟩ ⟨ys, q⟩ ⟨_, h4⟩
      exact rel_pure h4
  rcases hgen rng with h | ⟨⟨x, p⟩, ⟨y, q⟩, r, h1, h2, h3⟩
  · exact .inl h
  · exact .inr ⟨x, y, p, q, r, h1, h2, h3⟩

/-- **C93.** Without appliances that are not marked flat the load is multiplied exactly. -/
theorem C93_flat_exact {env : Env} {depth : ℕ} {uc : UseCase} {ds peak : List ℤ} (days : Option (List ℤ)) (hr : Ready uc ds peak) (c : ℚ) (rng : Rng)
    (hflat : ∀ u ∈ uc.users, ∀ a ∈ u.appList, a.flat = "yes") :
    (∃ e, generateDaily env depth uc days rng = .error e ∧ generateDaily env depth { uc with users := usersWithPowers c uc.users } days rng = .error e) ∨
    ∃ uc1 uc2 rows rng', generateDaily env depth uc days rng = .ok ((uc1, rows), rng') ∧
      generateDaily env depth { uc with users := usersWithPowers c uc.users } days rng = .ok ((uc2, rows.map (fun p i => c * p i)), rng') := by
  have h0 : unflatRuns uc.users = 0 := by
    unfold unflatRuns
    rw [List.sum_eq_zero]
    intro x hx
    obtain ⟨u, hu, rfl⟩ := List.mem_map.1 hx
    have : u.appList.filter (fun a => a.flat ≠ "yes") = [] := by
      rw [List.filter_eq_nil_iff]
      intro a ha
      simp [hflat u hu a ha]
    rw [this]
    simp
  rcases C93_use_case (env := env) (depth := depth) days hr c rng with h | ⟨uc1, uc2, rows, rows', r, h1, h2, h3⟩
  · exact .inl h
  · refine .inr ⟨uc1, uc2, rows, r, h1, ?_⟩
    have : rows' = rows.map (fun p i => c * p i) := by
      clear h1 h2
      induction h3 with
      | nil => rfl
      | cons h _ ih =>
        rw [List.map_cons, ← ih]
        congr 1
        funext i
        have := h i
        rw [h0, Nat.cast_zero, zero_mul] at this
        have := abs_nonpos_iff.1 this
        linarith
    rw [← this]
    exact h2

/-- Ten members with a flat lamp and a radio. [no source: an example] -/
def lampAndRadio : User where
  userName := "household"
  numUsers := 10
  appList := [{ ({} : Appliance) with oid := 0, flat := "yes", power := [20, 20, 20, 20] }, { ({} : Appliance) with oid := 1, power := [5, 5, 5, 5] }]

/-- A case for C93: three days known, the peak time range known. -/
example : Ready { days := some [0, 1440, 2880], numDays := some 3, peakTimeRange := some [1100, 1101, 1102], users := [lampAndRadio] }
    [0, 1440, 2880] [1100, 1101, 1102] := ⟨rfl, rfl, rfl⟩

example : unflatRuns [lampAndRadio] = 10 := by
  simp [unflatRuns, lampAndRadio]

/-! ## The peak time range and the initialisation -/

theorem sum_map_scaled {α : Type} (c : ℚ) (f : α → ℚ) : ∀ l : List α, (l.map (fun x => c * f x)).sum = c * (l.map f).sum
  | [] => by simp
  | x :: l => by
    rw [List.map_cons, List.sum_cons, sum_map_scaled c f l, List.map_cons, List.sum_cons]
    ring

theorem mean_scaled (c : ℚ) (l : List ℚ) : mean (l.map (c * ·)) = c * mean l := by
  unfold mean
  have := sum_map_scaled c id l
  rw [List.map_id] at this
  rw [List.length_map, show (l.map (c * ·)).sum = c * l.sum from this]
  ring

theorem maximumProfile_scaled (c : ℚ) (u : User) (i : Fin 1440) :
    User.maximumProfile { u with appList := u.appList.map (withPowers c) } i = c * u.maximumProfile i := by
  unfold User.maximumProfile
  simp only [List.map_map]
  have : ((fun a : Appliance => a.maximumProfile i) ∘ withPowers c) = fun a => c * a.maximumProfile i := by
    funext a
    show a.dailyUse i * mean (a.power.map (c * ·)) * a.number = _
    rw [mean_scaled]
    unfold Appliance.maximumProfile
    ring
  rw [this, sum_map_scaled]
  ring

theorem total_scaled (c : ℚ) (us : List User) (i : Fin 1440) :
    totalMaximumProfile (usersWithPowers c us) i = c * totalMaximumProfile us i := by
  unfold totalMaximumProfile usersWithPowers
  have h : ∀ (us : List User) (p p' : Profile), (∀ i, p' i = c * p i) → ∀ i, ((us.map (fun u => { u with appList := u.appList.map (withPowers c) })).foldl
      (fun p u => fun i => p i + u.maximumProfile i) p') i = c * (us.foldl (fun p u => fun i => p i + u.maximumProfile i) p) i := by
    intro us
    induction us with
    | nil => intro p p' h i; exact h i
    | cons u us ih =>
      intro p p' h i
      rw [List.map_cons, List.foldl_cons, List.foldl_cons]
      refine ih _ _ (fun i => ?_) i
      rw [h, maximumProfile_scaled]
      ring
  exact h us zeros zeros (fun i => by simp [zeros]) i

theorem peakWindow_scaled {c : ℚ} (hc : 0 < c) {p p' : Profile} (h : ∀ i, p' i = c * p i) : peakWindow p' = peakWindow p := by
  unfold peakWindow
  refine congrArg _ (List.filter_congr fun i _ => ?_)
  rw [decide_eq_decide, eq_profileMax, eq_profileMax]
  refine forall_congr' fun j => ?_
  rw [h, h]
  exact mul_le_mul_iff_right₀ hc

/-- **C93.** The peak time range does not depend on the unit in which the powers are given: multiplying all powers by a positive
number, the draw of the range gives the same range or the same exception with the same random numbers. -/
theorem C93_peak_unchanged {c : ℚ} (hc : 0 < c) (us : List User) (peakEnlarge : ℚ) :
    peakTimeRangeOf (usersWithPowers c us) peakEnlarge = peakTimeRangeOf us peakEnlarge := by
  unfold peakTimeRangeOf
  rw [peakWindow_scaled hc (total_scaled c us)]

/-- The use case with all powers multiplied by `c`. -/
def caseWithPowers (c : ℚ) (uc : UseCase) : UseCase := { uc with users := usersWithPowers c uc.users }

theorem checkPowerValues_scaled (c : ℚ) (a : Appliance) (n : ℤ) :
    checkPowerValues (withPowers c a) n = (checkPowerValues a n).map (withPowers c) := by
  unfold checkPowerValues
  have e1 : (withPowers c a).power = a.power.map (c * ·) := rfl
  have e2 : (withPowers c a).constantPower = a.constantPower := rfl
  rw [e1, e2, List.length_map, List.head?_map]
  by_cases h1 : (a.power.length : ℤ) < n
  · rw [if_pos h1, if_pos h1]
    by_cases h2 : a.constantPower = true
    · rw [if_pos h2, if_pos h2]
      cases a.power.head? with
      | none => rfl
      | some p =>
        simp only [Option.map_some]
        unfold onesTimes
        by_cases h3 : n + 1 < 0
        · rw [if_pos h3, if_pos h3]; rfl
        · rw [if_neg h3, if_neg h3]
          simp only [Except.map]
          unfold withPowers
          simp
    · rw [if_neg h2, if_neg h2]; rfl
  · rw [if_neg h1, if_neg h1]; rfl

theorem findApp_scaled (c : ℚ) (uc : UseCase) (r : ℕ × ℕ) : (caseWithPowers c uc).findApp r = (uc.findApp r).map (withPowers c) := by
  unfold UseCase.findApp caseWithPowers usersWithPowers
  simp only [List.getElem?_map]
  cases uc.users[r.1]? with
  | none => rfl
  | some u =>
    simp only [Option.map_some, Option.bind_some, List.find?_map]
    rfl

theorem updateApp_scaled (c : ℚ) (uc : UseCase) (r : ℕ × ℕ) (a : Appliance) :
    (caseWithPowers c uc).updateApp r (withPowers c a) = caseWithPowers c (uc.updateApp r a) := by
  unfold UseCase.updateApp caseWithPowers usersWithPowers
  simp only
  congr 1
  apply List.ext_getElem?
  intro i
  simp only [List.getElem?_modify, List.getElem?_map]
  cases uc.users[i]? with
  | none => simp
  | some u =>
    simp only [Option.map_some, Option.map_eq_map]
    split_ifs with h
    · simp only [User.sync, List.map_map]
      congr 2
      refine List.map_congr_left fun x _ => ?_
      simp only [Function.comp_apply]
      by_cases hx : x.oid = a.oid
      · rw [if_pos hx, if_pos (show (withPowers c x).oid = (withPowers c a).oid from hx)]
      · rw [if_neg hx, if_neg (show ¬ (withPowers c x).oid = (withPowers c a).oid from hx)]
    · rfl

theorem checkPowers_scaled (c : ℚ) (n : ℤ) : ∀ (rs : List (ℕ × ℕ)) (uc : UseCase),
    checkPowers n rs (caseWithPowers c uc) = (caseWithPowers c (checkPowers n rs uc).1, (checkPowers n rs uc).2)
  | [], uc => rfl
  | r :: rs, uc => by
    unfold checkPowers
    rw [findApp_scaled]
    cases uc.findApp r with
    | none => rfl
    | some a =>
      simp only [Option.map_some]
      rw [checkPowerValues_scaled]
      cases checkPowerValues a n with
      | error e => rfl
      | ok a' =>
        simp only [Except.map]
        rw [updateApp_scaled]
        exact checkPowers_scaled c n rs _

theorem initCalendar_scaled (c : ℚ) (env : Env) (uc : UseCase) (args : InitArgs) :
    initCalendar env (caseWithPowers c uc) args = (caseWithPowers c (initCalendar env uc args).1, (initCalendar env uc args).2) := by
  have h0 : initDates (initNumDays (caseWithPowers c uc) args.numDays) = caseWithPowers c (initDates (initNumDays uc args.numDays)) := by
    have hd : ∀ w, initDates (caseWithPowers c w) = caseWithPowers c (initDates w) := by
      intro w
      unfold initDates
      have e2 : (caseWithPowers c w).dateStart = w.dateStart := rfl
      have e3 : (caseWithPowers c w).dateEnd = w.dateEnd := rfl
      have e4 : (caseWithPowers c w).numDays = w.numDays := rfl
      rw [e2, e3, e4]
      cases w.dateStart with
      | none => rfl
      | some s =>
        cases w.dateEnd with
        | none => rfl
        | some e =>
          simp only
          cases w.numDays with
          | none => rfl
          | some n =>
            simp only
            split_ifs <;> rfl
    have hn : initNumDays (caseWithPowers c uc) args.numDays = caseWithPowers c (initNumDays uc args.numDays) := by
      cases args.numDays <;> rfl
    rw [hn, hd]
  unfold initCalendar
  rw [h0]
  generalize initDates (initNumDays uc args.numDays) = v
  have h1 : initInput env (caseWithPowers c v) = (caseWithPowers c (initInput env v).1, (initInput env v).2) := by
    unfold initInput caseWithPowers
    simp only
    split
    · rfl
    · split <;> rfl
  rw [h1]
  cases hv : initInput env v with
  | mk v1 r1 =>
    cases r1 with
    | error e => rfl
    | ok x =>
      simp only
      have h2 : initDays env (caseWithPowers c v1) = (caseWithPowers c (initDays env v1).1, (initDays env v1).2) := by
        have e1 : (caseWithPowers c v1).days = v1.days := rfl
        have e2 : (caseWithPowers c v1).dateStart = v1.dateStart := rfl
        have e3 : (caseWithPowers c v1).dateEnd = v1.dateEnd := rfl
        have e4 : (caseWithPowers c v1).numDays = v1.numDays := rfl
        have hs : ∀ w, showDays (caseWithPowers c w) = (caseWithPowers c (showDays w).1, (showDays w).2) := by
          intro w
          unfold showDays
          have : (caseWithPowers c w).days = w.days := rfl
          rw [this]
          cases w.days with
          | none => rfl
          | some l => cases l <;> rfl
        unfold initDays
        rw [e1, e2, e3, e4]
        cases v1.days with
        | some l => exact hs v1
        | none =>
          simp only
          cases chooseDays env v1.dateStart v1.dateEnd (v1.numDays.getD 0) with
          | error e => rfl
          | ok d => exact hs { v1 with days := some d }
      rw [h2]
      cases hv2 : initDays env v1 with
      | mk v2 r2 =>
        cases r2 with
        | error e => rfl
        | ok y => exact checkPowers_scaled c _ _ _

theorem rel_initialize {c : ℚ} (hc : 0 < c) (env : Env) (uc : UseCase) (args : InitArgs) :
    Rel (initUseCase env uc args) (initUseCase env (caseWithPowers c uc) args) (fun x y => y = (caseWithPowers c x.1, x.2)) := by
  have hini : ∀ w, (caseWithPowers c w).isInitialized = w.isInitialized := fun w => rfl
  have hix : ∀ w, initIndex (caseWithPowers c w) = caseWithPowers c (initIndex w) := by
    intro w
    unfold initIndex
    have e : (caseWithPowers c w).days = w.days := rfl
    rw [e]
    cases w.days with
    | none => rfl
    | some l => cases l <;> rfl
  unfold initUseCase
  rw [hini]
  refine rel_ite (fun _ => rel_pure rfl) (fun _ => ?_)
  simp only
  have h2 : (if uc.isInitialized = true ∧ args.force = true then { caseWithPowers c uc with days := none } else caseWithPowers c uc) =
      caseWithPowers c (if uc.isInitialized = true ∧ args.force = true then { uc with days := none } else uc) := by
    split_ifs <;> rfl
  rw [h2]
  generalize (if uc.isInitialized = true ∧ args.force = true then { uc with days := none } else uc) = v
  rw [initCalendar_scaled]
  cases hv : initCalendar env v args with
  | mk w r =>
    cases r with
    | error e => exact rel_pure rfl
    | ok x =>
      simp only
      have hp : ∀ pe, peakTimeRangeOf (caseWithPowers c w).users pe = peakTimeRangeOf w.users pe := fun pe => C93_peak_unchanged hc w.users pe
      cases args.peakEnlarge with
      | none =>
        simp only
        rw [hp, show (caseWithPowers c w).peakEnlarge = w.peakEnlarge from rfl]
        refine rel_bind_same fun q => ?_
        cases q with
        | error e => exact rel_pure rfl
        | ok l =>
          refine rel_pure ?_
          show (initIndex (caseWithPowers c { w with peakTimeRange := some l }), _) = _
          rw [hix]
      | some y =>
        simp only
        refine rel_bind (P := fun x y => y = (caseWithPowers c x.1, x.2)) ?_ ?_
        · cases y with
          | other => exact rel_pure rfl
          | float z =>
            unfold setPeakEnlarge
            simp only
            refine rel_ite (fun _ => ?_) (fun _ => rel_pure rfl)
            rw [hp]
            refine rel_bind_same fun q => ?_
            cases q with
            | error e => exact rel_pure rfl
            | ok l => exact rel_pure rfl
        · rintro ⟨x, q⟩ _ rfl
          cases q with
          | error e => exact rel_pure rfl
          | ok l =>
            refine rel_pure ?_
            simp only
            rw [hix]

/-- **C93.** Initialising a use case with all powers multiplied by a positive `c` gives the same days and the same peak time range, or the
same exception, with the same random numbers. -/
theorem C93_initialize {c : ℚ} (hc : 0 < c) (env : Env) (uc : UseCase) (args : InitArgs) (rng : Rng) :
    initUseCase env (caseWithPowers c uc) args rng =
      (initUseCase env uc args rng).map (fun x => ((caseWithPowers c x.1.1, x.1.2), x.2)) := by
  rcases rel_initialize hc env uc args rng with ⟨e, h1, h2⟩ | ⟨x, y, r, h1, h2, rfl⟩
  · rw [h1, h2]; rfl
  · rw [h1, h2]; rfl

end Ramp
