import Verif.Lemmas.Relate
import Verif.Lemmas.Finitary

/-! # Days of appliances, members, users and use cases -/

set_option autoImplicit false

namespace Ramp

/-! ## Simulations keep the definitions -/

theorem sat_putEvent_same (a : Appliance) (c : ℤ) (p : ℚ) (l : List ℤ) : Sat (putEvent a c p l) (SameDefinition a) (fun _ => True) := by
  unfold putEvent
  split_ifs
  · exact sat_bind' sat_true fun _ _ => sat_pure rfl
  · exact sat_bind' sat_true fun _ _ => sat_pure rfl
  · exact sat_bind' sat_true fun _ _ => sat_pure rfl
  · exact sat_pure rfl
  · exact sat_bind' sat_true fun _ _ => sat_bind' sat_true fun _ _ => sat_pure rfl

theorem sat_updateDailyUse_same (a : Appliance) (c : ℤ) (p : ℚ) (l : List ℤ) :
    Sat (updateDailyUse a c p l) (SameDefinition a) (fun _ => True) := by
  unfold updateDailyUse
  refine sat_bind' (sat_putEvent_same a c p l) fun b hb => sat_bind' sat_true fun s _ => sat_pure ?_
  exact hb.trans rfl

theorem sat_bookEvent_same (a : Appliance) (peak : List ℤ) (p : ℚ) (l : List ℤ) :
    Sat (bookEvent a peak p l) (fun r => SameDefinition a r.1) (fun _ => True) := by
  unfold bookEvent
  split
  · exact sat_bind' sat_true fun c _ => sat_bind' (sat_updateDailyUse_same a c p l) fun b hb => sat_pure hb
  · exact sat_raise trivial

theorem sat_randSwitchOn_same : ∀ (depth : ℕ) (a : Appliance) (rt : ℤ),
    Sat (randSwitchOnWindow depth a rt) (fun r => SameDefinition a r.1) (fun _ => True)
  | 0, a, rt => sat_raise trivial
  | depth + 1, a, rt => by
    unfold randSwitchOnWindow
    simp only
    refine sat_ite (fun _ => ?_) (fun _ => sat_pure rfl)
    refine sat_bind' sat_true fun k _ => ?_
    split
    · exact sat_raise trivial
    · split
      · exact sat_raise trivial
      · refine sat_bind' sat_true fun idx _ => ?_
        refine sat_ite (fun _ => ?_) (fun _ => sat_pure rfl)
        split
        · split
          · exact sat_ite (fun _ => sat_pure rfl) (fun _ => sat_pure rfl)
          · exact sat_randSwitchOn_same depth a rt
        · exact sat_raise trivial

theorem sat_switchOnLoop_same (depth : ℕ) (peak : List ℤ) (power : ℚ) (rt : ℤ) : ∀ (fuel : ℕ) (a : Appliance) (tot : ℤ) (log : List Booking),
    Sat (switchOnLoop depth peak power rt fuel a tot log) (fun r => SameDefinition a r.1) (fun _ => True)
  | 0, _, _, _ => sat_raise trivial
  | fuel + 1, a, tot, log => by
    unfold switchOnLoop
    refine sat_ite (fun _ => ?_) (fun _ => sat_pure rfl)
    refine sat_bind' (sat_randSwitchOn_same depth a rt) ?_
    rintro ⟨b, ev⟩ hb
    simp only at hb ⊢
    split
    · exact sat_pure hb
    · refine sat_ite (fun _ => sat_ite (fun _ => ?_) (fun _ => sat_pure hb)) (fun _ => ?_)
      · refine sat_bind' (sat_bookEvent_same b peak power _) ?_
        rintro ⟨c, n⟩ hc
        exact sat_pure (hb.trans hc)
      · refine sat_bind' (sat_bookEvent_same b peak power _) ?_
        rintro ⟨c, n⟩ hc
        exact (sat_switchOnLoop_same depth peak power rt fuel c _ _).post (fun r hr => (hb.trans hc).trans hr)

/-- Whatever the outcome of the random draws, `generate_load_profile` keeps the definition of the appliance. -/
theorem sat_generate_same (a : Appliance) (depth : ℕ) (pref : ℤ) (profI : ℕ) (peak : List ℤ) (dayType : ℤ) (power : ℚ) :
    Sat (generateLoadProfile a depth pref profI peak dayType power) (SameDefinition a) (fun _ => True) := by
  unfold generateLoadProfile
  refine sat_bind' (P := fun r => SameDefinition a r.1) ?_ (fun r hr => sat_pure hr)
  unfold generateLoadProfileInfo
  simp only
  refine sat_bind' sat_true fun x _ => sat_ite (fun _ => sat_pure rfl) (fun _ => ?_)
  refine sat_bind' sat_true fun w1 _ => sat_bind' sat_true fun w2 _ => sat_bind' sat_true fun w3 _ => sat_bind' sat_true fun rt _ => ?_
  refine sat_ite (fun _ => ?_) (fun _ => ?_)
  · split
    · exact sat_raise trivial
    · exact sat_bind' sat_true fun d _ => sat_pure rfl
  · refine sat_bind' sat_true fun d _ => ?_
    refine sat_bind' (sat_assignRandomCycles_cfg _) ?_
    rintro b ⟨c1, c2, c3, hb⟩
    have hab : SameDefinition a b := by unfold SameDefinition; rw [hb]
    refine sat_bind' (sat_switchOnLoop_same depth peak power rt _ _ 0 []) ?_
    rintro ⟨c, log⟩ hc
    have hbc : SameDefinition b c := SameDefinition.trans (b := { b with freeSpots := initialSpots [w1, w2, w3] }) rfl hc
    exact sat_pure (hab.trans hbc)

/-! ## Different leftovers, same results -/

theorem Rel.returns {α β : Type} {m : Sim α} {m' : Sim β} {Q : α → β → Prop} (h : Rel m m' Q) {a : α} (ha : Returns m a) :
    ∃ b, Returns m' b ∧ Q a b := by
  obtain ⟨r, r', hr⟩ := ha
  rcases h r with ⟨e, h1, _⟩ | ⟨x, y, s, h1, h2, hq⟩
  · rw [h1] at hr; cases hr
  · rw [h1] at hr
    cases hr
    exact ⟨y, ⟨r, _, h2⟩, hq⟩

theorem SameDefinition.power {a b : Appliance} (h : SameDefinition a b) : b.power = a.power := by
  unfold SameDefinition at h
  rw [h]

theorem applianceDay_same {a b : Appliance} (h : SameDefinition a b) {depth k : ℕ} {peak : List ℤ} {dt pref : ℤ} {p : Profile}
    (hp : ApplianceDay depth k peak dt pref b p) : ApplianceDay depth k peak dt pref a p := by
  obtain ⟨pw, b', h1, h2, rfl⟩ := hp
  obtain ⟨a', h3, h4⟩ := (rel_generate h.symm depth pref k peak dt pw).returns h2
  exact ⟨pw, a', by rw [← h.power]; exact h1, h3, h4.2.symm⟩

theorem total_cons (p : Profile) (ps : List Profile) : total (p :: ps) = fun i => p i + total ps i := by
  funext i; simp [total]

theorem total_nil : total [] = zeros := by funext i; simp [total, zeros]

theorem returns_singleLoop {depth k : ℕ} {peak : List ℤ} {dt pref : ℤ} : ∀ {apps apps' : List Appliance} {load load' : Profile},
    Returns (singleLoop depth k peak dt pref apps load) (apps', load') →
      List.Forall₂ SameDefinition apps apps' ∧
      ∃ ps, List.Forall₂ (ApplianceDay depth k peak dt pref) apps ps ∧ load' = fun i => load i + total ps i
  | [], apps', load, load', h => by
    unfold singleLoop at h
    have := returns_pure.1 h
    cases this
    exact ⟨.nil, [], .nil, by funext i; simp [total]⟩
  | a :: apps, apps', load, load', h => by
    unfold singleLoop at h
    cases hp : a.power[k]? with
    | none => rw [hp] at h; exact absurd h returns_raise
    | some pw =>
      rw [hp] at h
      simp only at h
      obtain ⟨a', h1, h2⟩ := (returns_bind (fin_generate _ _ _ _ _ _ _)).1 h
      obtain ⟨⟨rest, l⟩, h3, h4⟩ := (returns_bind (fin_singleLoop _ _ _ _ _ _ _)).1 h2
      have := returns_pure.1 h4
      cases this
      obtain ⟨h5, ps, h6, h7⟩ := returns_singleLoop h3
      refine ⟨.cons ((sat_generate_same _ _ _ _ _ _ _).ret h1) h5, a'.dailyUse :: ps, .cons ⟨pw, a', hp, h1, rfl⟩ h6, ?_⟩
      rw [h7, total_cons]
      funext i
      ring

theorem singleLoop_returns {depth k : ℕ} {peak : List ℤ} {dt pref : ℤ} : ∀ {apps : List Appliance} {ps : List Profile} {load : Profile},
    List.Forall₂ (ApplianceDay depth k peak dt pref) apps ps →
      ∃ apps', Returns (singleLoop depth k peak dt pref apps load) (apps', fun i => load i + total ps i)
  | [], _, load, .nil => ⟨[], by
      unfold singleLoop
      rw [returns_pure]
      congr 1
      funext i; simp [total]⟩
  | a :: apps, _ :: ps, load, .cons ⟨pw, a', h1, h2, hp⟩ h => by
    obtain ⟨apps', h3⟩ := singleLoop_returns (load := fun i => load i + a'.dailyUse i) h
    refine ⟨a' :: apps', ?_⟩
    unfold singleLoop
    rw [h1]
    simp only
    refine (returns_bind (fin_generate _ _ _ _ _ _ _)).2 ⟨a', h2, (returns_bind (fin_singleLoop _ _ _ _ _ _ _)).2 ⟨_, h3, ?_⟩⟩
    rw [returns_pure, total_cons, hp]
    congr 1
    funext i
    ring

theorem returns_drawPreference {n x : ℤ} : Returns (drawPreference n) x ↔ if n = 0 then x = 0 else 1 ≤ x ∧ x ≤ n := by
  unfold drawPreference
  split_ifs with h
  · exact returns_pure
  · constructor
    · intro hx
      exact (sat_randint (Q := fun x => 1 ≤ x ∧ x ≤ n) (E := fun _ => True) (fun k h1 h2 => ⟨h1, h2⟩) (fun _ => trivial)).ret hx
    · rintro ⟨h1, h2⟩
      exact (reach_randint h1 h2).returns

theorem SameUser.refl (u : User) : SameUser u u := ⟨rfl, rfl, rfl, List.forall₂_same.2 fun a _ => SameDefinition.refl a⟩

theorem forall₂_trans {α : Type} {R : α → α → Prop} (hR : ∀ a b c, R a b → R b c → R a c) : ∀ {l m n : List α}, List.Forall₂ R l m →
    List.Forall₂ R m n → List.Forall₂ R l n
  | _, _, _, .nil, .nil => .nil
  | _, _, _, .cons h1 t1, .cons h2 t2 => .cons (hR _ _ _ h1 h2) (forall₂_trans hR t1 t2)

theorem forall₂_same_left {α β : Type} {R : α → α → Prop} {P Q : α → β → Prop} (hPQ : ∀ a b c, R a b → P b c → Q a c) :
    ∀ {l m : List α} {n : List β}, List.Forall₂ R l m → List.Forall₂ P m n → List.Forall₂ Q l n
  | _, _, _, .nil, .nil => .nil
  | _, _, _, .cons h1 t1, .cons h2 t2 => .cons (hPQ _ _ _ h1 h2) (forall₂_same_left hPQ t1 t2)

theorem SameUser.trans {u v w : User} (h : SameUser u v) (h' : SameUser v w) : SameUser u w :=
  ⟨h'.name.trans h.name, h'.number.trans h.number, h'.preference.trans h.preference,
    forall₂_trans (R := SameDefinition) (fun _ _ _ h h' => h.trans h') h.appliances h'.appliances⟩

theorem SameUser.symm {u v : User} (h : SameUser u v) : SameUser v u :=
  ⟨h.name.symm, h.number.symm, h.preference.symm, List.Forall₂.flip (List.Forall₂.imp (fun _ _ h => h.symm) h.appliances)⟩

theorem memberDay_same {u v : User} (h : SameUser u v) {depth k : ℕ} {peak : List ℤ} {dt : ℤ} {p : Profile}
    (hp : MemberDay depth k peak dt v p) : MemberDay depth k peak dt u p := by
  obtain ⟨pref, ps, h1, h2, h3⟩ := hp
  refine ⟨pref, ps, ?_, forall₂_same_left (R := SameDefinition) (P := ApplianceDay depth k peak dt pref) (fun _ _ _ h => applianceDay_same h) h.appliances h2, h3⟩
  unfold PreferenceOf at *
  rw [← h.preference]
  exact h1

theorem returns_single {depth k : ℕ} {peak : List ℤ} {dt : ℤ} {u u' : User} {p : Profile}
    (h : Returns (generateSingleLoadProfile depth u k peak dt) (u', p)) : SameUser u u' ∧ MemberDay depth k peak dt u p := by
  unfold generateSingleLoadProfile at h
  obtain ⟨pref, h1, h2⟩ := (returns_bind (fin_drawPreference _)).1 h
  obtain ⟨⟨apps, l⟩, h3, h4⟩ := (returns_bind (fin_singleLoop _ _ _ _ _ _ _)).1 h2
  have := returns_pure.1 h4
  cases this
  obtain ⟨h5, ps, h6, h7⟩ := returns_singleLoop h3
  exact ⟨⟨rfl, rfl, rfl, h5⟩, pref, ps, returns_drawPreference.1 h1, h6, by rw [h7]; funext i; simp [zeros]⟩

theorem single_returns {depth k : ℕ} {peak : List ℤ} {dt : ℤ} {u : User} {p : Profile} (h : MemberDay depth k peak dt u p) :
    ∃ u', Returns (generateSingleLoadProfile depth u k peak dt) (u', p) := by
  obtain ⟨pref, ps, h1, h2, rfl⟩ := h
  obtain ⟨apps', h3⟩ := singleLoop_returns (load := zeros) h2
  refine ⟨{ u with randDailyPref := pref, appList := apps' }, ?_⟩
  unfold generateSingleLoadProfile
  refine (returns_bind (fin_drawPreference _)).2 ⟨pref, returns_drawPreference.2 h1, (returns_bind (fin_singleLoop _ _ _ _ _ _ _)).2 ⟨_, h3, ?_⟩⟩
  rw [returns_pure]
  congr 1
  funext i
  simp [zeros]

theorem returns_aggregatedLoop {depth k : ℕ} {peak : List ℤ} {dt : ℤ} : ∀ {n : ℕ} {u u' : User} {load load' : Profile},
    Returns (aggregatedLoop depth k peak dt n u load) (u', load') → SameUser u u' ∧
      ∃ ps : List Profile, ps.length = n ∧ (∀ q ∈ ps, MemberDay depth k peak dt u q) ∧ load' = fun i => load i + total ps i
  | 0, u, u', load, load', h => by
    unfold aggregatedLoop at h
    have := returns_pure.1 h
    cases this
    exact ⟨SameUser.refl _, [], rfl, by simp, by funext i; simp [total]⟩
  | n + 1, u, u', load, load', h => by
    unfold aggregatedLoop at h
    obtain ⟨⟨u1, p⟩, h1, h2⟩ := (returns_bind (fin_single _ _ _ _ _)).1 h
    obtain ⟨h3, h4⟩ := returns_single h1
    obtain ⟨h5, ps, h6, h7, h8⟩ := returns_aggregatedLoop h2
    refine ⟨h3.trans h5, p :: ps, by simp [h6], ?_, ?_⟩
    · intro q hq
      rcases List.mem_cons.1 hq with rfl | hq
      · exact h4
      · exact memberDay_same h3 (h7 q hq)
    · rw [h8, total_cons]
      funext i
      ring

theorem aggregatedLoop_returns {depth k : ℕ} {peak : List ℤ} {dt : ℤ} : ∀ {n : ℕ} {u : User} {load : Profile} {ps : List Profile},
    ps.length = n → (∀ q ∈ ps, MemberDay depth k peak dt u q) →
      ∃ u', Returns (aggregatedLoop depth k peak dt n u load) (u', fun i => load i + total ps i)
  | 0, u, load, [], _, _ => ⟨u, by
      unfold aggregatedLoop
      rw [returns_pure]
      congr 1
      funext i; simp [total]⟩
  | n + 1, u, load, p :: ps, hl, h => by
    obtain ⟨u1, h1⟩ := single_returns (h p (by simp))
    obtain ⟨h2, _⟩ := returns_single h1
    obtain ⟨u', h3⟩ := aggregatedLoop_returns (n := n) (u := u1) (load := fun i => load i + p i) (ps := ps) (by simpa using hl)
      (fun q hq => memberDay_same h2.symm (h q (by simp [hq])))
    refine ⟨u', ?_⟩
    unfold aggregatedLoop
    refine (returns_bind (fin_single _ _ _ _ _)).2 ⟨_, h1, ?_⟩
    simp only
    rw [total_cons]
    convert h3 using 3
    ring

theorem returns_aggregated {depth k : ℕ} {peak : List ℤ} {dt : ℤ} {u u' : User} {p : Profile}
    (h : Returns (generateAggregatedLoadProfile depth u k peak dt) (u', p)) : SameUser u u' ∧ UserDay depth k peak dt u p := by
  unfold generateAggregatedLoadProfile at h
  obtain ⟨⟨u1, l⟩, h1, h2⟩ := (returns_bind (fin_aggregatedLoop _ _ _ _ _ _ _)).1 h
  have := returns_pure.1 h2
  cases this
  obtain ⟨h3, ps, h4, h5, h6⟩ := returns_aggregatedLoop h1
  exact ⟨⟨h3.name, h3.number, h3.preference, h3.appliances⟩, ps, h4, h5, by rw [h6]; funext i; simp [zeros]⟩

theorem aggregated_returns {depth k : ℕ} {peak : List ℤ} {dt : ℤ} {u : User} {p : Profile} (h : UserDay depth k peak dt u p) :
    ∃ u', Returns (generateAggregatedLoadProfile depth u k peak dt) (u', p) := by
  obtain ⟨ps, h1, h2, rfl⟩ := h
  obtain ⟨u', h3⟩ := aggregatedLoop_returns (load := zeros) h1 h2
  refine ⟨{ u' with load := some (total ps) }, ?_⟩
  unfold generateAggregatedLoadProfile
  refine (returns_bind (fin_aggregatedLoop _ _ _ _ _ _ _)).2 ⟨_, h3, ?_⟩
  simp only
  rw [returns_pure]
  simp [zeros]

theorem userDay_same {u v : User} (h : SameUser u v) {depth k : ℕ} {peak : List ℤ} {dt : ℤ} {p : Profile}
    (hp : UserDay depth k peak dt v p) : UserDay depth k peak dt u p := by
  obtain ⟨ps, h1, h2, h3⟩ := hp
  exact ⟨ps, by rw [h1, h.number], fun q hq => memberDay_same h (h2 q hq), h3⟩

theorem returns_usersOfDay {depth k : ℕ} {peak : List ℤ} {dt : ℤ} : ∀ {us us' : List User} {load load' : Profile},
    Returns (usersOfDay depth k peak dt us load) (us', load') → List.Forall₂ SameUser us us' ∧
      ∃ ps, List.Forall₂ (UserDay depth k peak dt) us ps ∧ load' = fun i => load i + total ps i
  | [], us', load, load', h => by
    unfold usersOfDay at h
    have := returns_pure.1 h
    cases this
    exact ⟨.nil, [], .nil, by funext i; simp [total]⟩
  | u :: us, us', load, load', h => by
    unfold usersOfDay at h
    obtain ⟨⟨u1, p⟩, h1, h2⟩ := (returns_bind (fin_aggregated _ _ _ _ _)).1 h
    obtain ⟨⟨us1, l⟩, h3, h4⟩ := (returns_bind (fin_usersOfDay _ _ _ _ _ _)).1 h2
    have := returns_pure.1 h4
    cases this
    obtain ⟨h5, h6⟩ := returns_aggregated h1
    obtain ⟨h7, ps, h8, h9⟩ := returns_usersOfDay h3
    refine ⟨.cons h5 h7, p :: ps, .cons h6 h8, ?_⟩
    rw [h9, total_cons]
    funext i
    ring

theorem usersOfDay_returns {depth k : ℕ} {peak : List ℤ} {dt : ℤ} : ∀ {us : List User} {load : Profile} {ps : List Profile},
    List.Forall₂ (UserDay depth k peak dt) us ps → ∃ us', Returns (usersOfDay depth k peak dt us load) (us', fun i => load i + total ps i)
  | [], load, _, .nil => ⟨[], by
      unfold usersOfDay
      rw [returns_pure]
      congr 1
      funext i; simp [total]⟩
  | u :: us, load, p :: ps, .cons h1 h2 => by
    obtain ⟨u', h3⟩ := aggregated_returns h1
    obtain ⟨us', h4⟩ := usersOfDay_returns (load := fun i => load i + p i) h2
    refine ⟨u' :: us', ?_⟩
    unfold usersOfDay
    refine (returns_bind (fin_aggregated _ _ _ _ _)).2 ⟨_, h3, (returns_bind (fin_usersOfDay _ _ _ _ _ _)).2 ⟨_, h4, ?_⟩⟩
    rw [returns_pure, total_cons]
    congr 1
    funext i
    ring

theorem caseDay_same {us vs : List User} (h : List.Forall₂ SameUser us vs) {depth k : ℕ} {peak : List ℤ} {dt : ℤ} {p : Profile}
    (hp : CaseDay depth k peak dt vs p) : CaseDay depth k peak dt us p := by
  obtain ⟨ps, h1, h2⟩ := hp
  exact ⟨ps, forall₂_same_left (R := SameUser) (P := UserDay depth k peak dt) (fun _ _ _ h => userDay_same h) h h1, h2⟩

theorem sameUsers_symm {us vs : List User} (h : List.Forall₂ SameUser us vs) : List.Forall₂ SameUser vs us :=
  List.Forall₂.flip (List.Forall₂.imp (fun _ _ h => h.symm) h)

theorem dayType_spec (d : ℤ) : getDayType (dayOf d) = typeOfDay d := by
  unfold getDayType weekday dayOf typeOfDay
  split_ifs <;> omega

theorem fin_daysLoop (depth : ℕ) (peak : List ℤ) : ∀ (k : ℕ) (ds : List ℤ) (us : List User) (rows : List Profile),
    Finitary (daysLoop depth peak k ds us rows)
  | _, [], _, _ => fin_pure _
  | k, d :: ds, us, rows => by
    unfold daysLoop
    refine fin_bind (fin_usersOfDay _ _ _ _ _ _) fun p => ?_
    exact fin_ite (fin_daysLoop depth peak (k + 1) ds _ _) (fin_raise _)

/-- The loads of consecutive days: load `j` is a possible load of the users on day `ds[j]`, which is day number `k + j`. -/
def DayLoads (depth : ℕ) (peak : List ℤ) (us : List User) : ℕ → List ℤ → List Profile → Prop
  | _, [], [] => True
  | k, d :: ds, p :: ps => CaseDay depth k peak (typeOfDay d) us p ∧ DayLoads depth peak us (k + 1) ds ps
  | _, _, _ => False

theorem dayLoads_same {depth : ℕ} {peak : List ℤ} {us vs : List User} (h : List.Forall₂ SameUser us vs) : ∀ {k : ℕ} {ds : List ℤ}
    {ps : List Profile}, DayLoads depth peak vs k ds ps → DayLoads depth peak us k ds ps
  | _, [], [], _ => trivial
  | _, _ :: _, _ :: _, ⟨h1, h2⟩ => ⟨caseDay_same h h1, dayLoads_same h h2⟩

theorem dayLoads_length {depth : ℕ} {peak : List ℤ} {us : List User} : ∀ {k : ℕ} {ds : List ℤ} {ps : List Profile},
    DayLoads depth peak us k ds ps → ps.length = ds.length
  | _, [], [], _ => rfl
  | k, d :: ds, p :: ps, ⟨_, h2⟩ => by simp [dayLoads_length h2]

theorem dayLoads_get {depth : ℕ} {peak : List ℤ} {us : List User} : ∀ {k : ℕ} {ds : List ℤ} {ps : List Profile},
    DayLoads depth peak us k ds ps ↔ ps.length = ds.length ∧ ∀ j d p, ds[j]? = some d → ps[j]? = some p →
      CaseDay depth (k + j) peak (typeOfDay d) us p
  | k, [], [] => by simp [DayLoads]
  | k, [], p :: ps => by simp [DayLoads]
  | k, d :: ds, [] => by simp [DayLoads]
  | k, d :: ds, p :: ps => by
    unfold DayLoads
    rw [dayLoads_get]
    constructor
    · rintro ⟨h1, h2, h3⟩
      refine ⟨by simp [h2], ?_⟩
      rintro (_ | j) d' p' hd hp
      · simp at hd hp; subst hd; subst hp; exact h1
      · simp at hd hp
        have := h3 j d' p' hd hp
        rwa [Nat.add_right_comm, Nat.add_assoc] at this
    · rintro ⟨h1, h2⟩
      refine ⟨h2 0 d p rfl rfl, by simpa using h1, ?_⟩
      intro j d' p' hd hp
      have := h2 (j + 1) d' p' (by simpa using hd) (by simpa using hp)
      rwa [Nat.add_right_comm, Nat.add_assoc]

/-- Rows `k, k+1, ...` replaced. -/
def setRows (rows : List Profile) : ℕ → List Profile → List Profile
  | _, [] => rows
  | k, p :: ps => setRows (rows.set k p) (k + 1) ps

theorem setRows_length : ∀ (ps : List Profile) (rows : List Profile) (k : ℕ), (setRows rows k ps).length = rows.length
  | [], _, _ => rfl
  | p :: ps, rows, k => by unfold setRows; rw [setRows_length]; simp

theorem setRows_get : ∀ (ps : List Profile) (rows : List Profile) (k j : ℕ), k + ps.length ≤ rows.length →
    (setRows rows k ps)[j]? = if k ≤ j ∧ j < k + ps.length then ps[j - k]? else rows[j]?
  | [], rows, k, j, _ => by
    unfold setRows
    rw [if_neg (by simp only [List.length_nil]; omega)]
  | p :: ps, rows, k, j, h => by
    simp only [List.length_cons] at h ⊢
    unfold setRows
    rw [setRows_get ps (rows.set k p) (k + 1) j (by simp; omega)]
    by_cases hj : j = k
    · subst hj
      rw [if_neg (by omega), if_pos (by omega)]
      rw [List.getElem?_set_self (by omega)]
      simp
    · by_cases h2 : k + 1 ≤ j ∧ j < k + 1 + ps.length
      · rw [if_pos h2, if_pos (by omega)]
        obtain ⟨m, rfl⟩ : ∃ m, j = k + 1 + m := ⟨j - (k + 1), by omega⟩
        rw [show k + 1 + m - (k + 1) = m by omega, show k + 1 + m - k = m + 1 by omega]
        simp
      · rw [if_neg h2, if_neg (by omega)]
        rw [List.getElem?_set_ne (by omega)]

theorem returns_daysLoop {depth : ℕ} {peak : List ℤ} : ∀ {k : ℕ} {ds : List ℤ} {us us' : List User} {rows rows' : List Profile},
    Returns (daysLoop depth peak k ds us rows) (us', rows') → List.Forall₂ SameUser us us' ∧ (ds ≠ [] → k + ds.length ≤ rows.length) ∧
      ∃ ps, DayLoads depth peak us k ds ps ∧ rows' = setRows rows k ps
  | k, [], us, us', rows, rows', h => by
    unfold daysLoop at h
    have := returns_pure.1 h
    cases this
    exact ⟨List.forall₂_same.2 fun u _ => SameUser.refl u, by simp, [], trivial, rfl⟩
  | k, d :: ds, us, us', rows, rows', h => by
    unfold daysLoop at h
    obtain ⟨⟨us1, p⟩, h1, h2⟩ := (returns_bind (fin_usersOfDay _ _ _ _ _ _)).1 h
    obtain ⟨h3, ps, h4, h5⟩ := returns_usersOfDay h1
    simp only at h2
    split_ifs at h2 with hk
    · obtain ⟨h6, h7, qs, h8, h9⟩ := returns_daysLoop h2
      refine ⟨forall₂_trans (R := SameUser) (fun _ _ _ h h' => h.trans h') h3 h6, fun _ => ?_, p :: qs, ⟨⟨ps, ?_, ?_⟩, dayLoads_same h3 h8⟩, ?_⟩
      · cases ds with
        | nil => simp; omega
        | cons d2 ds2 => have := h7 (by simp); simp at this ⊢; omega
      · rw [← dayType_spec]; exact h4
      · rw [h5]; funext i; simp [zeros]
      · rw [h9]; rfl
    · exact absurd h2 returns_raise

theorem daysLoop_returns {depth : ℕ} {peak : List ℤ} : ∀ {k : ℕ} {ds : List ℤ} {us : List User} {rows : List Profile} {ps : List Profile},
    DayLoads depth peak us k ds ps → k + ds.length ≤ rows.length →
      ∃ us', Returns (daysLoop depth peak k ds us rows) (us', setRows rows k ps)
  | k, [], us, rows, [], _, _ => ⟨us, by unfold daysLoop; exact returns_pure.2 rfl⟩
  | k, d :: ds, us, rows, p :: ps, ⟨⟨qs, h1, h2⟩, h3⟩, hk => by
    obtain ⟨us1, h4⟩ := usersOfDay_returns (load := zeros) h1
    have h5 := (returns_usersOfDay h4).1
    obtain ⟨us', h6⟩ := daysLoop_returns (k := k + 1) (rows := rows.set k p) (dayLoads_same (sameUsers_symm h5) h3)
      (by simp only [List.length_cons, List.length_set] at hk ⊢; omega)
    refine ⟨us', ?_⟩
    unfold daysLoop
    refine (returns_bind (fin_usersOfDay _ _ _ _ _ _)).2 ⟨_, by rw [dayType_spec]; exact h4, ?_⟩
    simp only
    rw [if_pos (by simp at hk; omega)]
    have : (fun i => zeros i + total qs i) = p := by rw [h2]; funext i; simp [zeros]
    rw [this]
    exact h6

end Ramp
