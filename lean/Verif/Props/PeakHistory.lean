import Verif.Props.Days
import Verif.Props.Peak

/-! # C75: the peak time range and earlier simulations -/

set_option autoImplicit false

namespace Ramp

/-- The appliance has not been simulated since its windows were set: its curve is 0.001 inside the windows and 0 outside
(what `windows()` writes, see `C29_windows_establish`). -/
def Untouched (a : Appliance) : Prop := ∀ i : Fin 1440, a.dailyUse i =
  if InWindow a.window1 i ∨ InWindow a.window2 i ∨ InWindow a.window3 i then 1 / 1000 else 0

theorem maximumLoad_same {us vs : List User} (h : List.Forall₂ SameUser us vs) (hu : ∀ u ∈ us, ∀ a ∈ u.appList, Untouched a)
    (hv : ∀ u ∈ vs, ∀ a ∈ u.appList, Untouched a) : maximumLoad us = maximumLoad vs := by
  have key : ∀ (apps bpps : List Appliance), List.Forall₂ SameDefinition apps bpps → (∀ a ∈ apps, Untouched a) → (∀ a ∈ bpps, Untouched a) →
      ∀ i : Fin 1440, apps.map (fun a => a.dailyUse i * (a.power.sum / (a.power.length : ℚ)) * (a.number : ℚ)) =
        bpps.map (fun a => a.dailyUse i * (a.power.sum / (a.power.length : ℚ)) * (a.number : ℚ)) := by
    intro apps bpps h
    induction h with
    | nil => intros; rfl
    | @cons a b l l' hab _ ih =>
      intro h1 h2 i
      rw [List.map_cons, List.map_cons, ih (fun x hx => h1 x (by simp [hx])) (fun x hx => h2 x (by simp [hx])) i]
      have e1 : a.dailyUse = b.dailyUse := by
        funext j
        rw [h1 a (by simp) j, h2 b (by simp) j]
        unfold SameDefinition at hab
        rw [hab]
      have e2 : b.power = a.power ∧ b.number = a.number := by
        unfold SameDefinition at hab
        rw [hab]
        exact ⟨rfl, rfl⟩
      rw [e1, e2.1, e2.2]
  funext i
  unfold maximumLoad
  congr 1
  induction h with
  | nil => rfl
  | @cons u v us vs huv _ ih =>
    rw [List.map_cons, List.map_cons, ih (fun x hx => hu x (by simp [hx])) (fun x hx => hv x (by simp [hx]))]
    rw [key _ _ huv.appliances (hu u (by simp)) (hv v (by simp)) i, huv.number]

/-- **C75 (partial).** As long as no appliance has been simulated, the peak time range depends on the configuration only: two lists of
users with the same configuration have the same possible ranges and the same failures.  Missing: the same after simulations, which is
false. -/
theorem C75_before_simulation_partial {us vs : List User} (h : List.Forall₂ SameUser us vs) (hu : ∀ u ∈ us, ∀ a ∈ u.appList, Untouched a)
    (hv : ∀ u ∈ vs, ∀ a ∈ u.appList, Untouched a) (pe : ℚ) : peakTimeRangeOf us pe = peakTimeRangeOf vs pe := by
  unfold peakTimeRangeOf
  rw [maximumLoad_eq, maximumLoad_eq, maximumLoad_same h hu hv]

/-- A 40 W appliance used one minute a day, at any time. -/
def quickArgs : AddArgs := { app := { power := .series [40], funcTime := 1 }, windows := some { window1 := some (0, 1440) } }

/-- The use case of one user with the appliance, ready to simulate one day. -/
def quickCase (app : Appliance) : UseCase :=
  { users := oneUser app, days := some [0], numDays := some 1, datetimeindex := some (minutesFrom 0 1440), peakTimeRange := some (minutesFrom 710 20) }

/-- What the simulation leaves. -/
def afterQuick (app : Appliance) : Option UseCase := match generateDaily ⟨0, none⟩ 1000 (quickCase app) none (constantDraws 0) with
  | .ok ((uc', _), _) => some uc'
  | .error _ => none

theorem afterQuick_some {app : Appliance} {uc' : UseCase} (h : afterQuick app = some uc') :
    ∃ rows, Returns (generateDaily ⟨0, none⟩ 1000 (quickCase app) none) (uc', rows) := by
  unfold afterQuick at h
  cases hg : generateDaily ⟨0, none⟩ 1000 (quickCase app) none (constantDraws 0) with
  | error e => rw [hg] at h; cases h
  | ok p =>
    obtain ⟨⟨u, rows⟩, r⟩ := p
    rw [hg] at h
    cases h
    exact ⟨rows, _, _, hg⟩

theorem quick_before : ∀ i : Fin 1440, (builtBy quickArgs).map (fun a => (a.dailyUse i, a.power, a.number)) = some (1 / 1000, [40], 1) := by
  decide +kernel

set_option synthInstance.maxSize 1000 in
theorem quick_after : ∀ i : Fin 1440, ((builtBy quickArgs).bind afterQuick).map (fun uc => (uc.users.map (fun u =>
    (u.numUsers, u.appList.map (fun a => (a.dailyUse i, a.power, a.number)))))) = some [(1, [(if (i : ℕ) = 0 then 40 else 1 / 1000, [40], 1)])] := by
  decide +kernel

/-- **C75 (partial).** The negation of the full statement: before the simulation the peak time range of the use case can be computed,
for every sequence of draws; after a simulation of one day it cannot, for any. -/
theorem C75_full_statement_is_false_partial : ∃ app uc' rows, BuiltAs quickArgs app ∧ Ready (quickCase app) [0] (minutesFrom 710 20) ∧
    Returns (generateDaily ⟨0, none⟩ 1000 (quickCase app) none) (uc', rows) ∧ List.Forall₂ SameUser (quickCase app).users uc'.users ∧
    (∀ pe e, ¬ Raises (peakTimeRangeOf (quickCase app).users pe) e) ∧ (∀ pe r, ¬ Returns (peakTimeRangeOf uc'.users pe) r) := by
  cases hb : builtBy quickArgs with
  | none => have := quick_before 0; rw [hb] at this; cases this
  | some app =>
    cases ha : afterQuick app with
    | none => have := quick_after 0; rw [hb] at this; simp only [Option.bind_some] at this; rw [ha] at this; cases this
    | some uc' =>
      obtain ⟨rows, hr⟩ := afterQuick_some ha
      have hready : Ready (quickCase app) [0] (minutesFrom 710 20) := ⟨rfl, rfl, rfl⟩
      refine ⟨app, uc', rows, builtBy_some hb, hready, hr, (C49_configuration_unchanged rfl rfl hr).2, ?_, ?_⟩
      · intro pe e he
        have hl : ∀ i, maximumLoad (oneUser app) i = 1 / 25 := by
          intro i
          have := quick_before i
          rw [hb] at this
          simp only [Option.map_some, Option.some.injEq, Prod.mk.injEq] at this
          rw [maximumLoad_one, this.1, this.2.1, this.2.2]
          norm_num
        exact peak_of_two (us := oneUser app) 0 1 (by decide) (fun j => by rw [hl, hl]) (fun j => by rw [hl, hl]) ((raises_peak e).1 he).2
      · intro pe r hret
        have hl : ∀ i : Fin 1440, maximumLoad uc'.users i = if (i : ℕ) = 0 then 1600 else 1 / 25 := by
          intro i
          have := quick_after i
          rw [hb] at this
          simp only [Option.bind_some] at this
          rw [ha] at this
          simp only [Option.map_some, Option.some.injEq] at this
          have e : maximumLoad uc'.users i = ((uc'.users.map (fun u => (u.numUsers, u.appList.map (fun a => (a.dailyUse i, a.power, a.number))))).map
              (fun p => (p.2.map (fun q => q.1 * (q.2.1.sum / (q.2.1.length : ℚ)) * (q.2.2 : ℚ))).sum * (p.1 : ℚ))).sum := by
            unfold maximumLoad
            simp only [List.map_map, Function.comp_def]
          rw [e, this]
          by_cases hi : (i : ℕ) = 0 <;> simp only [hi, if_true, if_false] <;> norm_num
        have hu : ∃! i, IsPeak (maximumLoad uc'.users) i := by
          refine ⟨0, fun j => ?_, fun i hi => ?_⟩
          · rw [hl 0, if_pos (show ((0 : Fin 1440) : ℕ) = 0 from rfl), hl j]
            split_ifs <;> norm_num
          · have := hi 0
            rw [hl 0, if_pos (show ((0 : Fin 1440) : ℕ) = 0 from rfl), hl i] at this
            by_contra hc
            rw [if_neg (show ¬ ((i : ℕ) = 0) from fun h => hc (Fin.ext h))] at this
            norm_num at this
        rw [← maximumLoad_eq] at hu
        rw [peak_one hu] at hret
        exact returns_raise hret

/-- A case for the partial theorem: the appliance above as it was built. -/
example : ∃ app, BuiltAs quickArgs app ∧ Untouched app := by
  cases hb : builtBy quickArgs with
  | none => have := quick_before 0; rw [hb] at this; cases this
  | some app =>
    refine ⟨app, builtBy_some hb, ?_⟩
    have hw : (builtBy quickArgs).map (fun a => a.window1) = some (0, 1440) := by decide +kernel
    rw [hb] at hw
    simp only [Option.map_some, Option.some.injEq] at hw
    intro i
    have := quick_before i
    rw [hb] at this
    simp only [Option.map_some, Option.some.injEq, Prod.mk.injEq] at this
    have hin : InWindow app.window1 i := by
      rw [hw]
      unfold InWindow
      simp only
      omega
    rw [this.1, if_pos (.inl hin)]

/-! ## After a simulation -/

/-- What a simulation of the day number `k` leaves in the appliances of a user category: the profiles of its last member. -/
def LeftBehind (depth k : ℕ) (peak : List ℤ) (dt : ℤ) (u u' : User) : Prop :=
  ∃ pref, PreferenceOf u pref ∧ List.Forall₂ (fun a a' => ApplianceDay depth k peak dt pref a a'.dailyUse) u.appList u'.appList

theorem left_single {depth k : ℕ} {peak : List ℤ} {dt pref : ℤ} : ∀ {apps apps' : List Appliance} {load load' : Profile},
    Returns (singleLoop depth k peak dt pref apps load) (apps', load') → List.Forall₂ (fun a a' => ApplianceDay depth k peak dt pref a a'.dailyUse) apps apps'
  | [], apps', load, load', h => by
    unfold singleLoop at h
    have := returns_pure.1 h
    cases this
    exact .nil
  | a :: apps, apps', load, load', h => by
    unfold singleLoop at h
    cases hp : a.power[k]? with
    | none => rw [hp] at h; exact absurd h returns_raise
    | some pw =>
      rw [hp] at h
      simp only at h
      obtain ⟨a', h1, h2⟩ := (returns_bind (fin_generate _ _ _ _ _ _ _)).1 h
      obtain ⟨⟨rest, l⟩, h3, h4⟩ := (returns_bind (fin_singleLoop _ _ _ _ _ _ _)).1 h2
      have := returns_pure.1 h4
      cases this
      exact .cons ⟨pw, a', hp, h1, rfl⟩ (left_single h3)

theorem left_member {depth k : ℕ} {peak : List ℤ} {dt : ℤ} {u u' : User} {p : Profile} (h : Returns (generateSingleLoadProfile depth u k peak dt) (u', p)) :
    LeftBehind depth k peak dt u u' := by
  unfold generateSingleLoadProfile at h
  obtain ⟨pref, h1, h2⟩ := (returns_bind (fin_drawPreference _)).1 h
  obtain ⟨⟨apps, l⟩, h3, h4⟩ := (returns_bind (fin_singleLoop _ _ _ _ _ _ _)).1 h2
  have := returns_pure.1 h4
  cases this
  exact ⟨pref, returns_drawPreference.1 h1, left_single h3⟩

theorem leftBehind_same {depth k : ℕ} {peak : List ℤ} {dt : ℤ} {u v w : User} (h : SameUser u v) (hl : LeftBehind depth k peak dt v w) : LeftBehind depth k peak dt u w := by
  obtain ⟨pref, h1, h2⟩ := hl
  refine ⟨pref, ?_, forall₂_same_left (R := SameDefinition) (P := fun a a' : Appliance => ApplianceDay depth k peak dt pref a a'.dailyUse)
    (fun _ _ _ h => applianceDay_same h) h.appliances h2⟩
  unfold PreferenceOf at *
  rw [← h.preference]
  exact h1

theorem left_aggregatedLoop {depth k : ℕ} {peak : List ℤ} {dt : ℤ} : ∀ {n : ℕ} {u u' : User} {load load' : Profile},
    Returns (aggregatedLoop depth k peak dt (n + 1) u load) (u', load') → LeftBehind depth k peak dt u u'
  | 0, u, u', load, load', h => by
    unfold aggregatedLoop at h
    obtain ⟨⟨u1, p⟩, h1, h2⟩ := (returns_bind (fin_single _ _ _ _ _)).1 h
    unfold aggregatedLoop at h2
    have := returns_pure.1 h2
    cases this
    exact left_member h1
  | n + 1, u, u', load, load', h => by
    unfold aggregatedLoop at h
    obtain ⟨⟨u1, p⟩, h1, h2⟩ := (returns_bind (fin_single _ _ _ _ _)).1 h
    exact leftBehind_same (returns_single h1).1 (left_aggregatedLoop h2)

theorem left_users {depth k : ℕ} {peak : List ℤ} {dt : ℤ} : ∀ {us us' : List User} {load load' : Profile},
    (∀ u ∈ us, 1 ≤ u.numUsers) → Returns (usersOfDay depth k peak dt us load) (us', load') → List.Forall₂ (LeftBehind depth k peak dt) us us'
  | [], us', load, load', _, h => by
    unfold usersOfDay at h
    have := returns_pure.1 h
    cases this
    exact .nil
  | u :: us, us', load, load', hn, h => by
    unfold usersOfDay at h
    obtain ⟨⟨u1, p⟩, h1, h2⟩ := (returns_bind (fin_aggregated _ _ _ _ _)).1 h
    obtain ⟨⟨us1, l⟩, h3, h4⟩ := (returns_bind (fin_usersOfDay _ _ _ _ _ _)).1 h2
    have := returns_pure.1 h4
    cases this
    refine .cons ?_ (left_users (fun v hv => hn v (by simp [hv])) h3)
    unfold generateAggregatedLoadProfile at h1
    obtain ⟨⟨u2, l2⟩, h5, h6⟩ := (returns_bind (fin_aggregatedLoop _ _ _ _ _ _ _)).1 h1
    have := returns_pure.1 h6
    cases this
    obtain ⟨m, hm⟩ : ∃ m, u.numUsers.toNat = m + 1 := ⟨u.numUsers.toNat - 1, by have := hn u (by simp); omega⟩
    rw [hm] at h5
    obtain ⟨pref, h7, h8⟩ := left_aggregatedLoop h5
    exact ⟨pref, h7, h8⟩

theorem left_days {depth : ℕ} {peak : List ℤ} : ∀ {ds : List ℤ} {k : ℕ} {us us' : List User} {rows rows' : List Profile} {d : ℤ},
    (∀ u ∈ us, 1 ≤ u.numUsers) → ds.getLast? = some d → Returns (daysLoop depth peak k ds us rows) (us', rows') →
      List.Forall₂ (LeftBehind depth (k + (ds.length - 1)) peak (typeOfDay d)) us us'
  | [], k, us, us', rows, rows', d, _, hd, h => by cases hd
  | e :: ds, k, us, us', rows, rows', d, hn, hd, h => by
    unfold daysLoop at h
    obtain ⟨⟨us1, p⟩, h1, h2⟩ := (returns_bind (fin_usersOfDay _ _ _ _ _ _)).1 h
    have h3 := (returns_usersOfDay h1).1
    simp only at h2
    split_ifs at h2 with hk
    · cases ds with
      | nil =>
        unfold daysLoop at h2
        have := returns_pure.1 h2
        cases this
        cases hd
        rw [dayType_spec] at h1
        exact left_users hn h1
      | cons e2 ds =>
        have hn1 : ∀ u ∈ us1, 1 ≤ u.numUsers := by
          clear h1 h h2
          induction h3 with
          | nil => intro u hu; cases hu
          | @cons u v us us1 huv _ ih =>
            intro w hw
            rcases List.mem_cons.1 hw with rfl | hw
            · rw [huv.number]
              exact hn u (by simp)
            · exact ih (fun x hx => hn x (by simp [hx])) w hw
        have := left_days (d := d) hn1 (by rw [List.getLast?_cons_cons] at hd; exact hd) h2
        have e1 : k + 1 + ((e2 :: ds).length - 1) = k + ((e :: e2 :: ds).length - 1) := by simp; omega
        rw [e1] at this
        exact forall₂_same_left (R := SameUser) (P := LeftBehind depth (k + ((e :: e2 :: ds).length - 1)) peak (typeOfDay d)) (fun _ _ _ h => leftBehind_same h) h3 this
    · exact absurd h2 returns_raise

/-- **C75 (partial).** What is true instead after a simulation: the peak time range is computed from the profiles that the last members of the users had on the last simulated
day.  With `p` the profile left behind by appliance `a`, the load whose peak is searched is the sum over users of `num_users` times the sum over their appliances of
`mean(power) * number * p`. -/
theorem C75_after_simulation_partial {env : Env} {depth : ℕ} {uc uc' : UseCase} {ds peak : List ℤ} {days : Option (List ℤ)} {rows : List Profile} {d : ℤ}
    (hr : Ready uc ds peak) (hn : ∀ u ∈ uc.users, 1 ≤ u.numUsers) (hd : ds.getLast? = some d) (h : Returns (generateDaily env depth uc days) (uc', rows)) :
    ∃ last : List (List Profile),
      List.Forall₂ (fun u ps => ∃ pref, PreferenceOf u pref ∧ List.Forall₂ (ApplianceDay depth (ds.length - 1) peak (typeOfDay d) pref) u.appList ps) uc.users last ∧
      (∀ i, maximumLoad uc'.users i = ((uc.users.zip last).map (fun x => (x.1.numUsers : ℚ) *
        ((x.1.appList.zip x.2).map (fun y => y.2 i * (y.1.power.sum / (y.1.power.length : ℚ)) * (y.1.number : ℚ))).sum)).sum) ∧
      ∀ (vs : List User) (pe : ℚ), (∀ i, maximumLoad vs i = maximumLoad uc'.users i) → peakTimeRangeOf uc'.users pe = peakTimeRangeOf vs pe := by
  obtain ⟨uc0, uc1, n, us, rows0, h0, h1, _, h3, rfl⟩ := returns_generateDaily h
  have e0 : uc0 = uc := by
    unfold resolveDays at h0
    rw [hr.days] at h0
    cases h0
    rfl
  subst e0
  have e1 : uc1 = uc0 := by
    unfold numDaysProperty at h1
    rw [hr.numDays] at h1
    have := returns_pure.1 h1
    cases this
    rfl
  subst e1
  rw [hr.days, hr.peak] at h3
  have hsame := (returns_daysLoop h3).1
  have hl := left_days hn hd h3
  rw [zero_add] at hl
  refine ⟨us.map (fun u => u.appList.map (fun a => a.dailyUse)), ?_, ?_, fun vs pe hv => ?_⟩
  · rw [List.forall₂_map_right_iff]
    refine hl.imp ?_
    rintro u u' ⟨pref, h5, h6⟩
    refine ⟨pref, h5, ?_⟩
    rw [List.forall₂_map_right_iff]
    exact h6
  · intro i
    show maximumLoad us i = _
    unfold maximumLoad
    generalize uc1.users = vs at hsame ⊢
    clear hl h h3
    have key : ∀ {apps bpps : List Appliance}, List.Forall₂ SameDefinition apps bpps →
        bpps.map (fun a => a.dailyUse i * (a.power.sum / (a.power.length : ℚ)) * (a.number : ℚ)) =
          (apps.zip (bpps.map (fun a => a.dailyUse))).map (fun y => y.2 i * (y.1.power.sum / (y.1.power.length : ℚ)) * (y.1.number : ℚ)) := by
      intro apps bpps h
      induction h with
      | nil => rfl
      | @cons a b apps bpps hab _ ih =>
        have hnum : b.number = a.number := by unfold SameDefinition at hab; rw [hab]
        rw [List.map_cons, List.map_cons, List.zip_cons_cons, List.map_cons, ih, hab.power, hnum]
    induction hsame with
    | nil => simp
    | @cons u v us vs huv _ ih =>
      simp only [List.map_cons, List.zip_cons_cons, List.sum_cons]
      rw [← key huv.appliances, ← huv.number]
      congr 1
      exact mul_comm _ _
  · unfold peakTimeRangeOf
    rw [maximumLoad_eq, maximumLoad_eq, funext hv]

/-- A case for `C75_after_simulation_partial`: the simulated use case of `C75_full_statement_is_false_partial`. -/
example : ∃ app uc' rows, Ready (quickCase app) [0] (minutesFrom 710 20) ∧ (∀ u ∈ (quickCase app).users, 1 ≤ u.numUsers) ∧ [(0 : ℤ)].getLast? = some 0 ∧
    Returns (generateDaily ⟨0, none⟩ 1000 (quickCase app) none) (uc', rows) := by
  obtain ⟨app, uc', rows, _, h1, h2, _⟩ := C75_full_statement_is_false_partial
  refine ⟨app, uc', rows, h1, fun u hu => ?_, rfl, h2⟩
  have hu' : u ∈ oneUser app := hu
  unfold oneUser at hu'
  rw [List.mem_singleton.1 hu']

end Ramp
