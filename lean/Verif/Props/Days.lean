import Verif.Lemmas.Days
import Verif.Props.Calendar
import Verif.Props.Profile

/-! # C36, C43-C49, C74: users, powers and simulated days -/

set_option autoImplicit false

namespace Ramp

/-! ## C36 -/

/-- The users before the first leaf that is not a user. -/
def usersBefore : List (Option User) → List User
  | some u :: l => u :: usersBefore l
  | _ => []

open Classical in
theorem usersBefore_append (l m : List (Option User)) :
    usersBefore (l ++ m) = if none ∈ l then usersBefore l else usersBefore l ++ usersBefore m := by
  induction l with
  | nil => simp [usersBefore]
  | cons o l ih =>
    cases o with
    | none => simp [usersBefore]
    | some u =>
      simp only [List.cons_append, usersBefore, ih, List.mem_cons, reduceCtorEq, false_or]
      split_ifs <;> rfl

open Classical in
theorem addUsers_of_addUser {l : List UserArg}
    (h : ∀ a ∈ l, ∀ uc, addUser uc a = ({ uc with users := uc.users ++ usersBefore (leaves a) }, if none ∈ leaves a then .error .invalidType else .ok ())) :
    ∀ uc, addUsers uc l = ({ uc with users := uc.users ++ usersBefore (leavesOfList l) },
      if none ∈ leavesOfList l then .error .invalidType else .ok ()) := by
  induction l with
  | nil => intro uc; simp [addUsers, leavesOfList, usersBefore]
  | cons a l ih =>
    intro uc
    unfold addUsers leavesOfList
    rw [h a (by simp) uc, usersBefore_append]
    by_cases hn : none ∈ leaves a
    · simp [hn]
    · rw [if_neg hn]
      simp only
      rw [ih fun b hb => h b (by simp [hb])]
      simp [hn]

open Classical in
theorem addUser_leaves : ∀ (a : UserArg) (uc : UseCase),
    addUser uc a = ({ uc with users := uc.users ++ usersBefore (leaves a) }, if none ∈ leaves a then .error .invalidType else .ok ()) := by
  intro a
  apply UserArg.rec
    (motive_1 := fun a => ∀ uc, addUser uc a = ({ uc with users := uc.users ++ usersBefore (leaves a) }, if none ∈ leaves a then .error .invalidType else .ok ()))
    (motive_2 := fun l => ∀ a ∈ l, ∀ uc, addUser uc a = ({ uc with users := uc.users ++ usersBefore (leaves a) }, if none ∈ leaves a then .error .invalidType else .ok ()))
  · intro u uc; simp [addUser, leaves, usersBefore]
  · intro l ih uc
    unfold addUser leaves
    exact addUsers_of_addUser ih uc
  · intro uc; simp [addUser, leaves, usersBefore]
  · intro a ha; simp at ha
  · intro a l ha hl b hb
    rcases List.mem_cons.1 hb with rfl | hb
    · exact ha
    · exact hl b hb

/-- **C36.** When all leaves of the (arbitrarily nested) argument are users, `add_user` appends them in order; otherwise it raises
`InvalidType`, after appending those before the first leaf that is not a user.  Nothing else changes. -/
theorem C36_add_user (uc : UseCase) (a : UserArg) :
    (∀ us : List User, leaves a = us.map some → addUser uc a = ({ uc with users := uc.users ++ us }, .ok ())) ∧
    (∀ (us : List User) (rest : List (Option User)), leaves a = us.map some ++ none :: rest →
      addUser uc a = ({ uc with users := uc.users ++ us }, .error .invalidType)) := by
  have hb : ∀ (us : List User) (l : List (Option User)), usersBefore (us.map some ++ l) = us ++ usersBefore l := by
    intro us l
    rw [usersBefore_append, if_neg (by simp)]
    congr 1
    induction us with
    | nil => rfl
    | cons u us ih => simp [usersBefore, ih]
  constructor
  · intro us h
    rw [addUser_leaves, h]
    have := hb us []
    simp only [List.append_nil, usersBefore] at this
    rw [this, if_neg (by simp)]
  · intro us rest h
    rw [addUser_leaves, h, hb, if_pos (by simp)]
    simp [usersBefore]

/-- **C36.** `InvalidType` is raised exactly when some leaf is not a user, and no other exception. -/
theorem C36_invalid_type (uc : UseCase) (a : UserArg) :
    ((addUser uc a).2 = .error .invalidType ↔ none ∈ leaves a) ∧ ∀ e, (addUser uc a).2 = .error e → e = .invalidType := by
  rw [addUser_leaves]
  simp only
  constructor
  · constructor
    · intro h; by_contra hc; rw [if_neg hc] at h; cases h
    · intro h; rw [if_pos h]
  · intro e h
    split_ifs at h
    cases h
    rfl

/-- A case for C36: a nested list of two users. -/
example : leaves (.list [.list [.user { userName := "a" }], .list [], .user { userName := "b" }]) =
    [({ userName := "a" } : User), ({ userName := "b" } : User)].map some := by simp [leaves, leavesOfList]

/-! ## C43: powers -/

/-- The appliances were collected after the last change of the users, and no two appliances of a user are the same object. -/
structure Collected (uc : UseCase) : Prop where
  all : uc.appliances = (collectAppliances uc).appliances
  distinct : ∀ u ∈ uc.users, (u.appList.map Appliance.oid).Nodup

theorem find_oid {apps : List Appliance} (hn : (apps.map Appliance.oid).Nodup) {a : Appliance} (ha : a ∈ apps) :
    apps.find? (fun b => b.oid = a.oid) = some a := by
  induction apps with
  | nil => simp at ha
  | cons b bs ih =>
    rw [List.map_cons, List.nodup_cons] at hn
    rw [List.find?_cons]
    rcases List.mem_cons.1 ha with rfl | ha
    · simp
    · have : b.oid ≠ a.oid := fun h => hn.1 (h ▸ List.mem_map_of_mem ha)
      simp [this, ih hn.2 ha]

theorem mem_collected {uc : UseCase} {r : ℕ × ℕ} : r ∈ (collectAppliances uc).appliances ↔
    ∃ u, uc.users[r.1]? = some u ∧ r.2 ∈ u.appList.map Appliance.oid := by
  unfold collectAppliances
  simp only [List.mem_flatten, List.mem_map]
  constructor
  · rintro ⟨l, ⟨⟨u, k⟩, hp, rfl⟩, hr⟩
    obtain ⟨a, ha, rfl⟩ := List.mem_map.1 hr
    exact ⟨u, by simpa using List.mem_zipIdx' hp |>.2 |> fun h => (List.mem_zipIdx_iff_getElem?.1 hp), a, ha, rfl⟩
  · rintro ⟨u, hu, a, ha, hr⟩
    refine ⟨u.appList.map (fun a => (r.1, a.oid)), ⟨(u, r.1), List.mem_zipIdx_iff_getElem?.2 hu, rfl⟩, ?_⟩
    exact List.mem_map.2 ⟨a, ha, by rw [hr]⟩

theorem oids_of_users {us vs : List User} (h : us.map (fun u => u.appList.map Appliance.oid) = vs.map (fun u => u.appList.map Appliance.oid))
    {k : ℕ} {u : User} (hu : us[k]? = some u) : ∃ v, vs[k]? = some v ∧ v.appList.map Appliance.oid = u.appList.map Appliance.oid := by
  have h1 : (us.map (fun u => u.appList.map Appliance.oid))[k]? = some (u.appList.map Appliance.oid) := by simp [hu]
  rw [h] at h1
  simp only [List.getElem?_map, Option.map_eq_some_iff] at h1
  exact h1

/-- The last step of `initCalendar` checks the powers of the collected appliances of the unchanged users. -/
theorem initCalendar_checked {env : Env} {uc uc1 : UseCase} {args : InitArgs} {n : ℤ} (hcal : initCalendar env (resetDays uc args) args = (uc1, .ok ()))
    (hn : uc1.numDays = some n) :
    ∃ v : UseCase, checkPowers n v.appliances v = (uc1, .ok ()) ∧ v.appliances = uc.appliances ∧ v.users = uc.users := by
  have e := resetDays_numDays uc args
  unfold initCalendar at hcal
  have hsame := ((initNumDays_same (resetDays uc args) args.numDays).trans (initDates_same _))
  have hs1 := hsame.trans (initInput_same env _)
  cases h1 : initInput env (initDates (initNumDays (resetDays uc args) args.numDays)) with
  | mk a ra =>
    rw [h1] at hcal hs1
    cases ra with
    | error e => cases hcal
    | ok _ =>
      simp only at hcal
      have hs2 := hs1.trans (initDays_same env _)
      cases h2 : initDays env a with
      | mk b rb =>
        rw [h2] at hcal hs2
        cases rb with
        | error e => cases hcal
        | ok _ =>
          simp only at hcal hs2
          have hnb : b.numDays = some n := by
            have := (checkPowers_fields _ _ _ _ hcal).2
            rw [← this, hn]
          rw [hnb] at hcal
          refine ⟨b, hcal, ?_, ?_⟩
          · rw [hs2]; exact e.2.2.2.1
          · -- users are not changed before the check
            have u1 : (initNumDays (resetDays uc args) args.numDays).users = (resetDays uc args).users := by
              cases args.numDays <;> rfl
            have u2 : ∀ w : UseCase, (initDates w).users = w.users := by
              intro w; unfold initDates; split
              · simp only; split
                · split_ifs <;> rfl
                · rfl
              · rfl
            have u3 : a.users = (initDates (initNumDays (resetDays uc args) args.numDays)).users := by
              have : (initInput env (initDates (initNumDays (resetDays uc args) args.numDays))).1.users = (initDates (initNumDays (resetDays uc args) args.numDays)).users := by
                unfold initInput
                split
                · rfl
                · split <;> rfl
              rw [h1] at this; exact this
            have u4 : b.users = a.users := by
              have : (initDays env a).1.users = a.users := by
                unfold initDays
                split
                · rw [showDays_fst]
                · split
                  · rfl
                  · rw [showDays_fst]
              rw [h2] at this; exact this
            rw [u4, u3, u2, u1, e.2.2.2.2]

/-- **C43 (partial).** After a successful `initialize` that chooses days, every appliance of every user has a power value for every
simulated day, provided the appliances were collected after the last change of the users (the constructor does this; `add_user` and
`add_appliance` afterwards do not).  Missing: users and appliances added later. -/
theorem C43_powers_cover_partial {env : Env} {uc uc' : UseCase} {args : InitArgs} (hc : Collected uc)
    (hi : ¬ (uc.isInitialized = true ∧ args.force = false)) (h : Returns (initUseCase env uc args) (uc', .ok ())) :
    ∃ n, uc'.numDays = some n ∧ ∀ u ∈ uc'.users, ∀ a ∈ u.appList, n ≤ a.power.length := by
  obtain ⟨uc1, pe, r, hcal, _, _, rfl⟩ := returns_init_done hi h
  have hdays := initCalendar_days hcal
  obtain ⟨_, n, hn⟩ := hdays
  refine ⟨n, (initIndex_days _).2.trans hn, ?_⟩
  have husers : (initIndex { uc1 with peakEnlarge := pe, peakTimeRange := some r }).users = uc1.users := by
    unfold initIndex; split <;> rfl
  rw [husers]
  obtain ⟨v, hv1, hv2, hv3⟩ := initCalendar_checked hcal hn
  have hok := (checkPowers_ok n _ _ _ hv1).1
  have hoids := checkPowers_oids n v.appliances v
  rw [hv1] at hoids
  intro u hu a ha
  obtain ⟨k, hk⟩ := List.mem_iff_getElem?.1 hu
  obtain ⟨u0, hu0, hou⟩ := oids_of_users hoids hk
  rw [hv3] at hu0
  have hnodup : (u.appList.map Appliance.oid).Nodup := by
    rw [← hou]
    exact hc.distinct u0 (List.mem_of_getElem? hu0)
  have hr : (k, a.oid) ∈ v.appliances := by
    rw [hv2, hc.all, mem_collected]
    refine ⟨u0, hu0, ?_⟩
    rw [hou]
    exact List.mem_map_of_mem ha
  obtain ⟨b, hb, hlen⟩ := hok _ hr
  unfold UseCase.findApp at hb
  simp only [hk, Option.bind_some, find_oid hnodup ha, Option.some.injEq] at hb
  subst hb
  exact hlen

/-- The outcome of the check: `ValueError` exactly when a collected time-varying power is too short. -/
theorem checkPowers_outcome (n : ℤ) : ∀ (rs : List (ℕ × ℕ)) (uc : UseCase), 0 ≤ n →
    (∀ r ∈ rs, ∃ a, uc.findApp r = some a ∧ (a.constantPower = true → a.power ≠ [])) →
    (checkPowers n rs uc).2 = if ∃ r ∈ rs, ∃ a, uc.findApp r = some a ∧ a.constantPower = false ∧ (a.power.length : ℤ) < n then .error .valueError
      else .ok ()
  | [], uc, hn, h => by simp [checkPowers]
  | r :: rs, uc, hn, h => by
    obtain ⟨a, ha, hne⟩ := h r (by simp)
    unfold checkPowers
    rw [ha]
    simp only
    by_cases hbad : a.constantPower = false ∧ (a.power.length : ℤ) < n
    · have : checkPowerValues a n = .error .valueError := by
        unfold checkPowerValues
        rw [if_pos hbad.2, hbad.1]
        rfl
      rw [this, if_pos ⟨r, by simp, a, ha, hbad⟩]
    · have hex : ∃ b, checkPowerValues a n = .ok b := by
        unfold checkPowerValues
        split_ifs with h1 h2
        · cases hp : a.power with
          | nil => exact absurd hp (hne h2)
          | cons p ps =>
            simp only [List.head?_cons]
            unfold onesTimes
            rw [if_neg (by omega)]
            exact ⟨_, rfl⟩
        · exact absurd ⟨by simpa using h2, h1⟩ hbad
        · exact ⟨a, rfl⟩
      obtain ⟨b, hb⟩ := hex
      rw [hb]
      simp only
      obtain ⟨hlen, hoid, hcase⟩ := checkPowerValues_ok hb
      have hconst : b.constantPower = a.constantPower := by
        rcases hcase with rfl | ⟨_, _, p, _, rfl⟩ <;> rfl
      have hnon : b.constantPower = true → b.power ≠ [] := by
        rcases hcase with rfl | ⟨_, _, p, _, rfl⟩
        · exact hne
        · intro _ h0
          have : (List.replicate (n + 1).toNat p).length = 0 := by rw [show List.replicate (n + 1).toNat p = [] from h0]; rfl
          simp at this
          omega
      have hfind := findApp_updateApp ha hoid
      rw [checkPowers_outcome n rs (uc.updateApp r b) hn]
      · congr 1
        apply propext
        constructor
        · rintro ⟨r', hr', c, hc, h1, h2⟩
          rw [hfind] at hc
          by_cases hrr : r' = r
          · rw [if_pos hrr] at hc
            cases hc
            omega
          · rw [if_neg hrr] at hc
            exact ⟨r', by simp [hr'], c, hc, h1, h2⟩
        · rintro ⟨r', hr', c, hc, h1, h2⟩
          have hrr : r' ≠ r := by
            rintro rfl
            rw [ha] at hc
            cases hc
            exact hbad ⟨h1, h2⟩
          rcases List.mem_cons.1 hr' with rfl | hr'
          · exact absurd rfl hrr
          · exact ⟨r', hr', c, by rw [hfind, if_neg hrr]; exact hc, h1, h2⟩
      · intro r' hr'
        rw [hfind]
        split_ifs with hrr
        · exact ⟨b, rfl, hnon⟩
        · exact h r' (by simp [hr'])

/-- **C43 (partial).** `initialize(num_days=n)` with `n ≥ 1` raises `ValueError` when a collected appliance has a time-varying power
of less than `n` values.  (A constant power is never empty: `C43_constant_power_nonempty_partial`.) -/
theorem C43_short_series_partial {env : Env} {uc uc' : UseCase} {args : InitArgs} {n : ℤ} {res : Except Err Unit} (hd : ChoosesDays uc args)
    (hn : args.numDays = some n) (h1 : 1 ≤ n)
    (happs : ∀ r ∈ uc.appliances, ∃ a, uc.findApp r = some a ∧ (a.constantPower = true → a.power ≠ []))
    (hshort : ∃ r ∈ uc.appliances, ∃ a, uc.findApp r = some a ∧ a.constantPower = false ∧ (a.power.length : ℤ) < n)
    (h : Returns (initUseCase env uc args) (uc', res)) : res = .error .valueError := by
  apply returns_init_error hd.runs _ h
  obtain ⟨e1, e2, e3, e4, e5⟩ := resetDays_numDays uc args
  obtain ⟨k1, k2, k3, k4⟩ := initDates_num (env := env) (args := args) hd.reset (.inl hn)
  rw [initCalendar_eq]
  have hcal := (calendarFrom_num (env := env) k1 k4 (chooseDays_first env (resetDays uc args) _ n k2 k3)).1 h1
  rw [hcal]
  have happs' : ∀ w : UseCase, (initDates w).appliances = w.appliances ∧ (initDates w).users = w.users := by
    intro w; unfold initDates; split
    · simp only; split
      · split_ifs <;> exact ⟨rfl, rfl⟩
      · exact ⟨rfl, rfl⟩
    · exact ⟨rfl, rfl⟩
  have ha2 : (initNumDays (resetDays uc args) args.numDays).appliances = uc.appliances ∧
      (initNumDays (resetDays uc args) args.numDays).users = uc.users := by
    rw [← e4, ← e5]
    cases args.numDays <;> exact ⟨rfl, rfl⟩
  rw [(happs' _).1, ha2.1]
  have hfind : ∀ w : UseCase, w.users = uc.users → ∀ r, w.findApp r = uc.findApp r := by
    intro w hw r
    unfold UseCase.findApp
    rw [hw]
  have hus : (initDates (initNumDays (resetDays uc args) args.numDays)).users = uc.users := ((happs' _).2).trans ha2.2
  rw [checkPowers_outcome n _ _ (by omega) (by
    intro r hr
    obtain ⟨a, ha, hh⟩ := happs r hr
    refine ⟨a, Eq.trans (hfind _ ?_ r) ha, hh⟩
    exact hus), if_pos]
  obtain ⟨r, hr, a, ha, hb⟩ := hshort
  refine ⟨r, hr, a, Eq.trans (hfind _ ?_ r) ha, hb⟩
  exact hus

/-- **C43 (partial).** A constant power has a value from the start, so that the hypothesis above is met. -/
theorem C43_constant_power_nonempty_partial {oid : ℕ} {nd : ℤ} {args : AppArgs} {app : Appliance} (h : mkAppliance oid nd args = .ok app)
    (hnd : 0 ≤ nd) : app.constantPower = true → app.power ≠ [] := by
  unfold mkAppliance at h
  simp only at h
  split at h
  · cases h; simp
  · split at h
    · rename_i l hl
      cases h
      intro _ h0
      simp only at h0
      unfold onesTimes at hl
      split_ifs at hl
      cases hl
      have := congrArg List.length h0
      simp at this
      omega
    · cases h
  · cases h

/-- Power values for three days. -/
def shortArgs : AddArgs := { app := { power := .series [10, 20, 30], funcTime := 60 }, windows := some { window1 := some (0, 1440) } }

theorem short_built : ∃ app, BuiltAs shortArgs app ∧ app.power = [10, 20, 30] ∧ app.constantPower = false ∧ app.dailyUse = fun _ => 1 / 1000 := by
  have h : (builtBy shortArgs).map (fun a => (a.power, a.constantPower)) = some ([10, 20, 30], false) := by decide +kernel
  have hd : ∀ i : Fin 1440, ((builtBy shortArgs).map (fun a => a.dailyUse i)) = some (1 / 1000) := by decide +kernel
  cases hb : builtBy shortArgs with
  | none => rw [hb] at h; cases h
  | some app =>
    rw [hb] at h
    simp only [Option.map_some, Option.some.injEq, Prod.mk.injEq] at h
    refine ⟨app, builtBy_some hb, h.1, h.2, ?_⟩
    funext i
    have := hd i
    rw [hb] at this
    simpa using this

/-- **C43 (partial).** The negation of the full statement: a user with power values for three days, added after the construction of the
use case; `initialize(num_days=5)` succeeds. -/
theorem C43_full_statement_is_false_partial : ∃ app uc uc' , BuiltAs shortArgs app ∧ addUser {} (.user { appList := [app] }) = (uc, .ok ()) ∧
    Returns (initUseCase ⟨0, none⟩ uc { numDays := some 5 }) (uc', .ok ()) ∧ uc'.numDays = some 5 ∧
    ∃ u ∈ uc'.users, ∃ a ∈ u.appList, a.power.length = 3 := by
  obtain ⟨app, h1, h2, h3, h4⟩ := short_built
  have hcal : initCalendar ⟨0, none⟩ (resetDays { users := [{ appList := [app] }] } { numDays := some 5 }) { numDays := some 5 } =
    ({ users := [{ appList := [app] }], numDays := some 5, days := some (daysFrom 0 5) }, .ok ()) := rfl
  have hrun : ¬ (({ users := [{ appList := [app] }] } : UseCase).isInitialized = true ∧ ({ numDays := some 5 } : InitArgs).force = false) := by
    simp [UseCase.isInitialized]
  have hflat : ∀ i, IsPeak (maximumLoad (oneUser app)) i := by
    intro i j
    rw [maximumLoad_one, maximumLoad_one, h4]
  obtain ⟨uc', h⟩ := init_succeeds hrun rfl hcal (peak_of_two 0 1 (by decide) (hflat 0) (hflat 1))
  refine ⟨app, _, uc', h1, rfl, h, ?_⟩
  obtain ⟨uc1, pe, r, hc, _, _, rfl⟩ := returns_init_done hrun h
  rw [hcal] at hc
  cases hc
  refine ⟨rfl, { appList := [app] }, by simp [initIndex, daysFrom], app, by simp, by rw [h2]; rfl⟩

/-- A case for the theorems above: the same user given to the constructor is refused for five days and accepted for three. -/
example : ∃ app, BuiltAs shortArgs app ∧ Collected (collectAppliances { users := [{ appList := [app] }] }) ∧
    ∀ uc' res, Returns (initUseCase ⟨0, none⟩ (collectAppliances { users := [{ appList := [app] }] }) { numDays := some 5 }) (uc', res) →
      res = .error .valueError := by
  obtain ⟨app, h1, h2, h3, h4⟩ := short_built
  refine ⟨app, h1, ⟨rfl, by simp [collectAppliances]⟩, fun uc' res h => ?_⟩
  have hf : (collectAppliances { users := [{ appList := [app] }] }).findApp (0, app.oid) = some app := by
    simp [collectAppliances, UseCase.findApp]
  exact C43_short_series_partial (.inl ⟨rfl, rfl⟩) rfl (by norm_num)
    (by intro r hr; simp [collectAppliances] at hr; subst hr; exact ⟨app, hf, by rw [h3]; simp⟩)
    ⟨(0, app.oid), by simp [collectAppliances], app, hf, h3, by rw [h2]; decide⟩ h

/-! ## C44: shape -/

theorem flatten_length (rows : List Profile) : (flatten rows).length = 1440 * rows.length := by
  unfold flatten
  induction rows with
  | nil => rfl
  | cons p rows ih => simp only [List.map_cons, List.flatten_cons, List.length_append, List.length_ofFn, ih, List.length_cons]; ring

theorem flatten_get : ∀ (rows : List Profile) (k : ℕ) (i : Fin 1440) (p : Profile), rows[k]? = some p → (flatten rows)[1440 * k + i]? = some (p i)
  | [], k, i, p, h => by simp at h
  | q :: rows, 0, i, p, h => by
    simp only [List.getElem?_cons_zero, Option.some.injEq] at h
    subst h
    unfold flatten
    rw [List.map_cons, List.flatten_cons, List.getElem?_append_left (by rw [List.length_ofFn]; have := i.2; omega)]
    rw [Nat.mul_zero, Nat.zero_add, List.getElem?_ofFn, dif_pos i.2]
  | q :: rows, k + 1, i, p, h => by
    have ih := flatten_get rows k i p (by rw [List.getElem?_cons_succ] at h; exact h)
    unfold flatten at ih ⊢
    rw [List.map_cons, List.flatten_cons, List.getElem?_append_right (by rw [List.length_ofFn]; have := i.2; omega), List.length_ofFn]
    rw [show 1440 * (k + 1) + (i : ℕ) - 1440 = 1440 * k + i by omega]
    exact ih

theorem emptyRows_ok {n : ℤ} {rows : List Profile} (h : emptyRows n = .ok rows) : 0 ≤ n ∧ rows = List.replicate n.toNat zeros := by
  unfold emptyRows at h
  split_ifs at h with h1
  cases h
  exact ⟨by omega, rfl⟩

/-- **C44.** The result of `generate_daily_load_profiles` has one row of 1440 values per day of `num_days`; flattened it has
`1440 * num_days` values, minute `i` of day `k` at position `1440 k + i`. -/
theorem C44_shape {env : Env} {depth : ℕ} {uc uc' : UseCase} {days : Option (List ℤ)} {rows : List Profile}
    (h : Returns (generateDaily env depth uc days) (uc', rows)) :
    uc'.numDays = some (rows.length : ℤ) ∧ (flatten rows).length = 1440 * rows.length ∧
    ∀ (k : ℕ) (p : Profile) (i : Fin 1440), rows[k]? = some p → (flatten rows)[1440 * k + i]? = some (p i) := by
  obtain ⟨uc0, uc1, n, us, rows0, _, hn, he, hl, rfl⟩ := returns_generateDaily h
  obtain ⟨h0, rfl⟩ := emptyRows_ok he
  obtain ⟨_, _, ps, _, rfl⟩ := returns_daysLoop hl
  refine ⟨?_, flatten_length _, fun k p i hk => flatten_get _ k i p hk⟩
  rw [setRows_length, List.length_replicate]
  have hnum : uc1.numDays = some n := by
    unfold numDaysProperty at hn
    split at hn
    · have := returns_pure.1 hn; cases this; assumption
    · obtain ⟨⟨u2, r2⟩, h1, h2⟩ := returns_of_bind hn
      cases r2 with
      | error e => have := returns_pure.1 h2; cases this
      | ok _ =>
        have := returns_pure.1 h2
        cases this
        rcases returns_init h1 with ⟨hh, _, rfl⟩ | ⟨_, hd⟩
        · rename_i hnn
          unfold UseCase.isInitialized at hh
          rw [hnn] at hh
          simp at hh
        · obtain ⟨m, hm⟩ := hd.fields.2.1
          rw [hm]
          rfl
  rw [show ({ uc1 with users := us } : UseCase).numDays = uc1.numDays from rfl, hnum]
  congr 1
  omega

/-! ## C45: superposition -/

theorem returns_generate_ready {env : Env} {depth : ℕ} {uc : UseCase} {ds peak : List ℤ} {days : Option (List ℤ)} (hr : Ready uc ds peak)
    {uc' : UseCase} {rows : List Profile} : Returns (generateDaily env depth uc days) (uc', rows) ↔
      ∃ us, Returns (daysLoop depth peak 0 ds uc.users (List.replicate ds.length zeros)) (us, rows) ∧ uc' = { uc with users := us } := by
  have h0 : resolveDays uc days = (uc, .ok ()) := by unfold resolveDays; rw [hr.days]
  have h1 : numDaysProperty env uc = pure (uc, .ok (ds.length : ℤ)) := by unfold numDaysProperty; rw [hr.numDays]
  have h2 : emptyRows (ds.length : ℤ) = .ok (List.replicate ds.length zeros) := by
    unfold emptyRows; rw [if_neg (by omega)]; simp
  constructor
  · intro h
    obtain ⟨uc0, uc1, n, us, rows0, e0, e1, e2, e3, rfl⟩ := returns_generateDaily h
    rw [h0] at e0
    cases e0
    rw [h1] at e1
    have := returns_pure.1 e1
    cases this
    rw [h2] at e2
    cases e2
    rw [hr.peak, hr.days] at e3
    exact ⟨us, e3, rfl⟩
  · rintro ⟨us, ⟨r, r', h⟩, rfl⟩
    refine ⟨r, r', ?_⟩
    unfold generateDaily
    rw [h0]
    simp only
    rw [h1, bind_ok (show (pure (uc, Except.ok (ds.length : ℤ)) : Sim (UseCase × Except Err ℤ)) r = .ok ((uc, .ok (ds.length : ℤ)), r) from rfl)]
    simp only
    rw [bind_ok (show liftE (emptyRows (ds.length : ℤ)) r = .ok (List.replicate ds.length zeros, r) by rw [h2]; rfl)]
    rw [hr.peak, hr.days]
    simp only [Option.getD_some]
    rw [bind_ok h]
    rfl

/-- **C45.** For a use case ready to simulate the days `ds`, the possible results are exactly the lists of one profile per day in which
the profile of day `k` is the sum over users, over the `num_users` members of each, and over their appliances, of profiles of one run
of `generate_load_profile` each, for day number `k`, the type of that day, and one preference per member. -/
theorem C45_superposition {env : Env} {depth : ℕ} {uc : UseCase} {ds peak : List ℤ} (days : Option (List ℤ)) (hr : Ready uc ds peak)
    (rows : List Profile) : (∃ uc', Returns (generateDaily env depth uc days) (uc', rows)) ↔
      rows.length = ds.length ∧ ∀ k d p, ds[k]? = some d → rows[k]? = some p → CaseDay depth k peak (typeOfDay d) uc.users p := by
  constructor
  · rintro ⟨uc', h⟩
    obtain ⟨us, h', rfl⟩ := (returns_generate_ready hr).1 h
    obtain ⟨_, _, ps, hps, rfl⟩ := returns_daysLoop h'
    have hlen := dayLoads_length hps
    have hset : setRows (List.replicate ds.length zeros) 0 ps = ps := by
      apply List.ext_getElem?
      intro j
      rw [setRows_get _ _ _ _ (by simp [hlen])]
      by_cases hj : j < ps.length
      · rw [if_pos ⟨by omega, by omega⟩, Nat.sub_zero]
      · rw [if_neg (by omega), List.getElem?_eq_none (by simp; omega), List.getElem?_eq_none (by omega)]
    rw [hset]
    refine ⟨hlen, fun k d p hd hp => ?_⟩
    have := (dayLoads_get.1 hps).2 k d p hd hp
    rwa [Nat.zero_add] at this
  · rintro ⟨hlen, h⟩
    have hps : DayLoads depth peak uc.users 0 ds rows := dayLoads_get.2 ⟨hlen, fun j d p hd hp => by rw [Nat.zero_add]; exact h j d p hd hp⟩
    obtain ⟨us, hus⟩ := daysLoop_returns (rows := List.replicate ds.length zeros) hps (by simp)
    have hset : setRows (List.replicate ds.length zeros) 0 rows = rows := by
      apply List.ext_getElem?
      intro j
      rw [setRows_get _ _ _ _ (by simp [hlen])]
      by_cases hj : j < rows.length
      · rw [if_pos ⟨by omega, by omega⟩, Nat.sub_zero]
      · rw [if_neg (by omega), List.getElem?_eq_none (by simp; omega), List.getElem?_eq_none (by omega)]
    rw [hset] at hus
    exact ⟨_, (returns_generate_ready hr).2 ⟨us, hus, rfl⟩⟩

/-- **C45.** A use case with a consistent calendar and a peak time range - as after a successful `initialize` - is ready. -/
theorem C45_ready {uc : UseCase} (h : ConsistentCalendar uc) (hp : uc.isInitialized = true) :
    ∃ d n peak, 1 ≤ n ∧ Ready uc (daysFrom d n) peak := by
  obtain ⟨d, n, hn, h1, h2, h3⟩ := h
  unfold UseCase.isInitialized at hp
  simp only [Bool.and_eq_true] at hp
  obtain ⟨peak, hpk⟩ := Option.isSome_iff_exists.1 hp.2
  exact ⟨d, n, peak, hn, h1, by rw [h2, daysFrom_length], hpk⟩

/-! ## C46: bounds -/

theorem sum_nonneg_le {l : List ℚ} {B : ℚ} {n : ℕ} (hl : l.length = n) (h : ∀ x ∈ l, 0 ≤ x ∧ x ≤ B) : 0 ≤ l.sum ∧ l.sum ≤ n * B := by
  subst hl
  induction l with
  | nil => simp
  | cons a l ih =>
    obtain ⟨h1, h2⟩ := ih fun x hx => h x (by simp [hx])
    obtain ⟨h3, h4⟩ := h a (by simp)
    simp only [List.sum_cons, List.length_cons]
    push_cast
    constructor
    · linarith
    · linarith

theorem forall₂_sum_le {α : Type} {R : α → Profile → Prop} {B : α → ℚ} {i : Fin 1440} : ∀ {l : List α} {ps : List Profile},
    List.Forall₂ R l ps → (∀ a ∈ l, ∀ p, R a p → 0 ≤ p i ∧ p i ≤ B a) → 0 ≤ total ps i ∧ total ps i ≤ (l.map B).sum
  | _, _, .nil, _ => by simp [total]
  | a :: l, p :: ps, .cons h1 h2, h => by
    obtain ⟨h3, h4⟩ := forall₂_sum_le h2 (fun b hb => h b (by simp [hb]))
    obtain ⟨h5, h6⟩ := h a (by simp) p h1
    rw [total_cons]
    simp only [List.map_cons, List.sum_cons]
    exact ⟨by linarith, by linarith⟩

theorem applianceDay_bounds {depth k : ℕ} {peak : List ℤ} {dt pref : ℤ} {a : Appliance} {p : Profile} {P : Appliance → ℚ}
    (hs : PowersUpTo (P a) a) (h : ApplianceDay depth k peak dt pref a p) (i : Fin 1440) : 0 ≤ p i ∧ p i ≤ applianceBound P a := by
  obtain ⟨pw, a', h1, h2, rfl⟩ := h
  refine C20_profile_bounds hs.windows hs.cycle hs.number hs.thermal.1 hs.thermal.2 h1 ?_ h2 i
  intro q hq
  rcases List.mem_cons.1 hq with rfl | hq
  · exact hs.powers _ (List.mem_of_getElem? h1)
  · exact hs.cyclePowers q hq

theorem caseDay_bounds {depth k : ℕ} {peak : List ℤ} {dt : ℤ} {us : List User} {p : Profile} {P : Appliance → ℚ}
    (hs : ∀ u ∈ us, ∀ a ∈ u.appList, PowersUpTo (P a) a) (h : CaseDay depth k peak dt us p) (i : Fin 1440) :
    0 ≤ p i ∧ p i ≤ (us.map (fun u => (u.numUsers.toNat : ℚ) * (u.appList.map (applianceBound P)).sum)).sum := by
  obtain ⟨ps, h1, rfl⟩ := h
  refine forall₂_sum_le h1 fun u hu q hq => ?_
  obtain ⟨qs, hlen, hm, rfl⟩ := hq
  have hB : ∀ x ∈ qs.map (fun q => q i), 0 ≤ x ∧ x ≤ (u.appList.map (applianceBound P)).sum := by
    intro x hx
    obtain ⟨q, hq, rfl⟩ := List.mem_map.1 hx
    obtain ⟨pref, rs, _, hrs, rfl⟩ := hm q hq
    exact forall₂_sum_le hrs fun a ha r hr => applianceDay_bounds (hs u hu a ha) hr i
  exact sum_nonneg_le (by simpa using hlen) hB

/-- **C46.** When every appliance has valid windows, at least one unit, a cycle of at least one minute, a thermal variability between 0
and 1 and powers between 0 and `P a`, every minute of every simulated day lies between 0 and the sum over users of `num_users` times
the sum over appliances of `max (0.001) (number * P * (1 + thermal_p_var))`. -/
theorem C46_bounds {env : Env} {depth : ℕ} {uc uc' : UseCase} {ds peak : List ℤ} {days : Option (List ℤ)} {rows : List Profile} {P : Appliance → ℚ}
    (hr : Ready uc ds peak) (hs : ∀ u ∈ uc.users, ∀ a ∈ u.appList, PowersUpTo (P a) a)
    (h : Returns (generateDaily env depth uc days) (uc', rows)) (p : Profile) (hp : p ∈ rows) (i : Fin 1440) :
    0 ≤ p i ∧ p i ≤ (uc.users.map (fun u => (u.numUsers.toNat : ℚ) * (u.appList.map (applianceBound P)).sum)).sum := by
  obtain ⟨hlen, hday⟩ := (C45_superposition days hr rows).1 ⟨uc', h⟩
  obtain ⟨k, hk⟩ := List.mem_iff_getElem?.1 hp
  obtain ⟨hk1, _⟩ := List.getElem?_eq_some_iff.1 hk
  have hd : ds[k]? = some ds[k] := List.getElem?_eq_getElem (by omega)
  exact caseDay_bounds hs (hday k _ p hd hk) i

/-! ## C47 and C48: appliances that stay off -/

theorem applianceDay_skipped {depth k : ℕ} {peak : List ℤ} {dt pref : ℤ} {a : Appliance} {p : Profile} (hs : SkippedForSure a pref dt)
    (h : ApplianceDay depth k peak dt pref a p) : p = zeros := by
  obtain ⟨pw, a', _, ⟨r, r', h2⟩, rfl⟩ := h
  obtain ⟨r'', h3⟩ := C22_skipped (depth := depth) (profI := k) (peak := peak) (power := pw) hs r
  rw [h3] at h2
  cases h2
  rfl

theorem total_filter {depth k : ℕ} {peak : List ℤ} {dt pref : ℤ} {keep : Appliance → Bool} : ∀ {apps : List Appliance} {ps : List Profile},
    List.Forall₂ (ApplianceDay depth k peak dt pref) apps ps → (∀ a ∈ apps, keep a = false → SkippedForSure a pref dt) →
      ∃ qs, List.Forall₂ (ApplianceDay depth k peak dt pref) (apps.filter keep) qs ∧ total ps = total qs
  | _, _, .nil, _ => ⟨[], .nil, rfl⟩
  | a :: apps, p :: ps, .cons h1 h2, h => by
    obtain ⟨qs, h3, h4⟩ := total_filter (keep := keep) h2 fun b hb => h b (by simp [hb])
    cases hk : keep a with
    | true =>
      refine ⟨p :: qs, ?_, ?_⟩
      · rw [List.filter_cons_of_pos hk]
        exact .cons h1 h3
      · rw [total_cons, total_cons, h4]
    | false =>
      refine ⟨qs, ?_, ?_⟩
      · rw [List.filter_cons_of_neg (by simp [hk])]
        exact h3
      · rw [total_cons, applianceDay_skipped (h a (by simp) hk) h1, h4]
        funext i
        simp [zeros]

/-- **C47.** On a day of a given type the load of the users is a possible load of the users without the appliances meant for the other
type of day: these contribute nothing.  The type is 1 on Saturdays and Sundays and 0 on the other days. -/
theorem C47_other_day_types {depth k : ℕ} {peak : List ℤ} {dt : ℤ} {us : List User} {p : Profile} (h : CaseDay depth k peak dt us p) :
    CaseDay depth k peak dt (us.map (fun u => u.only (fun a => a.wdWeType = dt ∨ a.wdWeType = 2))) p := by
  obtain ⟨ps, h1, rfl⟩ := h
  refine ⟨ps, ?_, rfl⟩
  rw [List.forall₂_map_left_iff]
  refine h1.imp fun u q hq => ?_
  obtain ⟨qs, hlen, hm, rfl⟩ := hq
  refine ⟨qs, hlen, fun q hq => ?_, rfl⟩
  obtain ⟨pref, rs, hpref, hrs, rfl⟩ := hm q hq
  obtain ⟨ts, h3, h4⟩ := total_filter (keep := fun a => a.wdWeType = dt ∨ a.wdWeType = 2) hrs fun a _ ha => by
    simp only [decide_eq_false_iff_not, not_or] at ha
    exact .inr (.inl ha)
  exact ⟨pref, ts, hpref, h3, h4⟩

/-- **C47.** In the result of the whole simulation: the days are those of a use case from whose users, for the type of the day, the
appliances of the other type have been removed. -/
theorem C47_use_case {env : Env} {depth : ℕ} {uc uc' : UseCase} {ds peak : List ℤ} {days : Option (List ℤ)} {rows : List Profile}
    (hr : Ready uc ds peak) (h : Returns (generateDaily env depth uc days) (uc', rows)) (k : ℕ) (d : ℤ) (p : Profile)
    (hd : ds[k]? = some d) (hp : rows[k]? = some p) :
    CaseDay depth k peak (typeOfDay d) (uc.users.map (fun u => u.only (fun a => a.wdWeType = typeOfDay d ∨ a.wdWeType = 2))) p :=
  C47_other_day_types (((C45_superposition days hr rows).1 ⟨uc', h⟩).2 k d p hd hp)

/-- **C48.** On each member-day the preference is in `1..user_preference` (0 when the user has no preferences), and the load is a possible load
of the appliances without `pref_index` or with that `pref_index`: the others stay off. -/
theorem C48_one_preference {depth k : ℕ} {peak : List ℤ} {dt : ℤ} {u : User} {p : Profile} (h : MemberDay depth k peak dt u p) :
    ∃ pref ps, (u.userPreference = 0 → pref = 0) ∧ (u.userPreference ≠ 0 → 1 ≤ pref ∧ pref ≤ u.userPreference) ∧
      List.Forall₂ (ApplianceDay depth k peak dt pref) (u.appList.filter (fun a => a.prefIndex = 0 ∨ a.prefIndex = pref)) ps ∧ p = total ps := by
  obtain ⟨pref, rs, hpref, hrs, rfl⟩ := h
  obtain ⟨ts, h3, h4⟩ := total_filter (keep := fun a => a.prefIndex = 0 ∨ a.prefIndex = pref) hrs fun a _ ha => by
    simp only [decide_eq_false_iff_not, not_or] at ha
    exact .inl ⟨ha.1, fun h => ha.2 h.symm⟩
  unfold PreferenceOf at hpref
  refine ⟨pref, ts, fun h0 => ?_, fun h0 => ?_, h3, h4⟩
  · rwa [if_pos h0] at hpref
  · rwa [if_neg h0] at hpref

/-- **C48.** An appliance whose `pref_index` exceeds the number of preferences of its user never contributes. -/
theorem C48_unreachable_preference {depth k : ℕ} {peak : List ℤ} {dt : ℤ} {u : User} {p : Profile} 
    (h : MemberDay depth k peak dt u p) : MemberDay depth k peak dt (u.only (fun a => a.prefIndex ≤ u.userPreference)) p := by
  obtain ⟨pref, rs, hpref, hrs, rfl⟩ := h
  have hle : 0 ≤ pref ∧ pref ≤ u.userPreference := by
    unfold PreferenceOf at hpref
    split_ifs at hpref <;> omega
  obtain ⟨ts, h3, h4⟩ := total_filter (keep := fun a => a.prefIndex ≤ u.userPreference) hrs fun a _ ha => by
    simp only [decide_eq_false_iff_not, not_le] at ha
    exact .inl ⟨by omega, by omega⟩
  exact ⟨pref, ts, hpref, h3, h4⟩

/-- **C48.** The same for a call of `generate_single_load_profile`, with the preference it leaves in the user: it is in `1..user_preference` (0 without
preferences), the appliances with another `pref_index` stay off, and what the others contribute was drawn for this preference. -/
theorem C48_single_profile {depth k : ℕ} {peak : List ℤ} {dt : ℤ} {u u' : User} {p : Profile}
    (h : Returns (generateSingleLoadProfile depth u k peak dt) (u', p)) :
    (u.userPreference = 0 → u'.randDailyPref = 0) ∧ (u.userPreference ≠ 0 → 1 ≤ u'.randDailyPref ∧ u'.randDailyPref ≤ u.userPreference) ∧
      ∃ ps, List.Forall₂ (ApplianceDay depth k peak dt u'.randDailyPref)
        (u.appList.filter (fun a => a.prefIndex = 0 ∨ a.prefIndex = u'.randDailyPref)) ps ∧ p = total ps := by
  unfold generateSingleLoadProfile at h
  obtain ⟨pref, h1, h2⟩ := (returns_bind (fin_drawPreference _)).1 h
  obtain ⟨⟨apps, l⟩, h3, h4⟩ := (returns_bind (fin_singleLoop _ _ _ _ _ _ _)).1 h2
  have := returns_pure.1 h4
  cases this
  obtain ⟨-, ps, h6, h7⟩ := returns_singleLoop h3
  have h1 := returns_drawPreference.1 h1
  obtain ⟨ts, h8, h9⟩ := total_filter (keep := fun a => a.prefIndex = 0 ∨ a.prefIndex = pref) h6 fun a _ ha => by
    simp only [decide_eq_false_iff_not, not_or] at ha
    exact .inl ⟨ha.1, fun h => ha.2 h.symm⟩
  refine ⟨fun h0 => ?_, fun h0 => ?_, ts, h8, ?_⟩
  · rwa [if_pos h0] at h1
  · rwa [if_neg h0] at h1
  · rw [h7, ← h9]; funext i; simp [zeros]

/-- **C48.** Every preference of the range can be that of a day. -/
theorem C48_every_preference {depth k : ℕ} {peak : List ℤ} {dt : ℤ} {u : User} {pref : ℤ} {ps : List Profile}
    (hp : 1 ≤ pref ∧ pref ≤ u.userPreference) (h : List.Forall₂ (ApplianceDay depth k peak dt pref) u.appList ps) :
    ∃ u', u'.randDailyPref = pref ∧ Returns (generateSingleLoadProfile depth u k peak dt) (u', total ps) := by
  obtain ⟨apps', h3⟩ := singleLoop_returns (load := zeros) h
  refine ⟨{ u with randDailyPref := pref, appList := apps' }, rfl, ?_⟩
  unfold generateSingleLoadProfile
  refine (returns_bind (fin_drawPreference _)).2 ⟨pref, returns_drawPreference.2 (by rw [if_neg (by omega)]; exact hp),
    (returns_bind (fin_singleLoop _ _ _ _ _ _ _)).2 ⟨_, h3, ?_⟩⟩
  rw [returns_pure]
  congr 1
  funext i
  simp [zeros]

/-- **C48.** In the result of the whole simulation: appliances whose `pref_index` exceeds the number of preferences of their user might as well not
exist. -/
theorem C48_use_case {env : Env} {depth : ℕ} {uc uc' : UseCase} {ds peak : List ℤ} {days : Option (List ℤ)} {rows : List Profile}
    (hr : Ready uc ds peak) (h : Returns (generateDaily env depth uc days) (uc', rows)) (k : ℕ) (d : ℤ) (p : Profile)
    (hd : ds[k]? = some d) (hp : rows[k]? = some p) :
    CaseDay depth k peak (typeOfDay d) (uc.users.map (fun u => u.only (fun a => a.prefIndex ≤ u.userPreference))) p := by
  obtain ⟨ps, h1, h2⟩ := ((C45_superposition days hr rows).1 ⟨uc', h⟩).2 k d p hd hp
  refine ⟨ps, ?_, h2⟩
  rw [List.forall₂_map_left_iff]
  refine h1.imp fun u q hq => ?_
  obtain ⟨qs, h3, h4, h5⟩ := hq
  exact ⟨qs, h3, fun q hq => C48_unreachable_preference (h4 q hq), h5⟩

/-! ## C49 and C74: simulations and the objects -/

/-- **C49.** A simulation of a use case whose days and `num_days` are known changes nothing but what simulations leave behind in users and
appliances (profile, free ranges and duty cycles of the last day, preference and load of the last member): every other attribute of
users and appliances, the days, the index, the peak time range and the settings of the use case are the same. -/
theorem C49_configuration_unchanged {env : Env} {depth : ℕ} {uc uc' : UseCase} {days : Option (List ℤ)} {rows : List Profile}
    (hd : uc.days.isSome) (hn : uc.numDays.isSome) (h : Returns (generateDaily env depth uc days) (uc', rows)) :
    uc' = { uc with users := uc'.users } ∧ List.Forall₂ SameUser uc.users uc'.users := by
  obtain ⟨uc0, uc1, n, us, rows0, h0, h1, _, h3, rfl⟩ := returns_generateDaily h
  have e0 : uc0 = uc := by
    unfold resolveDays at h0
    obtain ⟨d, hd⟩ := Option.isSome_iff_exists.1 hd
    rw [hd] at h0
    cases h0
    rfl
  subst e0
  have e1 : uc1 = uc0 := by
    unfold numDaysProperty at h1
    obtain ⟨m, hm⟩ := Option.isSome_iff_exists.1 hn
    rw [hm] at h1
    have := returns_pure.1 h1
    cases this
    rfl
  subst e1
  exact ⟨rfl, (returns_daysLoop h3).1⟩

theorem C49_same_attributes {a b : Appliance} (h : SameDefinition a b) :
    attrEq a b = true ∧ b.power = a.power ∧ b.oid = a.oid ∧ b.constantPower = a.constantPower ∧
    b.randomVar1 = a.randomVar1 ∧ b.randomVar2 = a.randomVar2 ∧ b.randomVar3 = a.randomVar3 := by
  unfold SameDefinition at h
  rw [h]
  refine ⟨?_, rfl, rfl, rfl, rfl, rfl, rfl⟩
  simp [attrEq]

/-- **C74.** A simulation does not influence the next one: afterwards the possible results are exactly those from before. -/
theorem C74_simulations_independent {env : Env} {depth : ℕ} {uc uc' : UseCase} {ds peak : List ℤ} {days : Option (List ℤ)} {rows : List Profile}
    (hr : Ready uc ds peak) (h : Returns (generateDaily env depth uc days) (uc', rows)) (env' : Env) (depth' : ℕ) (days' : Option (List ℤ))
    (rows' : List Profile) :
    (∃ uc'', Returns (generateDaily env' depth' uc' days') (uc'', rows')) ↔ (∃ uc'', Returns (generateDaily env' depth' uc days') (uc'', rows')) := by
  obtain ⟨h1, h2⟩ := C49_configuration_unchanged (by rw [hr.days]; rfl) (by rw [hr.numDays]; rfl) h
  have hr' : Ready uc' ds peak := by rw [h1]; exact ⟨hr.days, hr.numDays, hr.peak⟩
  rw [C45_superposition days' hr, C45_superposition days' hr']
  constructor
  · rintro ⟨h3, h4⟩
    exact ⟨h3, fun k d p hd hp => caseDay_same h2 (h4 k d p hd hp)⟩
  · rintro ⟨h3, h4⟩
    exact ⟨h3, fun k d p hd hp => caseDay_same (sameUsers_symm h2) (h4 k d p hd hp)⟩

/-! ## A case for the theorems above -/

/-- A flat appliance for weekdays (50 W from 100 to 200, two units) in a use case of a Friday and a Saturday. -/
def flatLamp : Appliance := { name := "lamp", flat := "yes", funcTime := 10, power := [50, 50, 50], window1 := (100, 200), number := 2, wdWeType := 0 }

def weekendCase : UseCase :=
  { users := [{ userName := "u", numUsers := 3, appList := [flatLamp] }], days := some [5760, 7200], numDays := some 2, peakTimeRange := some [] }

theorem weekendCase_ready : Ready weekendCase [5760, 7200] [] := ⟨rfl, rfl, rfl⟩

theorem flatLamp_valid : ValidWindows flatLamp := by
  constructor <;> (try unfold DayWindow) <;> simp [flatLamp]

/-- The load of the lamp on a weekday. -/
def lampLoad : Profile := fun i => if 100 ≤ (i : ℤ) ∧ (i : ℤ) < 200 then 100 else 0

theorem flatLamp_friday : ApplianceDay 1000 0 [] 0 0 flatLamp lampLoad := by
  obtain ⟨app', rng', h, hi⟩ := C23_flat_deterministic (app := flatLamp)
    (depth := 1000) (pref := 0) (profI := 0) (peak := []) (dayType := 0) (power := 50) (pw := 50) flatLamp_valid (by decide) rfl
    ⟨rfl, rfl, rfl⟩ le_rfl (by rintro (h | h | h) <;> revert h <;> decide) rfl (by decide) le_rfl (by simp [flatLamp])
    (by norm_num [totalTime, flatLamp]) (constantDraws 0)
  refine ⟨50, app', rfl, ⟨_, _, h⟩, ?_⟩
  funext i
  rw [hi]
  unfold lampLoad
  have hin : (InWindow flatLamp.window1 i ∨ InWindow flatLamp.window2 i ∨ InWindow flatLamp.window3 i) ↔ (100 ≤ (i : ℤ) ∧ (i : ℤ) < 200) := by
    simp only [InWindow, flatLamp]
    omega
  by_cases hc : 100 ≤ (i : ℤ) ∧ (i : ℤ) < 200
  · rw [if_pos hc, if_pos (hin.2 hc)]; norm_num [flatLamp]
  · rw [if_neg hc, if_neg (fun h => hc (hin.1 h))]

theorem flatLamp_saturday : ApplianceDay 1000 1 [] 1 0 flatLamp zeros := by
  obtain ⟨r, h⟩ := C22_skipped (app := flatLamp) (depth := 1000) (pref := 0) (profI := 1) (peak := []) (dayType := 1) (power := 50)
    (.inr (.inl (by decide))) (constantDraws 0)
  exact ⟨50, _, rfl, ⟨_, _, h⟩, rfl⟩

theorem userDay_of_one {depth k : ℕ} {dt : ℤ} {u : User} {a : Appliance} {p : Profile} (hu : u.appList = [a]) (hp : u.userPreference = 0)
    (h : ApplianceDay depth k [] dt 0 a p) : UserDay depth k [] dt u (total (List.replicate u.numUsers.toNat (total [p]))) := by
  refine ⟨_, by simp, fun q hq => ?_, rfl⟩
  rw [List.eq_of_mem_replicate hq]
  exact ⟨0, [p], by unfold PreferenceOf; rw [if_pos hp], by rw [hu]; exact .cons h .nil, rfl⟩

/-- The use case can be simulated: 300 W in the window on Friday, nothing on Saturday. -/
theorem weekendCase_runs : ∃ uc' p q, Returns (generateDaily ⟨0, none⟩ 1000 weekendCase none) (uc', [p, q]) ∧ p 150 = 300 ∧ q 150 = 0 := by
  have h : ∃ uc', Returns (generateDaily ⟨0, none⟩ 1000 weekendCase none) (uc', [total [total (List.replicate 3 (total [lampLoad]))],
      total [total (List.replicate 3 (total [zeros]))]]) := by
    rw [C45_superposition none weekendCase_ready]
    refine ⟨rfl, fun k d p hd hp => ?_⟩
    rcases k with _ | _ | k
    · simp only [List.getElem?_cons_zero, Option.some.injEq] at hd hp
      subst hd hp
      exact ⟨_, .cons (userDay_of_one rfl rfl flatLamp_friday) .nil, rfl⟩
    · simp only [Nat.zero_add, List.getElem?_cons_succ, List.getElem?_cons_zero, Option.some.injEq] at hd hp
      subst hd hp
      exact ⟨_, .cons (userDay_of_one rfl rfl flatLamp_saturday) .nil, rfl⟩
    · simp at hd
  obtain ⟨uc', h⟩ := h
  refine ⟨uc', _, _, h, ?_, ?_⟩
  · norm_num [total, lampLoad]
  · norm_num [total, zeros]

example : ∃ P : Appliance → ℚ, ∀ u ∈ weekendCase.users, ∀ a ∈ u.appList, PowersUpTo (P a) a := by
  refine ⟨fun _ => 50, fun u hu a ha => ?_⟩
  simp only [weekendCase, List.mem_singleton] at hu
  subst hu
  simp only [List.mem_singleton] at ha
  subst ha
  exact ⟨flatLamp_valid, by decide, by decide, by norm_num [flatLamp], by simp [flatLamp], by simp [flatLamp]⟩

end Ramp
