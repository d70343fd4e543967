import Verif.Lemmas.Float
import Verif.Lemmas.Binary64
import Verif.Props.Profile
import Verif.Props.NeverFails
import Verif.Lemmas.Cli

/-! # C99: the simulation in floating point -/

set_option autoImplicit false

namespace Ramp

variable {fl : ℚ → ℚ} {ε : ℚ}

/-! ## Without rounding the two models are the same -/

theorem flRandSwitchOnWindow_id : ∀ (depth : ℕ) (app : Appliance) (rt : ℤ), flRandSwitchOnWindow id depth app rt = randSwitchOnWindow depth app rt
  | 0, _, _ => rfl
  | depth + 1, app, rt => by
    unfold flRandSwitchOnWindow randSwitchOnWindow
    simp only [flRandSwitchOnWindow_id depth]
    rfl

theorem flSwitchOnLoop_id (depth : ℕ) (peak : List ℤ) (power : ℚ) (rt : ℤ) : ∀ (fuel : ℕ) (app : Appliance) (tot : ℤ) (log : List Booking),
    flSwitchOnLoop id depth peak power rt fuel app tot log = switchOnLoop depth peak power rt fuel app tot log
  | 0, _, _, _ => rfl
  | fuel + 1, app, tot, log => by
    unfold flSwitchOnLoop switchOnLoop
    simp only [flSwitchOnLoop_id depth peak power rt fuel, flRandSwitchOnWindow_id]
    rfl

theorem flGenerateInfo_id (app : Appliance) (depth : ℕ) (pref : ℤ) (k : ℕ) (peak : List ℤ) (dt : ℤ) (power : ℚ) :
    flGenerateLoadProfileInfo id app depth pref k peak dt power = generateLoadProfileInfo app depth pref k peak dt power := by
  unfold flGenerateLoadProfileInfo generateLoadProfileInfo
  simp only [flSwitchOnLoop_id]
  rfl

theorem flGenerate_id (app : Appliance) (depth : ℕ) (pref : ℤ) (k : ℕ) (peak : List ℤ) (dt : ℤ) (power : ℚ) :
    flGenerateLoadProfile id app depth pref k peak dt power = generateLoadProfile app depth pref k peak dt power := by
  unfold flGenerateLoadProfile generateLoadProfile
  rw [flGenerateInfo_id]

theorem flSingleLoop_id (depth k : ℕ) (peak : List ℤ) (dt pref : ℤ) : ∀ (l : List Appliance) (p : Profile),
    flSingleLoop id depth k peak dt pref l p = singleLoop depth k peak dt pref l p
  | [], _ => rfl
  | a :: l, p => by
    unfold flSingleLoop singleLoop
    simp only [flSingleLoop_id depth k peak dt pref l, flGenerate_id, id]
    rfl

theorem flAggregatedLoop_id (depth k : ℕ) (peak : List ℤ) (dt : ℤ) : ∀ (n : ℕ) (u : User) (p : Profile),
    flAggregatedLoop id depth k peak dt n u p = aggregatedLoop depth k peak dt n u p
  | 0, _, _ => rfl
  | n + 1, u, p => by
    unfold flAggregatedLoop aggregatedLoop flGenerateSingleLoadProfile generateSingleLoadProfile
    simp only [flAggregatedLoop_id depth k peak dt n, flSingleLoop_id, id]

theorem flUsersOfDay_id (depth k : ℕ) (peak : List ℤ) (dt : ℤ) : ∀ (us : List User) (p : Profile),
    flUsersOfDay id depth k peak dt us p = usersOfDay depth k peak dt us p
  | [], _ => rfl
  | u :: us, p => by
    unfold flUsersOfDay usersOfDay flGenerateAggregatedLoadProfile generateAggregatedLoadProfile
    simp only [flUsersOfDay_id depth k peak dt us, flAggregatedLoop_id, id]

theorem flDaysLoop_id (depth : ℕ) (peak : List ℤ) : ∀ (ds : List ℤ) (k : ℕ) (us : List User) (rows : List Profile),
    flDaysLoop id depth peak k ds us rows = daysLoop depth peak k ds us rows
  | [], _, _, _ => rfl
  | d :: ds, k, us, rows => by
    unfold flDaysLoop daysLoop
    simp only [flDaysLoop_id depth peak ds, flUsersOfDay_id]

theorem generateDaily_ready {env : Env} {depth : ℕ} {uc : UseCase} {ds peak : List ℤ} (days : Option (List ℤ)) (hr : Ready uc ds peak) :
    generateDaily env depth uc days = (do
      let rows ← liftE (emptyRows (ds.length : ℤ))
      let (us, rows) ← daysLoop depth peak 0 ds uc.users rows
      pure ({ uc with users := us }, rows) : Sim (UseCase × List Profile)) := by
  have h1 : resolveDays uc days = (uc, .ok ()) := by unfold resolveDays; rw [hr.days]
  have h2 : numDaysProperty env uc = (pure (uc, .ok (ds.length : ℤ)) : Sim (UseCase × Except Err ℤ)) := by unfold numDaysProperty; rw [hr.numDays]
  have h3 : uc.peakTimeRange.getD [] = peak := by rw [hr.peak]; rfl
  have h4 : uc.days.getD [] = ds := by rw [hr.days]; rfl
  unfold generateDaily
  rw [h1]
  show (numDaysProperty env uc >>= _) = _
  rw [h2, sim_pure_bind]
  show (liftE (emptyRows (ds.length : ℤ)) >>= fun rows => daysLoop depth (uc.peakTimeRange.getD []) 0 (uc.days.getD []) uc.users rows >>= _) = _
  rw [h3, h4]

/-- **C99.** With exact arithmetic in place of the rounding, the floating point model is the exact model. -/
theorem C99_without_rounding {env : Env} {depth : ℕ} {uc : UseCase} {ds peak : List ℤ} (days : Option (List ℤ)) (hr : Ready uc ds peak) :
    flGenerateDaily id depth uc = generateDaily env depth uc days := by
  rw [generateDaily_ready days hr]
  unfold flGenerateDaily
  rw [hr.days, hr.numDays, hr.peak]
  simp only [flDaysLoop_id]

/-- **C99.** Double precision is a rounding in the sense of `Spec5`, with a relative error of at most 2⁻⁵³. -/
theorem C99_double_precision : Rounding binary64 (1 / 2 ^ 53) := binary64_rounding

theorem returns_flGenerate_iff {app : Appliance} {depth : ℕ} {pref : ℤ} {profI : ℕ} {peak : List ℤ} {dayType : ℤ} {power : ℚ}
    {app' : Appliance} : Returns (flGenerateLoadProfile fl app depth pref profI peak dayType power) app' ↔
      ∃ o, Returns (flGenerateLoadProfileInfo fl app depth pref profI peak dayType power) (app', o) := by
  unfold flGenerateLoadProfile
  constructor
  · rintro ⟨rng, rng', h⟩
    cases hm : flGenerateLoadProfileInfo fl app depth pref profI peak dayType power rng with
    | error e => rw [bind_error hm] at h; cases h
    | ok p =>
      obtain ⟨⟨a, o⟩, r⟩ := p
      rw [bind_ok hm] at h
      cases h
      exact ⟨o, rng, rng', hm⟩
  · rintro ⟨o, rng, rng', h⟩
    exact ⟨rng, rng', by rw [bind_ok h]; rfl⟩

/-! ## One day of one appliance -/

/-- **C99.** Every run of `generate_load_profile` in floating point is a run of the exact program for an appliance whose variabilities
are wider by 16 rounding errors: the same windows, time of use, events and numbers of appliances, and in every minute the same power
up to six roundings. -/
theorem C99_appliance_day (R : Rounding fl ε) {app b : Appliance} {o : Option RunInfo} {depth k : ℕ} {pref dayType : ℤ} {peak : List ℤ} {power : ℚ}
    (hr : FloatReady app) (hp : 0 ≤ power)
    (h : Returns (flGenerateLoadProfileInfo fl app depth pref k peak dayType power) (b, o)) :
    ∃ b', Returns (generateLoadProfileInfo (widen ε app) depth pref k peak dayType power) (b', o) ∧
      ∀ i, NearTo ε 6 (b.dailyUse i) (b'.dailyUse i) ∧ 0 ≤ b'.dailyUse i := by
  obtain ⟨⟨b', o'⟩, hb, hreach⟩ := (fine_generate R (twin_widen app) hr depth pref k peak dayType hp).ret h
  have : o = o' := hb.info
  subst this
  exact ⟨b', hreach.returns, hb.use⟩

/-- **C99.** An exception in floating point is an exception of the exact program for the widened appliance. -/
theorem C99_appliance_errors (R : Rounding fl ε) {app : Appliance} {e : Err} {depth k : ℕ} {pref dayType : ℤ} {peak : List ℤ} {power : ℚ}
    (hr : FloatReady app) (hp : 0 ≤ power)
    (h : Raises (flGenerateLoadProfileInfo fl app depth pref k peak dayType power) e) :
    Raises (generateLoadProfileInfo (widen ε app) depth pref k peak dayType power) e :=
  ((fine_generate R (twin_widen app) hr depth pref k peak dayType hp).err h).raises

/-- Without variability, or with the full variability of 1, nothing is widened. -/
theorem C99_nothing_to_widen {app : Appliance} (h : ∀ v ∈ [app.timeFractionRandomVariability, app.rc1, app.rc2, app.rc3], v = 0 ∨ v = 1) :
    widen ε app = app := by
  simp only [List.mem_cons, List.not_mem_nil, or_false, forall_eq_or_imp, forall_eq] at h
  obtain ⟨h1, h2, h3, h4⟩ := h
  unfold widen widenBy
  rw [if_pos h1, if_pos h2, if_pos h3, if_pos h4]

/-! ## The whole simulation -/

/-- The use case with widened appliances. -/
def widenCase (ε : ℚ) (uc : UseCase) : UseCase := { uc with users := uc.users.map (widenUser ε) }

theorem widenCase_ready {uc : UseCase} {ds peak : List ℤ} (h : Ready uc ds peak) : Ready (widenCase ε uc) ds peak := ⟨h.days, h.numDays, h.peak⟩

theorem twin_users {us : List User} (h : ∀ u ∈ us, ∀ a ∈ u.appList, FloatReady a) : List.Forall₂ (TwinUser ε) us (us.map (widenUser ε)) := by
  rw [List.forall₂_map_right_iff, List.forall₂_same]
  intro u hu
  refine ⟨?_, rfl, rfl⟩
  show TwinApps ε u.appList (u.appList.map (widen ε))
  unfold TwinApps
  rw [List.forall₂_map_right_iff, List.forall₂_same]
  exact fun a ha => ⟨twin_widen a, h u hu a ha⟩

theorem fine_daily (R : Rounding fl ε) {env : Env} {depth : ℕ} {uc : UseCase} {ds peak : List ℤ} (days : Option (List ℤ)) (hr : Ready uc ds peak)
    (hf : ∀ u ∈ uc.users, ∀ a ∈ u.appList, FloatReady a) :
    Fine (flGenerateDaily fl depth uc) (generateDaily env depth (widenCase ε uc) days)
      (fun b b' => List.Forall₂ (ProfClose ε (6 + additions uc.users)) b.2 b'.2) := by
  rw [generateDaily_ready days (widenCase_ready hr)]
  unfold flGenerateDaily
  rw [hr.days, hr.numDays, hr.peak]
  have he : emptyRows (ds.length : ℤ) = .ok (List.replicate ds.length zeros) := by unfold emptyRows; rw [if_neg (by omega)]; simp
  simp only [he, sim_liftE_ok_bind]
  have hrows : List.Forall₂ (ProfClose ε (6 + additions uc.users)) (List.replicate ds.length zeros) (List.replicate ds.length zeros) := by
    rw [List.forall₂_same]
    intro p hp
    rw [List.eq_of_mem_replicate hp]
    exact close_zeros R.pos _
  refine fine_bind (fine_daysLoop R ds (twin_users hf) rfl hrows) ?_
  rintro ⟨us, p⟩ ⟨us', p'⟩ ⟨_, h⟩
  exact fine_pure h

/-- **C99.** Every simulation in floating point is, minute by minute, a simulation of the exact program for the use case with widened
appliances, up to six roundings and one for each addition of profiles. -/
theorem C99_simulation (R : Rounding fl ε) {env : Env} {depth : ℕ} {uc uc' : UseCase} {ds peak : List ℤ} {rows : List Profile} (days : Option (List ℤ))
    (hr : Ready uc ds peak) (hf : ∀ u ∈ uc.users, ∀ a ∈ u.appList, FloatReady a)
    (h : Returns (flGenerateDaily fl depth uc) (uc', rows)) :
    ∃ uc'' exact, Returns (generateDaily env depth (widenCase ε uc) days) (uc'', exact) ∧ rows.length = exact.length ∧
      ∀ (d : ℕ) p q, rows[d]? = some p → exact[d]? = some q → ∀ i, NearTo ε (6 + additions uc.users) (p i) (q i) ∧ 0 ≤ q i := by
  obtain ⟨⟨uc'', q⟩, hq, hreach⟩ := (fine_daily R (env := env) days hr hf).ret h
  refine ⟨uc'', q, hreach.returns, hq.length_eq, fun d p p' hp hp' => ?_⟩
  obtain ⟨h1, rfl⟩ := List.getElem?_eq_some_iff.1 hp
  obtain ⟨h2, rfl⟩ := List.getElem?_eq_some_iff.1 hp'
  exact (List.forall₂_iff_get.1 hq).2 d h1 h2

/-- **C99.** An exception of the simulation in floating point is an exception of the exact program for the widened use case. -/
theorem C99_simulation_errors (R : Rounding fl ε) {env : Env} {depth : ℕ} {uc : UseCase} {ds peak : List ℤ} {e : Err} (days : Option (List ℤ))
    (hr : Ready uc ds peak) (hf : ∀ u ∈ uc.users, ∀ a ∈ u.appList, FloatReady a) (h : Raises (flGenerateDaily fl depth uc) e) :
    Raises (generateDaily env depth (widenCase ε uc) days) e := ((fine_daily R days hr hf).err h).raises

/-! ## In numbers -/

theorem pow_bound {k : ℕ} (h0 : 0 ≤ ε) (h : k * ε ≤ 1 / 2) : (1 + ε) ^ k ≤ 1 + 2 * k * ε := by
  have key : ∀ j : ℕ, j ≤ k → (1 + ε) ^ j ≤ 1 + 2 * j * ε := by
    intro j
    induction j with
    | zero => intro _; simp
    | succ j ih =>
      intro hj
      have hj' : (j : ℚ) * ε ≤ 1 / 2 := by
        refine le_trans ?_ h
        exact mul_le_mul_of_nonneg_right (by exact_mod_cast (by omega : j ≤ k)) h0
      calc (1 + ε) ^ (j + 1) = (1 + ε) ^ j * (1 + ε) := pow_succ _ _
        _ ≤ (1 + 2 * j * ε) * (1 + ε) := mul_le_mul_of_nonneg_right (ih (by omega)) (by linarith)
        _ = 1 + 2 * j * ε + ε + 2 * (j * ε) * ε := by ring
        _ ≤ 1 + 2 * j * ε + ε + 1 * ε := by nlinarith
        _ = 1 + 2 * ((j + 1 : ℕ) : ℚ) * ε := by push_cast; ring
  exact key k le_rfl

/-- **C99.** As long as `k` roundings make less than one half, `NearTo` bounds the relative error by `2 k ε`. -/
theorem C99_relative_error {k : ℕ} {x y : ℚ} (h0 : 0 ≤ ε) (hk : k * ε ≤ 1 / 2) (h : NearTo ε k x y) (hy : 0 ≤ y) : |x - y| ≤ 2 * k * ε * y := by
  have hx := h.nonneg h0 hy
  have hb := pow_bound h0 hk
  have hke : 0 ≤ 2 * (k : ℚ) * ε := by positivity
  have h1 : x ≤ y * (1 + 2 * k * ε) := h.1.trans (mul_le_mul_of_nonneg_left hb hy)
  rw [abs_le]
  refine ⟨?_, by linarith⟩
  rcases le_total x y with hxy | hxy
  · have h2 : y ≤ x * (1 + 2 * k * ε) := h.2.trans (mul_le_mul_of_nonneg_left hb hx)
    have : x * (2 * k * ε) ≤ y * (2 * k * ε) := mul_le_mul_of_nonneg_right hxy hke
    linarith
  · have : 0 ≤ y * (2 * k * ε) := mul_nonneg hy hke
    linarith

/-- **C99.** In double precision the power of one appliance in every minute of a day is that of a run of the exact program for the
widened appliance, with a relative error below 2⁻⁴⁹. -/
theorem C99_appliance_day_double {app b : Appliance} {depth k : ℕ} {pref dayType : ℤ} {peak : List ℤ} {power : ℚ} (hr : FloatReady app) (hp : 0 ≤ power)
    (h : Returns (flGenerateLoadProfile binary64 app depth pref k peak dayType power) b) :
    ∃ b', Returns (generateLoadProfile (widen (1 / 2 ^ 53) app) depth pref k peak dayType power) b' ∧ ∀ i, |b.dailyUse i - b'.dailyUse i| ≤ b'.dailyUse i / 2 ^ 49 := by
  obtain ⟨o, h1⟩ := returns_flGenerate_iff.1 h
  obtain ⟨b', hb', hi⟩ := C99_appliance_day binary64_rounding hr hp h1
  refine ⟨b', returns_generate_iff.2 ⟨o, hb'⟩, fun i => ?_⟩
  have := C99_relative_error (by norm_num) (by norm_num) (hi i).1 (hi i).2
  refine this.trans ?_
  have := (hi i).2
  rw [div_eq_mul_inv]
  nlinarith

/-- **C99.** In double precision the load of the use case in every minute is that of a simulation of the exact program for the
widened use case, with a relative error below 1e-9 as long as there are fewer than four million appliances and users. -/
theorem C99_simulation_double {env : Env} {depth : ℕ} {uc uc' : UseCase} {ds peak : List ℤ} {rows : List Profile} (days : Option (List ℤ))
    (hr : Ready uc ds peak) (hf : ∀ u ∈ uc.users, ∀ a ∈ u.appList, FloatReady a) (hn : 6 + additions uc.users ≤ 4000000)
    (h : Returns (flGenerateDaily binary64 depth uc) (uc', rows)) :
    ∃ uc'' exact, Returns (generateDaily env depth (widenCase (1 / 2 ^ 53) uc) days) (uc'', exact) ∧ rows.length = exact.length ∧
      ∀ (d : ℕ) p q, rows[d]? = some p → exact[d]? = some q → ∀ i, |p i - q i| ≤ q i / 10 ^ 9 := by
  obtain ⟨uc'', q, h1, h2, h3⟩ := C99_simulation binary64_rounding (env := env) days hr hf h
  refine ⟨uc'', q, h1, h2, fun d p p' hp hp' i => ?_⟩
  obtain ⟨h4, h5⟩ := h3 d p p' hp hp' i
  have hk : ((6 + additions uc.users : ℕ) : ℚ) ≤ 4000000 := by exact_mod_cast hn
  have h6 := C99_relative_error (by norm_num) (by nlinarith) h4 h5
  refine h6.trans ?_
  calc 2 * ((6 + additions uc.users : ℕ) : ℚ) * (1 / 2 ^ 53) * p' i ≤ 1 / 10 ^ 9 * p' i := by
        refine mul_le_mul_of_nonneg_right ?_ h5
        norm_num at hk ⊢
        linarith
    _ = p' i / 10 ^ 9 := by ring

/-! ## What survives the rounding unchanged -/

/-- **C99.** In floating point, too, an appliance consumes nothing outside its windows, each extended by its random variation. -/
theorem C99_zero_outside_windows (R : Rounding fl ε) {app b : Appliance} {depth k : ℕ} {pref dayType : ℤ} {peak : List ℤ} {power : ℚ}
    (hr : FloatReady app) (hp : 0 ≤ power) (hw : ValidWindows app)
    (h : Returns (flGenerateLoadProfile fl app depth pref k peak dayType power) b) (i : Fin 1440)
    (h1 : ¬ InWindow (app.window1.1 - app.randomVar1, app.window1.2 + app.randomVar1) i)
    (h2 : ¬ InWindow (app.window2.1 - app.randomVar2, app.window2.2 + app.randomVar2) i)
    (h3 : ¬ InWindow (app.window3.1 - app.randomVar3, app.window3.2 + app.randomVar3) i) : b.dailyUse i = 0 := by
  obtain ⟨o, h⟩ := returns_flGenerate_iff.1 h
  obtain ⟨b', hb', hi⟩ := C99_appliance_day R hr hp h
  have hw' : ValidWindows (widen ε app) := ⟨hw.w1, hw.w2, hw.w3, hw.r1, hw.r2, hw.r3⟩
  exact ((hi i).1.zero_iff R.pos (hi i).2).2 (C18_zero_outside_windows hw' hr.fc (returns_generate_iff.2 ⟨o, hb'⟩) i h1 h2 h3)

/-- **C99.** In floating point, too, the power of an appliance is never negative and at most that of all its copies together, with the
largest variation, up to six roundings; or the mark of 1/1000. -/
theorem C99_profile_bounds (R : Rounding fl ε) {app b : Appliance} {depth k : ℕ} {pref dayType : ℤ} {peak : List ℤ} {power P : ℚ}
    (hr : FloatReady app) (hw : ValidWindows app) (hn : 1 ≤ app.number) (hday : app.power[k]? = some power)
    (hpow : ∀ p ∈ [power, app.p11, app.p12, app.p21, app.p22, app.p31, app.p32], 0 ≤ p ∧ p ≤ P)
    (h : Returns (flGenerateLoadProfile fl app depth pref k peak dayType power) b) (i : Fin 1440) :
    0 ≤ b.dailyUse i ∧ b.dailyUse i ≤ max (1 / 1000) (app.number * P * (1 + app.thermalPVar)) * (1 + ε) ^ 6 := by
  obtain ⟨o, h⟩ := returns_flGenerate_iff.1 h
  obtain ⟨b', hb', hi⟩ := C99_appliance_day R hr (hpow power (by simp)).1 h
  have hw' : ValidWindows (widen ε app) := ⟨hw.w1, hw.w2, hw.w3, hw.r1, hw.r2, hw.r3⟩
  have := C20_profile_bounds hw' hr.fc hn hr.tv.1 hr.tv.2 hday hpow (returns_generate_iff.2 ⟨o, hb'⟩) i
  have hpos : 0 ≤ (1 + ε) ^ 6 := by have := R.pos; positivity
  exact ⟨(hi i).1.nonneg R.pos (hi i).2, (hi i).1.1.trans (mul_le_mul_of_nonneg_right this.2 hpos)⟩

/-- The variabilities are 0, 1 or leave room for the rounding. -/
def Slack (ε : ℚ) (a : Appliance) : Prop :=
  ∀ v ∈ [a.timeFractionRandomVariability, a.rc1, a.rc2, a.rc3], v = 0 ∨ v = 1 ∨ v + 16 * ε ≤ 1

theorem widenBy_mem {v : ℚ} (hε : 0 ≤ ε) (h0 : 0 ≤ v) (h : v = 0 ∨ v = 1 ∨ v + 16 * ε ≤ 1) : 0 ≤ widenBy ε v ∧ widenBy ε v ≤ 1 := by
  unfold widenBy
  split
  · rename_i h'
    rcases h' with rfl | rfl <;> norm_num
  · rename_i h'
    push Not at h'
    rcases h with h | h | h
    · exact absurd h h'.1
    · exact absurd h h'.2
    · exact ⟨by linarith, h⟩

theorem sensible_widen {a : Appliance} (hε : 0 ≤ ε) (hr : FloatReady a) (hl : Slack ε a) (h : SensibleAppliance a) : SensibleAppliance (widen ε a) := by
  have hw := h.config.windows
  have hc := h.config.cycles
  exact ⟨⟨⟨hw.w1, hw.w2, hw.w3, hw.r1, hw.r2, hw.r3⟩, h.config.fc, h.config.ft, widenBy_mem hε hr.tf.1 (hl _ (by simp)), h.config.half1, h.config.half2,
    h.config.half3, h.config.room, h.config.number, ⟨hc.tv, hc.t11, hc.t12, hc.t21, hc.t22, hc.t31, hc.t32, widenBy_mem hε hr.rc.1.1 (hl _ (by simp)),
      widenBy_mem hε hr.rc.2.1.1 (hl _ (by simp)), widenBy_mem hε hr.rc.2.2.1 (hl _ (by simp))⟩⟩,
    ⟨h.ordered.c11, h.ordered.c12, h.ordered.c21, h.ordered.c22, h.ordered.c31, h.ordered.c32⟩, h.cycles⟩

/-- **C99.** Sensible users are simulated without exception in floating point too, whatever the draws: no rounding turns a valid choice
into an empty range, an endless search or an index outside the day. -/
theorem C99_never_fails (R : Rounding fl ε) {depth : ℕ} {uc : UseCase} {ds peak : List ℤ} (hr : Ready uc ds peak) (hp : peak ≠ [])
    (hs : ∀ u ∈ uc.users, SensibleUser u) (hf : ∀ u ∈ uc.users, ∀ a ∈ u.appList, FloatReady a ∧ Slack ε a)
    (hl : ∀ u ∈ uc.users, ∀ a ∈ u.appList, ds.length ≤ a.power.length) : NeverRaises (flGenerateDaily fl (depth + 1) uc) := by
  intro e he
  have := C99_simulation_errors R (env := ⟨0, none⟩) none hr (fun u hu a ha => (hf u hu a ha).1) he
  refine C82_sensible_never_fails none (widenCase_ready hr) hp ?_ ?_ e this
  · intro u hu
    obtain ⟨u, hu', rfl⟩ := List.mem_map.1 hu
    refine ⟨(hs u hu').preference, fun a ha => ?_⟩
    obtain ⟨a, ha', rfl⟩ := List.mem_map.1 ha
    exact sensible_widen R.pos (hf u hu' a ha').1 (hf u hu' a ha').2 ((hs u hu').appliances a ha')
  · intro u hu a ha
    obtain ⟨u, hu', rfl⟩ := List.mem_map.1 hu
    obtain ⟨a, ha', rfl⟩ := List.mem_map.1 ha
    exact hl u hu' a ha'

theorem safeArgs_sensible' {app : Appliance} (hb : builtBy safeArgs = some app) : SensibleAppliance app ∧ FloatReady app ∧ Slack (1 / 2 ^ 53) app ∧
    app.power = List.replicate 367 7 ∧ app.number = 3 := by
  have h1 : ((builtBy safeArgs).map fun a => [a.window1, a.window2, a.window3, a.cw11, a.cw12, a.cw21, a.cw22, a.cw31, a.cw32]) =
      some [(1170, 1440), (0, 30), (0, 0), (0, 0), (0, 0), (0, 0), (0, 0), (0, 0), (0, 0)] := by decide +kernel
  have h2 : ((builtBy safeArgs).map fun a => [a.randomVar1, a.randomVar2, a.randomVar3, a.funcCycle, a.funcTime, a.number, a.t11,
      a.t12, a.t21, a.t22, a.t31, a.t32, a.fixedCycle]) = some [94, 10, 0, 10, 120, 3, 0, 0, 0, 0, 0, 0, 0] := by decide +kernel
  have h3 : ((builtBy safeArgs).map fun a => [a.timeFractionRandomVariability, a.thermalPVar, a.rc1, a.rc2, a.rc3, a.p11, a.p12, a.p21, a.p22,
      a.p31, a.p32]) = some [1 / 5, 0, 0, 0, 0, 0, 0, 0, 0, 0, 0] := by decide +kernel
  have h4 : ((builtBy safeArgs).map fun a => decide (a.power = List.replicate 367 7)) = some true := by decide +kernel
  rw [hb] at h1 h2 h3 h4
  simp only [Option.map_some, Option.some.injEq, List.cons.injEq, and_true, decide_eq_true_eq] at h1 h2 h3 h4
  obtain ⟨e1, e2, e3, c1, c2, c3, c4, c5, c6⟩ := h1
  obtain ⟨r1, r2, r3, hfc, hft, hn, h11, h12, h21, h22, h31, h32, hfix⟩ := h2
  obtain ⟨hv, htv, hrc1, hrc2, hrc3, p1, p2, p3, p4, p5, p6⟩ := h3
  refine ⟨⟨⟨⟨?_, ?_, ?_, ?_, ?_, ?_⟩, ?_, ?_, ?_, ?_, ?_, ?_, ?_, ?_, ⟨?_, ?_, ?_, ?_, ?_, ?_, ?_, ?_, ?_, ?_⟩⟩, ⟨?_, ?_, ?_, ?_, ?_, ?_⟩, .inl hfix.le⟩,
    ⟨?_, ?_, ⟨?_, ?_, ?_⟩, ?_, ?_, ?_, ⟨?_, ?_, ?_, ?_, ?_, ?_⟩, ⟨?_, ?_, ?_, ?_, ?_, ?_⟩, (by rw [h4]; intro p hp; rw [List.eq_of_mem_replicate hp]; norm_num)⟩,
    (by unfold Slack; rw [hv, hrc1, hrc2, hrc3]; norm_num), h4, hn⟩
  all_goals simp only [DayWindow, e1, e2, e3, r1, r2, r3, hfc, hft, hv, hn, htv, hrc1, hrc2, hrc3, h11, h12, h21, h22, h31, h32, c1, c2,
    c3, c4, c5, c6, totalTime, p1, p2, p3, p4, p5, p6]
  all_goals norm_num

/-- Four households with the appliance, three days with an evening peak. -/
def doubleCase (app : Appliance) : UseCase where
  users := [{ numUsers := 4, appList := [app] }]
  days := some [0, 1, 2]
  numDays := some 3
  peakTimeRange := some (minutesFrom 1200 60)

/-- A case for C99: three lamps of 7 W built through the API, four households, three days with an evening peak.  In double precision every sequence of
draws produces loads, and the theorems of this file apply to all of them. -/
theorem double_example : ∃ app, BuiltAs safeArgs app ∧ ∀ rng, ∃ uc' rows rng',
    flGenerateDaily binary64 1000 (doubleCase app) rng = .ok ((uc', rows), rng') ∧
    ∃ uc'' exact, Returns (generateDaily ⟨0, none⟩ 1000 (widenCase (1 / 2 ^ 53) (doubleCase app)) none) (uc'', exact) ∧ rows.length = exact.length ∧
      ∀ (d : ℕ) p q, rows[d]? = some p → exact[d]? = some q → ∀ i, |p i - q i| ≤ q i / 10 ^ 9 := by
  have hb : ∃ app, builtBy safeArgs = some app := ⟨_, rfl⟩
  obtain ⟨app, hb⟩ := hb
  obtain ⟨hs, hf, hl, hp, hn⟩ := safeArgs_sensible' hb
  refine ⟨app, builtBy_some hb, fun rng => ?_⟩
  have hu : (doubleCase app).users = [{ numUsers := 4, appList := [app] }] := rfl
  have hr : Ready (doubleCase app) [0, 1, 2] (minutesFrom 1200 60) := ⟨rfl, rfl, rfl⟩
  have hnever : NeverRaises (flGenerateDaily binary64 (999 + 1) (doubleCase app)) := by
    refine C99_never_fails binary64_rounding hr (by decide) ?_ ?_ ?_
    · rw [hu]
      simp only [List.mem_singleton, forall_eq]
      exact ⟨le_refl _, by simpa using hs⟩
    · rw [hu]
      simp only [List.mem_singleton, forall_eq]
      exact ⟨hf, hl⟩
    · rw [hu]
      simp only [List.mem_singleton, forall_eq, hp, List.length_replicate]
      simp
  cases hm : flGenerateDaily binary64 1000 (doubleCase app) rng with
  | error e => exact absurd ⟨rng, hm⟩ (hnever e)
  | ok p =>
    obtain ⟨⟨uc', rows⟩, rng'⟩ := p
    refine ⟨uc', rows, rng', rfl, C99_simulation_double none hr ?_ ?_ ⟨rng, rng', hm⟩⟩
    · rw [hu]
      simp only [List.mem_singleton, forall_eq]
      exact hf
    · rw [hu]
      simp [additions]

end Ramp
