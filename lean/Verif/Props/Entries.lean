import Verif.Spec15
import Verif.Props.OneUse
import Verif.Props.HowLong
import Verif.Props.Together

/-! # C116: expected energies and loads of entries of several appliances -/

set_option autoImplicit false

open MeasureTheory ENNReal

namespace Ramp

variable {μ : Measure Draw}

/-- One appliance of `κ a` times the power, without variability of power. -/
def plainOne (κ : Appliance → ℚ) (a : Appliance) : Appliance := constantPower (asOneAppliance κ a)

theorem plainOnes_eq (κ : Appliance → ℚ) (us : List User) : constantPowers (asOnes κ us) = mapAppliances (plainOne κ) us := by
  unfold constantPowers asOnes mapAppliances
  rw [List.map_map]
  refine List.map_congr_left fun u _ => ?_
  simp only [Function.comp_apply, List.map_map]
  rfl

theorem plainOne_power (κ : Appliance → ℚ) (a : Appliance) (k : ℕ) : (plainOne κ a).power.getD k 0 = κ a * a.power.getD k 0 := by
  show (a.power.map (κ a * ·)).getD k 0 = _
  rw [List.getD_eq_getElem?_getD, List.getD_eq_getElem?_getD, List.getElem?_map]
  cases a.power[k]? with
  | none => simp
  | some p => rfl

theorem sumOfUses_plainOne (dt : ℤ) (κ : Appliance → ℚ) (us : List User) (value : Appliance → ℚ) :
    ((mapAppliances (plainOne κ) us).map (fun u => (u.numUsers.toNat : ℝ≥0∞) * (u.appList.map (fun a => chanceOfUse μ dt u a * ENNReal.ofReal ((value a : ℚ) : ℝ))).sum)).sum =
      sumOfUses μ dt us (fun a => value (plainOne κ a)) := by
  unfold sumOfUses mapAppliances
  rw [List.map_map]
  congr 1
  refine List.map_congr_left fun u _ => ?_
  simp only [Function.comp_apply, List.map_map]
  rfl

theorem good_plainOne {κ : Appliance → ℚ} {uc : UseCase} {n : ℕ} (hs : ∀ u ∈ uc.users, SensibleUser u) (hl : ∀ u ∈ uc.users, ∀ a ∈ u.appList, n ≤ a.power.length)
    (hP : ∀ u ∈ uc.users, ∀ a ∈ u.appList, ∃ P, PowersUpTo P a) (hκ : ∀ u ∈ uc.users, ∀ a ∈ u.appList, 0 ≤ κ a) : GoodChange (plainOne κ) n uc.users := by
  have g := good_asOne (κ := κ) hs hl hP hκ
  exact ⟨g.preference, fun u hu a ha => sensible_constant (g.sensible u hu a ha), fun u hu a ha => g.days u hu a ha, fun u hu a ha => by
    obtain ⟨P, h⟩ := g.powers u hu a ha
    exact ⟨P, powersUpTo_constant h⟩⟩

theorem two_parts (x : ℝ≥0∞) : (1 - (2 ^ 51)⁻¹) * x ≤ (1 - (2 ^ 52)⁻¹) * ((1 - (2 ^ 53)⁻¹) * x) := by
  rw [← mul_assoc]
  refine mul_le_mul_left ?_ x
  have key : ∀ n : ℕ, (1 - (2 ^ n)⁻¹ : ℝ≥0∞) = ENNReal.ofReal (1 - (2 ^ n)⁻¹) := by
    intro n
    rw [ENNReal.ofReal_sub _ (by positivity), ENNReal.ofReal_one, ENNReal.ofReal_inv_of_pos (by positivity), ENNReal.ofReal_pow (by norm_num)]
    norm_num
  rw [key, key, key, ← ENNReal.ofReal_mul (by norm_num)]
  exact ENNReal.ofReal_le_ofReal (by norm_num)

section

variable {N : ℕ} {env : Env} {depth : ℕ} {uc : UseCase} {ds peak : List ℤ} {days : Option (List ℤ)}

/-- The use case between the two use cases of single appliances, without variability of power. -/
theorem between_plain (h : PythonRandom N μ) (hz : SymmetricNormal μ) (hr : Ready uc ds peak) (hp : peak ≠ []) (hs : ∀ u ∈ uc.users, SensibleUser u)
    (hl : ∀ u ∈ uc.users, ∀ a ∈ u.appList, ds.length ≤ a.power.length) (hP : ∀ u ∈ uc.users, ∀ a ∈ u.appList, ∃ P, PowersUpTo P a)
    (ht : ∀ u ∈ uc.users, ∀ a ∈ u.appList, chanceOfInteger μ a.number ≤ 1 / 3) {k : ℕ} (hk : k < ds.length) :
    (∀ i, (1 - (2 ^ 51)⁻¹) * expectedLoad μ (dailyRows env (depth + 1) { uc with users := mapAppliances (plainOne fewestTogether) uc.users } days) k i ≤
        expectedLoad μ (dailyRows env (depth + 1) uc days) k i ∧
      expectedLoad μ (dailyRows env (depth + 1) uc days) k i ≤ expectedLoad μ (dailyRows env (depth + 1) { uc with users := mapAppliances (plainOne mostTogether) uc.users } days) k i) ∧
    (1 - (2 ^ 51)⁻¹) * expectedEnergy μ (dailyRows env (depth + 1) { uc with users := mapAppliances (plainOne fewestTogether) uc.users } days) k ≤
        expectedEnergy μ (dailyRows env (depth + 1) uc days) k ∧
      expectedEnergy μ (dailyRows env (depth + 1) uc days) k ≤ expectedEnergy μ (dailyRows env (depth + 1) { uc with users := mapAppliances (plainOne mostTogether) uc.users } days) k := by
  have hn : ∀ u ∈ uc.users, ∀ a ∈ u.appList, 1 ≤ a.number := fun u hu a ha => by
    obtain ⟨P, h⟩ := hP u hu a ha
    exact h.number
  obtain ⟨g1, g2, g3⟩ := (good_asOne (κ := fewestTogether) hs hl hP fun u hu a ha => (fewest_nonneg (hn u hu a ha)).le).users
  obtain ⟨f1, f2, f3⟩ := (good_asOne (κ := mostTogether) hs hl hP fun u hu a ha => most_nonneg (hn u hu a ha)).users
  obtain ⟨b1, b2, b3⟩ := C113_between h hz (env := env) (depth := depth) (days := days) hr hp hs hl hP ht hk
  obtain ⟨c1, c2, _⟩ := C108_python h (env := env) (depth := depth) (days := days) (ready_users hr (asOnes fewestTogether uc.users)) hp g1 g2 g3 hk
  obtain ⟨d1, _, d3⟩ := C108_python h (env := env) (depth := depth) (days := days) (ready_users hr (asOnes mostTogether uc.users)) hp f1 f2 f3 hk
  simp only [plainOnes_eq] at c1 c2 d1 d3
  refine ⟨fun i => ⟨?_, (b1 i).2.trans (d1 i).2⟩, ?_, b3.trans d3⟩
  · exact (two_parts _).trans ((mul_le_mul_right (c1 i).1 _).trans (b1 i).1)
  · exact (two_parts _).trans ((mul_le_mul_right c2 _).trans b2)

/-- **C116.** The expected energy of the days of a use case without duty cycles and with room in the windows: between the energy of the fewest and that of the most that are on together on
average, for a time of use of `T a` minutes, which is `func_time` or at most half a minute less. -/
theorem C116_expected_energy (h : PythonRandom N μ) (hz : SymmetricNormal μ) (hr : Ready uc ds peak) (hp : peak ≠ []) (hs : ∀ u ∈ uc.users, SensibleUser u)
    (hl : ∀ u ∈ uc.users, ∀ a ∈ u.appList, ds.length ≤ a.power.length) (hv : ∀ u ∈ uc.users, ∀ a ∈ u.appList, VisibleUse a) (ho : ∀ u ∈ uc.users, ∀ a ∈ u.appList, PlainUse a)
    (hroom : ∀ u ∈ uc.users, ∀ a ∈ u.appList, RoomToVary a) (hN : ∀ u ∈ uc.users, ∀ a ∈ u.appList, windowDraws a ≤ N)
    (ht : ∀ u ∈ uc.users, ∀ a ∈ u.appList, chanceOfInteger μ a.number ≤ 1 / 3) :
    ∃ T : Appliance → ℚ, (∀ u ∈ uc.users, ∀ a ∈ u.appList, AboutFuncTime a (T a)) ∧ ∀ (k : ℕ) (hk : k < ds.length),
      (1 - (2 ^ 51)⁻¹) * sumOfUses μ (typeOfDay ds[k]) uc.users (fun a => energyTogether a (fewestTogether a) (a.power.getD k 0) (T a)) ≤
          expectedEnergy μ (dailyRows env (depth + 1) uc days) k ∧
        expectedEnergy μ (dailyRows env (depth + 1) uc days) k ≤ sumOfUses μ (typeOfDay ds[k]) uc.users (fun a => energyTogether a (mostTogether a) (a.power.getD k 0) (T a)) := by
  have hP : ∀ u ∈ uc.users, ∀ a ∈ u.appList, ∃ P, PowersUpTo P a := fun u hu a ha => (hv u hu a ha).powers
  have hn : ∀ u ∈ uc.users, ∀ a ∈ u.appList, 1 ≤ a.number := fun u hu a ha => by
    obtain ⟨P, h⟩ := hP u hu a ha
    exact h.number
  have key : ∀ κ : Appliance → ℚ, (∀ u ∈ uc.users, ∀ a ∈ u.appList, 0 ≤ κ a) → ∀ (k : ℕ) (hk : k < ds.length),
      expectedEnergy μ (dailyRows env (depth + 1) { uc with users := mapAppliances (plainOne κ) uc.users } days) k =
        sumOfUses μ (typeOfDay ds[k]) uc.users (fun a => energyTogether a (κ a) (a.power.getD k 0) (averageTime (2 ^ 53) a.funcTime a.timeFractionRandomVariability)) := by
    intro κ hκ k hk
    have g := good_plainOne (κ := κ) hs hl hP hκ
    obtain ⟨g1, g2, g3⟩ := g.users
    have hmem : ∀ u ∈ mapAppliances (plainOne κ) uc.users, ∀ a ∈ u.appList, ∃ v ∈ uc.users, ∃ b ∈ v.appList, a = plainOne κ b := by
      intro u hu a ha
      obtain ⟨v, hv, rfl⟩ := List.mem_map.1 hu
      obtain ⟨b, hb, rfl⟩ := List.mem_map.1 ha
      exact ⟨v, hv, b, hb, rfl⟩
    have e := expected_average h (env := env) (depth := depth) (days := days) (ready_users hr (mapAppliances (plainOne κ) uc.users)) hp g1 g2
      (fun u hu a ha => by
        obtain ⟨v, hv', b, hb, rfl⟩ := hmem u hu a ha
        exact ⟨(hv v hv' b hb).apart, g.powers v hv' b hb, fun hf => absurd hf (ho v hv' b hb).notFlat⟩)
      (fun u hu a ha => by
        obtain ⟨v, hv', b, hb, rfl⟩ := hmem u hu a ha
        exact ⟨(ho v hv' b hb).noCycles, (ho v hv' b hb).notFlat, (by decide : "yes" ≠ "no"), rfl⟩)
      (fun u hu a ha => by
        obtain ⟨v, hv', b, hb, rfl⟩ := hmem u hu a ha
        have r := hroom v hv' b hb
        exact ⟨r.inDay1, r.inDay2, r.inDay3, r.least, r.longest⟩)
      (fun u hu a ha => by
        obtain ⟨v, hv', b, hb, rfl⟩ := hmem u hu a ha
        exact hN v hv' b hb) k hk
    rw [e]
    show ((mapAppliances (plainOne κ) uc.users).map _).sum = _
    rw [sumOfUses_plainOne]
    congr 1
    funext a
    rw [plainOne_power]
    unfold energyOfMinutes energyTogether
    have e1 : ((plainOne κ a).number : ℚ) = 1 := by
      show (((1 : ℤ)) : ℚ) = 1
      norm_num
    rw [e1, one_mul]
    rfl
  refine ⟨fun a => averageTime (2 ^ 53) a.funcTime a.timeFractionRandomVariability, fun u hu a ha => ?_, fun k hk => ?_⟩
  · have hc := ((hs u hu).appliances a ha).config
    exact about_average hc.ft hc.var.1 hc.var.2
  · obtain ⟨_, b2, b3⟩ := between_plain h hz (env := env) (depth := depth) (days := days) hr hp hs hl hP ht hk
    rw [key _ (fun u hu a ha => (fewest_nonneg (hn u hu a ha)).le) k hk] at b2
    rw [key _ (fun u hu a ha => most_nonneg (hn u hu a ha)) k hk] at b3
    exact ⟨b2, b3⟩

/-- **C116.** The expected load of each minute, for appliances used once a day. -/
theorem C116_load_curve (h : PythonRandom N μ) (hz : SymmetricNormal μ) (hr : Ready uc ds peak) (hp : peak ≠ []) (hs : ∀ u ∈ uc.users, SensibleUser u)
    (hl : ∀ u ∈ uc.users, ∀ a ∈ u.appList, ds.length ≤ a.power.length) (hP : ∀ u ∈ uc.users, ∀ a ∈ u.appList, ∃ P, PowersUpTo P a)
    (ho : ∀ u ∈ uc.users, ∀ a ∈ u.appList, OnceADay a) (hN : ∀ u ∈ uc.users, ∀ a ∈ u.appList, (startsOfUse a).ncard ≤ N)
    (ht : ∀ u ∈ uc.users, ∀ a ∈ u.appList, chanceOfInteger μ a.number ≤ 1 / 3) {k : ℕ} (hk : k < ds.length) (i : Fin 1440) :
    (1 - (2 ^ 51)⁻¹) * sumOfUses μ (typeOfDay ds[k]) uc.users (fun a => curveTogether (fewestTogether a) k a i) ≤ expectedLoad μ (dailyRows env (depth + 1) uc days) k i ∧
      expectedLoad μ (dailyRows env (depth + 1) uc days) k i ≤ sumOfUses μ (typeOfDay ds[k]) uc.users (fun a => curveTogether (mostTogether a) k a i) := by
  have hn : ∀ u ∈ uc.users, ∀ a ∈ u.appList, 1 ≤ a.number := fun u hu a ha => by
    obtain ⟨P, h⟩ := hP u hu a ha
    exact h.number
  have key : ∀ κ : Appliance → ℚ, (∀ u ∈ uc.users, ∀ a ∈ u.appList, 0 ≤ κ a) →
      expectedLoad μ (dailyRows env (depth + 1) { uc with users := mapAppliances (plainOne κ) uc.users } days) k i =
        sumOfUses μ (typeOfDay ds[k]) uc.users (fun a => curveTogether (κ a) k a i) := by
    intro κ hκ
    have g := good_plainOne (κ := κ) hs hl hP hκ
    obtain ⟨g1, g2, g3⟩ := g.users
    have hmem : ∀ u ∈ mapAppliances (plainOne κ) uc.users, ∀ a ∈ u.appList, ∃ v ∈ uc.users, ∃ b ∈ v.appList, a = plainOne κ b := by
      intro u hu a ha
      obtain ⟨v, hv, rfl⟩ := List.mem_map.1 hu
      obtain ⟨b, hb, rfl⟩ := List.mem_map.1 ha
      exact ⟨v, hv, b, hb, rfl⟩
    have e := C109_load_curve h (env := env) (depth := depth) (days := days) (ready_users hr (mapAppliances (plainOne κ) uc.users)) hp g1 g2 g3
      (fun u hu a ha => by
        obtain ⟨v, hv', b, hb, rfl⟩ := hmem u hu a ha
        have o := ho v hv' b hb
        exact ⟨o.noCycles, o.notFlat, (by decide : "yes" ≠ "no"), rfl, o.time, o.windows, o.once, o.apart⟩)
      (fun u hu a ha => by
        obtain ⟨v, hv', b, hb, rfl⟩ := hmem u hu a ha
        exact hN v hv' b hb) hk i
    rw [e]
    show ((mapAppliances (plainOne κ) uc.users).map _).sum = _
    rw [sumOfUses_plainOne]
    congr 1
    funext a
    unfold curveOfUse curveTogether
    rw [plainOne_power]
    have e1 : ((plainOne κ a).number : ℚ) = 1 := by
      show (((1 : ℤ)) : ℚ) = 1
      norm_num
    rw [e1, one_mul]
    rfl
  obtain ⟨b1, _⟩ := between_plain h hz (env := env) (depth := depth) (days := days) hr hp hs hl hP ht hk
  have b := b1 i
  rw [key _ (fun u hu a ha => (fewest_nonneg (hn u hu a ha)).le), key _ (fun u hu a ha => most_nonneg (hn u hu a ha))] at b
  exact b

end

/-! ## A case -/

/-- Three of the fans of C112, not always on together, with a variability of power of 10 %. -/
def threeFans : Appliance := { variedFan with number := 3, fixed := "no", thermalPVar := 1 / 10 }

theorem threeFans_sensible : SensibleAppliance threeFans := by
  obtain ⟨⟨h1, h2, h3, h4, h5, h6, h7, h8, h9, h10⟩, h11, h12⟩ := variedFan_sensible
  refine ⟨⟨⟨h1.w1, h1.w2, h1.w3, h1.r1, h1.r2, h1.r3⟩, h2, h3, h4, h5, h6, h7, h8, by decide, ⟨by norm_num [threeFans], h10.t11, h10.t12, h10.t21, h10.t22, h10.t31, h10.t32, h10.rc1, h10.rc2, h10.rc3⟩⟩, ⟨h11.c11, h11.c12, h11.c21, h11.c22, h11.c31, h11.c32⟩, h12⟩

theorem threeFans_visible : VisibleUse threeFans := by
  obtain ⟨h1, ⟨P, h2⟩, h3⟩ := variedFan_visible
  exact ⟨h1, ⟨P, ⟨⟨h2.windows.w1, h2.windows.w2, h2.windows.w3, h2.windows.r1, h2.windows.r2, h2.windows.r3⟩, h2.cycle, by decide, by norm_num [threeFans], h2.powers, h2.cyclePowers⟩⟩, h3⟩

theorem threeFans_room : RoomToVary threeFans := by
  obtain ⟨h1, h2, h3, h4, h5⟩ := variedFan_room
  exact ⟨h1, h2, h3, h4, h5⟩

/-- A case for C116: 20 members with three such fans.  Between 9/5 and 2 fans of 60 W are on for 120 minutes (up to half a minute less) on a day of use. -/
example {N : ℕ} (h : PythonRandom N μ) (hz : SymmetricNormal μ) (ht : chanceOfInteger μ 3 = 0) (hN : 61 ≤ N) : ∃ t : ℚ, 120 - 1 / 2 - 121 / 2 ^ 52 ≤ t ∧ t ≤ 120 + 121 / 2 ^ 52 ∧
    (1 - (2 ^ 51)⁻¹) * (20 * (μ {d | d.u ≤ 1} * ENNReal.ofReal ((t * (9 / 5 * 60) + 1 / 1000 * (480 - t) : ℚ) : ℝ))) ≤
      expectedEnergy μ (dailyRows ⟨0, none⟩ 1000 (lampDays [{ numUsers := 20, appList := [threeFans] }]) none) 1 ∧
    expectedEnergy μ (dailyRows ⟨0, none⟩ 1000 (lampDays [{ numUsers := 20, appList := [threeFans] }]) none) 1 ≤
      20 * (μ {d | d.u ≤ 1} * ENNReal.ofReal ((t * (2 * 60) + 1 / 1000 * (480 - t) : ℚ) : ℝ)) := by
  have := h.probability
  have hmem : ∀ u ∈ (lampDays [{ numUsers := 20, appList := [threeFans] }]).users, u.userPreference = 0 ∧ ∀ a ∈ u.appList, a = threeFans := by
    intro u hu
    rw [List.mem_singleton.1 hu]
    exact ⟨rfl, fun a ha => List.mem_singleton.1 ha⟩
  obtain ⟨T, hT, he⟩ := C116_expected_energy h hz (env := ⟨0, none⟩) (depth := 999) (uc := lampDays [{ numUsers := 20, appList := [threeFans] }]) (ds := [0, 1, 2]) (peak := [700])
    (days := none) ⟨rfl, rfl, rfl⟩ (by simp)
    (fun u hu => ⟨by rw [(hmem u hu).1], fun a ha => by rw [(hmem u hu).2 a ha]; exact threeFans_sensible⟩)
    (fun u hu a ha => by
      rw [(hmem u hu).2 a ha]
      show 3 ≤ (List.replicate 367 (60 : ℚ)).length
      rw [List.length_replicate]
      norm_num)
    (fun u hu a ha => by rw [(hmem u hu).2 a ha]; exact threeFans_visible)
    (fun u hu a ha => by rw [(hmem u hu).2 a ha]; exact ⟨le_refl _, by decide⟩)
    (fun u hu a ha => by rw [(hmem u hu).2 a ha]; exact threeFans_room)
    (fun u hu a ha => by
      rw [(hmem u hu).2 a ha]
      have : windowDraws threeFans = 61 := by decide
      omega)
    (fun u hu a ha => by
      rw [(hmem u hu).2 a ha, show threeFans.number = 3 from rfl, ht]
      exact zero_le)
  have hA := hT { numUsers := 20, appList := [threeFans] } (List.mem_singleton.2 rfl) threeFans (List.mem_singleton.2 rfl)
  have hk := he 1 (by simp)
  have hE : ∀ c : ℚ, energyTogether threeFans c (threeFans.power.getD 1 0) (T threeFans) = T threeFans * (c * 60) + 1 / 1000 * (480 - T threeFans) := by
    intro c
    have hpow : threeFans.power.getD 1 0 = 60 := rfl
    unfold energyTogether totalTime
    rw [hpow, show threeFans.window1 = (720, 900) from rfl, show threeFans.window2 = (1080, 1380) from rfl, show threeFans.window3 = (0, 0) from rfl]
    norm_num
  have hf : fewestTogether threeFans = 9 / 5 := by
    unfold fewestTogether
    rw [if_pos (by decide), show threeFans.number = 3 from rfl]
    norm_num
  have hm : mostTogether threeFans = 2 := by
    unfold mostTogether
    rw [if_pos (by decide), show threeFans.number = 3 from rfl]
    norm_num
  have hch : chanceOfUse μ (typeOfDay ([0, 1, 2] : List ℤ)[1]) { numUsers := 20, appList := [threeFans] } threeFans = μ {d | d.u ≤ 1} := by
    unfold chanceOfUse
    rw [if_neg (by decide)]
    rw [chanceOf_const_sure (fin_drawPreference _) (never_drawPreference.2 (le_refl 0)) fun _ => .inl rfl, one_mul]
    rfl
  have hsum : ∀ value : Appliance → ℚ, sumOfUses μ (typeOfDay ([0, 1, 2] : List ℤ)[1]) [{ numUsers := 20, appList := [threeFans] }] value =
      20 * (μ {d | d.u ≤ 1} * ENNReal.ofReal ((value threeFans : ℚ) : ℝ)) := by
    intro value
    unfold sumOfUses
    rw [List.map_singleton, List.sum_singleton]
    show ((20 : ℕ) : ℝ≥0∞) * ([threeFans].map _).sum = _
    rw [List.map_singleton, List.sum_singleton, hch]
    rfl
  refine ⟨T threeFans, ?_, ?_, ?_⟩
  · have := hA.least
    rw [show threeFans.funcTime = 120 from rfl] at this
    norm_num at this ⊢
    linarith
  · have := hA.most
    rw [show threeFans.funcTime = 120 from rfl] at this
    norm_num at this ⊢
    linarith
  · have hk' : (1 - (2 ^ 51)⁻¹ : ℝ≥0∞) * sumOfUses μ (typeOfDay ([0, 1, 2] : List ℤ)[1]) [{ numUsers := 20, appList := [threeFans] }] (fun a => energyTogether a (fewestTogether a) (a.power.getD 1 0) (T a)) ≤ _ ∧
        _ ≤ sumOfUses μ (typeOfDay ([0, 1, 2] : List ℤ)[1]) [{ numUsers := 20, appList := [threeFans] }] (fun a => energyTogether a (mostTogether a) (a.power.getD 1 0) (T a)) := hk
    rw [hsum, hsum, hE, hE, hf, hm] at hk'
    exact hk'

/-- Such random numbers exist. -/
example : ∃ μ, PythonRandom 61 μ ∧ SymmetricNormal μ ∧ chanceOfInteger μ 3 = 0 := by
  obtain ⟨μ, h1, h2, h3⟩ := C113_fair_exists 61
  exact ⟨μ, h1, h2, h3 3 (by norm_num) (by norm_num)⟩

/-- The kettle of C109, two of them that are not always on together, for the load curve. -/
example {N : ℕ} (h : PythonRandom N μ) (hz : SymmetricNormal μ) (ht : chanceOfInteger μ 2 = 0) (hN : (startsOfUse { kettle with number := 2, fixed := "no" }).ncard ≤ N) (i : Fin 1440) :
    expectedLoad μ (dailyRows ⟨0, none⟩ 1000 (lampDays [{ numUsers := 5, appList := [{ kettle with number := 2, fixed := "no" }] }]) none) 1 i ≤
      sumOfUses μ (typeOfDay 1) [{ numUsers := 5, appList := [{ kettle with number := 2, fixed := "no" }] }]
        (fun a => curveTogether (mostTogether a) 1 a i) := by
  have hmem : ∀ u ∈ (lampDays [{ numUsers := 5, appList := [{ kettle with number := 2, fixed := "no" }] }]).users, u.userPreference = 0 ∧ ∀ a ∈ u.appList, a = { kettle with number := 2, fixed := "no" } := by
    intro u hu
    rw [List.mem_singleton.1 hu]
    exact ⟨rfl, fun a ha => List.mem_singleton.1 ha⟩
  have e := C116_load_curve h hz (env := ⟨0, none⟩) (depth := 999) (uc := lampDays [{ numUsers := 5, appList := [{ kettle with number := 2, fixed := "no" }] }]) (ds := [0, 1, 2]) (peak := [700])
    (days := none) ⟨rfl, rfl, rfl⟩ (by simp)
    (fun u hu => ⟨by rw [(hmem u hu).1], fun a ha => by
      rw [(hmem u hu).2 a ha]
      obtain ⟨⟨h1, h2, h3, h4, h5, h6, h7, h8, h9, h10⟩, h11, h12⟩ := kettle_sensible
      exact ⟨⟨⟨h1.w1, h1.w2, h1.w3, h1.r1, h1.r2, h1.r3⟩, h2, h3, h4, h5, h6, h7, h8, by decide, ⟨h10.tv, h10.t11, h10.t12, h10.t21, h10.t22, h10.t31, h10.t32, h10.rc1, h10.rc2, h10.rc3⟩⟩, ⟨h11.c11, h11.c12, h11.c21, h11.c22, h11.c31, h11.c32⟩, h12⟩⟩)
    (fun u hu a ha => by
      rw [(hmem u hu).2 a ha]
      show 3 ≤ kettle.power.length
      unfold kettle
      rw [List.length_replicate]
      norm_num)
    (fun u hu a ha => by
      rw [(hmem u hu).2 a ha]
      have hk := kettle_powers
      exact ⟨1000, ⟨⟨hk.windows.w1, hk.windows.w2, hk.windows.w3, hk.windows.r1, hk.windows.r2, hk.windows.r3⟩, hk.cycle, by decide, hk.thermal, hk.powers, hk.cyclePowers⟩⟩)
    (fun u hu a ha => by
      rw [(hmem u hu).2 a ha]
      exact ⟨⟨le_refl _, by decide⟩, rfl, ⟨rfl, rfl, rfl⟩, rfl, by unfold ApartWindows; decide⟩)
    (fun u hu a ha => by
      rw [(hmem u hu).2 a ha]
      exact hN)
    (fun u hu a ha => by
      rw [(hmem u hu).2 a ha]
      show chanceOfInteger μ 2 ≤ _
      rw [ht]
      exact zero_le) (k := 1) (by simp) i
  exact e.2

end Ramp
