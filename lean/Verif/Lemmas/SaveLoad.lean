import Verif.Model.SaveLoad
import Verif.Lemmas.Build

/-! # Helper lemmas about saving and loading -/

set_option autoImplicit false

namespace Ramp

/-- The row of an appliance, written out; `c` is the cell of the power. -/
def savedRow (u : User) (a : Appliance) (c : Cell) : Row :=
  [("user_name", .text u.userName), ("num_users", .num u.numUsers), ("user_preference", .num u.userPreference),
   ("name", .text a.name), ("number", .num a.number), ("power", c), ("num_windows", .num a.numWindows), ("func_time", .num a.funcTime),
   ("time_fraction_random_variability", .num a.timeFractionRandomVariability), ("func_cycle", .num a.funcCycle),
   ("fixed", .text a.fixed), ("fixed_cycle", .num a.fixedCycle), ("continuous_duty_cycle", .num a.continuousDutyCycle),
   ("occasional_use", .num a.occasionalUse), ("flat", .text a.flat), ("thermal_p_var", .num a.thermalPVar),
   ("pref_index", .num a.prefIndex), ("wd_we_type", .num a.wdWeType),
   ("p_11", .num a.p11), ("t_11", .num a.t11), ("cw11_start", .num a.cw11.1), ("cw11_end", .num a.cw11.2),
   ("p_12", .num a.p12), ("t_12", .num a.t12), ("cw12_start", .num a.cw12.1), ("cw12_end", .num a.cw12.2), ("r_c1", .num a.rc1),
   ("p_21", .num a.p21), ("t_21", .num a.t21), ("cw21_start", .num a.cw21.1), ("cw21_end", .num a.cw21.2),
   ("p_22", .num a.p22), ("t_22", .num a.t22), ("cw22_start", .num a.cw22.1), ("cw22_end", .num a.cw22.2), ("r_c2", .num a.rc2),
   ("p_31", .num a.p31), ("t_31", .num a.t31), ("cw31_start", .num a.cw31.1), ("cw31_end", .num a.cw31.2),
   ("p_32", .num a.p32), ("t_32", .num a.t32), ("cw32_start", .num a.cw32.1), ("cw32_end", .num a.cw32.2), ("r_c3", .num a.rc3),
   ("window_1_start", .num a.window1.1), ("window_1_end", .num a.window1.2),
   ("window_2_start", .num a.window2.1), ("window_2_end", .num a.window2.2),
   ("window_3_start", .num a.window3.1), ("window_3_end", .num a.window3.2), ("random_var_w", .num a.randomVarW)]

theorem saveAppliance_eq (u : User) (a : Appliance) : saveAppliance u a = match savePower a.power with
    | .error e => .error e
    | .ok c => .ok (savedRow u a c) := by
  have h1 : saveAttr a "power" = match savePower a.power with
    | .error e => .error e
    | .ok c => .ok [("power", c)] := rfl
  have h2 : saveAttr a "name" = .ok [("name", .text a.name)] := rfl
  have h3 : saveAttr a "number" = .ok [("number", .num a.number)] := rfl
  unfold saveAppliance applianceAttributes
  rw [saveAttrs, h2]
  simp only
  rw [saveAttrs, h3]
  simp only
  rw [saveAttrs, h1]
  cases savePower a.power with
  | error e => rfl
  | ok c => rfl

/-- The power argument read from a cell. -/
def powerOfCell : Cell → PowerArg
  | .num q => .number q
  | .array l => .series l
  | .pairs l => .series (l.map (fun p => p.1))
  | _ => .other

theorem writeCell_idem_text {s : String} (h : s ≠ "") : writeCell (.text s) = .text s := by
  show (if s = "" then Cell.blank else Cell.text s) = _
  rw [if_neg h]

/-- The keyword arguments made from a saved row. -/
def savedKwargs (a : Appliance) (c : Cell) : Kwargs :=
  [("number", .cell (.num a.number)), ("power", .cell c), ("num_windows", .cell (.num a.numWindows)),
   ("func_time", .cell (.num a.funcTime)), ("time_fraction_random_variability", .cell (.num a.timeFractionRandomVariability)),
   ("func_cycle", .cell (.num a.funcCycle)), ("fixed", .cell (.text a.fixed)), ("fixed_cycle", .cell (.num a.fixedCycle)),
   ("continuous_duty_cycle", .cell (.num a.continuousDutyCycle)), ("occasional_use", .cell (.num a.occasionalUse)),
   ("flat", .cell (.text a.flat)), ("thermal_p_var", .cell (.num a.thermalPVar)), ("pref_index", .cell (.num a.prefIndex)),
   ("wd_we_type", .cell (.num a.wdWeType)), ("name", .cell (.text a.name)),
   ("window_1", .pair (pyInt a.window1.1) (pyInt a.window1.2)), ("window_2", .pair (pyInt a.window2.1) (pyInt a.window2.2)),
   ("window_3", .pair (pyInt a.window3.1) (pyInt a.window3.2)), ("random_var_w", .cell (.num a.randomVarW)),
   ("p_11", .cell (.num a.p11)), ("t_11", .cell (.num a.t11)), ("cw11", .pair (pyInt a.cw11.1) (pyInt a.cw11.2)),
   ("p_12", .cell (.num a.p12)), ("t_12", .cell (.num a.t12)), ("cw12", .pair (pyInt a.cw12.1) (pyInt a.cw12.2)),
   ("r_c1", .cell (.num a.rc1)),
   ("p_21", .cell (.num a.p21)), ("t_21", .cell (.num a.t21)), ("cw21", .pair (pyInt a.cw21.1) (pyInt a.cw21.2)),
   ("p_22", .cell (.num a.p22)), ("t_22", .cell (.num a.t22)), ("cw22", .pair (pyInt a.cw22.1) (pyInt a.cw22.2)),
   ("r_c2", .cell (.num a.rc2)),
   ("p_31", .cell (.num a.p31)), ("t_31", .cell (.num a.t31)), ("cw31", .pair (pyInt a.cw31.1) (pyInt a.cw31.2)),
   ("p_32", .cell (.num a.p32)), ("t_32", .cell (.num a.t32)), ("cw32", .pair (pyInt a.cw32.1) (pyInt a.cw32.2)),
   ("r_c3", .cell (.num a.rc3))]

theorem rowKwargs_saved (u : User) (a : Appliance) (c : Cell) : rowKwargs (savedRow u a c) = .ok (savedKwargs a c) := rfl

theorem kwInt_of {kw : Kwargs} {k : String} {d n : ℤ} (h : kw.lookup k = some (.cell (.num n))) : kwInt kw k d = .ok n := by
  unfold kwInt; rw [h]; simp

theorem kwRat_of {kw : Kwargs} {k : String} {d q : ℚ} (h : kw.lookup k = some (.cell (.num q))) : kwRat kw k d = .ok q := by
  unfold kwRat; rw [h]

theorem kwText_of {kw : Kwargs} {k d s : String} (h : kw.lookup k = some (.cell (.text s))) : kwText kw k d = .ok s := by
  unfold kwText; rw [h]

theorem kwPair_of {kw : Kwargs} {k : String} {a b : ℤ} (h : kw.lookup k = some (.pair (pyInt a) (pyInt b))) :
    kwPair kw k = .ok (some (a, b)) := by
  unfold kwPair; rw [h]; simp only [pyInt_intCast]

/-- The arguments of the call of `add_appliance` made from a saved row. -/
def savedArgs (a : Appliance) (c : Cell) : AddArgs where
  app := { number := a.number, power := powerOfCell c, numWindows := a.numWindows, funcTime := a.funcTime,
           timeFractionRandomVariability := a.timeFractionRandomVariability, funcCycle := a.funcCycle, fixed := a.fixed,
           fixedCycle := a.fixedCycle, continuousDutyCycle := a.continuousDutyCycle, occasionalUse := a.occasionalUse,
           flat := a.flat, thermalPVar := a.thermalPVar, prefIndex := a.prefIndex, wdWeType := a.wdWeType, name := a.name }
  windows := some { window1 := some a.window1, window2 := some a.window2, randomVarW := a.randomVarW, window3 := some a.window3 }
  cycle1 := some { p1 := a.p11, t1 := a.t11, p2 := a.p12, t2 := a.t12, rc := a.rc1, cwa := some a.cw11, cwb := some a.cw12 }
  cycle2 := some { p1 := a.p21, t1 := a.t21, p2 := a.p22, t2 := a.t22, rc := a.rc2, cwa := some a.cw21, cwb := some a.cw22 }
  cycle3 := some { p1 := a.p31, t1 := a.t31, p2 := a.p32, t2 := a.t32, rc := a.rc3, cwa := some a.cw31, cwb := some a.cw32 }

theorem kwAppArgs_saved (a : Appliance) (c : Cell) : kwAppArgs (savedKwargs a c) = .ok (savedArgs a c).app := by
  unfold kwAppArgs
  rw [kwInt_of (k := "number") (n := a.number) rfl, kwInt_of (k := "num_windows") (n := a.numWindows) rfl,
    kwInt_of (k := "func_time") (n := a.funcTime) rfl, kwRat_of (k := "time_fraction_random_variability") rfl,
    kwInt_of (k := "func_cycle") (n := a.funcCycle) rfl, kwText_of (k := "fixed") rfl, kwInt_of (k := "fixed_cycle") (n := a.fixedCycle) rfl,
    kwInt_of (k := "continuous_duty_cycle") (n := a.continuousDutyCycle) rfl, kwRat_of (k := "occasional_use") rfl,
    kwText_of (k := "flat") rfl, kwRat_of (k := "thermal_p_var") rfl, kwInt_of (k := "pref_index") (n := a.prefIndex) rfl,
    kwInt_of (k := "wd_we_type") (n := a.wdWeType) rfl, kwText_of (k := "name") rfl]
  have h : kwPower (savedKwargs a c) = powerOfCell c := by cases c <;> rfl
  rw [h]
  rfl

theorem kwWindows_saved (a : Appliance) (c : Cell) : kwWindows (savedKwargs a c) = .ok (savedArgs a c).windows := by
  have hany : (windowsParameters.any fun k => (List.lookup k (savedKwargs a c)).isSome) = true := rfl
  unfold kwWindows
  rw [if_pos hany, kwPair_of (k := "window_1") (a := a.window1.1) (b := a.window1.2) rfl,
    kwPair_of (k := "window_2") (a := a.window2.1) (b := a.window2.2) rfl,
    kwPair_of (k := "window_3") (a := a.window3.1) (b := a.window3.2) rfl, kwRat_of (k := "random_var_w") rfl]
  rfl

theorem kwCycle1_saved (a : Appliance) (c : Cell) :
    kwCycle (savedKwargs a c) ["p_11", "t_11", "cw11", "p_12", "t_12", "cw12", "r_c1"] = .ok (savedArgs a c).cycle1 := by
  have hany : (["p_11", "t_11", "cw11", "p_12", "t_12", "cw12", "r_c1"].any fun k =>
      (List.lookup k (savedKwargs a c)).isSome) = true := rfl
  unfold kwCycle
  simp only
  rw [if_pos hany, kwRat_of (k := "p_11") rfl, kwInt_of (k := "t_11") (n := a.t11) rfl, kwPair_of (k := "cw11") (a := a.cw11.1) (b := a.cw11.2) rfl,
    kwRat_of (k := "p_12") rfl, kwInt_of (k := "t_12") (n := a.t12) rfl, kwPair_of (k := "cw12") (a := a.cw12.1) (b := a.cw12.2) rfl,
    kwRat_of (k := "r_c1") rfl]
  rfl

theorem kwCycle2_saved (a : Appliance) (c : Cell) :
    kwCycle (savedKwargs a c) ["p_21", "t_21", "cw21", "p_22", "t_22", "cw22", "r_c2"] = .ok (savedArgs a c).cycle2 := by
  have hany : (["p_21", "t_21", "cw21", "p_22", "t_22", "cw22", "r_c2"].any fun k =>
      (List.lookup k (savedKwargs a c)).isSome) = true := rfl
  unfold kwCycle
  simp only
  rw [if_pos hany, kwRat_of (k := "p_21") rfl, kwInt_of (k := "t_21") (n := a.t21) rfl, kwPair_of (k := "cw21") (a := a.cw21.1) (b := a.cw21.2) rfl,
    kwRat_of (k := "p_22") rfl, kwInt_of (k := "t_22") (n := a.t22) rfl, kwPair_of (k := "cw22") (a := a.cw22.1) (b := a.cw22.2) rfl,
    kwRat_of (k := "r_c2") rfl]
  rfl

theorem kwCycle3_saved (a : Appliance) (c : Cell) :
    kwCycle (savedKwargs a c) ["p_31", "t_31", "cw31", "p_32", "t_32", "cw32", "r_c3"] = .ok (savedArgs a c).cycle3 := by
  have hany : (["p_31", "t_31", "cw31", "p_32", "t_32", "cw32", "r_c3"].any fun k =>
      (List.lookup k (savedKwargs a c)).isSome) = true := rfl
  unfold kwCycle
  simp only
  rw [if_pos hany, kwRat_of (k := "p_31") rfl, kwInt_of (k := "t_31") (n := a.t31) rfl, kwPair_of (k := "cw31") (a := a.cw31.1) (b := a.cw31.2) rfl,
    kwRat_of (k := "p_32") rfl, kwInt_of (k := "t_32") (n := a.t32) rfl, kwPair_of (k := "cw32") (a := a.cw32.1) (b := a.cw32.2) rfl,
    kwRat_of (k := "r_c3") rfl]
  rfl

theorem rowArgs_saved (u : User) (a : Appliance) (c : Cell) : rowArgs (savedRow u a c) = .ok (savedArgs a c) := by
  unfold rowArgs
  rw [rowKwargs_saved]
  simp only
  unfold kwAddArgs
  rw [kwAppArgs_saved, kwWindows_saved, kwCycle1_saved, kwCycle2_saved, kwCycle3_saved]
  rfl

/-! ## A full call of `add_appliance` -/

/-- The appliance after `add_appliance` with windows and three duty cycles. -/
def finalAppliance (app1 : Appliance) (c1 c2 c3 : CycleArgs) : Appliance :=
  (specificCycle3 (specificCycle2 (specificCycle1 (windowsTail app1) c1).1 c2).1 c3).1

theorem addInstance_named {strict : Bool} {u : User} {app : Appliance} (hn : app.name ≠ "")
    (hc : ∀ b ∈ u.appList, Comparable strict app.power b.power) :
    (addInstance strict u app = .ok (u, app) ∧ ∃ a ∈ u.appList, a.oid = app.oid ∨ appEq strict app a = .ok true) ∨
    (addInstance strict u app = .ok ({ u with appList := u.appList ++ [app] }, app)) := by
  cases h : addInstance strict u app with
  | error e =>
    obtain ⟨_, b, hb, hb2⟩ := addInstance_error h
    exact absurd (hc b hb) hb2
  | ok p =>
    obtain ⟨u', app'⟩ := p
    rcases addInstance_cases h with ⟨rfl, rfl, h3⟩ | ⟨h1, h2, _⟩
    · exact .inl ⟨rfl, h3⟩
    · right
      rw [if_neg hn] at h2
      have : app' = app := h2
      rw [this] at h1 ⊢
      rw [h1]

theorem sync_last {u : User} {app app' : Appliance} {l0 : List Appliance} (hl : u.appList = l0 ++ [app]) (hf : ∀ a ∈ l0, a.oid ≠ app.oid)
    (ho : app'.oid = app.oid) : u.sync app' = { u with appList := l0 ++ [app'] } := by
  have := sync_append (u := u) (app := app') (app' := app) (l := l0) (by rw [ho]; exact hf) ho.symm
  unfold User.sync at this ⊢
  simp only at this
  rw [hl, this]

/-- A call of `add_appliance` with valid windows and duty cycles registers exactly one appliance, unless the list has an equal one. -/
theorem addAppliance_full {strict : Bool} {oid : ℕ} {nd : ℤ} {u : User} {a : AddArgs} {app app1 : Appliance} {w : WindowsArgs}
    {c1 c2 c3 : CycleArgs} (hf : ∀ b ∈ u.appList, b.oid ≠ oid) (hm : mkAppliance oid nd a.app = .ok app) (hname : a.app.name ≠ "")
    (happ : app.oid = oid ∧ app.name = a.app.name)
    (hw : a.windows = some w) (h1 : a.cycle1 = some c1) (h2 : a.cycle2 = some c2) (h3 : a.cycle3 = some c3)
    (hwb : windowsBody app w = (app1, .ok ()))
    (hc1 : fixedCycleCheck c1 = .ok ()) (hc2 : fixedCycleCheck c2 = .ok ()) (hc3 : fixedCycleCheck c3 = .ok ())
    (hcmp : ∀ b ∈ u.appList, Comparable strict app.power b.power)
    (hne : ∀ b ∈ u.appList, appEq strict (finalAppliance app1 c1 c2 c3) b ≠ .ok true) :
    addAppliance strict oid nd u a =
      ({ u with appList := u.appList ++ [finalAppliance app1 c1 c2 c3] }, .ok (finalAppliance app1 c1 c2 c3)) := by
  have hch : WindowsChanged app app1 := by have := windowsBody_changed app w; rw [hwb] at this; exact this
  set t := windowsTail app1 with ht
  have hto : t.oid = oid := by rw [ht, windowsTail_oid, hch.oid, happ.1]
  have htn : t.name ≠ "" := by rw [ht, windowsTail_name, hch.name, happ.2]; exact hname
  have htp : t.power = app.power := by rw [ht, windowsTail_power, hch.power]
  set f := finalAppliance app1 c1 c2 c3 with hfdef
  have hfo : f.oid = oid := by rw [← hto]; rfl
  have hfn : f.name ≠ "" := by show t.name ≠ ""; exact htn
  have hfp : f.power = app.power := by rw [← htp]; rfl
  have hcyc : a.cycles = [((1 : ℤ), c1), ((2 : ℤ), c2), ((3 : ℤ), c3)] := by unfold AddArgs.cycles; rw [h1, h2, h3]; rfl
  have hwin : windows strict u app w = (u, t, .ok ()) ∨ windows strict u app w = ({ u with appList := u.appList ++ [t] }, t, .ok ()) := by
    unfold windows
    rw [hwb]
    simp only
    have hfr : ∀ b ∈ u.appList, b.oid ≠ app1.oid := by rw [hch.oid, happ.1]; exact hf
    rw [sync_of_fresh hfr]
    rcases addInstance_named (strict := strict) (u := u) (app := app1) (by rw [hch.name, happ.2]; exact hname)
      (by rw [hch.power]; exact hcmp) with ⟨h, _⟩ | h
    · left
      rw [h]
      simp only
      rw [← ht, sync_of_fresh (by rw [hto]; exact hf)]
    · right
      rw [h]
      simp only
      rw [← ht, sync_last (l0 := u.appList) (app := app1) rfl hfr (by rw [hto, hch.oid, happ.1])]
  have hcheck : ∀ (i : ℤ) (c : CycleArgs) (x : Appliance), (i = 1 ∨ i = 2 ∨ i = 3) → fixedCycleCheck c = .ok () →
      (specificCycle x i c).2 = .ok () := by
    intro i c x hi hc
    unfold specificCycle
    rcases hi with rfl | rfl | rfl
    · exact hc
    · exact hc
    · exact hc
  have hs1 : specificCycle t 1 c1 = ((specificCycle1 t c1).1, .ok ()) := by
    have := hcheck 1 c1 t (by omega) hc1
    rw [← this]; rfl
  have hs2 : ∀ x, specificCycle x 2 c2 = ((specificCycle2 x c2).1, .ok ()) := by
    intro x
    have := hcheck 2 c2 x (by omega) hc2
    rw [← this]; rfl
  have hs3 : ∀ x, specificCycle x 3 c3 = ((specificCycle3 x c3).1, .ok ()) := by
    intro x
    have := hcheck 3 c3 x (by omega) hc3
    rw [← this]; rfl
  have hcycles : ∀ u1 : User, addCycles u1 t a.cycles =
      (((u1.sync (specificCycle1 t c1).1).sync (specificCycle2 (specificCycle1 t c1).1 c2).1).sync f, f, .ok ()) := by
    intro u1
    rw [hcyc]
    simp only [addCycles, userCycle, hs1, hs2, hs3]
    rfl
  have hmem : ∀ l : List Appliance, (∀ b ∈ l, b ∈ u.appList) → ∀ b ∈ l, Comparable strict f.power b.power := by
    intro l hl b hb; rw [hfp]; exact hcmp b (hl b hb)
  unfold addAppliance
  rw [hm]
  simp only
  rw [hw]
  simp only
  rcases hwin with hwin | hwin
  · rw [hwin]
    simp only
    rw [hcycles]
    have e1 : u.sync (specificCycle1 t c1).1 = u := sync_of_fresh (by show ∀ b ∈ u.appList, b.oid ≠ t.oid; rw [hto]; exact hf)
    have e2 : u.sync (specificCycle2 (specificCycle1 t c1).1 c2).1 = u :=
      sync_of_fresh (by show ∀ b ∈ u.appList, b.oid ≠ t.oid; rw [hto]; exact hf)
    have e3 : u.sync f = u := sync_of_fresh (by rw [hfo]; exact hf)
    rw [e1, e2, e3]
    simp only
    rcases addInstance_named (strict := strict) (u := u) (app := f) hfn (hmem _ (fun _ h => h)) with ⟨_, b, hb, hq⟩ | h
    · rcases hq with hq | hq
      · exact absurd (hq.trans hfo) (hf b hb)
      · exact absurd hq (hne b hb)
    · rw [h]
  · rw [hwin]
    simp only
    rw [hcycles]
    have hft : ∀ b ∈ u.appList, b.oid ≠ t.oid := by rw [hto]; exact hf
    have e1 : User.sync { u with appList := u.appList ++ [t] } (specificCycle1 t c1).1 =
        { u with appList := u.appList ++ [(specificCycle1 t c1).1] } := sync_last rfl hft rfl
    have e2 : User.sync { u with appList := u.appList ++ [(specificCycle1 t c1).1] } (specificCycle2 (specificCycle1 t c1).1 c2).1 =
        { u with appList := u.appList ++ [(specificCycle2 (specificCycle1 t c1).1 c2).1] } := sync_last rfl hft rfl
    have e3 : User.sync { u with appList := u.appList ++ [(specificCycle2 (specificCycle1 t c1).1 c2).1] } f =
        { u with appList := u.appList ++ [f] } := sync_last rfl hft rfl
    rw [e1, e2, e3]
    simp only
    rcases addInstance_named (strict := strict) (u := { u with appList := u.appList ++ [f] }) (app := f) hfn (by
        intro b hb
        rcases List.mem_append.1 hb with hb | hb
        · rw [hfp]; exact hcmp b hb
        · simp only [List.mem_singleton] at hb
          subst hb; exact ⟨_, if_pos rfl⟩) with ⟨h, _⟩ | h
    · rw [h]
    · exfalso
      rcases addInstance_cases h with ⟨hu, _⟩ | ⟨_, _, hn⟩
      · have := congrArg (fun v => v.appList.length) hu
        simp at this
      · exact absurd rfl (hn f (by simp)).1

end Ramp
