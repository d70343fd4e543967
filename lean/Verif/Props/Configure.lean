import Verif.Props.Build
import Verif.Lemmas.Api
import Verif.Props.History

/-! # C91: the configuration methods of an appliance change exactly what they are given -/

set_option autoImplicit false

namespace Ramp

theorem find_store (l : List Appliance) (app : Appliance) (o : ℕ) :
    (l.map (fun a => if a.oid = app.oid then app else a)).find? (fun a => a.oid = o) =
      if o = app.oid then (l.find? (fun a => a.oid = o)).map (fun _ => app) else l.find? (fun a => a.oid = o) := by
  induction l with
  | nil => simp
  | cons a l ih =>
    rw [List.map_cons, List.find?_cons, List.find?_cons, ih]
    by_cases ha : a.oid = app.oid
    · rw [if_pos ha]
      by_cases ho : o = app.oid
      · simp [ho, ha]
      · have h1 : ¬ app.oid = o := fun h => ho h.symm
        have h2 : ¬ a.oid = o := by rw [ha]; exact h1
        simp [ho, h1, h2]
    · rw [if_neg ha]
      by_cases ho : o = app.oid
      · have h2 : ¬ a.oid = o := by rw [ho]; exact ha
        simp only [ho] at h2 ⊢
        simp [h2]
      · simp [ho]

theorem lookup_store (s : ApiState) (app : Appliance) (o : ℕ) :
    (({ s with user := s.user.sync app } : ApiState).storeLoose app).lookup o = if o = app.oid then (s.lookup o).map (fun _ => app) else s.lookup o := by
  unfold ApiState.lookup ApiState.storeLoose User.sync
  simp only [find_store]
  split_ifs with h
  · cases s.user.appList.find? (fun a => a.oid = o) <;> simp
  · rfl

/-- All other objects are unchanged. -/
def OthersUnchanged (s s' : ApiState) (o : ℕ) : Prop := ∀ o', o' ≠ o → s'.lookup o' = s.lookup o'

/-- **C91.** `specific_cycle(n, ...)` stores the power, durations and variability of the duty cycle `n` (0 when not given) and its windows when they
are given, also when it raises; nothing else changes.  An unknown `n` does nothing.  `ValueError` exactly for a negative duration. -/
theorem C91_specific_cycle {strict : Bool} {s : ApiState} {o : ℕ} {app : Appliance} (hl : s.lookup o = some app) (n : ℤ) (c : CycleArgs) :
    (apiStep strict s (.cycle o n c)).1.lookup o = some (
      if n = 1 then { app with p11 := c.p1, t11 := c.t1, p12 := c.p2, t12 := c.t2, rc1 := c.rc, cw11 := c.cwa.getD app.cw11, cw12 := c.cwb.getD app.cw12 }
      else if n = 2 then { app with p21 := c.p1, t21 := c.t1, p22 := c.p2, t22 := c.t2, rc2 := c.rc, cw21 := c.cwa.getD app.cw21, cw22 := c.cwb.getD app.cw22 }
      else if n = 3 then { app with p31 := c.p1, t31 := c.t1, p32 := c.p2, t32 := c.t2, rc3 := c.rc, cw31 := c.cwa.getD app.cw31, cw32 := c.cwb.getD app.cw32 }
      else app) ∧
    OthersUnchanged s (apiStep strict s (.cycle o n c)).1 o ∧
    (apiStep strict s (.cycle o n c)).2 = if (n = 1 ∨ n = 2 ∨ n = 3) ∧ (c.t1 < 0 ∨ c.t2 < 0) then .error .valueError else .ok () := by
  have ho : app.oid = o := (lookup_spec hl).1
  have hoid := specificCycle_oid app n c
  have hst : (apiStep strict s (.cycle o n c)) = (({ s with user := s.user.sync (specificCycle app n c).1 } : ApiState).storeLoose (specificCycle app n c).1, (specificCycle app n c).2) := by
    show (match s.lookup o with | none => _ | some app => _) = _
    rw [hl]
    rfl
  have hcheck : fixedCycleCheck c = if c.t1 < 0 ∨ c.t2 < 0 then .error .valueError else .ok () := by
    unfold fixedCycleCheck onesTimes
    by_cases h1 : c.t1 < 0 <;> by_cases h2 : c.t2 < 0 <;> simp [h1, h2]
  rw [hst]
  refine ⟨?_, ?_, ?_⟩
  · rw [lookup_store, if_pos (by rw [hoid, ho]), hl]
    simp only [Option.map_some]
    unfold specificCycle specificCycle1 specificCycle2 specificCycle3
    split_ifs <;> rfl
  · intro o' h'
    rw [lookup_store, hoid, ho, if_neg h']
  · have hout : (specificCycle app n c).2 = if n = 1 ∨ n = 2 ∨ n = 3 then fixedCycleCheck c else .ok () := by
      unfold specificCycle
      by_cases h1 : n = 1
      · rw [if_pos h1, if_pos (.inl h1)]; rfl
      by_cases h2 : n = 2
      · rw [if_neg h1, if_pos h2, if_pos (.inr (.inl h2))]; rfl
      by_cases h3 : n = 3
      · rw [if_neg h1, if_neg h2, if_pos h3, if_pos (.inr (.inr h3))]; rfl
      · rw [if_neg h1, if_neg h2, if_neg h3, if_neg (by rintro (h | h | h); exacts [h1 h, h2 h, h3 h])]
    simp only [hout, hcheck]
    by_cases h1 : n = 1 ∨ n = 2 ∨ n = 3
    · rw [if_pos h1]
      by_cases h2 : c.t1 < 0 ∨ c.t2 < 0
      · rw [if_pos h2, if_pos ⟨h1, h2⟩]
      · rw [if_neg h2, if_neg (fun h => h2 h.2)]
    · rw [if_neg h1, if_neg (fun h => h1 h.1)]

/-- **C91.** `cycle_behaviour(...)` replaces the six windows of the duty cycles and nothing else. -/
theorem C91_cycle_behaviour {strict : Bool} {s : ApiState} {o : ℕ} {app : Appliance} (hl : s.lookup o = some app) (a b c d e f : ℤ × ℤ) :
    (apiStep strict s (.behaviour o a b c d e f)).1.lookup o = some { app with cw11 := a, cw12 := b, cw21 := c, cw22 := d, cw31 := e, cw32 := f } ∧
    OthersUnchanged s (apiStep strict s (.behaviour o a b c d e f)).1 o ∧ (apiStep strict s (.behaviour o a b c d e f)).2 = .ok () := by
  have ho : app.oid = o := (lookup_spec hl).1
  have hst : (apiStep strict s (.behaviour o a b c d e f)) =
      (({ s with user := s.user.sync (cycleBehaviour app a b c d e f) } : ApiState).storeLoose (cycleBehaviour app a b c d e f), .ok ()) := by
    show (match s.lookup o with | none => _ | some app => _) = _
    rw [hl]
  have hoid : (cycleBehaviour app a b c d e f).oid = o := ho
  rw [hst]
  refine ⟨?_, ?_, rfl⟩
  · rw [lookup_store, if_pos hoid.symm, hl]; rfl
  · intro o' h'
    rw [lookup_store, hoid, if_neg h']

/-- The minutes of the windows are marked with 0.001 in the array of the day. -/
def Marked (w1 w2 w3 : ℤ × ℤ) (d : Profile) : Prop :=
  DayWindow w1 → DayWindow w2 → DayWindow w3 → ∀ m : Fin 1440, d m = if InWindow w1 m ∨ InWindow w2 m ∨ InWindow w3 m then 1 / 1000 else 0

/-- The state after `windows()` when the user is `u'` and the appliance `app'`. -/
theorem lookup_registered {s : ApiState} {app app1 app2 app3 : Appliance} {u2 : User} {strict : Bool} {o : ℕ} (hl : s.lookup o = some app)
    (h1 : app1.oid = o) (h2 : addInstance strict (s.user.sync app1) app1 = .ok (u2, app2)) (h3 : app3.oid = app2.oid) :
    (({ s with user := u2.sync app3 } : ApiState).storeLoose app3).lookup o = some app3 ∧
    OthersUnchanged s (({ s with user := u2.sync app3 } : ApiState).storeLoose app3) o := by
  rcases addInstance_cases h2 with ⟨rfl, rfl, _⟩ | ⟨hu, ha, hn⟩
  · have hs : (s.user.sync app2).sync app3 = s.user.sync app3 := by
      unfold User.sync
      simp only [List.map_map]
      congr 1
      refine List.map_congr_left fun a _ => ?_
      simp only [Function.comp_apply, h3]
      by_cases h5 : a.oid = app2.oid
      · rw [if_pos h5, if_pos rfl, if_pos h5]
      · rw [if_neg h5, if_neg h5]
    rw [hs]
    refine ⟨?_, fun o' ho' => ?_⟩
    · rw [lookup_store, if_pos (by rw [h3, h1]), hl]; rfl
    · rw [lookup_store, if_neg (by rw [h3, h1]; exact ho')]
  · have ho2 : app2.oid = o := by rw [ha]; exact h1
    have hno : ∀ a ∈ s.user.appList, a.oid ≠ o := by
      intro a hm he
      refine (hn app1 ?_).1 rfl
      unfold User.sync
      exact List.mem_map.2 ⟨a, hm, if_pos (by rw [he, h1])⟩
    have hfind : ∀ o', (u2.sync app3).appList.find? (fun a => a.oid = o') =
        if o' = o then some app3 else s.user.appList.find? (fun a => a.oid = o') := by
      intro o'
      unfold User.sync
      rw [find_store, hu]
      simp only [User.sync]
      rw [List.find?_append, find_store, h3, ho2, h1]
      have hnone : s.user.appList.find? (fun a => a.oid = o) = none := by
        rw [List.find?_eq_none]; intro a hm; simpa using hno a hm
      split_ifs with e
      · subst e
        rw [hnone]
        simp [ho2]
      · have : ¬ app2.oid = o' := by rw [ho2]; exact fun h => e h.symm
        simp [this]
    unfold OthersUnchanged ApiState.lookup ApiState.storeLoose
    simp only [hfind, find_store, h3, ho2]
    refine ⟨by simp, fun o' ho' => by
      have hst := find_store s.loose app3 o'
      rw [h3, ho2, if_neg ho'] at hst
      rw [if_neg ho', hst]⟩

/-- **C91.** A successful `windows()` stores the three windows (the whole day for a first window that is not given, the old ones for the others),
the variability and what follows from them; the windows of the first duty cycle only with `fixed_cycle=1`; a name only if the appliance had none.
Nothing else changes. -/
theorem C91_windows {strict : Bool} {s s' : ApiState} {o : ℕ} {w : WindowsArgs} {app : Appliance} (hl : s.lookup o = some app)
    (h : apiStep strict s (.windows o w) = (s', .ok ())) :
    OthersUnchanged s s' o ∧ ∃ (name : String) (d : Profile),
      (name = app.name ∨ (app.name = "" ∧ name = s!"appliance_{s.user.appList.length + 1}")) ∧
      Marked (w.window1.getD (0, 1440)) (w.window2.getD app.window2) (w.window3.getD app.window3) d ∧
      s'.lookup o = some { app with
        name := name, window1 := w.window1.getD (0, 1440), window2 := w.window2.getD app.window2, window3 := w.window3.getD app.window3,
        randomVarW := w.randomVarW,
        randomVar1 := pyInt (w.randomVarW * ((w.window1.getD (0, 1440)).2 - (w.window1.getD (0, 1440)).1 : ℤ)),
        randomVar2 := pyInt (w.randomVarW * ((w.window2.getD app.window2).2 - (w.window2.getD app.window2).1 : ℤ)),
        randomVar3 := pyInt (w.randomVarW * ((w.window3.getD app.window3).2 - (w.window3.getD app.window3).1 : ℤ)),
        dailyUse := d,
        cw11 := if app.fixedCycle = 1 then w.window1.getD (0, 1440) else app.cw11,
        cw12 := if app.fixedCycle = 1 then w.window2.getD app.window2 else app.cw12 } := by
  have ho : app.oid = o := (lookup_spec hl).1
  have hst : apiStep strict s (.windows o w) = (({ s with user := (windows strict s.user app w).1 } : ApiState).storeLoose (windows strict s.user app w).2.1,
      (windows strict s.user app w).2.2) := by
    show (match s.lookup o with | none => _ | some app => _) = _
    rw [hl]
  rw [hst] at h
  injection h with h1 h2
  obtain ⟨app1, hb, u2, app2, ha, hw⟩ := windows_ok h2
  rw [hw] at h1
  simp only at h1
  have hoid1 : app1.oid = o := by
    have := (windowsBody_changed app w).oid
    rw [hb] at this
    exact this.trans ho
  obtain ⟨k1, k2⟩ := lookup_registered (app3 := windowsTail app2) hl hoid1 ha (windowsTail_oid _)
  rw [h1] at k1 k2
  refine ⟨k2, ?_⟩
  obtain ⟨d, hd, hf⟩ := windowsBody_ok hb
  simp only [windowsAfter, winLen_def] at hd hf
  have hmark : Marked (w.window1.getD (0, 1440)) (w.window2.getD app.window2) (w.window3.getD app.window3) d := by
    intro d1 d2 d3 m
    rw [fillWindows_ok _ d1 d2 d3] at hf
    injection hf with hf
    rw [← hf, windowProfile_def]
  rcases addInstance_cases ha with ⟨_, rfl, _⟩ | ⟨_, happ2, _⟩
  · refine ⟨app.name, d, .inl rfl, hmark, ?_⟩
    rw [k1, hd]
    unfold windowsTail
    simp only
    split_ifs <;> rfl
  · have hlen : (s.user.sync app1).appList.length = s.user.appList.length := by simp [User.sync]
    refine ⟨if app.name = "" then s!"appliance_{s.user.appList.length + 1}" else app.name, d, ?_, hmark, ?_⟩
    · split_ifs with e
      · exact .inr ⟨e, rfl⟩
      · exact .inl rfl
    · rw [k1, happ2, hlen, hd]
      unfold windowsTail
      simp only
      split_ifs <;> rfl

/-- **C91.** A `windows()` call rejected with `InvalidWindow` (or `AttributeError` for more than three windows) does not register the appliance and
leaves its variability, its array of the day and its duty cycles as they were, but the windows up to the offending one have been replaced. -/
theorem C91_windows_rejected {strict : Bool} {s s' : ApiState} {o : ℕ} {w : WindowsArgs} {app : Appliance} {e : Err} (hl : s.lookup o = some app)
    (h : apiStep strict s (.windows o w) = (s', .error e)) (he : e ≠ .valueError) :
    OthersUnchanged s s' o ∧ s'.user.appList.map Appliance.oid = s.user.appList.map Appliance.oid ∧
      s'.lookup o = some { app with
        window1 := w.window1.getD (0, 1440)
        window2 := w.window2.getD app.window2
        window3 := if 2 ≤ app.numWindows ∧ w.window2 = none then app.window3 else w.window3.getD app.window3 } := by
  have ho : app.oid = o := (lookup_spec hl).1
  have hst : apiStep strict s (.windows o w) = (({ s with user := (windows strict s.user app w).1 } : ApiState).storeLoose (windows strict s.user app w).2.1,
      (windows strict s.user app w).2.2) := by
    show (match s.lookup o with | none => _ | some app => _) = _
    rw [hl]
  rw [hst] at h
  injection h with h1 h2
  have hww : ∃ app1, windowsBody app w = (app1, .error e) ∧ windows strict s.user app w = (s.user.sync app1, app1, .error e) := by
    unfold windows at h2 ⊢
    cases hb : windowsBody app w with
    | mk app1 r =>
      cases r with
      | error e' =>
        rw [hb] at h2
        cases h2
        exact ⟨app1, rfl, rfl⟩
      | ok x =>
        rw [hb] at h2
        simp only at h2
        cases ha : addInstance strict (s.user.sync app1) app1 with
        | error e' =>
          rw [ha] at h2
          cases h2
          exact absurd (addInstance_error ha).1 he
        | ok p =>
          rw [ha] at h2
          cases h2
  obtain ⟨app1, hb, hw⟩ := hww
  rw [hw] at h1
  simp only at h1
  have hoid1 : app1.oid = o := by
    have := (windowsBody_changed app w).oid
    rw [hb] at this
    exact this.trans ho
  have happ1 : app1 = { app with
        window1 := w.window1.getD (0, 1440)
        window2 := w.window2.getD app.window2
        window3 := if 2 ≤ app.numWindows ∧ w.window2 = none then app.window3 else w.window3.getD app.window3 } := by
    have hfs : ∀ {p : Profile} {v : ℤ × ℤ} {x : ℚ} {e' : Err}, fillSlice p v.1 v.2 (winLen v) x = .error e' → e' = .valueError :=
      fun h => fillSlice_error h
    unfold windowsBody at hb
    simp only at hb
    by_cases c2 : w.window2 = none ∧ app.numWindows ≥ 2
    · rw [if_pos c2] at hb
      injection hb with hb _
      rw [← hb, if_pos ⟨c2.2, c2.1⟩, c2.1]
      rfl
    · rw [if_neg c2] at hb
      have c2' : ¬ (2 ≤ app.numWindows ∧ w.window2 = none) := fun h => c2 ⟨h.2, h.1⟩
      rw [if_neg c2']
      by_cases c3 : w.window3 = none ∧ app.numWindows = 3
      · rw [if_pos c3] at hb
        injection hb with hb _
        rw [← hb, c3.1]
        rfl
      · rw [if_neg c3] at hb
        split at hb
        · injection hb with hb _
          exact hb.symm
        · split_ifs at hb
          · injection hb with hb _
            exact hb.symm
          · exfalso
            split at hb
            · rename_i e' hf
              injection hb with _ hb
              injection hb with hb
              exact he (by rw [← hb]; exact hfs hf)
            · split at hb
              · rename_i e' hf
                injection hb with _ hb
                injection hb with hb
                exact he (by rw [← hb]; exact hfs hf)
              · split at hb
                · rename_i e' hf
                  injection hb with _ hb
                  injection hb with hb
                  exact he (by rw [← hb]; exact hfs hf)
                · injection hb with _ hb
                  cases hb
  refine ⟨?_, ?_, ?_⟩
  · intro o' h'
    rw [← h1, lookup_store, hoid1, if_neg h']
  · rw [← h1]
    exact sync_oids _ _
  · rw [← h1, lookup_store, if_pos hoid1.symm, hl, ← happ1]
    rfl

/-- A case for C91: a second call of `windows()` with one window only keeps the second window of the first call. -/
def twoWindows : ApiState := { user := { appList := [{ oid := 0, name := "lamp", window1 := (0, 10), window2 := (20, 30), power := [5] }] }, next := 1 }

example : ∃ app, twoWindows.lookup 0 = some app ∧ app.window2 = (20, 30) ∧ (apiStep true twoWindows (.windows 0 { window1 := some (40, 50) })).2 = .ok () :=
  ⟨_, rfl, rfl, by decide +kernel⟩

/-- A case for `C91_windows_rejected`: a window shorter than `func_time` replaces the window although it is rejected. -/
example : (apiStep true { user := { appList := [{ oid := 0, name := "lamp", window1 := (0, 60), funcTime := 30, numWindows := 1, power := [5] }] }, next := 1 }
    (.windows 0 { window1 := some (40, 50) })).2 = .error .invalidWindow := by decide +kernel

/-- A case for `C91_specific_cycle`: a negative duration. -/
example : (apiStep true twoWindows (.cycle 0 1 { p1 := 5, t1 := -1 })).2 = .error .valueError := by decide +kernel

end Ramp
