import Verif.Model.Shared
import Verif.Lemmas.Relate
import Verif.Lemmas.Days
import Verif.Props.Scaling
import Verif.Props.Parallel

/-! # Property C94: shared objects -/

set_option autoImplicit false

namespace Ramp

/-- `v` describes the user object `u`: the same members and preferences, and one appliance of the same definition for every reference. -/
structure Describes (w : Objects) (u : ℕ) (v : User) : Prop where
  number : v.numUsers = (w.user u).numUsers
  preference : v.userPreference = (w.user u).userPreference
  appliances : List.Forall₂ (fun r a => SameDefinition (w.app r) a) (w.user u).apps v.appList

/-- Every appliance in the lists of the users has been created for the user that holds it, or does not depend on preferences. -/
def OwnPreferences (w : Objects) (us : List ℕ) : Prop :=
  ∀ u ∈ us, ∀ r ∈ (w.user u).apps, w.owner r = u ∨ (w.app r).prefIndex = 0

/-- Only what simulations write differs. -/
structure Settled (w w' : Objects) : Prop where
  app : ∀ r, SameDefinition (w.app r) (w'.app r)
  owner : w'.owner = w.owner
  number : ∀ u, (w'.user u).numUsers = (w.user u).numUsers
  preference : ∀ u, (w'.user u).userPreference = (w.user u).userPreference
  apps : ∀ u, (w'.user u).apps = (w.user u).apps

theorem Settled.refl (w : Objects) : Settled w w := ⟨fun _ => .refl _, rfl, fun _ => rfl, fun _ => rfl, fun _ => rfl⟩

theorem Settled.trans {w w' w'' : Objects} (h : Settled w w') (h' : Settled w' w'') : Settled w w'' :=
  ⟨fun r => (h.app r).trans (h'.app r), h'.owner.trans h.owner, fun u => (h'.number u).trans (h.number u), fun u => (h'.preference u).trans (h.preference u),
    fun u => (h'.apps u).trans (h.apps u)⟩

theorem settled_setApp {w : Objects} {r : ℕ} {a : Appliance} (h : SameDefinition (w.app r) a) : Settled w (w.setApp r a) := by
  refine ⟨fun k => ?_, rfl, fun _ => rfl, fun _ => rfl, fun _ => rfl⟩
  unfold Objects.setApp
  simp only
  split_ifs with hk
  · rw [hk]; exact h
  · exact .refl _

theorem settled_setPref (w : Objects) (u : ℕ) (p : ℤ) : Settled w (w.setPref u p) := by
  refine ⟨fun _ => .refl _, rfl, fun k => ?_, fun k => ?_, fun k => ?_⟩
  all_goals
    unfold Objects.setPref
    simp only
    split_ifs with hk
    · rw [hk]
    · rfl

theorem settled_setLoad (w : Objects) (u : ℕ) (p : Profile) : Settled w (w.setLoad u p) := by
  refine ⟨fun _ => .refl _, rfl, fun k => ?_, fun k => ?_, fun k => ?_⟩
  all_goals
    unfold Objects.setLoad
    simp only
    split_ifs with hk
    · rw [hk]
    · rfl

theorem Describes.settled {w w' : Objects} (h : Settled w w') {u : ℕ} {v : User} (hd : Describes w u v) : Describes w' u v := by
  refine ⟨hd.number.trans (h.number u).symm, hd.preference.trans (h.preference u).symm, ?_⟩
  rw [h.apps u]
  exact hd.appliances.imp fun r a hra => (h.app r).symm.trans hra

theorem OwnPreferences.settled {w w' : Objects} (h : Settled w w') {us : List ℕ} (ho : OwnPreferences w us) : OwnPreferences w' us := by
  intro u hu r hr
  rw [h.apps u] at hr
  rcases ho u hu r hr with h1 | h1
  · left; rw [h.owner]; exact h1
  · right
    have : (w'.app r).prefIndex = (w.app r).prefIndex := by rw [show w'.app r = _ from h.app r]
    rw [this]; exact h1

/-- Without a preference index the preference of the day does not matter. -/
theorem generate_pref {a : Appliance} (h : a.prefIndex = 0) (depth : ℕ) (p q : ℤ) (k : ℕ) (peak : List ℤ) (dt : ℤ) (pw : ℚ) :
    generateLoadProfile a depth p k peak dt pw = generateLoadProfile a depth q k peak dt pw := by
  unfold generateLoadProfile generateLoadProfileInfo
  simp only [h, ne_eq, not_true_eq_false, false_and, false_or]

theorem rel_shared_loop (depth k : ℕ) (peak : List ℤ) (dt pref : ℤ) (rs : List ℕ) : ∀ {as : List Appliance} {w : Objects} {load : Profile},
    List.Forall₂ (fun r a => SameDefinition (w.app r) a) rs as → (∀ r ∈ rs, (w.user (w.owner r)).randDailyPref = pref ∨ (w.app r).prefIndex = 0) →
    Rel (sharedSingleLoop depth k peak dt rs load w) (singleLoop depth k peak dt pref as load)
      (fun x y => x.2 = y.2 ∧ Settled w x.1 ∧ List.Forall₂ (fun r a => SameDefinition (x.1.app r) a) rs y.1) := by
  induction rs with
  | nil =>
    intro as w load h _
    cases h
    exact rel_pure ⟨rfl, .refl w, .nil⟩
  | cons r rs ih =>
    intro as w load h hp
    cases h with
    | @cons _ a _ as h1 h2 =>
      unfold sharedSingleLoop singleLoop
      rw [h1.power]
      cases (w.app r).power[k]? with
      | none => exact rel_raise
      | some p =>
        simp only
        have hpref : generateLoadProfile (w.app r) depth (w.user (w.owner r)).randDailyPref k peak dt p = generateLoadProfile (w.app r) depth pref k peak dt p := by
          rcases hp r (List.mem_cons_self ..) with h | h
          · rw [h]
          · exact generate_pref h ..
        rw [hpref]
        refine rel_bind (rel_sat (rel_generate h1 depth pref k peak dt p) (sat_generate_same _ depth pref k peak dt p)) ?_
        rintro x y ⟨⟨hxy, hd⟩, hsame⟩
        have hset : Settled w (w.setApp r x) := settled_setApp hsame
        have hp' : ∀ r' ∈ rs, ((w.setApp r x).user ((w.setApp r x).owner r')).randDailyPref = pref ∨ ((w.setApp r x).app r').prefIndex = 0 := by
          intro r' hr'
          rcases hp r' (List.mem_cons_of_mem _ hr') with h | h
          · exact .inl h
          · right
            have : ((w.setApp r x).app r').prefIndex = (w.app r').prefIndex := by rw [show (w.setApp r x).app r' = _ from hset.app r']
            rw [this]; exact h
        rw [show (fun i => load i + y.dailyUse i) = fun i => load i + x.dailyUse i by rw [hd]]
        have ih' := ih (w := w.setApp r x) (load := fun i => load i + x.dailyUse i)
          (h2.imp fun r' a' h => (hset.app r').symm.trans h) hp'
        intro rng
        rcases ih' rng with ⟨e, e1, e2⟩ | ⟨⟨w', q⟩, ⟨as', q'⟩, rng', e1, e2, h3, h4, h5⟩
        · exact .inl ⟨e, e1, bind_error e2⟩
        · refine .inr ⟨(w', q), (y :: as', q'), rng', e1, bind_ok e2, h3, hset.trans h4, .cons ?_ h5⟩
          have : SameDefinition (w.app r) (w'.app r) := (hset.trans h4).app r
          exact this.symm.trans (hsame.trans hxy)

theorem rel_shared_single (depth u k : ℕ) (peak : List ℤ) (dt : ℤ) {w : Objects} {v : User} (hd : Describes w u v) (ho : OwnPreferences w [u]) :
    Rel (sharedSingle depth u k peak dt w) (generateSingleLoadProfile depth v k peak dt)
      (fun x y => x.2 = y.2 ∧ Settled w x.1 ∧ Describes x.1 u y.1) := by
  unfold sharedSingle generateSingleLoadProfile
  rw [hd.preference]
  refine rel_bind_same fun pref => ?_
  simp only
  have hset := settled_setPref w u pref
  have hd' := hd.settled hset
  have ho' := ho.settled hset
  have hq : ∀ r ∈ ((w.setPref u pref).user u).apps, ((w.setPref u pref).user ((w.setPref u pref).owner r)).randDailyPref = pref ∨ ((w.setPref u pref).app r).prefIndex = 0 := by
    intro r hr
    rcases ho' u (List.mem_singleton.2 rfl) r hr with h | h
    · left
      rw [h]
      unfold Objects.setPref
      simp
    · exact .inr h
  have hl := rel_shared_loop depth k peak dt pref _ (load := zeros) hd'.appliances hq
  intro rng
  rcases hl rng with ⟨e, e1, e2⟩ | ⟨⟨w', q⟩, ⟨as', q'⟩, rng', e1, e2, h3, h4, h5⟩
  · exact .inl ⟨e, e1, bind_error e2⟩
  · refine .inr ⟨(w', q), ({ v with userPreference := v.userPreference, randDailyPref := pref, appList := as' }, q'), rng', e1, (bind_ok e2).trans ?_, h3, hset.trans h4, ?_⟩
    · show Except.ok _ = Except.ok _
      rw [hd.preference]
    · refine ⟨hd'.number.trans (h4.number u).symm, hd'.preference.trans (h4.preference u).symm, ?_⟩
      rw [h4.apps u]
      exact h5

theorem rel_shared_members (depth u k : ℕ) (peak : List ℤ) (dt : ℤ) (n : ℕ) : ∀ {w : Objects} {v : User} {load : Profile}, Describes w u v → OwnPreferences w [u] →
    Rel (sharedAggregatedLoop depth u k peak dt n load w) (aggregatedLoop depth k peak dt n v load)
      (fun x y => x.2 = y.2 ∧ Settled w x.1 ∧ Describes x.1 u y.1) := by
  induction n with
  | zero => intro w v load hd _; exact rel_pure ⟨rfl, .refl w, hd⟩
  | succ n ih =>
    intro w v load hd ho
    unfold sharedAggregatedLoop aggregatedLoop
    refine rel_bind (rel_shared_single depth u k peak dt hd ho) ?_
    rintro ⟨w1, q⟩ ⟨v1, q'⟩ ⟨h1, h2, h3⟩
    simp only at h1 h2 h3
    subst h1
    refine rel_imp (ih h3 (ho.settled h2)) ?_
    rintro x y ⟨h4, h5, h6⟩
    exact ⟨h4, h2.trans h5, h6⟩

theorem rel_shared_aggregated (depth u k : ℕ) (peak : List ℤ) (dt : ℤ) {w : Objects} {v : User} (hd : Describes w u v) (ho : OwnPreferences w [u]) :
    Rel (sharedAggregated depth u k peak dt w) (generateAggregatedLoadProfile depth v k peak dt)
      (fun x y => x.2 = y.2 ∧ Settled w x.1 ∧ Describes x.1 u y.1) := by
  unfold sharedAggregated generateAggregatedLoadProfile
  rw [hd.number]
  refine rel_bind (rel_shared_members depth u k peak dt _ hd ho) ?_
  rintro ⟨w1, q⟩ ⟨v1, q'⟩ ⟨h1, h2, h3⟩
  simp only at h1 h2 h3
  subst h1
  have hset := settled_setLoad w1 u q
  have := h3.settled hset
  exact rel_pure ⟨rfl, h2.trans hset, ⟨this.number, this.preference, this.appliances⟩⟩

theorem rel_shared_users (depth k : ℕ) (peak : List ℤ) (dt : ℤ) (us : List ℕ) : ∀ {w : Objects} {vs : List User} {load : Profile},
    List.Forall₂ (Describes w) us vs → OwnPreferences w us →
    Rel (sharedUsersOfDay depth k peak dt us load w) (usersOfDay depth k peak dt vs load)
      (fun x y => x.2 = y.2 ∧ Settled w x.1 ∧ List.Forall₂ (Describes x.1) us y.1) := by
  induction us with
  | nil =>
    intro w vs load h _
    cases h
    exact rel_pure ⟨rfl, .refl w, .nil⟩
  | cons u us ih =>
    intro w vs load h ho
    cases h with
    | @cons _ v _ vs h1 h2 =>
      unfold sharedUsersOfDay usersOfDay
      have ho1 : OwnPreferences w [u] := fun u' hu' r hr => ho u' (by rw [List.mem_singleton.1 hu']; exact List.mem_cons_self ..) r hr
      refine rel_bind (rel_shared_aggregated depth u k peak dt h1 ho1) ?_
      rintro ⟨w1, q⟩ ⟨v1, q'⟩ ⟨h3, h4, h5⟩
      simp only at h3 h4 h5
      subst h3
      have ho2 : OwnPreferences w1 us := (OwnPreferences.settled h4 (us := us) fun u' hu' r hr => ho u' (List.mem_cons_of_mem _ hu') r hr)
      have hih := ih (w := w1) (load := fun i => load i + q i) (h2.imp fun _ _ h => h.settled h4) ho2
      intro rng
      rcases hih rng with ⟨e, e1, e2⟩ | ⟨⟨w', l⟩, ⟨vs', l'⟩, rng', e1, e2, h6, h7, h8⟩
      · exact .inl ⟨e, e1, bind_error e2⟩
      · exact .inr ⟨(w', l), (v1 :: vs', l'), rng', e1, bind_ok e2, h6, h4.trans h7, .cons (h5.settled h7) h8⟩

theorem rel_shared_days (depth : ℕ) (peak : List ℤ) (us : List ℕ) (ds : List ℤ) : ∀ (k : ℕ) {w : Objects} {vs : List User} {rows : List Profile},
    List.Forall₂ (Describes w) us vs → OwnPreferences w us →
    Rel (sharedDaysLoop depth peak us k ds rows w) (daysLoop depth peak k ds vs rows)
      (fun x y => x.2 = y.2 ∧ Settled w x.1 ∧ List.Forall₂ (Describes x.1) us y.1) := by
  induction ds with
  | nil =>
    intro k w vs rows h _
    unfold sharedDaysLoop daysLoop
    exact rel_pure ⟨rfl, .refl w, h⟩
  | cons d ds ih =>
    intro k w vs rows h ho
    unfold sharedDaysLoop daysLoop
    refine rel_bind (rel_shared_users depth k peak _ us h ho) ?_
    rintro ⟨w1, q⟩ ⟨vs1, q'⟩ ⟨h3, h4, h5⟩
    simp only at h3 h4 h5
    subst h3
    refine rel_ite (fun _ => ?_) (fun _ => rel_raise)
    refine rel_imp (ih (k + 1) h5 (ho.settled h4)) ?_
    rintro x y ⟨h6, h7, h8⟩
    exact ⟨h6, h4.trans h7, h8⟩

/-- **C94.** Sharing is harmless: whichever users are listed several times and whichever appliance objects are held by several users, if every appliance
belongs to the user that holds it or has no preference index, then the simulation gives with the same random numbers exactly what it would give with
separate copies: the same exception, or the same profiles (and the same state of the generator afterwards); it changes no definition. -/
theorem C94_sharing_is_harmless_partial {env : Env} {depth : ℕ} {us : List ℕ} {w : Objects} {uc : UseCase} {days peak : List ℤ} (d : Option (List ℤ))
    (hr : Ready uc days peak) (hd : List.Forall₂ (Describes w) us uc.users) (ho : OwnPreferences w us) (rng : Rng) :
    (∃ e, sharedGenerate depth us days peak w rng = .error e ∧ generateDaily env depth uc d rng = .error e) ∨
    ∃ w' uc' rows rng', sharedGenerate depth us days peak w rng = .ok ((w', rows), rng') ∧
      generateDaily env depth uc d rng = .ok ((uc', rows), rng') ∧ Settled w w' := by
  have hgen : Rel (sharedGenerate depth us days peak w) (generateDaily env depth uc d) (fun x y => x.2 = y.2 ∧ Settled w x.1) := by
    unfold sharedGenerate generateDaily resolveDays
    simp only [hr.days]
    unfold numDaysProperty
    simp only [hr.numDays]
    intro rng
    have hb : ∀ {γ : Type} (f : UseCase × Except Err ℤ → Sim γ) (g : Rng), ((pure (uc, Except.ok (days.length : ℤ)) : Sim (UseCase × Except Err ℤ)) >>= f) g =
        f (uc, Except.ok (days.length : ℤ)) g := fun f g => rfl
    rw [hb]
    revert rng
    show Rel _ _ _
    simp only [hr.peak, hr.days, Option.getD_some]
    refine rel_bind_same fun rows => ?_
    have h := rel_shared_days depth peak us days 0 (rows := rows) hd ho
    intro rng
    rcases h rng with ⟨e, e1, e2⟩ | ⟨⟨w', l⟩, ⟨vs', l'⟩, rng', e1, e2, h6, h7, h8⟩
    · exact .inl ⟨e, e1, bind_error e2⟩
    · exact .inr ⟨(w', l), ({ uc with users := vs', peakTimeRange := some peak, days := some days }, l'), rng', e1, bind_ok e2, h6, h7⟩
  rcases hgen rng with h | ⟨⟨x, p⟩, ⟨y, q⟩, r, h1, h2, h3, h4⟩
  · exact .inl h
  · simp only at h3
    subst h3
    exact .inr ⟨x, y, p, r, h1, h2, h4⟩

/-- A radio held by two users, the first of which is listed twice; it was created for a third one. [no source: an example] -/
def sharedRadio : Objects where
  app := fun _ => { power := [5, 5], funcTime := 60, window1 := (0, 200) }
  owner := fun _ => 2
  user := fun k => if k = 0 then { numUsers := 3, userPreference := 1, apps := [0] } else { numUsers := 20, apps := [0, 1] }

/-- A case for `C94_sharing_is_harmless_partial`. -/
example : OwnPreferences sharedRadio [0, 1, 0] ∧
    Describes sharedRadio 1 { numUsers := 20, appList := [{ power := [5, 5], funcTime := 60, window1 := (0, 200) }, { power := [5, 5], funcTime := 60, window1 := (0, 200) }] } :=
  ⟨fun _ _ _ _ => .inr rfl, rfl, rfl, .cons rfl (.cons rfl .nil)⟩

/-! ## Appliances of another user -/

/-- All appliances of the users were created for users that are not simulated, whose last preference is another one than the appliance is for. -/
def AllForeign (w : Objects) (us : List ℕ) : Prop :=
  ∀ u ∈ us, ∀ r ∈ (w.user u).apps, w.owner r ∉ us ∧ (w.app r).prefIndex ≠ 0 ∧ (w.user (w.owner r)).randDailyPref ≠ (w.app r).prefIndex

/-- Nothing that decides whether an appliance is foreign differs. -/
structure SameForeign (us : List ℕ) (w w' : Objects) : Prop where
  settled : Settled w w'
  others : ∀ u, u ∉ us → w'.user u = w.user u

theorem SameForeign.trans {us : List ℕ} {w w' w'' : Objects} (h : SameForeign us w w') (h' : SameForeign us w' w'') : SameForeign us w w'' :=
  ⟨h.settled.trans h'.settled, fun u hu => (h'.others u hu).trans (h.others u hu)⟩

theorem AllForeign.same {w w' : Objects} {us : List ℕ} (h : SameForeign us w w') (hf : AllForeign w us) : AllForeign w' us := by
  intro u hu r hr
  rw [h.settled.apps u] at hr
  obtain ⟨h1, h2, h3⟩ := hf u hu r hr
  have e : (w'.app r).prefIndex = (w.app r).prefIndex := by rw [show w'.app r = _ from h.settled.app r]
  rw [h.settled.owner, e, h.others _ h1]
  exact ⟨h1, h2, h3⟩

theorem skip_foreign {a : Appliance} {depth : ℕ} {pref : ℤ} {k : ℕ} {peak : List ℤ} {dt : ℤ} {pw : ℚ} (h1 : a.prefIndex ≠ 0) (h2 : pref ≠ a.prefIndex) :
    Sat (generateLoadProfile a depth pref k peak dt pw) (fun x => x = { a with dailyUse := zeros }) (fun _ => True) := by
  unfold generateLoadProfile generateLoadProfileInfo
  refine sat_bind' (P := fun x => x.1 = { a with dailyUse := zeros }) ?_ (fun x hx => sat_pure hx)
  refine sat_bind' sat_true fun x _ => ?_
  simp only
  rw [if_pos (.inr (.inl ⟨h1, h2⟩))]
  exact sat_pure rfl

theorem foreign_loop (depth k : ℕ) (peak : List ℤ) (dt : ℤ) (us : List ℕ) (rs : List ℕ) : ∀ {w : Objects}, 
    (∀ r ∈ rs, (w.app r).prefIndex ≠ 0 ∧ (w.user (w.owner r)).randDailyPref ≠ (w.app r).prefIndex) →
    Sat (sharedSingleLoop depth k peak dt rs zeros w) (fun x => x.2 = zeros ∧ SameForeign us w x.1) (fun _ => True) := by
  induction rs with
  | nil => intro w _; exact sat_pure ⟨rfl, .refl w, fun _ _ => rfl⟩
  | cons r rs ih =>
    intro w hp
    unfold sharedSingleLoop
    cases (w.app r).power[k]? with
    | none => exact sat_raise trivial
    | some p =>
      simp only
      obtain ⟨h1, h2⟩ := hp r (List.mem_cons_self ..)
      refine sat_bind' (skip_foreign h1 h2) fun x hx => ?_
      have hsame : SameDefinition (w.app r) x := by rw [hx]; rfl
      have hset := settled_setApp hsame
      have hz : (fun i => zeros i + x.dailyUse i : Profile) = zeros := by
        rw [hx]; funext i; simp [zeros]
      rw [hz]
      refine Sat.post (ih (w := w.setApp r x) fun r' hr' => ?_) (fun y hy => ⟨hy.1, SameForeign.trans ⟨hset, fun _ _ => rfl⟩ hy.2⟩)
      obtain ⟨h3, h4⟩ := hp r' (List.mem_cons_of_mem _ hr')
      have e : ((w.setApp r x).app r').prefIndex = (w.app r').prefIndex := by rw [show (w.setApp r x).app r' = _ from hset.app r']
      rw [e]
      exact ⟨h3, h4⟩

theorem foreign_single (depth u k : ℕ) (peak : List ℤ) (dt : ℤ) {us : List ℕ} (hu : u ∈ us) {w : Objects} (hf : AllForeign w us) :
    Sat (sharedSingle depth u k peak dt w) (fun x => x.2 = zeros ∧ SameForeign us w x.1) (fun _ => True) := by
  unfold sharedSingle
  refine sat_bind' sat_true fun pref _ => ?_
  have hsf : SameForeign us w (w.setPref u pref) := by
    refine ⟨settled_setPref w u pref, fun v hv => ?_⟩
    unfold Objects.setPref
    simp only
    rw [if_neg (fun h : v = u => hv (h ▸ hu))]
  have hf' := hf.same hsf
  exact Sat.post (foreign_loop depth k peak dt us _ fun r hr => (hf' u hu r hr).2) (fun y hy => ⟨hy.1, hsf.trans hy.2⟩)

theorem zeros_add_zeros : (fun i => zeros i + zeros i : Profile) = zeros := by funext i; simp [zeros]

theorem foreign_members (depth u k : ℕ) (peak : List ℤ) (dt : ℤ) {us : List ℕ} (hu : u ∈ us) (n : ℕ) : ∀ {w : Objects}, AllForeign w us →
    Sat (sharedAggregatedLoop depth u k peak dt n zeros w) (fun x => x.2 = zeros ∧ SameForeign us w x.1) (fun _ => True) := by
  induction n with
  | zero => intro w _; exact sat_pure ⟨rfl, .refl w, fun _ _ => rfl⟩
  | succ n ih =>
    intro w hf
    unfold sharedAggregatedLoop
    refine sat_bind' (foreign_single depth u k peak dt hu hf) ?_
    rintro ⟨w1, q⟩ ⟨h1, h2⟩
    simp only at h1 h2
    subst h1
    simp only
    rw [zeros_add_zeros]
    exact Sat.post (ih (hf.same h2)) (fun y hy => ⟨hy.1, h2.trans hy.2⟩)

theorem foreign_users (depth k : ℕ) (peak : List ℤ) (dt : ℤ) {us : List ℕ} (vs : List ℕ) : (∀ v ∈ vs, v ∈ us) → ∀ {w : Objects}, AllForeign w us →
    Sat (sharedUsersOfDay depth k peak dt vs zeros w) (fun x => x.2 = zeros ∧ SameForeign us w x.1) (fun _ => True) := by
  induction vs with
  | nil => intro _ w _; exact sat_pure ⟨rfl, .refl w, fun _ _ => rfl⟩
  | cons v vs ih =>
    intro hvs w hf
    have hv := hvs v (List.mem_cons_self ..)
    unfold sharedUsersOfDay sharedAggregated
    refine sat_bind' (P := fun x => x.2 = zeros ∧ SameForeign us w x.1) ?_ ?_
    · refine sat_bind' (foreign_members depth v k peak dt hv _ hf) ?_
      rintro ⟨w1, q⟩ ⟨h1, h2⟩
      refine sat_pure ⟨h1, h2.trans ⟨settled_setLoad w1 v q, fun x hx => ?_⟩⟩
      unfold Objects.setLoad
      simp only
      rw [if_neg (fun h : x = v => hx (h ▸ hv))]
    · rintro ⟨w1, q⟩ ⟨h1, h2⟩
      simp only at h1 h2
      subst h1
      simp only
      rw [zeros_add_zeros]
      exact Sat.post (ih (fun x hx => hvs x (List.mem_cons_of_mem _ hx)) (hf.same h2)) (fun y hy => ⟨hy.1, h2.trans hy.2⟩)

theorem foreign_days (depth : ℕ) (peak : List ℤ) (us : List ℕ) (ds : List ℤ) : ∀ (k : ℕ) {rows : List Profile} {w : Objects}, AllForeign w us →
    (∀ p ∈ rows, p = zeros) → Sat (sharedDaysLoop depth peak us k ds rows w) (fun x => ∀ p ∈ x.2, p = zeros) (fun _ => True) := by
  induction ds with
  | nil =>
    intro k rows w _ hz
    unfold sharedDaysLoop
    exact sat_pure hz
  | cons d ds ih =>
    intro k rows w hf hz
    unfold sharedDaysLoop
    refine sat_bind' (foreign_users depth k peak _ us (fun _ h => h) hf) ?_
    rintro ⟨w1, q⟩ ⟨h1, h2⟩
    simp only at h1 h2
    subst h1
    refine sat_ite (fun _ => ih (k + 1) (hf.same h2) ?_) (fun _ => sat_raise trivial)
    intro p hp
    rcases List.mem_or_eq_of_mem_set hp with h | h
    · exact hz p h
    · exact h

/-- **C94 (partial).** What goes wrong: appliances with a preference index that were created for users that are not part of the use case (or were last
simulated with another preference) are never on, whatever the preferences of the users that hold them. -/
theorem C94_foreign_never_on_partial {depth : ℕ} {us : List ℕ} {days peak : List ℤ} {w w' : Objects} {rows : List Profile} {rng rng' : Rng}
    (hf : AllForeign w us) (h : sharedGenerate depth us days peak w rng = .ok ((w', rows), rng')) : ∀ p ∈ rows, ∀ i, p i = 0 := by
  have hs : Sat (sharedGenerate depth us days peak w) (fun x => ∀ p ∈ x.2, p = zeros) (fun _ => True) := by
    unfold sharedGenerate
    refine sat_bind' (P := fun rows => ∀ p ∈ rows, p = zeros) ?_ (fun rows hz => foreign_days depth peak us days 0 hf hz)
    intro r
    unfold liftE emptyRows
    rw [if_neg (by omega)]
    intro p hp
    exact List.eq_of_mem_replicate hp
  have := hs rng
  rw [h] at this
  intro p hp i
  rw [this p hp]
  rfl

/-- Three members who always have the preference 1, holding a lamp for that preference created for another user, number 7. [no source: an example] -/
def borrowedLamp : Objects where
  app := fun _ => preferredLamp
  owner := fun _ => 7
  user := fun k => if k = 0 then { userName := "u", numUsers := 3, userPreference := 1, apps := [0] } else { userName := "other", numUsers := 20, userPreference := 1, apps := [0] }

/-- **C94 (partial).** The full statement is false: with its own copy of the lamp the user can have a load of 300 W; holding the lamp of another user it
never has any load; and the lamp is saved under the name of the other user. -/
theorem C94_full_statement_is_false_partial :
    (∃ uc' p, Returns (generateDaily ⟨0, none⟩ 1000 preferenceCase none) (uc', [p]) ∧ p 150 = 300) ∧
    List.Forall₂ (Describes borrowedLamp) [0] preferenceCase.users ∧
    (∀ rng w' rows rng', sharedGenerate 1000 [0] [5760] [] borrowedLamp rng = .ok ((w', rows), rng') → ∀ p ∈ rows, ∀ i, p i = 0) ∧
    (∃ rng w' rows rng', sharedGenerate 1000 [0] [5760] [] borrowedLamp rng = .ok ((w', rows), rng')) ∧
    ∀ row, sharedSaveAppliance borrowedLamp 0 = .ok row → row.head? = some ("user_name", .text "other") := by
  refine ⟨C52_preferences_lost_partial.1, ?_, ?_, ?_, ?_⟩
  · exact .cons ⟨rfl, rfl, .cons rfl .nil⟩ .nil
  · intro rng w' rows rng' h
    refine C94_foreign_never_on_partial ?_ h
    intro u hu r hr
    exact ⟨by simp [borrowedLamp], by simp [borrowedLamp, preferredLamp], by simp [borrowedLamp, preferredLamp]⟩
  · have hok : (match sharedGenerate 1000 [0] [5760] [] borrowedLamp (constantDraws 5) with | .ok _ => true | .error _ => false) = true := by
      decide +kernel
    cases h : sharedGenerate 1000 [0] [5760] [] borrowedLamp (constantDraws 5) with
    | error e => rw [h] at hok; cases hok
    | ok x => exact ⟨_, _, _, _, h⟩
  · intro row h
    unfold sharedSaveAppliance saveAppliance at h
    simp only at h
    split at h
    · cases h
    · cases h; rfl

end Ramp
