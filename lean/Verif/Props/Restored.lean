import Verif.Lemmas.Rename
import Verif.Lemmas.RoundTrip
import Verif.Props.Days
import Verif.Props.PeakHistory
import Verif.Props.RoundTrip

/-! # Property C76: a use case that was saved and loaded simulates like the original -/

set_option autoImplicit false

namespace Ramp

/-- The windows of the appliance may move by the fraction `random_var_w` of their length, as `windows()` sets it up. -/
structure WindowVariability (a : Appliance) : Prop where
  var1 : a.randomVar1 = pyInt (a.randomVarW * ((a.window1.2 - a.window1.1 : ℤ) : ℚ))
  var2 : a.randomVar2 = pyInt (a.randomVarW * ((a.window2.2 - a.window2.1 : ℤ) : ℚ))
  var3 : a.randomVar3 = pyInt (a.randomVarW * ((a.window3.2 - a.window3.1 : ℤ) : ℚ))

theorem saved_windows {a b : Appliance} (h : savedAttributes a = savedAttributes b) : b.window1 = a.window1 ∧ b.window2 = a.window2 ∧
    b.window3 = a.window3 ∧ b.randomVarW = a.randomVarW ∧ b.number = a.number := by
  unfold savedAttributes at h
  simp only [SavedAttributes.mk.injEq, List.cons.injEq, and_true] at h
  simp [h]

theorem restoredPower_day {n : ℤ} {l m : List ℚ} {k : ℕ} (h : RestoredPower n l m) (h1 : k < l.length) (h2 : (k : ℤ) ≤ n) :
    m[k]? = l[k]? := by
  rcases h with ⟨p, hp, rfl⟩ | ⟨-, -, rfl⟩
  · rw [List.getElem?_replicate_of_lt (by omega), List.getElem?_eq_getElem h1, hp.2 _ (List.getElem_mem h1)]
  · rfl

theorem restored_day {n : ℤ} {a b : Appliance} {k : ℕ} (h : RestoredApp n a b) (hv : WindowVariability a) (h1 : k < a.power.length)
    (h2 : (k : ℤ) ≤ n) {depth : ℕ} {peak : List ℤ} {dt pref : ℤ} {p : Profile} :
    ApplianceDay depth k peak dt pref b p ↔ ApplianceDay depth k peak dt pref a p := by
  obtain ⟨w1, w2, w3, rv, -⟩ := saved_windows h.attributes
  refine applianceDay_saved h.attributes ?_ ?_ ?_ (restoredPower_day h.power h1 h2)
  · rw [h.vars1, hv.var1, w1, rv]; rfl
  · rw [h.vars2, hv.var2, w2, rv]; rfl
  · rw [h.vars3, hv.var3, w3, rv]; rfl

theorem forall₂_iff_of {α β γ : Type} {R : α → β → Prop} {P : α → γ → Prop} {Q : β → γ → Prop} : ∀ {l : List α} {m : List β} {s : List γ},
    List.Forall₂ R l m → (∀ a ∈ l, ∀ b c, R a b → (Q b c ↔ P a c)) → (List.Forall₂ Q m s ↔ List.Forall₂ P l s)
  | [], [], s, .nil, _ => by
    constructor <;> (intro h; cases h; exact .nil)
  | a :: l, b :: m, s, .cons hab hl, h => by
    have ih := fun s => forall₂_iff_of (s := s) hl (fun x hx => h x (List.mem_cons_of_mem _ hx))
    constructor
    · intro hq
      cases hq with
      | cons h1 h2 => exact .cons ((h a (by simp) b _ hab).1 h1) ((ih _).1 h2)
    · intro hq
      cases hq with
      | cons h1 h2 => exact .cons ((h a (by simp) b _ hab).2 h1) ((ih _).2 h2)

theorem restored_caseDay {n : ℤ} {us vs : List User} {k : ℕ} (h : List.Forall₂ (RestoredUser n) us vs)
    (hv : ∀ u ∈ us, ∀ a ∈ u.appList, WindowVariability a) (hk : ∀ u ∈ us, ∀ a ∈ u.appList, k < a.power.length) (hn : (k : ℤ) ≤ n)
    {depth : ℕ} {peak : List ℤ} {dt : ℤ} {p : Profile} : CaseDay depth k peak dt vs p ↔ CaseDay depth k peak dt us p := by
  unfold CaseDay
  refine exists_congr fun ps => and_congr_left fun _ => ?_
  refine forall₂_iff_of h ?_
  intro u hu v q huv
  have hm : ∀ q, MemberDay depth k peak dt v q ↔ MemberDay depth k peak dt u q := by
    intro q
    unfold MemberDay
    refine exists_congr fun pref => exists_congr fun ps => ?_
    have e : PreferenceOf v pref ↔ PreferenceOf u pref := by
      unfold PreferenceOf
      rw [huv.head]
    rw [e, forall₂_iff_of huv.appliances (P := ApplianceDay depth k peak dt pref) (Q := ApplianceDay depth k peak dt pref)
      (fun a ha b c hab => restored_day hab (hv u hu a ha) (hk u hu a ha) hn)]
  unfold UserDay
  have e : v.numUsers = u.numUsers := by rw [huv.head]
  simp only [hm, e]

/-- **C76.** A use case that has been saved and loaded simulates like the original: for any days within the length of the powers and
any peak time range, the loaded users can produce exactly the load profiles that the original users can produce. -/
theorem C76_loaded_users_simulate_alike (strict : Bool) (uc uc0 : UseCase) (hne : uc.users ≠ [])
    (hn : (uc.users.map (fun u => u.userName)).Nodup) (hv : ∀ u ∈ uc.users, ValidUserToSave u)
    (hc : ∀ u ∈ uc.users, ComparableUser strict uc0.userDays u) (hd : 0 ≤ uc0.userDays)
    (hw : ∀ u ∈ uc.users, ∀ a ∈ u.appList, WindowVariability a) :
    ∃ t uc' us, saveUseCase uc = .ok t ∧ loadUseCase strict uc0 (toExcel t) = (uc', .ok ()) ∧ uc'.users = uc0.users ++ us ∧
      ∀ (one other : UseCase) (ds peak : List ℤ), one.users = uc.users → other.users = us → Ready one ds peak → Ready other ds peak →
        (∀ u ∈ uc.users, ∀ a ∈ u.appList, ds.length ≤ a.power.length) → (ds.length : ℤ) ≤ uc0.userDays + 1 →
        ∀ (env : Env) (depth : ℕ) (rows : List Profile),
          (∃ fin, Returns (generateDaily env depth other none) (fin, rows)) ↔ (∃ fin, Returns (generateDaily env depth one none) (fin, rows)) := by
  obtain ⟨t, vs, h1, h2, h3⟩ := load_saved hne hn hv hc hd
  refine ⟨t, _, vs, h1, h2, rfl, ?_⟩
  intro one other ds peak e1 e2 r1 r2 hl hlen env depth rows
  rw [C45_superposition none r1, C45_superposition none r2, e1, e2]
  refine and_congr_right fun hr => ?_
  refine forall_congr' fun k => forall_congr' fun d => forall_congr' fun p => ?_
  refine forall_congr' fun hk => ?_
  have hk' : k < ds.length := (List.getElem?_eq_some_iff.1 hk).1
  refine forall_congr' fun _ => ?_
  exact restored_caseDay h3 hw (fun u hu a ha => lt_of_lt_of_le hk' (hl u hu a ha)) (by omega)

theorem constant_mean {l : List ℚ} {p : ℚ} (h : ConstantPower l p) : l.sum / (l.length : ℚ) = p := by
  have : l = List.replicate l.length p := List.eq_replicate_iff.2 ⟨rfl, h.2⟩
  rw [this, List.sum_replicate, List.length_replicate, nsmul_eq_mul]
  have : (l.length : ℚ) ≠ 0 := by
    have := List.length_pos_of_ne_nil h.1
    positivity
  field_simp

/-- **C76.** As long as the original users have not been simulated, the loaded ones have the same possible peak time ranges. -/
theorem C76_loaded_users_same_peak (strict : Bool) (uc uc0 : UseCase) (hne : uc.users ≠ [])
    (hn : (uc.users.map (fun u => u.userName)).Nodup) (hv : ∀ u ∈ uc.users, ValidUserToSave u)
    (hc : ∀ u ∈ uc.users, ComparableUser strict uc0.userDays u) (hd : 0 ≤ uc0.userDays)
    (hu : ∀ u ∈ uc.users, ∀ a ∈ u.appList, Untouched a) :
    ∃ t uc' us, saveUseCase uc = .ok t ∧ loadUseCase strict uc0 (toExcel t) = (uc', .ok ()) ∧ uc'.users = uc0.users ++ us ∧
      ∀ pe, peakTimeRangeOf us pe = peakTimeRangeOf uc.users pe := by
  obtain ⟨t, vs, h1, h2, h3⟩ := load_saved hne hn hv hc hd
  refine ⟨t, _, vs, h1, h2, rfl, ?_⟩
  intro pe
  unfold peakTimeRangeOf
  have hmax : ∀ us vs : List User, List.Forall₂ (RestoredUser uc0.userDays) us vs → (∀ u ∈ us, ValidUserToSave u) →
      (∀ u ∈ us, ∀ a ∈ u.appList, Untouched a) → maximumLoad vs = maximumLoad us := by
    intro us vs h3 hv hu
    funext i
    unfold maximumLoad
    congr 1
    induction h3 with
    | nil => rfl
    | @cons u v us vs huv _ ih =>
      rw [List.map_cons, List.map_cons, ih (fun x hx => hv x (by simp [hx])) (fun x hx => hu x (by simp [hx]))]
      congr 1
      have e : v.numUsers = u.numUsers := by rw [huv.head]
      rw [e]
      congr 2
      have key : ∀ {l m : List Appliance}, List.Forall₂ (RestoredApp uc0.userDays) l m → (∀ a ∈ l, ValidToSave a ∧ Untouched a) →
          m.map (fun a => a.dailyUse i * (a.power.sum / (a.power.length : ℚ)) * (a.number : ℚ)) =
          l.map (fun a => a.dailyUse i * (a.power.sum / (a.power.length : ℚ)) * (a.number : ℚ)) := by
        intro l m h
        induction h with
        | nil => intro _; rfl
        | @cons a b l m hab _ ih =>
          intro hl
          rw [List.map_cons, List.map_cons, ih (fun x hx => hl x (by simp [hx]))]
          congr 1
          obtain ⟨w1, w2, w3, -, hnum⟩ := saved_windows hab.attributes
          have va := (hl a (by simp)).1
          have hday : b.dailyUse i = a.dailyUse i := by
            have := hab.use
            rw [w1, w2, w3, fillWindows_ok _ va.window1 va.window2 va.window3] at this
            injection this with this
            rw [← this, (hl a (by simp)).2 i]
            rfl
          have hmean : b.power.sum / (b.power.length : ℚ) = a.power.sum / (a.power.length : ℚ) := by
            rcases hab.power.same hd with h | ⟨p, h1, h2⟩
            · rw [h]
            · rw [constant_mean h1, constant_mean h2]
          rw [hday, hmean, hnum]
      exact key huv.appliances (fun a ha => ⟨(hv u (by simp)).valid a ha, hu u (by simp) a ha⟩)
  rw [maximumLoad_eq, maximumLoad_eq, hmax _ _ h3 hv hu]

end Ramp
