import Verif.Lemmas.RoundTrip
import Verif.Props.SaveLoad

/-! # Properties C53 and C57: saving a use case and loading it again -/

set_option autoImplicit false

namespace Ramp

/-! ## C53 -/

/-- **C53.** A use case whose users have distinct names and valid appliances is saved without error; loading the file into any use
case `uc0` succeeds and adds the same users in the same order, with the same attributes and equal appliances in the same order.  The
users that `uc0` had stay as they are. -/
theorem C53_save_then_load (strict : Bool) (uc uc0 : UseCase) (hne : uc.users ≠ [])
    (hn : (uc.users.map (fun u => u.userName)).Nodup) (hv : ∀ u ∈ uc.users, ValidUserToSave u)
    (hc : ∀ u ∈ uc.users, ComparableUser strict uc0.userDays u) (hd : 0 ≤ uc0.userDays) :
    ∃ t uc' us, saveUseCase uc = .ok t ∧ loadUseCase strict uc0 (toExcel t) = (uc', .ok ()) ∧
      uc'.users = uc0.users ++ us ∧ List.Forall₂ SameSavedUser uc.users us := by
  obtain ⟨t, vs, h1, h2, h3⟩ := load_saved hne hn hv hc hd
  exact ⟨t, _, vs, h1, h2, rfl, h3.imp (fun _ _ h => h.same hd)⟩

/-- **C53, saving again.** What is saved from the loaded users is, cell by cell, what was saved the first time. -/
theorem C53_save_load_save (strict : Bool) (uc uc0 : UseCase) (h0 : uc0.users = []) (hne : uc.users ≠ [])
    (hn : (uc.users.map (fun u => u.userName)).Nodup) (hv : ∀ u ∈ uc.users, ValidUserToSave u)
    (hc : ∀ u ∈ uc.users, ComparableUser strict uc0.userDays u) (hd : 0 ≤ uc0.userDays) :
    ∃ t uc', saveUseCase uc = .ok t ∧ loadUseCase strict uc0 (toExcel t) = (uc', .ok ()) ∧ saveUseCase uc' = .ok t := by
  obtain ⟨t, vs, h1, h2, h3⟩ := load_saved hne hn hv hc hd
  refine ⟨t, _, h1, h2, ?_⟩
  have happ : ∀ (u v : User) (l l' : List Appliance), v.userName = u.userName → v.numUsers = u.numUsers →
      v.userPreference = u.userPreference → (∀ a ∈ l, ValidToSave a) → List.Forall₂ (RestoredApp uc0.userDays) l l' →
      saveAppliances v l' = saveAppliances u l := by
    intro u v l l' e1 e2 e3 hval h
    induction h with
    | nil => rfl
    | @cons a b l l' hab hl ih =>
      have hp : savePower b.power = savePower a.power := by
        rcases hab.power with ⟨p, hp, hq⟩ | ⟨-, -, hq⟩
        · rw [savePower_constant hp, hq]
          apply savePower_constant
          refine ⟨?_, fun x hx => List.eq_of_mem_replicate hx⟩
          intro h
          have := congrArg List.length h
          simp at this
          omega
        · rw [hq]
      have hrow : ∀ c, savedRow v b c = savedRow u a c := by
        intro c
        have := hab.attributes
        unfold savedAttributes at this
        simp only [SavedAttributes.mk.injEq, List.cons.injEq, and_true] at this
        unfold savedRow
        simp only [e1, e2, e3, this]
      unfold saveAppliances
      rw [saveAppliance_eq, saveAppliance_eq, hp, ih (fun x hx => hval x (List.mem_cons_of_mem _ hx))]
      cases savePower a.power with
      | error e => rfl
      | ok c => simp only [hrow]
  have husers : ∀ (us vs : List User), (∀ u ∈ us, ValidUserToSave u) → List.Forall₂ (RestoredUser uc0.userDays) us vs →
      saveUsers vs = saveUsers us := by
    intro us vs hv h
    induction h with
    | nil => rfl
    | @cons u v us vs huv hs ih =>
      have h1 : saveUser v = saveUser u := by
        unfold saveUser
        have hvv : v.appList ≠ [] := by
          intro h0
          have := huv.appliances.length_eq
          rw [h0] at this
          exact (hv u (by simp)).some (List.length_eq_zero_iff.1 (by simpa using this))
        rw [if_neg hvv, if_neg (hv u (by simp)).some,
          happ u v _ _ (by rw [huv.head]) (by rw [huv.head]) (by rw [huv.head]) (hv u (by simp)).valid huv.appliances]
      unfold saveUsers
      rw [h1, ih (fun x hx => hv x (List.mem_cons_of_mem _ hx))]
  have hvs : vs ≠ [] := by
    intro h0
    have := h3.length_eq
    rw [h0] at this
    exact hne (List.length_eq_zero_iff.1 (by simpa using this))
  unfold saveUseCase at h1 ⊢
  rw [if_neg (by simpa using hne)] at h1
  show (if (uc0.users ++ vs).length = 0 then _ else saveUsers (uc0.users ++ vs)) = _
  rw [h0, List.nil_append, if_neg (by simpa using hvs), husers _ _ hv h3, h1]

end Ramp
