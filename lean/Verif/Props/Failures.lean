import Verif.Props.NeverFails
import Verif.Props.CyclesExact

/-! # C87: where the exceptions of a simulation come from -/

set_option autoImplicit false

namespace Ramp

/-- The exception `e` on day `k` from the appliance `a` on its own: it has no power value for the day, or its generation raises. -/
def ApplianceFails (depth k : ℕ) (peak : List ℤ) (dt pref : ℤ) (a : Appliance) (e : Err) : Prop :=
  (a.power[k]? = none ∧ e = .indexError) ∨ ∃ p, a.power[k]? = some p ∧ Raises (generateLoadProfile a depth pref k peak dt p) e

/-- The exception `e` on day `k` from the user `u`: a member draws from a negative number of preferences, or an appliance fails. -/
def UserFails (depth k : ℕ) (peak : List ℤ) (dt : ℤ) (u : User) (e : Err) : Prop :=
  0 < u.numUsers ∧ ((u.userPreference < 0 ∧ e = .valueError) ∨
    ∃ pref, PreferenceOf u pref ∧ ∃ a ∈ u.appList, ApplianceFails depth k peak dt pref a e)

theorem applianceFails_same {depth k : ℕ} {peak : List ℤ} {dt pref : ℤ} {a b : Appliance} {e : Err} (h : SameDefinition a b)
    (ha : ApplianceFails depth k peak dt pref a e) : ApplianceFails depth k peak dt pref b e := by
  rcases ha with ⟨h1, h2⟩ | ⟨p, h1, r, hr⟩
  · exact .inl ⟨by rw [h.power]; exact h1, h2⟩
  · refine .inr ⟨p, by rw [h.power]; exact h1, r, ?_⟩
    rcases rel_generate h depth pref k peak dt p r with ⟨e', h3, h4⟩ | ⟨x, y, s, h3, _, _⟩
    · rw [hr] at h3
      cases h3
      exact h4
    · rw [hr] at h3; cases h3

theorem userFails_same {depth k : ℕ} {peak : List ℤ} {dt : ℤ} {u v : User} {e : Err} (h : SameUser u v) (hv : UserFails depth k peak dt v e) :
    UserFails depth k peak dt u e := by
  obtain ⟨h1, h2⟩ := hv
  refine ⟨by rw [← h.number]; exact h1, ?_⟩
  rcases h2 with ⟨h2, h3⟩ | ⟨pref, hp, a, ha, hf⟩
  · exact .inl ⟨by rw [← h.preference]; exact h2, h3⟩
  · refine .inr ⟨pref, ?_, ?_⟩
    · unfold PreferenceOf at hp ⊢
      rw [← h.preference]
      exact hp
    · obtain ⟨i, hi, rfl⟩ := List.mem_iff_getElem.1 ha
      have hfa := h.appliances
      rw [List.forall₂_iff_get] at hfa
      have hi' : i < u.appList.length := by omega
      have := hfa.2 i hi' hi
      rw [List.get_eq_getElem, List.get_eq_getElem] at this
      exact ⟨_, List.getElem_mem hi', applianceFails_same this.symm hf⟩

theorem not_raises_pure {α : Type} {a : α} {e : Err} : ¬ Raises (pure a : Sim α) e := fun ⟨_, h⟩ => by cases h

theorem fails_singleLoop {depth k : ℕ} {peak : List ℤ} {dt pref : ℤ} {e : Err} : ∀ {apps : List Appliance} {load : Profile},
    Raises (singleLoop depth k peak dt pref apps load) e → ∃ a ∈ apps, ApplianceFails depth k peak dt pref a e
  | [], _, h => by unfold singleLoop at h; exact absurd h not_raises_pure
  | a :: apps, load, h => by
    unfold singleLoop at h
    cases hp : a.power[k]? with
    | none =>
      rw [hp] at h
      obtain ⟨r, hr⟩ := h
      cases hr
      exact ⟨a, by simp, .inl ⟨hp, rfl⟩⟩
    | some p =>
      rw [hp] at h
      simp only at h
      rcases (raises_bind (fin_generate _ _ _ _ _ _ _)).1 h with h | ⟨x, _, h⟩
      · exact ⟨a, by simp, .inr ⟨p, hp, h⟩⟩
      · rcases (raises_bind (fin_singleLoop _ _ _ _ _ _ _)).1 h with h | ⟨y, _, h⟩
        · obtain ⟨b, hb, hf⟩ := fails_singleLoop h
          exact ⟨b, by simp [hb], hf⟩
        · exact absurd h not_raises_pure

theorem fails_single {depth k : ℕ} {peak : List ℤ} {dt : ℤ} {u : User} {e : Err} (hn : 0 < u.numUsers)
    (h : Raises (generateSingleLoadProfile depth u k peak dt) e) : UserFails depth k peak dt u e := by
  refine ⟨hn, ?_⟩
  unfold generateSingleLoadProfile at h
  rcases (raises_bind (fin_drawPreference _)).1 h with h | ⟨pref, hp, h⟩
  · left
    by_contra hc
    have h0 : 0 ≤ u.userPreference := by
      by_contra hlt
      apply hc
      refine ⟨by omega, ?_⟩
      obtain ⟨r, hr⟩ := h
      unfold drawPreference at hr
      rw [if_neg (by omega)] at hr
      simp only [randint] at hr
      rw [if_pos (by omega)] at hr
      cases hr
      rfl
    exact never_drawPreference.2 h0 e h
  · right
    rcases (raises_bind (fin_singleLoop _ _ _ _ _ _ _)).1 h with h | ⟨y, _, h⟩
    · exact ⟨pref, returns_drawPreference.1 hp, fails_singleLoop h⟩
    · exact absurd h not_raises_pure

theorem fails_aggregatedLoop {depth k : ℕ} {peak : List ℤ} {dt : ℤ} {e : Err} : ∀ {n : ℕ} {u : User} {load : Profile}, 0 < u.numUsers →
    Raises (aggregatedLoop depth k peak dt n u load) e → UserFails depth k peak dt u e
  | 0, _, _, _, h => by unfold aggregatedLoop at h; exact absurd h not_raises_pure
  | n + 1, u, load, hn, h => by
    unfold aggregatedLoop at h
    rcases (raises_bind (fin_single _ _ _ _ _)).1 h with h | ⟨⟨u', p⟩, hx, h⟩
    · exact fails_single hn h
    · have hs := (returns_single hx).1
      exact userFails_same hs (fails_aggregatedLoop (by rw [hs.number]; exact hn) h)

theorem fails_aggregated {depth k : ℕ} {peak : List ℤ} {dt : ℤ} {u : User} {e : Err} (h : Raises (generateAggregatedLoadProfile depth u k peak dt) e) :
    UserFails depth k peak dt u e := by
  unfold generateAggregatedLoadProfile at h
  rcases (raises_bind (fin_aggregatedLoop _ _ _ _ _ _ _)).1 h with h | ⟨_, _, h⟩
  · by_cases hn : 0 < u.numUsers
    · exact fails_aggregatedLoop hn h
    · rw [Int.toNat_of_nonpos (by omega)] at h
      unfold aggregatedLoop at h
      exact absurd h not_raises_pure
  · exact absurd h not_raises_pure

theorem fails_usersOfDay {depth k : ℕ} {peak : List ℤ} {dt : ℤ} {e : Err} : ∀ {us : List User} {load : Profile},
    Raises (usersOfDay depth k peak dt us load) e → ∃ u ∈ us, UserFails depth k peak dt u e
  | [], _, h => by unfold usersOfDay at h; exact absurd h not_raises_pure
  | u :: us, load, h => by
    unfold usersOfDay at h
    rcases (raises_bind (fin_aggregated _ _ _ _ _)).1 h with h | ⟨_, _, h⟩
    · exact ⟨u, by simp, fails_aggregated h⟩
    · rcases (raises_bind (fin_usersOfDay _ _ _ _ _ _)).1 h with h | ⟨_, _, h⟩
      · obtain ⟨v, hv, hf⟩ := fails_usersOfDay h
        exact ⟨v, by simp [hv], hf⟩
      · exact absurd h not_raises_pure

theorem userFails_sameUsers {depth k : ℕ} {peak : List ℤ} {dt : ℤ} {us vs : List User} {e : Err} (h : List.Forall₂ SameUser us vs)
    (hv : ∃ v ∈ vs, UserFails depth k peak dt v e) : ∃ u ∈ us, UserFails depth k peak dt u e := by
  induction h with
  | nil => simpa using hv
  | @cons u v us vs h1 _ ih =>
    obtain ⟨w, hw, hf⟩ := hv
    rcases List.mem_cons.1 hw with rfl | hw
    · exact ⟨u, by simp, userFails_same h1 hf⟩
    · obtain ⟨x, hx, hf⟩ := ih ⟨w, hw, hf⟩
      exact ⟨x, by simp [hx], hf⟩

theorem fails_daysLoop {depth : ℕ} {peak : List ℤ} {e : Err} : ∀ {k : ℕ} {ds : List ℤ} {us : List User} {rows : List Profile},
    rows.length = k + ds.length → Raises (daysLoop depth peak k ds us rows) e →
    ∃ (j : ℕ) (d : ℤ), ds[j]? = some d ∧ ∃ u ∈ us, UserFails depth (k + j) peak (typeOfDay d) u e
  | _, [], _, _, _, h => by unfold daysLoop at h; exact absurd h not_raises_pure
  | k, d :: ds, us, rows, hl, h => by
    unfold daysLoop at h
    rw [dayType_spec] at h
    rcases (raises_bind (fin_usersOfDay _ _ _ _ _ _)).1 h with h | ⟨⟨us', load⟩, hx, h⟩
    · exact ⟨0, d, rfl, fails_usersOfDay h⟩
    · have hs := (returns_usersOfDay hx).1
      simp only [List.length_cons] at hl
      simp only at h
      rw [if_pos (by omega)] at h
      obtain ⟨j, d', hd, hf⟩ := fails_daysLoop (by rw [List.length_set]; omega) h
      refine ⟨j + 1, d', by simpa using hd, ?_⟩
      rw [show k + (j + 1) = k + 1 + j by omega]
      exact userFails_sameUsers hs hf

/-- **C87.** Every exception of a simulation is one that an appliance as the user configured it raises on its own on one of the days (the same
exception, whatever happened before in the simulation), or comes from a power table that is too short or a negative number of preferences. -/
theorem C87_source {env : Env} {depth : ℕ} {uc : UseCase} {ds peak : List ℤ} (days : Option (List ℤ)) (hr : Ready uc ds peak) {e : Err}
    (h : Raises (generateDaily env depth uc days) e) :
    ∃ (k : ℕ) (d : ℤ), ds[k]? = some d ∧ ∃ u ∈ uc.users, 0 < u.numUsers ∧ ((u.userPreference < 0 ∧ e = .valueError) ∨
      ∃ pref, PreferenceOf u pref ∧ ∃ a ∈ u.appList, (a.power[k]? = none ∧ e = .indexError) ∨
        ∃ p, a.power[k]? = some p ∧ Raises (generateLoadProfile a depth pref k peak (typeOfDay d) p) e) := by
  obtain ⟨k, d, hd, u, hu, hf⟩ := fails_daysLoop (by simp) ((raises_ready days hr e).1 h)
  rw [Nat.zero_add] at hf
  exact ⟨k, d, hd, u, hu, hf⟩

/-- **C87.** When every appliance has a safe configuration and a power value for every day, the only exception of a simulation is
`RecursionError`, and only because some possible event of an appliance with duty cycles overlaps none of its duty cycle windows. -/
theorem C87_only_recursion {env : Env} {depth : ℕ} {uc : UseCase} {ds peak : List ℤ} (days : Option (List ℤ)) (hr : Ready uc ds peak)
    (hp : peak ≠ []) (hpref : ∀ u ∈ uc.users, 0 ≤ u.userPreference) (hs : ∀ u ∈ uc.users, ∀ a ∈ u.appList, SafeConfig a ∧ OrderedCycleWindows a ∧
      (0 < a.fixedCycle → a.continuousDutyCycle ≠ 0) ∧ ds.length ≤ a.power.length) {e : Err}
    (h : Raises (generateDaily env (depth + 1) uc days) e) :
    e = .recursionError ∧ ∃ u ∈ uc.users, ∃ a ∈ u.appList, 0 < a.fixedCycle ∧ a.flat ≠ "yes" ∧ UncoveredEvent a := by
  obtain ⟨k, d, hd, u, hu, _, ⟨h1, _⟩ | ⟨pref, _, a, ha, ⟨h1, _⟩ | ⟨p, h1, h2⟩⟩⟩ := C87_source days hr h
  · have := hpref u hu
    omega
  · obtain ⟨_, _, _, h4⟩ := hs u hu a ha
    have hk := (List.getElem?_eq_some_iff.1 hd).1
    rw [List.getElem?_eq_none_iff] at h1
    omega
  · obtain ⟨h3, h4, h5, h6⟩ := hs u hu a ha
    have hk := (List.getElem?_eq_some_iff.1 h1).1
    obtain ⟨he, hfl, h7 | ⟨hfix, w, s, dd, hm, hs1, hs2, hs3, n1, n2, n3⟩⟩ := raises_safe h3 hp (fun _ => hk) h5 h4 (raises_generate_iff.1 h2)
    · omega
    · have hmono := overlaps_mono (app := a) (a := s) hs3
      exact ⟨he, u, hu, a, ha, hfix, hfl, w, s, hm, hs1, by omega, fun h => n1 (hmono.1 h), fun h => n2 (hmono.2.1 h), fun h => n3 (hmono.2.2 h)⟩

end Ramp
