import Verif.Lemmas.Messages
import Verif.Spec14
import Verif.Props.NeverFails

/-! # Lemmas about the messages of `initialize` -/

set_option autoImplicit false

namespace Ramp

variable {α β : Type}

/-- A step that draws nothing, prints `l` and returns `a`. -/
theorem told_bind_ok {t : Traced Message α} {f : α → Traced Message β} {r : Rng} {l : List Message} {a : α} (h : t r = (l, .ok (a, r))) :
    (t >>= f) r = (l ++ (f a r).1, (f a r).2) := by
  rw [told_bind, h]

theorem apply_numDays (uc : UseCase) (n : Option ℤ) (r : Rng) : ∃ l, toldNumDays uc n r = (l, .ok (initNumDays uc n, r)) ∧
    ((l = [.daysProvided] ∧ n ≠ none ∧ uc.days ≠ none) ∨ (l = [] ∧ (n = none ∨ uc.days = none))) := by
  unfold toldNumDays initNumDays
  cases n with
  | none => exact ⟨[], rfl, .inr ⟨rfl, .inl rfl⟩⟩
  | some n =>
    cases hd : uc.days with
    | none => exact ⟨[], by simp only [Option.isSome_none, Bool.false_eq_true, if_false]; rfl, .inr ⟨rfl, .inr rfl⟩⟩
    | some d => exact ⟨[.daysProvided], by simp only [Option.isSome_some, if_true]; rfl, .inl ⟨rfl, by simp, by simp⟩⟩

/-- The two dates and the number of days are known and do not agree. -/
def DatesDiffer (uc : UseCase) : Prop := ∃ s e n, uc.dateStart = some s ∧ uc.dateEnd = some e ∧ uc.numDays = some n ∧ n ≠ ((dateRange s e).length : ℤ)

theorem apply_dates (uc : UseCase) (r : Rng) : ∃ l, toldDates uc r = (l, .ok (initDates uc, r)) ∧
    ((l = [.numDaysOverDates] ∧ DatesDiffer uc) ∨ (l = [] ∧ ¬ DatesDiffer uc)) := by
  unfold toldDates initDates
  cases hs : uc.dateStart with
  | none => exact ⟨[], rfl, .inr ⟨rfl, fun ⟨s, e, n, h1, _⟩ => by rw [hs] at h1; cases h1⟩⟩
  | some s => cases he : uc.dateEnd with
    | none => exact ⟨[], rfl, .inr ⟨rfl, fun ⟨s, e, n, _, h1, _⟩ => by rw [he] at h1; cases h1⟩⟩
    | some e => cases hn : uc.numDays with
      | none => exact ⟨[], rfl, .inr ⟨rfl, fun ⟨s, e, n, _, _, h1, _⟩ => by rw [hn] at h1; cases h1⟩⟩
      | some n =>
        dsimp only
        by_cases h : n ≠ ((dateRange s e).length : ℤ)
        · rw [if_pos h, if_pos h]
          exact ⟨[.numDaysOverDates], rfl, .inl ⟨rfl, s, e, n, hs, he, hn, h⟩⟩
        · rw [if_neg h, if_neg h]
          refine ⟨[], rfl, .inr ⟨rfl, ?_⟩⟩
          rintro ⟨s', e', n', h1, h2, h3, h4⟩
          rw [hs] at h1; rw [he] at h2; rw [hn] at h3
          cases h1; cases h2; cases h3
          exact h h4

theorem apply_input (env : Env) (uc : UseCase) (r : Rng) : ∃ l, toldInput env uc r = (l, .ok (initInput env uc, r)) ∧ ∀ m ∈ l, m = .pleaseWait := by
  unfold toldInput initInput
  cases uc.numDays with
  | some n => exact ⟨[], rfl, by simp⟩
  | none => cases env.input with
    | none => exact ⟨[], rfl, by simp⟩
    | some n => exact ⟨[.pleaseWait], rfl, by simp⟩

/-- What is announced: the number of days, the first day and the day after the last. -/
def Announces (uc : UseCase) (x : UseCase × Except Err Unit) (l : List Message) : Prop :=
  (∃ d ds, x.2 = .ok () ∧ x.1.days = some (d :: ds) ∧ l = [.willSimulate (uc.numDays.getD 0) d ((d :: ds).getLast (by simp) + 1440)]) ∨ (l = [] ∧ x.2 ≠ .ok ())

theorem apply_show (uc : UseCase) (f g : ℤ → ℤ → ℤ) (r : Rng) (hf : ∀ d ds, uc.days = some (d :: ds) → f d ((d :: ds).getLast (by simp)) = d)
    (hg : ∀ d ds, uc.days = some (d :: ds) → g d ((d :: ds).getLast (by simp)) = (d :: ds).getLast (by simp) + 1440) :
    ∃ l, toldShow uc f g r = (l, .ok (showDays uc, r)) ∧ Announces uc (showDays uc) l := by
  unfold toldShow showDays
  rcases hd : uc.days with _ | _ | ⟨d, ds⟩
  · exact ⟨[], rfl, .inr ⟨rfl, by simp⟩⟩
  · exact ⟨[], rfl, .inr ⟨rfl, by simp⟩⟩
  · refine ⟨_, rfl, .inl ⟨d, ds, rfl, hd, ?_⟩⟩
    rw [hf d ds hd, hg d ds hd]
    rfl

theorem head_from {s n : ℤ} {l : List ℤ} {d : ℤ} {ds : List ℤ} (h : dateRangeFrom s n = .ok l) (hl : l = d :: ds) : d = s := by
  rw [dateRangeFrom_eq] at h
  split_ifs at h with hn
  cases h
  have h1 : (daysFrom s n.toNat)[0]? = some d := by rw [hl]; rfl
  have hp : 0 < n.toNat := by
    by_contra hc
    rw [show n.toNat = 0 by omega] at hl
    cases hl
  rw [daysFrom_get _ _ _ hp] at h1
  simpa using h1.symm

theorem last_to {e n : ℤ} {l : List ℤ} {d : ℤ} {ds : List ℤ} (h : dateRangeTo e n = .ok l) (hl : l = d :: ds) : (d :: ds).getLast (by simp) = e := by
  rw [dateRangeTo_eq] at h
  split_ifs at h with hn
  cases h
  obtain ⟨k, hk⟩ : ∃ k, n.toNat = k + 1 := by
    refine ⟨n.toNat - 1, ?_⟩
    by_contra hc
    rw [show n.toNat = 0 by omega] at hl
    cases hl
  have h1 := daysFrom_getLast k (e - 1440 * (n - 1)) (by rw [← hk, hl]; simp)
  have h2 : (daysFrom (e - 1440 * (n - 1)) (k + 1)).getLast (by rw [← hk, hl]; simp) = (d :: ds).getLast (by simp) := by
    congr 1
    rw [← hk, hl]
  rw [← h2, h1]
  omega

theorem apply_days (env : Env) (uc : UseCase) (r : Rng) : ∃ l, toldDays env uc r = (l, .ok (initDays env uc, r)) ∧ Announces uc (initDays env uc) l := by
  unfold toldDays initDays chooseDays
  cases hd : uc.days with
  | some d => exact apply_show uc (fun d _ => d) (fun _ l => l + 1440) r (fun _ _ _ => rfl) (fun _ _ _ => rfl)
  | none => cases uc.dateStart with
    | some s => cases h : dateRangeFrom s (uc.numDays.getD 0) with
      | error e => simp only [h]; exact ⟨[], rfl, .inr ⟨rfl, by simp⟩⟩
      | ok d =>
        simp only [h]
        exact apply_show _ (fun _ _ => s) (fun _ l => l + 1440) r (fun d' ds' h' => (head_from h (by simpa using h')).symm) (fun _ _ _ => rfl)
    | none => cases uc.dateEnd with
      | some e => cases h : dateRangeTo e (uc.numDays.getD 0) with
        | error e => simp only [h]; exact ⟨[], rfl, .inr ⟨rfl, by simp⟩⟩
        | ok d =>
          simp only [h]
          exact apply_show _ (fun d _ => d) (fun _ _ => e + 1440) r (fun _ _ _ => rfl) (fun d' ds' h' => by
            show e + 1440 = _
            rw [last_to h (by simpa using h')])
      | none => cases h : dateRangeFrom env.today (uc.numDays.getD 0) with
        | error e => simp only [h]; exact ⟨[], rfl, .inr ⟨rfl, by simp⟩⟩
        | ok d =>
          simp only [h]
          exact apply_show _ (fun d _ => d) (fun _ l => l + 1440) r (fun _ _ _ => rfl) (fun _ _ _ => rfl)

theorem apply_powerValues (app : Appliance) (n : ℤ) (r : Rng) : ∃ l, toldPowerValues app n r = (l, .ok (checkPowerValues app n, r)) ∧
    ((l = [.powerUpdated app.name] ∧ app.constantPower = true ∧ (app.power.length : ℤ) < n) ∨ (l = [] ∧ ∀ b, checkPowerValues app n = .ok b → b = app)) := by
  unfold toldPowerValues checkPowerValues
  by_cases h1 : (app.power.length : ℤ) < n
  · rw [if_pos h1, if_pos h1]
    by_cases h2 : app.constantPower = true
    · rw [if_pos h2, if_pos h2]
      cases app.power.head? with
      | none => exact ⟨[], rfl, .inr ⟨rfl, fun b hb => by cases hb⟩⟩
      | some p => cases h : onesTimes (n + 1) p with
        | error e => simp only [h]; exact ⟨[], rfl, .inr ⟨rfl, fun b hb => by cases hb⟩⟩
        | ok l => simp only [h]; exact ⟨[.powerUpdated app.name], rfl, .inl ⟨rfl, h2, h1⟩⟩
    · rw [if_neg h2, if_neg h2]
      exact ⟨[], rfl, .inr ⟨rfl, fun b hb => by cases hb⟩⟩
  · rw [if_neg h1, if_neg h1]
    exact ⟨[], rfl, .inr ⟨rfl, fun b hb => by cases hb; rfl⟩⟩

theorem update_self {uc : UseCase} {r : ℕ × ℕ} {a : Appliance} (hn : ∀ u ∈ uc.users, (u.appList.map Appliance.oid).Nodup) (hf : uc.findApp r = some a) :
    uc.updateApp r a = uc := by
  unfold UseCase.findApp at hf
  obtain ⟨v, hv, hf⟩ := Option.bind_eq_some_iff.1 hf
  have ham := List.mem_of_find?_eq_some hf
  unfold UseCase.updateApp
  have : uc.users.modify r.1 (fun u => u.sync a) = uc.users := by
    refine List.ext_getElem (by simp) fun i hi hi' => ?_
    rw [List.getElem_modify]
    split_ifs with hri
    · have hvi : uc.users[i] = v := by
        subst hri
        exact (List.getElem?_eq_some_iff.1 hv).2
      rw [hvi]
      unfold User.sync
      have : v.appList.map (fun b => if b.oid = a.oid then a else b) = v.appList := by
        conv_rhs => rw [← List.map_id v.appList]
        apply List.map_congr_left
        intro c hc
        split_ifs with hco
        · have h1 := find_oid (hn v (List.mem_of_getElem? hv)) hc
          have h2 := find_oid (hn v (List.mem_of_getElem? hv)) ham
          rw [hco, h2] at h1
          simpa using h1
        · rfl
      rw [this]
    · rfl
  rw [this]

theorem findApp_mem {uc : UseCase} {r : ℕ × ℕ} {a : Appliance} (hf : uc.findApp r = some a) : ∃ u ∈ uc.users, a ∈ u.appList := by
  unfold UseCase.findApp at hf
  obtain ⟨v, hv, hf⟩ := Option.bind_eq_some_iff.1 hf
  exact ⟨v, List.mem_of_getElem? hv, List.mem_of_find?_eq_some hf⟩

theorem apply_powers (n : ℤ) (uc0 : UseCase) (r : Rng) : ∀ (rs : List (ℕ × ℕ)) (uc : UseCase),
    (∀ q a, uc.findApp q = some a → (a.power.length : ℤ) < n → uc0.findApp q = some a) →
    ∃ l, toldPowers n rs uc r = (l, .ok (checkPowers n rs uc, r)) ∧
      (∀ m ∈ l, ∃ u ∈ uc0.users, ∃ a ∈ u.appList, m = .powerUpdated a.name ∧ a.constantPower = true ∧ (a.power.length : ℤ) < n) ∧
      ((∀ u ∈ uc.users, (u.appList.map Appliance.oid).Nodup) → l = [] → (checkPowers n rs uc).1 = uc) := by
  intro rs
  induction rs with
  | nil => intro uc _; exact ⟨[], rfl, by simp, fun _ _ => rfl⟩
  | cons q rs ih =>
    intro uc h0
    unfold toldPowers checkPowers
    cases hf : uc.findApp q with
    | none => exact ⟨[], rfl, by simp, fun _ _ => rfl⟩
    | some a =>
      dsimp only
      obtain ⟨l1, e1, h1⟩ := apply_powerValues a n r
      rw [told_bind_ok e1]
      cases hc : checkPowerValues a n with
      | error e =>
        have hl : l1 = [] := by
          rcases h1 with ⟨_, h2, h3⟩ | ⟨h, _⟩
          · exfalso
            unfold toldPowerValues at e1
            rw [if_pos h3, if_pos h2] at e1
            rw [hc] at e1
            revert e1
            cases a.power.head? with
            | none => intro e1; have : l1 = [] := (congrArg Prod.fst e1).symm; simp_all
            | some p => cases ho : onesTimes (n + 1) p with
              | error e' => simp only [ho]; intro e1; have : l1 = [] := (congrArg Prod.fst e1).symm; simp_all
              | ok l => simp only [ho]; intro e1; have := congrArg Prod.snd e1; cases this
          · exact h
        subst hl
        exact ⟨[], rfl, by simp, fun _ _ => rfl⟩
      | ok b =>
        dsimp only
        obtain ⟨hlen, hoid, _⟩ := checkPowerValues_ok hc
        obtain ⟨l2, e2, h2, h3⟩ := ih (uc.updateApp q b) (by
          intro q' a' ha' hl'
          rw [findApp_updateApp hf hoid] at ha'
          split_ifs at ha' with hq
          · cases ha'
            omega
          · exact h0 q' a' ha' hl')
        rw [e2]
        refine ⟨l1 ++ l2, rfl, ?_, ?_⟩
        · intro m hm
          rcases List.mem_append.1 hm with hm | hm
          · rcases h1 with ⟨rfl, g1, g2⟩ | ⟨rfl, _⟩
            · obtain rfl := List.mem_singleton.1 hm
              obtain ⟨u, hu, hau⟩ := findApp_mem (h0 q a hf g2)
              exact ⟨u, hu, a, hau, rfl, g1, g2⟩
            · cases hm
          · exact h2 m hm
        · intro hn hl
          obtain ⟨hl1, hl2⟩ := List.append_eq_nil_iff.1 hl
          rcases h1 with ⟨g, _⟩ | ⟨_, g⟩
          · rw [hl1] at g; cases g
          · obtain rfl := g b hc
            rw [update_self hn hf] at h3 ⊢
            exact h3 hn hl2

end Ramp
