import Verif.Lemmas.Days

/-! # Lemmas on parallel mode -/

set_option autoImplicit false

namespace Ramp

/-- `r` is a possible result of the task `t`, run on the appliance as it was when the task was made. -/
def TaskResult (depth : ℕ) (peak : List ℤ) (t : Task) (r : ℕ × Profile) : Prop :=
  r.1 = t.dayIdx ∧ ApplianceDay depth t.dayIdx peak t.dayType t.pref t.app r.2

/-- The tasks agree on which appliance an identity stands for. -/
def Coherent (ts : List Task) : Prop := ∀ s ∈ ts, ∀ t ∈ ts, s.user = t.user → s.app.oid = t.app.oid → SameDefinition s.app t.app

/-- The same task up to what runs leave in the appliance. -/
def SameTask (s t : Task) : Prop := ∃ b, SameDefinition s.app b ∧ t = { s with app := b }

theorem SameDefinition.oid {a b : Appliance} (h : SameDefinition a b) : b.oid = a.oid := by
  unfold SameDefinition at h
  rw [h]

theorem taskResult_same {depth : ℕ} {peak : List ℤ} {s t : Task} (h : SameTask s t) {r : ℕ × Profile} :
    TaskResult depth peak t r ↔ TaskResult depth peak s r := by
  obtain ⟨b, hb, rfl⟩ := h
  unfold TaskResult
  exact ⟨fun ⟨h1, h2⟩ => ⟨h1, applianceDay_same hb h2⟩, fun ⟨h1, h2⟩ => ⟨h1, applianceDay_same hb.symm h2⟩⟩

/-- What `runChunk` does to the remaining tasks. -/
def passOn (t : Task) (app : Appliance) (s : Task) : Task := if s.user = t.user ∧ s.app.oid = app.oid then { s with app := app } else s

theorem passOn_same {t : Task} {ts : List Task} (hc : Coherent (t :: ts)) {app : Appliance} (ha : SameDefinition t.app app) (s : Task) (hs : s ∈ ts) :
    SameTask s (passOn t app s) := by
  unfold passOn
  split_ifs with h
  · refine ⟨app, ?_, rfl⟩
    rw [ha.oid] at h
    exact (hc s (by simp [hs]) t (by simp) h.1 h.2).trans ha
  · exact ⟨s.app, SameDefinition.refl _, rfl⟩

theorem sameTask_props {s t : Task} (h : SameTask s t) : t.user = s.user ∧ t.app.oid = s.app.oid ∧ SameDefinition s.app t.app := by
  obtain ⟨b, hb, rfl⟩ := h
  exact ⟨rfl, hb.oid, hb⟩

theorem coherent_passOn {t : Task} {ts : List Task} (hc : Coherent (t :: ts)) {app : Appliance} (ha : SameDefinition t.app app) :
    Coherent (ts.map (passOn t app)) := by
  intro x hx y hy h1 h2
  obtain ⟨s, hs, rfl⟩ := List.mem_map.1 hx
  obtain ⟨s', hs', rfl⟩ := List.mem_map.1 hy
  obtain ⟨a1, a2, a3⟩ := sameTask_props (passOn_same hc ha s hs)
  obtain ⟨b1, b2, b3⟩ := sameTask_props (passOn_same hc ha s' hs')
  rw [a1, b1] at h1
  rw [a2, b2] at h2
  exact (a3.symm.trans (hc s (by simp [hs]) s' (by simp [hs']) h1 h2)).trans b3

theorem forall₂_map_same {α β : Type} {R : α → β → Prop} {f : α → α} : ∀ {l : List α} {m : List β}, (∀ a ∈ l, ∀ b, R (f a) b ↔ R a b) →
    (List.Forall₂ R (l.map f) m ↔ List.Forall₂ R l m)
  | [], m, _ => by simp
  | a :: l, m, h => by
    rw [List.map_cons]
    cases m with
    | nil => constructor <;> (intro h; cases h)
    | cons b m => rw [List.forall₂_cons, List.forall₂_cons, h a (by simp), forall₂_map_same fun x hx => h x (by simp [hx])]

theorem runChunk_cons (depth : ℕ) (peak : List ℤ) (t : Task) (ts : List Task) : runChunk depth peak (t :: ts) =
    (match t.app.power[t.dayIdx]? with
    | none => raise .indexError
    | some p => do
      let app ← generateLoadProfile t.app depth t.pref t.dayIdx peak t.dayType p
      let rest ← runChunk depth peak (ts.map (passOn t app))
      pure ((t.dayIdx, app.dailyUse) :: rest)) := by
  rw [runChunk.eq_def]
  rfl

theorem runChunk_nil (depth : ℕ) (peak : List ℤ) : runChunk depth peak [] = pure [] := by rw [runChunk.eq_def]

theorem fin_runChunk (depth : ℕ) (peak : List ℤ) (n : ℕ) : ∀ (ts : List Task), ts.length = n → Finitary (runChunk depth peak ts) := by
  induction n with
  | zero =>
    intro ts h
    rw [List.length_eq_zero_iff.1 h, runChunk_nil]
    exact fin_pure _
  | succ n ih =>
    intro ts h
    obtain ⟨t, ts, rfl⟩ := List.exists_cons_of_length_eq_add_one h
    rw [runChunk_cons]
    split
    · exact fin_raise _
    · exact fin_bind (fin_generate _ _ _ _ _ _ _) fun app => fin_bind (ih _ (by simpa using h)) fun _ => fin_pure _

/-- The possible results of a chunk: one possible result for every task. -/
theorem returns_runChunk {depth : ℕ} {peak : List ℤ} (n : ℕ) : ∀ {ts : List Task} {res : List (ℕ × Profile)}, ts.length = n → Coherent ts →
    (Returns (runChunk depth peak ts) res ↔ List.Forall₂ (TaskResult depth peak) ts res) := by
  induction n with
  | zero =>
    intro ts res h _
    rw [List.length_eq_zero_iff.1 h, runChunk_nil, returns_pure]
    constructor
    · rintro rfl; exact .nil
    · intro h; cases h; rfl
  | succ n ih =>
    intro ts res hn hc
    obtain ⟨t, ts, rfl⟩ := List.exists_cons_of_length_eq_add_one hn
    have hn' : ts.length = n := by simpa using hn
    rw [runChunk_cons]
    cases hp : t.app.power[t.dayIdx]? with
    | none =>
      simp only
      constructor
      · intro h; exact absurd h returns_raise
      · intro h
        cases h with
        | cons h _ =>
          obtain ⟨_, pw, _, h2, _⟩ := h
          rw [hp] at h2; cases h2
    | some p =>
      simp only
      rw [returns_bind (fin_generate _ _ _ _ _ _ _)]
      constructor
      · rintro ⟨app, h1, h2⟩
        have ha := (sat_generate_same _ _ _ _ _ _ _).ret h1
        obtain ⟨rest, h3, h4⟩ := (returns_bind (fin_runChunk _ _ _ _ rfl)).1 h2
        have := returns_pure.1 h4
        subst this
        rw [ih (by simpa using hn') (coherent_passOn hc ha)] at h3
        rw [forall₂_map_same (fun s hs r => taskResult_same (passOn_same hc ha s hs))] at h3
        exact .cons ⟨rfl, p, app, hp, h1, rfl⟩ h3
      · intro h
        cases h with
        | @cons _ r _ rest h1 h2 =>
          obtain ⟨e1, pw, app, e2, e3, e4⟩ := h1
          rw [hp] at e2
          cases e2
          have ha := (sat_generate_same _ _ _ _ _ _ _).ret e3
          refine ⟨app, e3, (returns_bind (fin_runChunk _ _ _ _ rfl)).2 ⟨rest, ?_, ?_⟩⟩
          · rw [ih (by simpa using hn') (coherent_passOn hc ha)]
            rw [forall₂_map_same (fun s hs r => taskResult_same (passOn_same hc ha s hs))]
            exact h2
          · rw [returns_pure]
            congr 1
            exact Prod.ext e1 e4

/-- A chunk fails only if some task can. -/
theorem runChunk_total {depth : ℕ} {peak : List ℤ} (n : ℕ) : ∀ {ts : List Task}, ts.length = n → Coherent ts →
    (∀ t ∈ ts, ∃ p, t.app.power[t.dayIdx]? = some p ∧ ∀ e, ¬ Raises (generateLoadProfile t.app depth t.pref t.dayIdx peak t.dayType p) e) →
    ∀ rng, ∃ res rng', runChunk depth peak ts rng = .ok (res, rng') := by
  induction n with
  | zero =>
    intro ts h _ _ rng
    rw [List.length_eq_zero_iff.1 h, runChunk_nil]
    exact ⟨[], rng, rfl⟩
  | succ n ih =>
    intro ts hn hc ht rng
    obtain ⟨t, ts, rfl⟩ := List.exists_cons_of_length_eq_add_one hn
    have hn' : ts.length = n := by simpa using hn
    rw [runChunk_cons]
    obtain ⟨p, hp, hr⟩ := ht t (by simp)
    rw [hp]
    simp only
    cases hg : generateLoadProfile t.app depth t.pref t.dayIdx peak t.dayType p rng with
    | error e => exact absurd ⟨rng, hg⟩ (hr e)
    | ok q =>
      obtain ⟨app, r1⟩ := q
      have ha := (sat_generate_same _ _ _ _ _ _ _).ret ⟨_, _, hg⟩
      obtain ⟨rest, r2, h2⟩ := ih (ts := ts.map (passOn t app)) (by simpa using hn') (coherent_passOn hc ha)
        (by
          intro s hs
          obtain ⟨s0, hs0, rfl⟩ := List.mem_map.1 hs
          obtain ⟨b, hb, hst⟩ := passOn_same hc ha s0 hs0
          obtain ⟨p0, h3, h4⟩ := ht s0 (by simp [hs0])
          rw [hst]
          refine ⟨p0, by simp only; rw [hb.power]; exact h3, fun e he => ?_⟩
          simp only at he
          obtain ⟨r0, hr0⟩ := he
          rcases rel_generate hb depth s0.pref s0.dayIdx peak s0.dayType p0 r0 with ⟨e', h5, h6⟩ | ⟨x, y, s, h5, h6, _⟩
          · exact h4 e' ⟨r0, h5⟩
          · rw [hr0] at h6; cases h6) r1
      refine ⟨(t.dayIdx, app.dailyUse) :: rest, r2, ?_⟩
      rw [bind_ok hg, bind_ok h2]
      rfl

/-! ## Collecting the chunks -/

/-- The result of chunk `k`. -/
def chunkResult (depth : ℕ) (peak : List ℤ) (chs : List (List Task)) (rngs : ℕ → Rng) (k : ℕ) : Except Err (List (ℕ × Profile)) :=
  match runChunk depth peak ((chs[k]?).getD []) (rngs k) with
  | .error e => .error e
  | .ok (l, _) => .ok l

theorem collect_ok {depth : ℕ} {peak : List ℤ} {chs : List (List Task)} {rngs : ℕ → Rng} : ∀ {order : List ℕ} {l : List (ℕ × Profile)},
    collectChunks depth peak chs rngs order = .ok l ↔
      ∃ ls, List.Forall₂ (fun k r => chunkResult depth peak chs rngs k = .ok r) order ls ∧ l = ls.flatten
  | [], l => by
    unfold collectChunks
    constructor
    · intro h; cases h; exact ⟨[], .nil, rfl⟩
    · rintro ⟨ls, h, rfl⟩; cases h; rfl
  | k :: order, l => by
    unfold collectChunks
    cases hr : runChunk depth peak ((chs[k]?).getD []) (rngs k) with
    | error e =>
      simp only
      constructor
      · intro h; cases h
      · rintro ⟨ls, h, _⟩
        cases h with
        | cons h _ => unfold chunkResult at h; rw [hr] at h; cases h
    | ok p =>
      simp only
      have hk : chunkResult depth peak chs rngs k = .ok p.1 := by unfold chunkResult; rw [hr]
      cases hc : collectChunks depth peak chs rngs order with
      | error e =>
        simp only
        constructor
        · intro h; cases h
        · rintro ⟨ls, h, _⟩
          cases h with
          | cons h1 h2 => 
            have := collect_ok.2 ⟨_, h2, rfl⟩
            rw [hc] at this; cases this
      | ok rest =>
        simp only
        obtain ⟨ls, h1, h2⟩ := collect_ok.1 hc
        constructor
        · intro h
          cases h
          exact ⟨p.1 :: ls, .cons hk h1, by simp [h2]⟩
        · rintro ⟨ls', h, rfl⟩
          cases h with
          | @cons _ r _ ls'' h3 h4 =>
            rw [hk] at h3
            cases h3
            have := collect_ok.2 ⟨_, h4, rfl⟩
            rw [hc] at this
            cases this
            rfl

theorem forall₂_of_all {α β : Type} {R : α → β → Prop} : ∀ {l : List α}, (∀ a ∈ l, ∃ b, R a b) → ∃ m, List.Forall₂ R l m
  | [], _ => ⟨[], .nil⟩
  | a :: l, h => by
    obtain ⟨b, hb⟩ := h a (by simp)
    obtain ⟨m, hm⟩ := forall₂_of_all fun x hx => h x (List.mem_cons_of_mem a hx)
    exact ⟨b :: m, .cons hb hm⟩

theorem forall₂_perm {α β : Type} {R : α → β → Prop} {l l' : List α} (h : l.Perm l') : ∀ {m : List β}, List.Forall₂ R l m →
    ∃ m', List.Forall₂ R l' m' ∧ m.Perm m' := by
  induction h with
  | nil => intro m h; cases h; exact ⟨[], .nil, .nil⟩
  | cons x _ ih =>
    intro m h
    cases h with
    | cons h1 h2 =>
      obtain ⟨m', h3, h4⟩ := ih h2
      exact ⟨_ :: m', .cons h1 h3, h4.cons _⟩
  | swap x y l =>
    intro m h
    cases h with
    | cons h1 h2 => cases h2 with
      | cons h3 h4 => exact ⟨_, .cons h3 (.cons h1 h4), .swap _ _ _⟩
  | trans _ _ ih1 ih2 =>
    intro m h
    obtain ⟨m1, h1, h2⟩ := ih1 h
    obtain ⟨m2, h3, h4⟩ := ih2 h1
    exact ⟨m2, h3, h2.trans h4⟩

theorem perm_flatten {α : Type} {l m : List (List α)} (h : l.Perm m) : l.flatten.Perm m.flatten := h.flatten

theorem collect_perm {depth : ℕ} {peak : List ℤ} {chs : List (List Task)} {rngs : ℕ → Rng} {order order' : List ℕ} (h : order.Perm order')
    {l : List (ℕ × Profile)} (hl : collectChunks depth peak chs rngs order = .ok l) :
    ∃ l', collectChunks depth peak chs rngs order' = .ok l' ∧ l.Perm l' := by
  obtain ⟨ls, h1, rfl⟩ := collect_ok.1 hl
  obtain ⟨ls', h2, h3⟩ := forall₂_perm h h1
  exact ⟨_, collect_ok.2 ⟨ls', h2, rfl⟩, perm_flatten h3⟩

theorem sumProfiles_perm {l m : List Profile} (h : l.Perm m) : sumProfiles l = sumProfiles m := by
  funext i
  exact (h.map _).sum_eq

theorem parallelRows_perm {l m : List (ℕ × Profile)} (h : l.Perm m) : ∀ n k : ℕ, parallelRows l k n = parallelRows m k n
  | 0, _ => rfl
  | n + 1, k => by
    have hk := (h.filter (fun r => r.1 = k)).map (fun r => r.2)
    unfold parallelRows
    rw [parallelRows_perm h n (k + 1)]
    cases hl : (l.filter (fun r => r.1 = k)).map (fun r => r.2) with
    | nil =>
      rw [hl] at hk
      rw [hk.nil_eq]
    | cons a l' =>
      rw [hl] at hk
      cases hm : (m.filter (fun r => r.1 = k)).map (fun r => r.2) with
      | nil => rw [hm] at hk; exact absurd hk.eq_nil (by simp)
      | cons b m' =>
        rw [hm] at hk
        simp only
        rw [sumProfiles_perm hk]

theorem parallelRows_ok {res : List (ℕ × Profile)} : ∀ {n k : ℕ} {rows : List Profile}, parallelRows res k n = .ok rows ↔
    rows.length = n ∧ ∀ j p, rows[j]? = some p → (res.filter (fun r => r.1 = k + j)) ≠ [] ∧
      p = total ((res.filter (fun r => r.1 = k + j)).map (fun r => r.2))
  | 0, k, rows => by
    unfold parallelRows
    constructor
    · intro h; cases h; simp
    · rintro ⟨h, _⟩
      rw [List.length_eq_zero_iff.1 h]
  | n + 1, k, rows => by
    unfold parallelRows
    cases hl : (res.filter (fun r => r.1 = k)).map (fun r => r.2) with
    | nil =>
      simp only
      constructor
      · intro h; cases h
      · rintro ⟨h1, h2⟩
        cases rows with
        | nil => simp at h1
        | cons p rows =>
          have := (h2 0 p rfl).1
          rw [Nat.add_zero] at this
          exact absurd (List.map_eq_nil_iff.1 hl) this
    | cons a l =>
      simp only
      cases hr : parallelRows res (k + 1) n with
      | error e =>
        simp only
        constructor
        · intro h; cases h
        · rintro ⟨h1, h2⟩
          cases rows with
          | nil => simp at h1
          | cons p rows =>
            have := (parallelRows_ok (res := res) (n := n) (k := k + 1) (rows := rows)).2 ⟨by simpa using h1, fun j q hq => by
              have := h2 (j + 1) q (by simpa using hq)
              rwa [show k + 1 + j = k + (j + 1) by omega]⟩
            rw [hr] at this; cases this
      | ok rest =>
        simp only
        obtain ⟨h1, h2⟩ := parallelRows_ok.1 hr
        have hsum : sumProfiles (a :: l) = total ((res.filter (fun r => r.1 = k)).map (fun r => r.2)) := by rw [hl]; rfl
        constructor
        · intro h
          cases h
          refine ⟨by simp [h1], ?_⟩
          rintro (_ | j) p hp
          · simp at hp
            subst hp
            rw [Nat.add_zero]
            exact ⟨fun h => by rw [h] at hl; simp at hl, hsum⟩
          · have := h2 j p (by simpa using hp)
            rwa [show k + 1 + j = k + (j + 1) by omega] at this
        · rintro ⟨h3, h4⟩
          cases rows with
          | nil => simp at h3
          | cons p rows =>
            have hp := (h4 0 p rfl).2
            rw [Nat.add_zero, ← hsum] at hp
            have := (parallelRows_ok (res := res) (n := n) (k := k + 1) (rows := rows)).2 ⟨by simpa using h3, fun j q hq => by
              have := h4 (j + 1) q (by simpa using hq)
              rwa [show k + 1 + j = k + (j + 1) by omega]⟩
            rw [hr] at this
            cases this
            rw [hp]

/-! ## The chunks -/

theorem chunks_flatten {α : Type} (n : ℕ) : ∀ (fuel : ℕ) (l : List α), l.length ≤ fuel → (chunks n fuel l).flatten = l
  | 0, l, h => by
    rw [List.length_eq_zero_iff.1 (Nat.le_zero.1 h)]
    rfl
  | fuel + 1, [], _ => rfl
  | fuel + 1, x :: xs, h => by
    unfold chunks
    rw [List.flatten_cons, chunks_flatten n fuel _ (by simp at h ⊢; omega), List.take_append_drop]

theorem chunks_length {α : Type} (n : ℕ) : ∀ (fuel : ℕ) (l : List α), l.length ≤ fuel → (chunks n fuel l).length = (l.length + n) / (n + 1)
  | 0, l, h => by
    rw [List.length_eq_zero_iff.1 (Nat.le_zero.1 h)]
    unfold chunks
    exact (Nat.div_eq_of_lt (by simp)).symm
  | fuel + 1, [], _ => by unfold chunks; exact (Nat.div_eq_of_lt (by simp)).symm
  | fuel + 1, x :: xs, h => by
    unfold chunks
    rw [List.length_cons, chunks_length n fuel _ (by simp at h ⊢; omega)]
    rw [List.length_drop, List.length_cons]
    by_cases hx : xs.length + 1 ≤ n + 1
    · rw [show xs.length + 1 - (n + 1) + n = n by omega, Nat.div_eq_of_lt (by omega : n < n + 1)]
      have : xs.length + 1 + n = (n + 1) + xs.length := by omega
      rw [this, Nat.add_div_left _ (by omega), Nat.div_eq_of_lt (by omega)]
    · have : xs.length + 1 + n = (xs.length + 1 - (n + 1) + n) + (n + 1) := by omega
      rw [this, Nat.add_div_right _ (by omega)]

theorem mem_chunks {α : Type} (n fuel : ℕ) (l : List α) (h : l.length ≤ fuel) {c : List α} (hc : c ∈ chunks n fuel l) {x : α} (hx : x ∈ c) : x ∈ l := by
  rw [← chunks_flatten n fuel l h]
  exact List.mem_flatten.2 ⟨c, hc, hx⟩

theorem forall₂_flatten {α β : Type} {R : α → β → Prop} : ∀ {l : List (List α)} {m : List (List β)}, List.Forall₂ (List.Forall₂ R) l m →
    List.Forall₂ R l.flatten m.flatten
  | _, _, .nil => .nil
  | _, _, .cons h1 h2 => List.rel_append h1 (forall₂_flatten h2)

theorem flatten_forall₂ {α β : Type} {R : α → β → Prop} : ∀ {l : List (List α)} {m : List β}, List.Forall₂ R l.flatten m →
    ∃ ms, List.Forall₂ (List.Forall₂ R) l ms ∧ m = ms.flatten
  | [], m, h => by
    rw [List.flatten_nil] at h
    cases h
    exact ⟨[], .nil, rfl⟩
  | a :: l, m, h => by
    rw [List.flatten_cons] at h
    have h1 : List.Forall₂ R a (m.take a.length) := by
      have := List.forall₂_take a.length h
      rwa [List.take_left] at this
    have h2 : List.Forall₂ R l.flatten (m.drop a.length) := by
      have := List.forall₂_drop a.length h
      rwa [List.drop_left] at this
    obtain ⟨ms, h3, h4⟩ := flatten_forall₂ h2
    exact ⟨m.take a.length :: ms, .cons h1 h3, by rw [List.flatten_cons, ← h4, List.take_append_drop]⟩

theorem forall₂_range {β : Type} {R : ℕ → β → Prop} {l : List β} : List.Forall₂ R (List.range l.length) l ↔ ∀ (k : ℕ) (x : β), l[k]? = some x → R k x := by
  rw [List.forall₂_iff_get]
  simp only [List.length_range, true_and, List.get_eq_getElem, List.getElem_range]
  constructor
  · intro h k x hx
    obtain ⟨hk, rfl⟩ := List.getElem?_eq_some_iff.1 hx
    exact h k hk hk
  · intro h k hk _
    exact h k _ (List.getElem?_eq_getElem hk)

/-- The results that can be collected, for some generators of the workers and in the order of the tasks. -/
theorem collect_range {depth : ℕ} {peak : List ℤ} {tasks : List Task} (hc : Coherent tasks) {n : ℕ} {res : List (ℕ × Profile)} :
    (∃ rngs, collectChunks depth peak (chunks n tasks.length tasks) rngs (List.range (chunks n tasks.length tasks).length) = .ok res) ↔
      List.Forall₂ (TaskResult depth peak) tasks res := by
  have hflat := chunks_flatten n tasks.length tasks le_rfl
  have hcoh : ∀ c ∈ chunks n tasks.length tasks, Coherent c := fun c hm s hs t ht =>
    hc s (mem_chunks n _ tasks le_rfl hm hs) t (mem_chunks n _ tasks le_rfl hm ht)
  generalize hchs : chunks n tasks.length tasks = chs at *
  constructor
  · rintro ⟨rngs, h⟩
    obtain ⟨ls, h1, rfl⟩ := collect_ok.1 h
    rw [← hflat]
    apply forall₂_flatten
    have hlen : ls.length = chs.length := by rw [← h1.length_eq, List.length_range]
    rw [← hlen] at h1
    rw [forall₂_range] at h1
    rw [List.forall₂_iff_get]
    refine ⟨hlen.symm, fun i hi hi' => ?_⟩
    have := h1 i _ (List.getElem?_eq_getElem hi')
    unfold chunkResult at this
    rw [List.getElem?_eq_getElem hi, Option.getD_some] at this
    cases hr : runChunk depth peak chs[i] (rngs i) with
    | error e => rw [hr] at this; cases this
    | ok p =>
      rw [hr] at this
      have hp : p.1 = ls[i] := by injection this
      rw [List.get_eq_getElem, List.get_eq_getElem, ← hp]
      exact (returns_runChunk _ rfl (hcoh _ (List.getElem_mem _))).1 ⟨_, p.2, hr⟩
  · intro h
    rw [← hflat] at h
    obtain ⟨ls, h1, rfl⟩ := flatten_forall₂ h
    have hlen := h1.length_eq
    rw [List.forall₂_iff_get] at h1
    have : ∀ k : ℕ, ∃ rng : Rng, ∀ x, ls[k]? = some x → chunkResult depth peak chs (fun _ => rng) k = .ok x := by
      intro k
      by_cases hk : k < ls.length
      · obtain ⟨r, r', hr⟩ := (returns_runChunk _ rfl (hcoh _ (List.getElem_mem (hlen ▸ hk)))).2 (h1.2 k (hlen ▸ hk) hk)
        refine ⟨r, fun x hx => ?_⟩
        rw [List.getElem?_eq_getElem hk] at hx
        cases hx
        unfold chunkResult
        rw [List.getElem?_eq_getElem (hlen ▸ hk), Option.getD_some, hr]
        rfl
      · refine ⟨fun _ => draw0, fun x hx => ?_⟩
        rw [List.getElem?_eq_none (by omega)] at hx
        cases hx
    choose rngs hrngs using this
    refine ⟨rngs, collect_ok.2 ⟨ls, ?_, rfl⟩⟩
    rw [hlen, forall₂_range]
    intro k x hx
    have := hrngs k x hx
    unfold chunkResult at this ⊢
    exact this

end Ramp
