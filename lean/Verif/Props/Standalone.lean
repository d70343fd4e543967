import Verif.Model.Standalone
import Verif.Lemmas.CliFin
import Verif.Props.Days
import Verif.Props.Seed

/-! # C89: profiles generated by a user on its own -/

set_option autoImplicit false

namespace Ramp

/-- The peak time range of a call is `r`: the one given, else that of the use case of the user, else one that `calc_peak_time_range` can
return for a default use case of this user only. -/
def RangeOfCall (b : BoundUser) (c : ProfileCall) (r : List ℤ) : Prop :=
  c.peak = some r ∨ (c.peak = none ∧ b.usecase = some r) ∨
  (c.peak = none ∧ b.usecase = none ∧ Returns (peakTimeRangeOf [b.user] (15 / 100)) r)

/-- `p` is a possible result of the call with the peak time range `r`: a possible day of one member, or of all members together. -/
def ProfileOfCall (depth : ℕ) (u : User) (c : ProfileCall) (r : List ℤ) (p : Profile) : Prop :=
  if c.aggregated then UserDay depth c.profI r c.dayType u p else MemberDay depth c.profI r c.dayType u p

/-- The call simulates nobody: an aggregated profile of a category without members. -/
def NobodySimulated (u : User) (c : ProfileCall) : Prop := c.aggregated = true ∧ u.numUsers ≤ 0

theorem fin_peakOf (us : List User) (pe : ℚ) : Finitary (peakTimeRangeOf us pe) := by
  by_cases hu : ∃! i : Fin 1440, ∀ k, totalMaximumProfile us k ≤ totalMaximumProfile us i
  · rw [peak_one hu]; exact fin_raise _
  · obtain ⟨mu, sigma, _, heq⟩ := peak_many (pe := pe) hu
    rw [heq]
    exact fin_bind (fin_gauss _ _) fun _ => fin_bind (fin_gauss _ _) fun _ => fin_pure _

theorem fin_peakFor (b : BoundUser) (g : Option (List ℤ)) : Finitary (peakFor b g) := by
  unfold peakFor
  split
  · exact fin_pure _
  · split
    · exact fin_pure _
    · exact fin_bind (fin_peakOf _ _) fun _ => fin_pure _

theorem fin_standaloneSingle (depth : ℕ) (b : BoundUser) (k : ℕ) (g : Option (List ℤ)) (dt : ℤ) : Finitary (standaloneSingle depth b k g dt) :=
  fin_bind (fin_peakFor _ _) fun _ => fin_bind (fin_single _ _ _ _ _) fun _ => fin_pure _

theorem fin_standaloneLoop (depth k : ℕ) (g : Option (List ℤ)) (dt : ℤ) : ∀ (n : ℕ) (b : BoundUser) (load : Profile),
    Finitary (standaloneLoop depth k g dt n b load)
  | 0, _, _ => fin_pure _
  | n + 1, _, _ => fin_bind (fin_standaloneSingle _ _ _ _ _) fun _ => fin_standaloneLoop depth k g dt n _ _

theorem fin_standaloneCall (depth : ℕ) (b : BoundUser) (c : ProfileCall) : Finitary (standaloneCall depth b c) := by
  unfold standaloneCall
  split_ifs
  · exact fin_bind (fin_standaloneLoop _ _ _ _ _ _ _) fun _ => fin_pure _
  · exact fin_standaloneSingle _ _ _ _ _

theorem fin_standaloneCalls (depth : ℕ) : ∀ (cs : List ProfileCall) (b : BoundUser), Finitary (standaloneCalls depth cs b)
  | [], _ => fin_pure _
  | _ :: cs, _ => fin_bind (fin_standaloneCall _ _ _) fun _ => fin_bind (fin_standaloneCalls depth cs _) fun _ => fin_pure _

/-- What the user is afterwards: the range of a default use case stays attached. -/
theorem returns_peakFor {b b' : BoundUser} {g : Option (List ℤ)} {r : List ℤ} : Returns (peakFor b g) (b', r) ↔
    (g = some r ∧ b' = b) ∨ (g = none ∧ b.usecase = some r ∧ b' = b) ∨
    (g = none ∧ b.usecase = none ∧ Returns (peakTimeRangeOf [b.user] (15 / 100)) r ∧ b' = { b with usecase := some r }) := by
  cases g with
  | some x =>
    simp only [peakFor, returns_pure, Prod.mk.injEq, Option.some.injEq, reduceCtorEq, false_and, or_false]
    constructor
    · rintro ⟨rfl, rfl⟩; exact ⟨rfl, rfl⟩
    · rintro ⟨rfl, rfl⟩; exact ⟨rfl, rfl⟩
  | none =>
    cases hu : b.usecase with
    | some x =>
      simp only [peakFor, hu, returns_pure, Prod.mk.injEq, Option.some.injEq, reduceCtorEq, false_and, or_false, true_and, false_or]
      constructor
      · rintro ⟨rfl, rfl⟩; exact ⟨rfl, rfl⟩
      · rintro ⟨rfl, rfl⟩; exact ⟨rfl, rfl⟩
    | none =>
      simp only [peakFor, hu, reduceCtorEq, false_and, true_and, false_or]
      rw [returns_bind (fin_peakOf _ _)]
      constructor
      · rintro ⟨a, h1, h2⟩
        have := returns_pure.1 h2
        cases this
        exact ⟨h1, rfl⟩
      · rintro ⟨h1, rfl⟩
        exact ⟨r, h1, returns_pure.2 rfl⟩

theorem returns_standaloneSingle {depth k : ℕ} {b b' : BoundUser} {g : Option (List ℤ)} {dt : ℤ} {p : Profile}
    (h : Returns (standaloneSingle depth b k g dt) (b', p)) : ∃ b1 r, Returns (peakFor b g) (b1, r) ∧ b'.usecase = b1.usecase ∧
      SameUser b.user b'.user ∧ MemberDay depth k r dt b.user p := by
  unfold standaloneSingle at h
  obtain ⟨⟨b1, r⟩, h1, h2⟩ := (returns_bind (fin_peakFor _ _)).1 h
  obtain ⟨⟨u, q⟩, h3, h4⟩ := (returns_bind (fin_single _ _ _ _ _)).1 h2
  have := returns_pure.1 h4
  cases this
  obtain ⟨h5, h6⟩ := returns_single h3
  have hb : b1.user = b.user := by
    rcases returns_peakFor.1 h1 with ⟨_, rfl⟩ | ⟨_, _, rfl⟩ | ⟨_, _, _, rfl⟩ <;> rfl
  rw [hb] at h5 h6
  exact ⟨b1, r, h1, rfl, h5, h6⟩

theorem standaloneSingle_returns {depth k : ℕ} {b b1 : BoundUser} {g : Option (List ℤ)} {dt : ℤ} {p : Profile} {r : List ℤ}
    (h1 : Returns (peakFor b g) (b1, r)) (h2 : MemberDay depth k r dt b.user p) : ∃ b', Returns (standaloneSingle depth b k g dt) (b', p) := by
  have hb : b1.user = b.user := by
    rcases returns_peakFor.1 h1 with ⟨_, rfl⟩ | ⟨_, _, rfl⟩ | ⟨_, _, _, rfl⟩ <;> rfl
  rw [← hb] at h2
  obtain ⟨u, h3⟩ := single_returns h2
  exact ⟨_, (returns_bind (fin_peakFor _ _)).2 ⟨_, h1, (returns_bind (fin_single _ _ _ _ _)).2 ⟨_, h3, returns_pure.2 rfl⟩⟩⟩

/-- The loop once the range is settled: the given one, or that of the use case. -/
theorem returns_standaloneLoop {depth k : ℕ} {g : Option (List ℤ)} {dt : ℤ} {r : List ℤ} : ∀ {n : ℕ} {b b' : BoundUser} {load load' : Profile},
    (g = some r ∨ (g = none ∧ b.usecase = some r)) → Returns (standaloneLoop depth k g dt n b load) (b', load') →
      SameUser b.user b'.user ∧ b'.usecase = b.usecase ∧
      ∃ ps : List Profile, ps.length = n ∧ (∀ q ∈ ps, MemberDay depth k r dt b.user q) ∧ load' = fun i => load i + total ps i
  | 0, b, b', load, load', _, h => by
    unfold standaloneLoop at h
    have := returns_pure.1 h
    cases this
    exact ⟨SameUser.refl _, rfl, [], rfl, by simp, by funext i; simp [total]⟩
  | n + 1, b, b', load, load', hg, h => by
    unfold standaloneLoop at h
    obtain ⟨⟨b1, p⟩, h1, h2⟩ := (returns_bind (fin_standaloneSingle _ _ _ _ _)).1 h
    obtain ⟨b2, r', h3, h4, h5, h6⟩ := returns_standaloneSingle h1
    have hr : r' = r ∧ b2.usecase = b.usecase := by
      rcases returns_peakFor.1 h3 with ⟨e, rfl⟩ | ⟨e1, e2, rfl⟩ | ⟨e1, e2, _, rfl⟩
      · rcases hg with hg | ⟨hg, _⟩
        · rw [hg] at e; injection e with e; exact ⟨e.symm, rfl⟩
        · rw [hg] at e; cases e
      · rcases hg with hg | ⟨_, hg⟩
        · rw [hg] at e1; cases e1
        · rw [hg] at e2; injection e2 with e2; exact ⟨e2.symm, rfl⟩
      · rcases hg with hg | ⟨_, hg⟩
        · rw [hg] at e1; cases e1
        · rw [hg] at e2; cases e2
    obtain ⟨rfl, hu⟩ := hr
    rw [hu] at h4
    obtain ⟨h7, h8, ps, h9, h10, h11⟩ := returns_standaloneLoop (r := r') (by rw [h4]; exact hg) h2
    refine ⟨h5.trans h7, by rw [h8, h4], p :: ps, by simp [h9], ?_, ?_⟩
    · intro q hq
      rcases List.mem_cons.1 hq with rfl | hq
      · exact h6
      · exact memberDay_same h5 (h10 q hq)
    · rw [h11, total_cons]
      funext i
      exact add_assoc _ _ _

theorem standaloneLoop_returns {depth k : ℕ} {g : Option (List ℤ)} {dt : ℤ} {r : List ℤ} : ∀ {n : ℕ} {b : BoundUser} {load : Profile} {ps : List Profile},
    (g = some r ∨ (g = none ∧ b.usecase = some r)) → ps.length = n → (∀ q ∈ ps, MemberDay depth k r dt b.user q) →
      ∃ b', Returns (standaloneLoop depth k g dt n b load) (b', fun i => load i + total ps i)
  | 0, b, load, [], _, _, _ => ⟨b, by
      unfold standaloneLoop
      rw [returns_pure]
      congr 1
      funext i
      simp [total]⟩
  | n + 1, b, load, p :: ps, hg, hl, h => by
    have hp : Returns (peakFor b g) (b, r) := by
      rw [returns_peakFor]
      rcases hg with hg | ⟨hg, hg'⟩
      · exact .inl ⟨hg, rfl⟩
      · exact .inr (.inl ⟨hg, hg', rfl⟩)
    obtain ⟨b1, h1⟩ := standaloneSingle_returns hp (h p (by simp))
    obtain ⟨b2, r', h3, h4, h5, _⟩ := returns_standaloneSingle h1
    have hu : b2.usecase = b.usecase := by
      rcases returns_peakFor.1 h3 with ⟨e, rfl⟩ | ⟨e1, e2, rfl⟩ | ⟨e1, e2, _, rfl⟩
      · rfl
      · rfl
      · rcases hg with hg | ⟨_, hg⟩
        · rw [hg] at e1; cases e1
        · rw [hg] at e2; cases e2
    rw [hu] at h4
    obtain ⟨b', h6⟩ := standaloneLoop_returns (r := r) (n := n) (b := b1) (load := fun i => load i + p i) (ps := ps) (by rw [h4]; exact hg)
      (by simpa using hl) (fun q hq => memberDay_same h5.symm (h q (by simp [hq])))
    refine ⟨b', ?_⟩
    unfold standaloneLoop
    refine (returns_bind (fin_standaloneSingle _ _ _ _ _)).2 ⟨_, h1, ?_⟩
    have : (fun i => load i + total (p :: ps) i) = fun i => (load i + p i) + total ps i := by
      rw [total_cons]; funext i; exact (add_assoc _ _ _).symm
    rw [this]
    exact h6

/-- One call, completely: the result, the configuration of the user and the range attached to it afterwards. -/
theorem returns_standaloneCall {depth : ℕ} {b b' : BoundUser} {c : ProfileCall} {p : Profile}
    (h : Returns (standaloneCall depth b c) (b', p)) : SameUser b.user b'.user ∧
      ((NobodySimulated b.user c ∧ p = zeros ∧ b'.usecase = b.usecase) ∨
       ∃ r, RangeOfCall b c r ∧ ProfileOfCall depth b.user c r p ∧ b'.usecase = if c.peak = none then some r else b.usecase) := by
  unfold standaloneCall at h
  have key : ∀ {b1 : BoundUser} {r : List ℤ}, Returns (peakFor b c.peak) (b1, r) → RangeOfCall b c r ∧
      b1.usecase = (if c.peak = none then some r else b.usecase) ∧ b1.user = b.user ∧
      (c.peak = some r ∨ (c.peak = none ∧ b1.usecase = some r)) := by
    intro b1 r h1
    rcases returns_peakFor.1 h1 with ⟨e, rfl⟩ | ⟨e1, e2, rfl⟩ | ⟨e1, e2, e3, rfl⟩
    · exact ⟨.inl e, by simp [e], rfl, .inl e⟩
    · exact ⟨.inr (.inl ⟨e1, e2⟩), by simp [e1, e2], rfl, .inr ⟨e1, e2⟩⟩
    · exact ⟨.inr (.inr ⟨e1, e2, e3⟩), by simp [e1], rfl, .inr ⟨e1, rfl⟩⟩
  by_cases ha : c.aggregated = true
  · rw [if_pos ha] at h
    unfold standaloneAggregated at h
    obtain ⟨⟨b1, l⟩, h1, h2⟩ := (returns_bind (fin_standaloneLoop _ _ _ _ _ _ _)).1 h
    have := returns_pure.1 h2
    cases this
    have fin : ∀ {v w : User} {x : Option Profile}, SameUser v w → SameUser v { w with load := x } :=
      fun h => ⟨h.name, h.number, h.preference, h.appliances⟩
    cases hn : b.user.numUsers.toNat with
    | zero =>
      rw [hn] at h1
      unfold standaloneLoop at h1
      have := returns_pure.1 h1
      cases this
      exact ⟨fin (SameUser.refl _), .inl ⟨⟨ha, by omega⟩, rfl, rfl⟩⟩
    | succ n =>
      rw [hn] at h1
      unfold standaloneLoop at h1
      obtain ⟨⟨b2, q⟩, h3, h4⟩ := (returns_bind (fin_standaloneSingle _ _ _ _ _)).1 h1
      obtain ⟨b3, r, h5, h6, h7, h8⟩ := returns_standaloneSingle h3
      obtain ⟨k1, k2, k3, k4⟩ := key h5
      obtain ⟨h9, h10, ps, h11, h12, h13⟩ := returns_standaloneLoop (r := r) (by rw [h6]; exact k4) h4
      refine ⟨fin (h7.trans h9), .inr ⟨r, k1, ?_, ?_⟩⟩
      · unfold ProfileOfCall
        rw [if_pos ha]
        refine ⟨q :: ps, by simp [h11, hn], ?_, ?_⟩
        · intro x hx
          rcases List.mem_cons.1 hx with rfl | hx
          · exact h8
          · exact memberDay_same h7 (h12 x hx)
        · rw [h13, total_cons]; funext i; simp [zeros]
      · show b1.usecase = _
        rw [h10, h6, k2]
  · rw [if_neg ha] at h
    obtain ⟨b1, r, h1, h2, h3, h4⟩ := returns_standaloneSingle h
    obtain ⟨k1, k2, _, _⟩ := key h1
    refine ⟨h3, .inr ⟨r, k1, ?_, by rw [h2, k2]⟩⟩
    unfold ProfileOfCall
    rw [if_neg ha]
    exact h4

theorem standaloneCall_returns {depth : ℕ} {b : BoundUser} {c : ProfileCall} {p : Profile} {r : List ℤ} (hr : RangeOfCall b c r)
    (hp : ProfileOfCall depth b.user c r p) :
    ∃ b', Returns (standaloneCall depth b c) (b', p) ∧ (¬ NobodySimulated b.user c → b'.usecase = if c.peak = none then some r else b.usecase) := by
  have hpk : ∃ b1, Returns (peakFor b c.peak) (b1, r) ∧ b1.user = b.user ∧ b1.usecase = (if c.peak = none then some r else b.usecase) ∧
      (c.peak = some r ∨ (c.peak = none ∧ b1.usecase = some r)) := by
    rcases hr with e | ⟨e1, e2⟩ | ⟨e1, e2, e3⟩
    · exact ⟨b, returns_peakFor.2 (.inl ⟨e, rfl⟩), rfl, by simp [e], .inl e⟩
    · exact ⟨b, returns_peakFor.2 (.inr (.inl ⟨e1, e2, rfl⟩)), rfl, by simp [e1, e2], .inr ⟨e1, e2⟩⟩
    · exact ⟨{ b with usecase := some r }, returns_peakFor.2 (.inr (.inr ⟨e1, e2, e3, rfl⟩)), rfl, by simp [e1], .inr ⟨e1, rfl⟩⟩
  obtain ⟨b1, h1, hu1, huc1, hset⟩ := hpk
  unfold ProfileOfCall at hp
  unfold standaloneCall
  -- the range attached by a single profile
  have single : ∀ {q : Profile}, MemberDay depth c.profI r c.dayType b.user q → ∃ b', Returns (standaloneSingle depth b c.profI c.peak c.dayType) (b', q) ∧
      b'.usecase = b1.usecase ∧ SameUser b.user b'.user := by
    intro q hq
    rw [← hu1] at hq
    obtain ⟨u, h3⟩ := single_returns hq
    obtain ⟨h4, _⟩ := returns_single h3
    exact ⟨_, (returns_bind (fin_peakFor _ _)).2 ⟨_, h1, (returns_bind (fin_single _ _ _ _ _)).2 ⟨_, h3, returns_pure.2 rfl⟩⟩, rfl, hu1 ▸ h4⟩
  by_cases ha : c.aggregated = true
  · rw [if_pos ha] at hp
    rw [if_pos ha]
    obtain ⟨ps, hl, hm, rfl⟩ := hp
    unfold standaloneAggregated
    cases hn : b.user.numUsers.toNat with
    | zero =>
      rw [hn] at hl
      obtain rfl : ps = [] := List.length_eq_zero_iff.1 hl
      refine ⟨{ b with user := { b.user with load := some zeros } }, (returns_bind (fin_standaloneLoop _ _ _ _ _ _ _)).2 ⟨(b, zeros), ?_, returns_pure.2 ?_⟩, fun h => absurd ⟨ha, by omega⟩ h⟩
      · unfold standaloneLoop; exact returns_pure.2 rfl
      · rw [total_nil]
    | succ n =>
      rw [hn] at hl
      obtain _ | ⟨q, ps⟩ := ps
      · simp at hl
      obtain ⟨b2, h2, h3, h4⟩ := single (hm q (by simp))
      obtain ⟨b3, h5⟩ := standaloneLoop_returns (depth := depth) (k := c.profI) (g := c.peak) (dt := c.dayType) (r := r) (n := n) (b := b2)
        (load := fun i => zeros i + q i) (ps := ps) (by rw [h3]; exact hset) (by simpa using hl) (fun x hx => memberDay_same h4.symm (hm x (by simp [hx])))
      obtain ⟨_, h6, _⟩ := returns_standaloneLoop (r := r) (by rw [h3]; exact hset) h5
      refine ⟨{ b3 with user := { b3.user with load := some (total (q :: ps)) } }, (returns_bind (fin_standaloneLoop _ _ _ _ _ _ _)).2 ⟨(b3, total (q :: ps)), ?_, returns_pure.2 rfl⟩, fun _ => ?_⟩
      · unfold standaloneLoop
        refine (returns_bind (fin_standaloneSingle _ _ _ _ _)).2 ⟨_, h2, ?_⟩
        have : total (q :: ps) = fun i => (zeros i + q i) + total ps i := by
          rw [total_cons]; funext i; simp [zeros]
        rw [this]
        exact h5
      · show b3.usecase = _
        rw [h6, h3, huc1]
  · rw [if_neg ha] at hp
    rw [if_neg ha]
    obtain ⟨b', h2, h3, _⟩ := single hp
    exact ⟨b', h2, fun _ => by rw [h3, huc1]⟩

/-- **C89.** The possible results of a call of `generate_single_load_profile` or `generate_aggregated_load_profile`: the possible days of one
member, or of all members, with the peak time range of the call. -/
theorem C89_results (depth : ℕ) (b : BoundUser) (c : ProfileCall) (p : Profile) :
    (∃ b', Returns (standaloneCall depth b c) (b', p)) ↔
      (NobodySimulated b.user c ∧ p = zeros) ∨ ∃ r, RangeOfCall b c r ∧ ProfileOfCall depth b.user c r p := by
  constructor
  · rintro ⟨b', h⟩
    rcases (returns_standaloneCall h).2 with ⟨h1, h2, _⟩ | ⟨r, h1, h2, _⟩
    · exact .inl ⟨h1, h2⟩
    · exact .inr ⟨r, h1, h2⟩
  · rintro (⟨⟨ha, hn⟩, rfl⟩ | ⟨r, h1, h2⟩)
    · refine ⟨{ b with user := { b.user with load := some zeros } }, ?_⟩
      unfold standaloneCall standaloneAggregated
      rw [if_pos ha, show b.user.numUsers.toNat = 0 by omega]
      refine (returns_bind (fin_standaloneLoop _ _ _ _ _ _ _)).2 ⟨(b, zeros), ?_, returns_pure.2 rfl⟩
      unfold standaloneLoop
      exact returns_pure.2 rfl
    · obtain ⟨b', h, _⟩ := standaloneCall_returns h1 h2
      exact ⟨b', h⟩

/-- **C89.** A call does not change the definition of the user; a user without use case gets one at the first call without a peak time range
that simulates somebody, and keeps it: the range of the default use case is the one the call was simulated with. -/
theorem C89_afterwards {depth : ℕ} {b b' : BoundUser} {c : ProfileCall} {p : Profile} (h : Returns (standaloneCall depth b c) (b', p)) :
    SameUser b.user b'.user ∧ (∀ r, b.usecase = some r → b'.usecase = some r) ∧ (c.peak ≠ none → b'.usecase = b.usecase) ∧
    (b.usecase = none → c.peak = none → ¬ NobodySimulated b.user c →
      ∃ r, b'.usecase = some r ∧ Returns (peakTimeRangeOf [b.user] (15 / 100)) r ∧ ProfileOfCall depth b.user c r p) := by
  obtain ⟨h1, h2⟩ := returns_standaloneCall h
  refine ⟨h1, ?_, ?_, ?_⟩
  · intro r hr
    rcases h2 with ⟨_, _, h⟩ | ⟨r', hr', _, h⟩
    · rw [h, hr]
    · rw [h]
      split_ifs with hc
      · rcases hr' with e | ⟨_, e⟩ | ⟨_, e, _⟩
        · rw [hc] at e; cases e
        · rw [← e, hr]
        · rw [hr] at e; cases e
      · exact hr
  · intro hc
    rcases h2 with ⟨_, _, h⟩ | ⟨r', hr', _, h⟩
    · exact h
    · rw [h, if_neg hc]
  · intro hb hc hs
    rcases h2 with ⟨h, _, _⟩ | ⟨r, hr, hp, h⟩
    · exact absurd h hs
    · rw [if_pos hc] at h
      rcases hr with e | ⟨_, e⟩ | ⟨_, _, e⟩
      · rw [hc] at e; cases e
      · rw [hb] at e; cases e
      · exact ⟨r, h, e, hp⟩

theorem profileOfCall_same {u v : User} (h : SameUser u v) {depth : ℕ} {c : ProfileCall} {r : List ℤ} {p : Profile}
    (hp : ProfileOfCall depth v c r p) : ProfileOfCall depth u c r p := by
  unfold ProfileOfCall at *
  split_ifs at *
  · exact userDay_same h hp
  · exact memberDay_same h hp

/-- **C89.** Any sequence of calls of a user with a use case: the calls do not influence each other, those without a peak time range all use the
range of the use case. -/
theorem C89_sequences (depth : ℕ) : ∀ (cs : List ProfileCall) (b : BoundUser) (r : List ℤ) (_ : b.usecase = some r) (ps : List Profile),
    (∃ b', Returns (standaloneCalls depth cs b) (b', ps)) ↔
      List.Forall₂ (fun c p => ProfileOfCall depth b.user c (c.peak.getD r) p) cs ps
  | [], b, r, hb, ps => by
    unfold standaloneCalls
    constructor
    · rintro ⟨b', h⟩
      have := returns_pure.1 h
      cases this
      exact .nil
    · intro h
      cases h
      exact ⟨b, returns_pure.2 rfl⟩
  | c :: cs, b, r, hb, ps => by
    have hrange : ∀ {r'}, RangeOfCall b c r' ↔ r' = c.peak.getD r := by
      intro r'
      unfold RangeOfCall
      rw [hb]
      cases c.peak with
      | none => simp [eq_comm]
      | some x => simp [eq_comm]
    have hzero : NobodySimulated b.user c → ∀ r, ProfileOfCall depth b.user c r zeros := by
      rintro ⟨h1, h2⟩ r
      unfold ProfileOfCall
      rw [if_pos h1]
      exact ⟨[], by simp [Int.toNat_eq_zero.2 h2], by simp, total_nil.symm⟩
    unfold standaloneCalls
    constructor
    · rintro ⟨b', h⟩
      obtain ⟨⟨b1, p⟩, h1, h2⟩ := (returns_bind (fin_standaloneCall _ _ _)).1 h
      obtain ⟨⟨b2, qs⟩, h3, h4⟩ := (returns_bind (fin_standaloneCalls _ _ _)).1 h2
      have := returns_pure.1 h4
      cases this
      obtain ⟨k1, k2, _⟩ := C89_afterwards h1
      have ih := (C89_sequences depth cs b1 r (k2 r hb) qs).1 ⟨_, h3⟩
      refine .cons ?_ (ih.imp fun c p hp => profileOfCall_same k1 hp)
      rcases (C89_results depth b c p).1 ⟨_, h1⟩ with ⟨hn, rfl⟩ | ⟨r', hr', hp⟩
      · exact hzero hn _
      · rw [hrange] at hr'
        rw [← hr']
        exact hp
    · intro h
      cases h with
      | cons hp hps =>
        rename_i p qs
        obtain ⟨b1, h1⟩ := (C89_results depth b c p).2 (.inr ⟨_, hrange.2 rfl, hp⟩)
        obtain ⟨k1, k2, _⟩ := C89_afterwards h1
        obtain ⟨b2, h2⟩ := (C89_sequences depth cs b1 r (k2 r hb) qs).2 (hps.imp fun c p hp => profileOfCall_same k1.symm hp)
        exact ⟨_, (returns_bind (fin_standaloneCall _ _ _)).2 ⟨_, h1, (returns_bind (fin_standaloneCalls _ _ _)).2 ⟨_, h2, returns_pure.2 rfl⟩⟩⟩

/-- **C89.** A user without use case: the first call draws one peak time range, which all later calls without a peak time range share.  (With
members; the first call gives no range.) -/
theorem C89_one_range (depth : ℕ) (u : User) (c : ProfileCall) (cs : List ProfileCall) (hc : c.peak = none) (hs : ¬ NobodySimulated u c)
    (ps : List Profile) :
    (∃ b', Returns (standaloneCalls depth (c :: cs) ⟨u, none⟩) (b', ps)) ↔
      ∃ r, Returns (peakTimeRangeOf [u] (15 / 100)) r ∧ List.Forall₂ (fun c p => ProfileOfCall depth u c (c.peak.getD r) p) (c :: cs) ps := by
  have huc : (⟨u, none⟩ : BoundUser).usecase = none := rfl
  constructor
  · rintro ⟨b', h⟩
    unfold standaloneCalls at h
    obtain ⟨⟨b1, p⟩, h1, h2⟩ := (returns_bind (fin_standaloneCall _ _ _)).1 h
    obtain ⟨⟨b2, qs⟩, h3, h4⟩ := (returns_bind (fin_standaloneCalls _ _ _)).1 h2
    have := returns_pure.1 h4
    cases this
    obtain ⟨k1, _, _, k4⟩ := C89_afterwards h1
    obtain ⟨r, e1, e2, e3⟩ := k4 huc hc hs
    refine ⟨r, e2, .cons (by rw [hc]; exact e3) ?_⟩
    exact ((C89_sequences depth cs b1 r e1 qs).1 ⟨_, h3⟩).imp fun c p hp => profileOfCall_same k1 hp
  · rintro ⟨r, hr, h⟩
    cases h with
    | cons hp hps =>
      rename_i p qs
      rw [hc] at hp
      obtain ⟨b1, h1, h2⟩ := standaloneCall_returns (b := ⟨u, none⟩) (.inr (.inr ⟨hc, rfl, hr⟩)) hp
      have k1 := (C89_afterwards h1).1
      have hb1 := h2 hs
      rw [if_pos hc] at hb1
      obtain ⟨b2, h3⟩ := (C89_sequences depth cs b1 r hb1 qs).2 (hps.imp fun c p hp => profileOfCall_same k1.symm hp)
      unfold standaloneCalls
      exact ⟨_, (returns_bind (fin_standaloneCall _ _ _)).2 ⟨_, h1, (returns_bind (fin_standaloneCalls _ _ _)).2 ⟨_, h3, returns_pure.2 rfl⟩⟩⟩

/-- **C89.** The aggregated profile of a user has the same possible results as a day of a use case of this user only with the same peak time
range. -/
theorem C89_like_a_use_case {env : Env} {depth : ℕ} {uc : UseCase} {d : ℤ} {r : List ℤ} (hr : Ready uc [d] r) {u : User} (hu : uc.users = [u])
    (p : Profile) :
    (∃ uc', Returns (generateDaily env depth uc none) (uc', [p])) ↔
      ∃ b', Returns (standaloneCall depth ⟨u, some r⟩ { aggregated := true, dayType := typeOfDay d }) (b', p) := by
  rw [C45_superposition none hr, C89_results]
  have hcase : CaseDay depth 0 r (typeOfDay d) uc.users p ↔ UserDay depth 0 r (typeOfDay d) u p := by
    rw [hu]
    constructor
    · rintro ⟨ps, h1, rfl⟩
      cases h1 with
      | cons h1 h2 =>
        cases h2
        rename_i q
        rw [total_cons, total_nil, show (fun i => q i + zeros i) = q by funext i; simp [zeros]]
        exact h1
    · intro h
      exact ⟨[p], .cons h .nil, by rw [total_cons, total_nil]; funext i; simp [zeros]⟩
  constructor
  · rintro ⟨_, h⟩
    refine .inr ⟨r, .inr (.inl ⟨rfl, rfl⟩), ?_⟩
    exact hcase.1 (h 0 d p rfl rfl)
  · intro h
    refine ⟨rfl, ?_⟩
    intro k d' p' hd hp
    obtain _ | k := k
    · cases hd; cases hp
      refine hcase.2 ?_
      rcases h with ⟨⟨_, hn⟩, rfl⟩ | ⟨r', hr', hp⟩
      · exact ⟨[], by simp [Int.toNat_eq_zero.2 hn], by simp, total_nil.symm⟩
      · rcases hr' with e | ⟨_, e⟩ | ⟨_, e, _⟩
        · cases e
        · cases e; exact hp
        · cases e
    · cases hd

/-- **C89.** The only way the default use case can fail: when the maximum load of the user has a single peak minute, every such call raises
`IndexError`, whatever the random numbers. -/
theorem C89_no_range (depth : ℕ) {u : User} {c : ProfileCall} (hc : c.peak = none) (hs : ¬ NobodySimulated u c)
    (hu : ∃! i, IsPeak (maximumLoad [u]) i) (rng : Rng) : standaloneCall depth ⟨u, none⟩ c rng = .error .indexError := by
  have hp : peakTimeRangeOf [u] (15 / 100) = raise .indexError := peak_one (by rw [maximumLoad_eq]; exact hu)
  have hsingle : ∀ rng, standaloneSingle depth ⟨u, none⟩ c.profI c.peak c.dayType rng = .error .indexError := by
    intro rng
    unfold standaloneSingle peakFor
    rw [hc]
    simp only [hp]
    rfl
  unfold standaloneCall
  by_cases ha : c.aggregated = true
  · rw [if_pos ha]
    obtain ⟨n, hn⟩ : ∃ n, u.numUsers.toNat = n + 1 := ⟨u.numUsers.toNat - 1, by
      have : ¬ u.numUsers ≤ 0 := fun h => hs ⟨ha, h⟩
      omega⟩
    unfold standaloneAggregated
    refine bind_error ?_
    simp only [hn]
    unfold standaloneLoop
    exact bind_error (hsingle rng)
  · rw [if_neg ha]
    exact hsingle rng

/-- A case for C89: three members with a flat appliance on their own get a peak time range and a profile. -/
def flatUser : User := { userName := "u", numUsers := 3, appList := [{ flatLamp with wdWeType := 2 }] }

theorem flatUser_peaks : ¬ ∃! i, IsPeak (maximumLoad [flatUser]) i := by
  rintro ⟨i, _, h⟩
  have hz : ∀ j, maximumLoad [flatUser] j = 0 := by
    intro j
    simp [maximumLoad, flatUser, flatLamp, zeros]
  have h0 := h ⟨0, by omega⟩ (fun j => by rw [hz, hz])
  have h1 := h ⟨1, by omega⟩ (fun j => by rw [hz, hz])
  rw [← h0] at h1
  simp at h1

example : ∃ r, Returns (peakTimeRangeOf [flatUser] (15 / 100)) r :=
  ⟨_, (C40_possible_ranges flatUser_peaks [719, 720]).2 ⟨720, 1, le_rfl, .inl rfl, rfl⟩⟩

example : ¬ NobodySimulated flatUser { aggregated := true } := by
  rintro ⟨_, h⟩
  exact absurd h (by decide)

end Ramp
