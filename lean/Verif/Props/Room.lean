import Verif.Props.OneUse
import Verif.Props.CyclesExact

/-! # C111: when the time of use is always used up -/

set_option autoImplicit false

open MeasureTheory ENNReal

namespace Ramp

/-! ## The time of use is used up -/

theorem onlyWhen_time {app : Appliance} (ho : OnlyWhen app) (hs : WellSeparated app) {w1 w2 w3 : ℤ × ℤ} {time : ℤ} (m1 : MovedWindow app.window1 app.randomVar1 w1)
    (m2 : MovedWindow app.window2 app.randomVar2 w2) (m3 : MovedWindow app.window3 app.randomVar3 w3) (ht : TimeOfUse app w1 w2 w3 time) :
    w1 = app.window1 ∧ w2 = app.window2 ∧ w3 = app.window3 ∧ time = usableMinutes app := by
  obtain ⟨v1, v2, v3⟩ := ho.windows
  rw [v1] at m1
  rw [v2] at m2
  rw [v3] at m3
  have e1 := moved_zero hs.windows.w1 m1
  have e2 := moved_zero hs.windows.w2 m2
  have e3 := moved_zero hs.windows.w3 m3
  subst e1 e2 e3
  refine ⟨rfl, rfl, rfl, ?_⟩
  obtain ⟨_, n, h1, h2, h3⟩ := ht
  rw [ho.time] at h1 h2
  simp only [sub_zero, add_zero, mul_one, Int.floor_intCast] at h1 h2
  rw [h3]
  unfold usableMinutes
  have : n = app.funcTime := le_antisymm h2 h1
  rw [this]

/-- **C111.** If the windows of the appliance have room for its time of use, wherever the events happen to be, it is always used up: on a day of use the energy is that of
all its minutes of use, whatever the random draws. -/
theorem C111_used_up {app : Appliance} (hs : WellSeparated app) (ho : OnlyWhen app) (hroom : LeavesRoom app) {depth : ℕ} {pref : ℤ} {profI : ℕ} {peak : List ℤ}
    (hpk : peak ≠ []) {dayType : ℤ} {power : ℚ} {app' : Appliance} (h : Returns (generateLoadProfile app (depth + 1) pref profI peak dayType power) app') :
    (app'.dailyUse = zeros ∧ (SkippedForSure app pref dayType ∨ app.occasionalUse < 1)) ∨ energy app'.dailyUse = fullEnergy app power := by
  rcases C88_energy_of_a_fixed_day hs ho.noCycles ho.notFlat hpk ho.power ho.together h with h | ⟨w1, w2, w3, time, m, hd, he⟩
  · exact .inl h
  · refine .inr ?_
    obtain ⟨rfl, rfl, rfl, rfl⟩ := onlyWhen_time ho hs hd.m1 hd.m2 hd.m3 hd.limit
    rw [he, hd.room hroom]
    rfl

/-! ## Blocking a window -/

/-- `n` events from `pos` on, with `u` minutes in all, that leave no run of `c` minutes before `e`. -/
def blocking (c e : ℤ) (number : ℤ) (v : ℚ) : ℕ → ℤ → ℤ → List SwitchEvent
  | 0, _, _ => []
  | n + 1, pos, u =>
    let start := min (pos + c - 1) (e - u)
    let len := if n = 0 then u else c
    ⟨start, len, len, number, [v]⟩ :: blocking c e number v n (start + len) (u - len)

structure BlockingInv (c e : ℤ) (n : ℕ) (pos u : ℤ) : Prop where
  fits : pos + u ≤ e
  reach : e ≤ pos + u + (n + 1) * (c - 1)
  least : n * c ≤ u
  none : n = 0 → u = 0

theorem BlockingInv.next {c e : ℤ} {n : ℕ} {pos u : ℤ} (h : BlockingInv c e (n + 1) pos u) (hc : 1 ≤ c) :
    BlockingInv c e n (min (pos + c - 1) (e - u) + if n = 0 then u else c) (u - if n = 0 then u else c) := by
  obtain ⟨h1, h2, h3, _⟩ := h
  push_cast at h2 h3
  have e1 : ((n : ℤ) + 1 + 1) * (c - 1) = (n + 1) * (c - 1) + (c - 1) := by ring
  have e2 : ((n : ℤ) + 1) * c = n * c + c := by ring
  have e3 : 0 ≤ ((n : ℤ) + 1) * (c - 1) := by
    have : 0 ≤ c - 1 := by omega
    positivity
  split_ifs with hn
  · subst hn
    refine ⟨?_, ?_, ?_, fun _ => ?_⟩
    all_goals push_cast at *
    all_goals omega
  · refine ⟨?_, ?_, ?_, fun h => absurd h hn⟩
    all_goals push_cast at *
    all_goals omega

theorem blocking_mem {c e number : ℤ} {v : ℚ} (hc : 1 ≤ c) : ∀ {n : ℕ} {pos u : ℤ}, BlockingInv c e n pos u → ∀ ev ∈ blocking c e number v n pos u,
    pos ≤ ev.start ∧ ev.start + ev.minutes ≤ e ∧ c ≤ ev.minutes ∧ ev.number = number ∧ ev.values = [v]
  | 0, _, _, _, ev, hev => by simp [blocking] at hev
  | n + 1, pos, u, h, ev, hev => by
    have hnext := h.next hc
    obtain ⟨h1, h2, h3, _⟩ := h
    push_cast at h2 h3
    have e2 : ((n : ℤ) + 1) * c = n * c + c := by ring
    have e3 : 0 ≤ (n : ℤ) * c := by positivity
    unfold blocking at hev
    rcases List.mem_cons.1 hev with rfl | hev
    · simp only
      split_ifs with hn
      · refine ⟨?_, ?_, ?_, trivial, trivial⟩ <;> omega
      · refine ⟨?_, ?_, ?_, trivial, trivial⟩ <;> omega
    · obtain ⟨g1, g2, g3, g4, g5⟩ := blocking_mem hc hnext ev hev
      refine ⟨?_, g2, g3, g4, g5⟩
      revert g1
      split_ifs with hn
      · subst hn
        intro g1
        push_cast at *
        omega
      · intro g1
        omega

theorem blocking_pairwise {c e number : ℤ} {v : ℚ} (hc : 1 ≤ c) : ∀ {n : ℕ} {pos u : ℤ}, BlockingInv c e n pos u →
    (blocking c e number v n pos u).Pairwise (fun a b => a.start + a.minutes ≤ b.start)
  | 0, _, _, _ => List.Pairwise.nil
  | n + 1, pos, u, h => by
    have hnext := h.next hc
    unfold blocking
    exact List.Pairwise.cons (fun b hb => (blocking_mem hc hnext b hb).1) (blocking_pairwise hc hnext)

theorem blocking_minutes {c e number : ℤ} {v : ℚ} (hc : 1 ≤ c) : ∀ {n : ℕ} {pos u : ℤ}, BlockingInv c e n pos u → minutesOn (blocking c e number v n pos u) = u
  | 0, _, u, h => by
    rw [h.none rfl]
    rfl
  | n + 1, pos, u, h => by
    have hnext := h.next hc
    unfold blocking
    rw [minutesOn_cons, blocking_minutes hc hnext]
    simp only
    ring

theorem blocking_blocks {c e number : ℤ} {v : ℚ} (hc : 1 ≤ c) : ∀ {n : ℕ} {pos u : ℤ}, BlockingInv c e n pos u → ∀ a, pos ≤ a → a + c ≤ e →
    ∃ m, a ≤ m ∧ m < a + c ∧ ∃ ev ∈ blocking c e number v n pos u, ev.On m
  | 0, pos, u, h, a, h1, h2 => by
    have := h.reach
    have := h.none rfl
    push_cast at *
    omega
  | n + 1, pos, u, h, a, h1, h2 => by
    have hnext := h.next hc
    obtain ⟨k1, k2, k3, _⟩ := h
    push_cast at k2 k3
    have e2 : ((n : ℤ) + 1) * c = n * c + c := by ring
    have e3 : 0 ≤ (n : ℤ) * c := by positivity
    have hlen : 1 ≤ (if n = 0 then u else c) := by split_ifs <;> omega
    unfold blocking
    simp only
    generalize (if n = 0 then u else c) = len at *
    by_cases ha : a ≤ min (pos + c - 1) (e - u)
    · exact ⟨min (pos + c - 1) (e - u), ha, by omega, _, List.mem_cons_self .., ⟨le_refl _, by simp only; omega⟩⟩
    · by_cases hb : a < min (pos + c - 1) (e - u) + len
      · exact ⟨a, le_refl _, by omega, _, List.mem_cons_self .., ⟨by simp only; omega, hb⟩⟩
      · obtain ⟨m, m1, m2, ev, hev, ho⟩ := blocking_blocks (number := number) (v := v) hc hnext a (by omega) h2
        exact ⟨m, m1, m2, ev, List.mem_cons_of_mem _ hev, ho⟩

/-- Events that block a window. -/
theorem exists_blocking {c number : ℤ} {v : ℚ} {w : ℤ × ℤ} {u : ℤ} (hc : 1 ≤ c) (hb : Blocks c (w.2 - w.1) u) : ∃ es : List SwitchEvent,
    (∀ ev ∈ es, w.1 ≤ ev.start ∧ ev.start + ev.minutes ≤ w.2 ∧ c ≤ ev.minutes ∧ ev.number = number ∧ ev.values = [v]) ∧
    es.Pairwise (fun a b => a.start + a.minutes ≤ b.start) ∧ minutesOn es = u ∧
    ∀ a, w.1 ≤ a → a + c ≤ w.2 → ∃ m, a ≤ m ∧ m < a + c ∧ ∃ ev ∈ es, ev.On m := by
  obtain ⟨h1, h2, h3⟩ := hb
  have h0 : 0 ≤ u := by omega
  have hn : ((u / c).toNat : ℤ) = u / c := Int.toNat_of_nonneg (Int.ediv_nonneg h0 (by omega))
  have inv : BlockingInv c w.2 (u / c).toNat w.1 u := by
    refine ⟨by omega, ?_, ?_, fun hz => ?_⟩
    · rw [hn]
      omega
    · rw [hn]
      exact Int.ediv_mul_le u (by omega)
    · rcases h1 with h1 | h1
      · exact h1
      · have : 1 ≤ u / c := (Int.le_ediv_iff_mul_le (by omega)).2 (by omega)
        omega
  exact ⟨_, blocking_mem hc inv, blocking_pairwise hc inv, blocking_minutes hc inv, blocking_blocks hc inv⟩

/-! ## The day that is blocked too early -/

theorem exists_blocked_day {app : Appliance} {power : ℚ} {w1 w2 w3 : ℤ × ℤ} {time u1 u2 u3 : ℤ} (hap : WindowsApart w1 w2 w3) (d1 : DayWindow w1) (d2 : DayWindow w2)
    (d3 : DayWindow w3) (hc : 1 ≤ app.funcCycle) (hn : app.fixed ≠ "no") (b1 : Blocks app.funcCycle (w1.2 - w1.1) u1) (b2 : Blocks app.funcCycle (w2.2 - w2.1) u2)
    (b3 : Blocks app.funcCycle (w3.2 - w3.1) u3) (hlt : u1 + u2 + u3 ≤ time) :
    ∃ es, PlainDay app power [w1, w2, w3] time es ∧ minutesOn es = u1 + u2 + u3 ∧ ∀ ev ∈ es, ev.values = [app.number * power] := by
  obtain ⟨l1, p1, q1, r1, s1⟩ := exists_blocking (number := app.number) (v := app.number * power) hc b1
  obtain ⟨l2, p2, q2, r2, s2⟩ := exists_blocking (number := app.number) (v := app.number * power) hc b2
  obtain ⟨l3, p3, q3, r3, s3⟩ := exists_blocking (number := app.number) (v := app.number * power) hc b3
  have hall : ∀ ev ∈ l1 ++ (l2 ++ l3), app.funcCycle ≤ ev.minutes ∧ ev.number = app.number ∧ ev.values = [app.number * power] ∧
      ∃ w ∈ [w1, w2, w3], w.1 ≤ ev.start ∧ ev.start + ev.minutes ≤ w.2 := by
    intro ev hev
    rcases List.mem_append.1 hev with hev | hev
    · obtain ⟨g1, g2, g3, g4, g5⟩ := p1 ev hev
      exact ⟨g3, g4, g5, w1, by simp, g1, g2⟩
    rcases List.mem_append.1 hev with hev | hev
    · obtain ⟨g1, g2, g3, g4, g5⟩ := p2 ev hev
      exact ⟨g3, g4, g5, w2, by simp, g1, g2⟩
    · obtain ⟨g1, g2, g3, g4, g5⟩ := p3 ev hev
      exact ⟨g3, g4, g5, w3, by simp, g1, g2⟩
  have hpw : (l1 ++ (l2 ++ l3)).Pairwise (fun a b => a.start + a.minutes ≤ b.start ∨ b.start + b.minutes ≤ a.start) := by
    unfold WindowsApart Apart at hap
    rw [List.pairwise_append, List.pairwise_append]
    refine ⟨q1.imp fun h => .inl h, ⟨q2.imp fun h => .inl h, q3.imp fun h => .inl h, fun a ha b hb => ?_⟩, fun a ha b hb => ?_⟩
    · obtain ⟨g1, g2, g3, _⟩ := p2 a ha
      obtain ⟨k1, k2, k3, _⟩ := p3 b hb
      omega
    · obtain ⟨g1, g2, g3, _⟩ := p1 a ha
      rcases List.mem_append.1 hb with hb | hb
      · obtain ⟨k1, k2, k3, _⟩ := p2 b hb
        omega
      · obtain ⟨k1, k2, k3, _⟩ := p3 b hb
        omega
  have hmin : minutesOn (l1 ++ (l2 ++ l3)) = u1 + u2 + u3 := by
    rw [minutesOn_append, minutesOn_append, r1, r2, r3]
    ring
  refine ⟨l1 ++ (l2 ++ l3), ⟨?_, ?_, ?_, ?_, by omega, ?_, ?_⟩, hmin, fun ev hev => (hall ev hev).2.2.1⟩
  · intro l e r hsp
    have hmem : e ∈ l1 ++ (l2 ++ l3) := by rw [hsp]; simp
    obtain ⟨g1, g2, g3, w, hw, g4, g5⟩ := hall e hmem
    rw [max_eq_left g1]
    refine ⟨⟨w, hw, g4, g5⟩, fun m m1 m2 x hx ho => ?_⟩
    rw [hsp, List.pairwise_append] at hpw
    have := hpw.2.2 x hx e (List.mem_cons_self ..)
    obtain ⟨o1, o2⟩ := ho
    omega
  · intro e he
    have := (hall e he).1
    omega
  · intro e he
    unfold NumberOn
    rw [if_neg hn]
    exact (hall e he).2.1
  · intro e he
    obtain ⟨_, g2, g3, _⟩ := hall e he
    exact ⟨1, by rw [sub_self, abs_zero]; exact abs_nonneg _, by rw [g3, g2, mul_one]⟩
  · intro l e r hsp hshort
    have hmem : e ∈ l1 ++ (l2 ++ l3) := by rw [hsp]; simp
    have := (hall e hmem).1
    omega
  · refine .inr ?_
    rintro a ⟨⟨w, hw, a1, a2⟩, hfree⟩
    simp only [List.mem_cons, List.not_mem_nil, or_false] at hw
    rcases hw with rfl | rfl | rfl
    · obtain ⟨m, m1, m2, ev, hev, ho⟩ := s1 a a1 a2
      exact hfree m m1 m2 ev (by simp [hev]) ho
    · obtain ⟨m, m1, m2, ev, hev, ho⟩ := s2 a a1 a2
      exact hfree m m1 m2 ev (by simp [hev]) ho
    · obtain ⟨m, m1, m2, ev, hev, ho⟩ := s3 a a1 a2
      exact hfree m m1 m2 ev (by simp [hev]) ho

open Classical in
/-- The profile of a day whose events all have the power `v`. -/
noncomputable def profileOf (ws : List (ℤ × ℤ)) (es : List SwitchEvent) (v : ℚ) : Profile := fun i =>
  if ∃ e ∈ es, e.On i then v else if ∃ w ∈ ws, InWindow w i then 1 / 1000 else 0

theorem dayProfile_of {ws : List (ℤ × ℤ)} {es : List SwitchEvent} {v : ℚ} (h : ∀ e ∈ es, e.values = [v]) : DayProfile ws es (profileOf ws es v) := by
  intro i
  refine ⟨fun e he ho _ => ?_, fun hno hin => ?_, fun hno hin => ?_⟩
  · unfold profileOf SwitchEvent.valueAt
    rw [if_pos ⟨e, he, ho⟩, h e he]
    simp [Nat.mod_one]
  · unfold profileOf
    rw [if_neg (by rintro ⟨e, he, ho⟩; have := hno e he ho; rw [h e he] at this; simp at this), if_pos hin]
  · unfold profileOf
    rw [if_neg (by rintro ⟨e, he, ho⟩; have := hno e he ho; rw [h e he] at this; simp at this), if_neg hin]

/-- **C111.** Exactly: for an appliance that may be used on the day and whose power is above the marker, all possible days of use have the energy of its full time of use
if and only if its windows have room for it. -/
theorem C111_exactly_when {app : Appliance} (hs : WellSeparated app) (ho : OnlyWhen app) {depth : ℕ} {pref : ℤ} {profI : ℕ} {peak : List ℤ}
    (hpk : peak ≠ []) {dayType : ℤ} {power : ℚ} (huse : ¬ SkippedForSure app pref dayType) (hocc : 0 ≤ app.occasionalUse) (hpow : 1 / 1000 < app.number * power)
    (hfit : app.funcCycle ≤ ⌊(99 / 100 : ℚ) * totalTime app.window1 app.window2 app.window3⌋) :
    (∀ app', Returns (generateLoadProfile app (depth + 1) pref profI peak dayType power) app' → app'.dailyUse ≠ zeros → energy app'.dailyUse = fullEnergy app power) ↔
      LeavesRoom app := by
  constructor
  · intro hall u1 u2 u3 b1 b2 b3
    by_contra hlt
    push Not at hlt
    obtain ⟨m1, m2, m3⟩ : MovedWindow app.window1 app.randomVar1 app.window1 ∧ MovedWindow app.window2 app.randomVar2 app.window2 ∧
        MovedWindow app.window3 app.randomVar3 app.window3 := by
      obtain ⟨v1, v2, v3⟩ := ho.windows
      rw [v1, v2, v3]
      exact ⟨moved_self hs.windows.w1 (le_refl 0), moved_self hs.windows.w2 (le_refl 0), moved_self hs.windows.w3 (le_refl 0)⟩
    have hap := hs.apart _ _ _ m1 m2 m3
    obtain ⟨es, hpl, hmin, hval⟩ := exists_blocked_day (power := power) (time := usableMinutes app) hap hs.windows.w1 hs.windows.w2 hs.windows.w3 hs.shortest ho.together b1 b2 b3 hlt.le
    have hp := dayProfile_of (ws := [app.window1, app.window2, app.window3]) hval
    have ht : TimeOfUse app app.window1 app.window2 app.window3 (usableMinutes app) := by
      refine ⟨hfit, app.funcTime, ?_, ?_, rfl⟩
      · rw [ho.time]
        simp
      · rw [ho.time]
        simp
    obtain ⟨app', h1, h2⟩ := (C83_possible_days_plain (depth := depth) (profI := profI) hs ho.noCycles ho.notFlat hpk _).2 (.inr ⟨huse, hocc, _, _, _, _, es, m1, m2, m3,
      hs.windows.w1, hs.windows.w2, hs.windows.w3, ht, hpl, hp⟩)
    have he := energy_of_events hap hs.windows.w1 hs.windows.w2 hs.windows.w3 hpl hp
    have hv : ∀ e ∈ es, (e.minutes : ℚ) * e.values.getD 0 0 = e.minutes * (app.number * power) := fun e hm => by
      rw [hval e hm]
      rfl
    rw [List.map_congr_left hv, List.sum_map_mul_right, sum_minutes, hmin, ← h2] at he
    have hpos : 0 < energy app'.dailyUse := by
      rw [he]
      have g0 : 0 ≤ u1 + u2 + u3 := by
        have := hs.shortest
        have := b1.1
        have := b2.1
        have := b3.1
        omega
      have g1 : usableMinutes app ≤ ⌊(99 / 100 : ℚ) * totalTime app.window1 app.window2 app.window3⌋ := min_le_right _ _
      have g2 : ((usableMinutes app : ℤ) : ℚ) ≤ 99 / 100 * totalTime app.window1 app.window2 app.window3 := by
        exact (by exact_mod_cast g1 : ((usableMinutes app : ℤ) : ℚ) ≤ ((⌊(99 / 100 : ℚ) * totalTime app.window1 app.window2 app.window3⌋ : ℤ) : ℚ)).trans (Int.floor_le _)
      have g3 : ((u1 + u2 + u3 : ℤ) : ℚ) < usableMinutes app := by exact_mod_cast hlt
      have g4 : (0 : ℚ) ≤ ((u1 + u2 + u3 : ℤ) : ℚ) := by exact_mod_cast g0
      have g5 : 0 ≤ ((u1 + u2 + u3 : ℤ) : ℚ) * (app.number * power) := mul_nonneg g4 (by linarith)
      linarith
    have hne : app'.dailyUse ≠ zeros := fun hz => by
      rw [hz, energy_zeros] at hpos
      exact lt_irrefl _ hpos
    have hfull := hall app' h1 hne
    rw [he] at hfull
    unfold fullEnergy at hfull
    have g3 : ((u1 + u2 + u3 : ℤ) : ℚ) < usableMinutes app := by exact_mod_cast hlt
    nlinarith
  · intro hroom app' h hne
    rcases C111_used_up hs ho hroom hpk h with ⟨h0, _⟩ | h
    · exact absurd h0 hne
    · exact h

/-! ## A simple sufficient condition -/

/-- **C111.** There is room for `t` minutes if the windows last for `t` minutes and `c - 1` minutes more for each of the `(t - 1) / c` events that can come before the last
and for each window. -/
theorem C111_enough_room {c t : ℤ} {w1 w2 w3 : ℤ × ℤ} (hc : 1 ≤ c) (d1 : w1.1 ≤ w1.2) (d2 : w2.1 ≤ w2.2) (d3 : w3.1 ≤ w3.2)
    (h : t + ((t - 1) / c + (([w1, w2, w3].filter (fun w => decide (w.1 < w.2))).length : ℤ)) * (c - 1) ≤ totalTime w1 w2 w3) : RoomFor c t w1 w2 w3 := by
  intro u1 u2 u3 b1 b2 b3
  by_contra hlt
  push Not at hlt
  have key : ∀ (w : ℤ × ℤ) (u : ℤ), w.1 ≤ w.2 → Blocks c (w.2 - w.1) u → 0 ≤ u ∧ w.2 - w.1 ≤ u + (u / c + if w.1 < w.2 then 1 else 0) * (c - 1) := by
    intro w u hw hb
    have h0 : 0 ≤ u := by rcases hb.1 with h | h <;> omega
    refine ⟨h0, ?_⟩
    split_ifs with hlt
    · exact hb.2.2
    · have : 0 ≤ (u / c + 0) * (c - 1) := mul_nonneg (by have := Int.ediv_nonneg h0 (by omega : 0 ≤ c); omega) (by omega)
      omega
  obtain ⟨p1, q1⟩ := key w1 u1 d1 b1
  obtain ⟨p2, q2⟩ := key w2 u2 d2 b2
  obtain ⟨p3, q3⟩ := key w3 u3 d3 b3
  have hcount : (([w1, w2, w3].filter (fun w => decide (w.1 < w.2))).length : ℤ) = (if w1.1 < w1.2 then 1 else 0) + (if w2.1 < w2.2 then 1 else 0) + (if w3.1 < w3.2 then 1 else 0) := by
    simp only [List.filter_cons, List.filter_nil, decide_eq_true_eq]
    split_ifs <;> simp
  rw [hcount] at h
  have hdiv : u1 / c + u2 / c + u3 / c ≤ (t - 1) / c := by
    refine (Int.le_ediv_iff_mul_le (by omega)).2 ?_
    have e1 := Int.ediv_mul_le u1 (by omega : c ≠ 0)
    have e2 := Int.ediv_mul_le u2 (by omega : c ≠ 0)
    have e3 := Int.ediv_mul_le u3 (by omega : c ≠ 0)
    rw [add_mul, add_mul]
    omega
  have hmul := mul_le_mul_of_nonneg_right hdiv (by omega : 0 ≤ c - 1)
  unfold totalTime at h
  generalize (if w1.1 < w1.2 then (1 : ℤ) else 0) = x1 at *
  generalize (if w2.1 < w2.2 then (1 : ℤ) else 0) = x2 at *
  generalize (if w3.1 < w3.2 then (1 : ℤ) else 0) = x3 at *
  have e : (u1 / c + x1) * (c - 1) + (u2 / c + x2) * (c - 1) + (u3 / c + x3) * (c - 1) = (u1 / c + u2 / c + u3 / c) * (c - 1) + (x1 + x2 + x3) * (c - 1) := by ring
  have e' : ((t - 1) / c + (x1 + x2 + x3)) * (c - 1) = (t - 1) / c * (c - 1) + (x1 + x2 + x3) * (c - 1) := by ring
  rw [e'] at h
  linarith

/-- **C111.** Switched on and off by the minute (`func_cycle = 1`), there is always room. -/
theorem C111_by_the_minute {app : Appliance} (hw : ValidWindows app) (h : app.funcCycle = 1) : LeavesRoom app := by
  obtain ⟨_, d1, _⟩ := hw.w1
  obtain ⟨_, d2, _⟩ := hw.w2
  obtain ⟨_, d3, _⟩ := hw.w3
  unfold LeavesRoom
  rw [h]
  refine C111_enough_room (le_refl 1) d1 d2 d3 ?_
  rw [sub_self, mul_zero, add_zero]
  refine (min_le_right _ _).trans ?_
  have h0 : (0 : ℚ) ≤ ((totalTime app.window1 app.window2 app.window3 : ℤ) : ℚ) := by
    have : 0 ≤ totalTime app.window1 app.window2 app.window3 := by unfold totalTime; omega
    exact_mod_cast this
  have : (99 / 100 : ℚ) * totalTime app.window1 app.window2 app.window3 ≤ ((totalTime app.window1 app.window2 app.window3 : ℤ) : ℚ) := by linarith
  exact_mod_cast (Int.floor_le _).trans this

/-! ## The expected energy -/

variable {μ : Measure Draw}

/-- **C111.** The expected energy of a day, exactly: if only whether and when the appliances are used is left to chance and their windows have room for their times of use, it
is the sum over users and appliances of `num_users` times the probability of use times the energy of the full time of use. -/
theorem C111_expected_energy [IsProbabilityMeasure μ] {env : Env} {depth : ℕ} {uc : UseCase} {ds peak : List ℤ} {days : Option (List ℤ)} (hr : Ready uc ds peak)
    (hp : peak ≠ []) (hs : ∀ u ∈ uc.users, SensibleUser u) (hl : ∀ u ∈ uc.users, ∀ a ∈ u.appList, ds.length ≤ a.power.length)
    (hv : ∀ u ∈ uc.users, ∀ a ∈ u.appList, VisibleUse a) (ho : ∀ u ∈ uc.users, ∀ a ∈ u.appList, OnlyWhen a) (hroom : ∀ u ∈ uc.users, ∀ a ∈ u.appList, LeavesRoom a)
    {k : ℕ} (hk : k < ds.length) :
    expectedEnergy μ (dailyRows env (depth + 1) uc days) k =
      (uc.users.map (fun u => (u.numUsers.toNat : ℝ≥0∞) * (u.appList.map (fun a =>
        chanceOfUse μ (typeOfDay ds[k]) u a * ENNReal.ofReal ((fullEnergy a (a.power.getD k 0) : ℚ) : ℝ))).sum)).sum := by
  show MeanOf μ (dailyRows env (depth + 1) uc days) (fun rows => energyOf (rows.getD k zeros)) = _
  rw [mean_rows_sensible hr hp hs hl (fun u hu a ha => (hv u hu a ha).powers) hk C104_energy_adds_up]
  congr 1
  refine List.map_congr_left fun u hu => ?_
  congr 2
  refine List.map_congr_left fun a ha => ?_
  obtain ⟨h1, h2, h3⟩ := (hs u hu).appliances a ha
  have hka : k < a.power.length := by have := hl u hu a ha; omega
  have hoa := ho u hu a ha
  have hsep : WellSeparated a := ⟨h1.windows, (hv u hu a ha).apart, h1.cycles, fun h => absurd hoa.noCycles (by omega), h1.fc, h1.ft, h1.var, h1.number⟩
  have hE : ∀ pref p, ApplianceDay (depth + 1) k peak (typeOfDay ds[k]) pref a p → p = zeros ∨ energy p = fullEnergy a (a.power.getD k 0) := by
    rintro pref p ⟨w, a', hw, h, rfl⟩
    have hwk : a.power.getD k 0 = w := by rw [List.getD_eq_getElem?_getD, hw]; rfl
    rw [hwk]
    rcases C111_used_up hsep hoa (hroom u hu a ha) hp h with ⟨h0, _⟩ | h
    · exact .inl h0
    · exact .inr h
  have e : ∀ pref, MeanOf μ (applianceRun (depth + 1) k peak (typeOfDay ds[k]) pref a) energyOf =
      ind (¬ SkippedForSure a pref (typeOfDay ds[k])) * (μ {d | d.u ≤ a.occasionalUse} * ENNReal.ofReal ((fullEnergy a (a.power.getD k 0) : ℚ) : ℝ)) := fun pref =>
    mean_energy_of h1 (hv u hu a ha) (fun _ => hE pref) hka fun w => C72_never_raises h1 hp (fun _ => hka) h2 h3
  simp only [e]
  rw [meanOf_mul_right (fin_drawPreference _), ← mul_assoc, mean_ind_pref]

/-- **C111.** The same with a variability of power, up to one part in `2^53`. -/
theorem C111_variable_power {N : ℕ} (h : PythonRandom N μ) {env : Env} {depth : ℕ} {uc : UseCase} {ds peak : List ℤ} {days : Option (List ℤ)} (hr : Ready uc ds peak)
    (hp : peak ≠ []) (hs : ∀ u ∈ uc.users, SensibleUser u) (hl : ∀ u ∈ uc.users, ∀ a ∈ u.appList, ds.length ≤ a.power.length)
    (hv : ∀ u ∈ uc.users, ∀ a ∈ u.appList, VisibleUse a) (ho : ∀ u ∈ uc.users, ∀ a ∈ u.appList, OnlyWhen { a with thermalPVar := 0 })
    (hroom : ∀ u ∈ uc.users, ∀ a ∈ u.appList, LeavesRoom a) {k : ℕ} (hk : k < ds.length) {E : ℝ≥0∞}
    (hE : E = (uc.users.map (fun u => (u.numUsers.toNat : ℝ≥0∞) * (u.appList.map (fun a =>
        chanceOfUse μ (typeOfDay ds[k]) u a * ENNReal.ofReal ((fullEnergy a (a.power.getD k 0) : ℚ) : ℝ))).sum)).sum) :
    (1 - (2 ^ 53)⁻¹) * E ≤ expectedEnergy μ (dailyRows env (depth + 1) uc days) k ∧ expectedEnergy μ (dailyRows env (depth + 1) uc days) k ≤ E := by
  have := h.probability
  have hmem : ∀ u ∈ constantPowers uc.users, ∃ v ∈ uc.users, u = { v with appList := v.appList.map constantPower } := by
    intro u hu
    obtain ⟨v, hv, rfl⟩ := List.mem_map.1 hu
    exact ⟨v, hv, rfl⟩
  have e := C111_expected_energy (μ := μ) (env := env) (depth := depth) (days := days) (ready_users hr (constantPowers uc.users)) hp
    (fun u hu => by
      obtain ⟨v, hv, rfl⟩ := hmem u hu
      refine ⟨(hs v hv).preference, fun a ha => ?_⟩
      obtain ⟨b, hb, rfl⟩ := List.mem_map.1 ha
      exact sensible_constant ((hs v hv).appliances b hb))
    (fun u hu a ha => by
      obtain ⟨v, hv, rfl⟩ := hmem u hu
      obtain ⟨b, hb, rfl⟩ := List.mem_map.1 ha
      exact hl v hv b hb)
    (fun u hu a ha => by
      obtain ⟨v, hv', rfl⟩ := hmem u hu
      obtain ⟨b, hb, rfl⟩ := List.mem_map.1 ha
      obtain ⟨v1, ⟨P, v2⟩, v3⟩ := hv v hv' b hb
      exact ⟨v1, ⟨P, powersUpTo_constant v2⟩, v3⟩)
    (fun u hu a ha => by
      obtain ⟨v, hv, rfl⟩ := hmem u hu
      obtain ⟨b, hb, rfl⟩ := List.mem_map.1 ha
      exact ho v hv b hb)
    (fun u hu a ha => by
      obtain ⟨v, hv, rfl⟩ := hmem u hu
      obtain ⟨b, hb, rfl⟩ := List.mem_map.1 ha
      exact hroom v hv b hb) hk
  have e2 : (constantPowers uc.users).map (fun u => (u.numUsers.toNat : ℝ≥0∞) * (u.appList.map (fun a =>
        chanceOfUse μ (typeOfDay ds[k]) u a * ENNReal.ofReal ((fullEnergy a (a.power.getD k 0) : ℚ) : ℝ))).sum) = uc.users.map (fun u => (u.numUsers.toNat : ℝ≥0∞) *
        (u.appList.map (fun a => chanceOfUse μ (typeOfDay ds[k]) u a * ENNReal.ofReal ((fullEnergy a (a.power.getD k 0) : ℚ) : ℝ))).sum) := by
    unfold constantPowers
    rw [List.map_map]
    refine List.map_congr_left fun u _ => ?_
    simp only [Function.comp_apply, List.map_map]
    rfl
  have e3 : expectedEnergy μ (dailyRows env (depth + 1) { uc with users := constantPowers uc.users } days) k = E := by
    rw [hE, ← e2]
    exact e
  have := (C108_python h (env := env) (depth := depth) (days := days) hr hp hs hl (fun u hu a ha => (hv u hu a ha).powers) hk).2
  rwa [e3] at this

/-! ## Cases -/

/-- A fan of 60 W used for two hours, at least 30 minutes at a time, between 12:00 and 15:00 and between 18:00 and 23:00. -/
def roomFan : Appliance where
  number := 1
  power := List.replicate 367 60
  window1 := (720, 900)
  window2 := (1080, 1380)
  funcTime := 120
  funcCycle := 30
  fixed := "yes"

theorem roomFan_sensible : SensibleAppliance roomFan := by
  refine ⟨⟨⟨?_, ?_, ?_, ?_, ?_, ?_⟩, ?_, ?_, ?_, ?_, ?_, ?_, ?_, ?_, ⟨?_, ?_, ?_, ?_, ?_, ?_, ?_, ?_, ?_, ?_⟩⟩, ⟨?_, ?_, ?_, ?_, ?_, ?_⟩, .inl ?_⟩
  all_goals simp only [DayWindow, roomFan, totalTime]
  all_goals norm_num

theorem roomFan_minutes : usableMinutes roomFan = 120 := by
  unfold usableMinutes totalTime
  rw [show roomFan.window1 = (720, 900) from rfl, show roomFan.window2 = (1080, 1380) from rfl, show roomFan.window3 = (0, 0) from rfl, show roomFan.funcTime = 120 from rfl,
    show roomFan.funcCycle = 30 from rfl]
  norm_num

/-- There is room for the two hours of the fan. -/
theorem roomFan_room : LeavesRoom roomFan := by
  unfold LeavesRoom
  rw [roomFan_minutes]
  refine C111_enough_room (by decide) (by decide) (by decide) (by decide) ?_
  decide

theorem roomFan_only : OnlyWhen roomFan := ⟨le_refl _, by decide, by decide, rfl, rfl, rfl, rfl, rfl⟩

theorem roomFan_visible : VisibleUse roomFan := by
  refine ⟨fun w1 w2 w3 m1 m2 m3 => ?_, ⟨60, ⟨roomFan_sensible.config.windows, by norm_num [roomFan], by norm_num [roomFan], by norm_num [roomFan], fun p hp => ?_, fun p hp => ?_⟩⟩,
    fun h => absurd h (by decide)⟩
  · have e1 : w1 = (720, 900) := moved_zero (w := (720, 900)) (by unfold DayWindow; norm_num) m1
    have e2 : w2 = (1080, 1380) := moved_zero (w := (1080, 1380)) (by unfold DayWindow; norm_num) m2
    have e3 : w3 = (0, 0) := moved_zero (w := (0, 0)) (by unfold DayWindow; norm_num) m3
    subst e1 e2 e3
    unfold WindowsApart Apart
    norm_num
  · rw [List.eq_of_mem_replicate hp]
    norm_num
  · have hp' : p ∈ [(0 : ℚ), 0, 0, 0, 0, 0] := hp
    have h0 : p = 0 := by simpa using hp'
    rw [h0]
    norm_num

/-- A case for C111: the fans of 20 households take `20 · (120 · 60 + 0.001 · 360)` watt minutes on the second day if they are used every day. -/
example [IsProbabilityMeasure μ] (hocc : μ {d | d.u ≤ 1} = 1) :
    expectedEnergy μ (dailyRows ⟨0, none⟩ 1000 (lampDays [{ numUsers := 20, appList := [roomFan] }]) none) 1 = ENNReal.ofReal (20 * (120 * 60 + 36 / 100)) := by
  have hmem : ∀ u ∈ (lampDays [{ numUsers := 20, appList := [roomFan] }]).users, u.userPreference = 0 ∧ ∀ a ∈ u.appList, a = roomFan := by
    intro u hu
    rw [List.mem_singleton.1 hu]
    exact ⟨rfl, fun a ha => List.mem_singleton.1 ha⟩
  have h := C111_expected_energy (μ := μ) (env := ⟨0, none⟩) (depth := 999) (uc := lampDays [{ numUsers := 20, appList := [roomFan] }]) (ds := [0, 1, 2]) (peak := [700])
    (days := none) ⟨rfl, rfl, rfl⟩ (by simp)
    (fun u hu => ⟨by rw [(hmem u hu).1], fun a ha => by rw [(hmem u hu).2 a ha]; exact roomFan_sensible⟩)
    (fun u hu a ha => by
      rw [(hmem u hu).2 a ha]
      show 3 ≤ (List.replicate 367 (60 : ℚ)).length
      rw [List.length_replicate]
      norm_num)
    (fun u hu a ha => by rw [(hmem u hu).2 a ha]; exact roomFan_visible) (fun u hu a ha => by rw [(hmem u hu).2 a ha]; exact roomFan_only)
    (fun u hu a ha => by rw [(hmem u hu).2 a ha]; exact roomFan_room) (k := 1) (by simp)
  rw [h]
  have hE : fullEnergy roomFan (roomFan.power.getD 1 0) = 120 * 60 + 36 / 100 := by
    have hpow : roomFan.power.getD 1 0 = 60 := rfl
    unfold fullEnergy
    rw [roomFan_minutes, hpow, show roomFan.number = 1 from rfl]
    unfold totalTime
    rw [show roomFan.window1 = (720, 900) from rfl, show roomFan.window2 = (1080, 1380) from rfl, show roomFan.window3 = (0, 0) from rfl]
    norm_num
  have hch : chanceOfUse μ (typeOfDay ([0, 1, 2] : List ℤ)[1]) { numUsers := 20, appList := [roomFan] } roomFan = 1 := by
    unfold chanceOfUse
    rw [if_neg (by decide)]
    rw [chanceOf_const_sure (fin_drawPreference _) (never_drawPreference.2 (le_refl 0)) fun _ => .inl rfl, one_mul]
    exact hocc
  show ((([{ numUsers := 20, appList := [roomFan] }] : List User).map (fun u => (u.numUsers.toNat : ℝ≥0∞) * (u.appList.map (fun a =>
    chanceOfUse μ (typeOfDay ([0, 1, 2] : List ℤ)[1]) u a * ENNReal.ofReal ((fullEnergy a (a.power.getD 1 0) : ℚ) : ℝ))).sum)).sum) = _
  rw [List.map_singleton, List.sum_singleton]
  show ((20 : ℕ) : ℝ≥0∞) * ([roomFan].map _).sum = _
  rw [List.map_singleton, List.sum_singleton, hch, hE, one_mul]
  rw [ENNReal.ofReal_mul (by norm_num), Nat.cast_ofNat, ENNReal.ofReal_ofNat]
  congr 2
  push_cast
  norm_num

/-- A stove used for 50 minutes, at least 30 minutes at a time, between 8:00 and 9:00. -/
def shortStove : Appliance where
  number := 1
  power := [1000]
  window1 := (480, 540)
  funcTime := 50
  funcCycle := 30
  fixed := "yes"

/-- There is no room for its 50 minutes: 30 minutes in the middle of the hour leave no 30 minutes before and after. -/
theorem shortStove_blocked : ¬ LeavesRoom shortStove := by
  intro h
  have ht : usableMinutes shortStove = 50 := by
    unfold usableMinutes totalTime
    rw [show shortStove.window1 = (480, 540) from rfl, show shortStove.window2 = (0, 0) from rfl, show shortStove.window3 = (0, 0) from rfl,
      show shortStove.funcTime = 50 from rfl, show shortStove.funcCycle = 30 from rfl]
    norm_num
  have := h 30 0 0 ⟨.inr (by decide), by decide, by decide⟩ ⟨.inl rfl, by decide, by decide⟩ ⟨.inl rfl, by decide, by decide⟩
  rw [ht] at this
  norm_num at this

/-- A case for C111: on some days the stove is used for less than its 50 minutes. -/
example : ∃ app', Returns (generateLoadProfile shortStove 1000 0 0 [700] 0 1000) app' ∧ app'.dailyUse ≠ zeros ∧ energy app'.dailyUse ≠ fullEnergy shortStove 1000 := by
  have hs : WellSeparated shortStove := by
    refine ⟨⟨?_, ?_, ?_, ?_, ?_, ?_⟩, ?_, ?_, ?_, ?_, ?_, ?_, ?_⟩
    · unfold DayWindow shortStove; norm_num
    · unfold DayWindow shortStove; norm_num
    · unfold DayWindow shortStove; norm_num
    · unfold shortStove; norm_num
    · unfold shortStove; norm_num
    · unfold shortStove; norm_num
    · intro w1 w2 w3 m1 m2 m3
      have e2 : w2 = (0, 0) := moved_zero (w := (0, 0)) (by unfold DayWindow; norm_num) m2
      have e3 : w3 = (0, 0) := moved_zero (w := (0, 0)) (by unfold DayWindow; norm_num) m3
      subst e2 e3
      unfold WindowsApart
      simp
    · constructor <;> norm_num [shortStove]
    · intro h; simp [shortStove] at h
    · norm_num [shortStove]
    · norm_num [shortStove]
    · norm_num [shortStove]
    · norm_num [shortStove]
  have h := C111_exactly_when (depth := 999) (pref := 0) (profI := 0) (peak := [700]) (dayType := 0) (power := 1000) hs
    ⟨le_refl _, by decide, by decide, rfl, rfl, rfl, rfl, rfl⟩ (by simp) (by unfold SkippedForSure; simp [shortStove]) (by norm_num [shortStove]) (by norm_num [shortStove])
    (by
      show (30 : ℤ) ≤ ⌊(99 / 100 : ℚ) * ((totalTime (480, 540) (0, 0) (0, 0) : ℤ) : ℚ)⌋
      unfold totalTime
      norm_num)
  have := mt h.1 shortStove_blocked
  push Not at this
  exact this

end Ramp
