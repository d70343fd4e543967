import Verif.Props.Expected

/-! # C106, C107: the probabilities of single events -/

set_option autoImplicit false

open MeasureTheory ENNReal

namespace Ramp

variable {μ : Measure Draw}

/-! ## Draws -/

theorem chanceOf_draw [IsProbabilityMeasure μ] {α : Type} (F : Draw → α) (φ : α → Prop) : ChanceOf μ (nextDraw >>= fun d => pure (F d)) φ = μ {d | φ (F d)} := by
  classical
  rw [chanceOf_eq (fin_bind fin_nextDraw fun _ => fin_pure _), meanOf_bind fin_nextDraw fun _ => fin_pure _, meanOf_nextDraw]
  simp only [meanOf_pure]
  rw [← lintegral_indicator_one (MeasurableSet.of_discrete (s := {d | φ (F d)}))]
  refine lintegral_congr fun d => ?_
  simp [Set.indicator]

theorem python_interval {N : ℕ} (h : PythonRandom N μ) {a b : ℚ} (ha : 0 ≤ a) (hab : a ≤ b) (hb : b ≤ 1) : Nearly (μ {d | a ≤ d.u ∧ d.u < b}) (b - a) := by
  have := h.probability
  have hM : (0 : ℕ) < 2 ^ 53 := by positivity
  have hM' : (0 : ℚ) < ((2 ^ 53 : ℕ) : ℚ) := by exact_mod_cast hM
  have e := grid_event hM h.grid (fun u => a ≤ u ∧ u < b)
  have e2 : (Finset.range (2 ^ 53)).filter (fun k : ℕ => a ≤ (k : ℚ) / (2 ^ 53 : ℕ) ∧ (k : ℚ) / (2 ^ 53 : ℕ) < b) = Finset.Ico ⌈a * (2 ^ 53 : ℕ)⌉₊ ⌈b * (2 ^ 53 : ℕ)⌉₊ := by
    ext k
    rw [Finset.mem_filter, Finset.mem_range, Finset.mem_Ico, le_div_iff₀ hM', div_lt_iff₀ hM', Nat.ceil_le, Nat.lt_ceil]
    refine ⟨fun h => h.2, fun h => ⟨?_, h⟩⟩
    have : (k : ℚ) < (2 ^ 53 : ℕ) := lt_of_lt_of_le h.2 (by nlinarith)
    exact_mod_cast this
  rw [e2, Nat.card_Ico] at e
  have hle : ⌈a * (2 ^ 53 : ℕ)⌉₊ ≤ ⌈b * (2 ^ 53 : ℕ)⌉₊ := Nat.ceil_mono (by nlinarith)
  unfold Nearly
  rw [e, ENNReal.toReal_div, ENNReal.toReal_natCast, ENNReal.toReal_natCast, Nat.cast_sub hle]
  have a1 := Nat.le_ceil (a * (2 ^ 53 : ℕ))
  have a2 := Nat.ceil_lt_add_one (a := a * (2 ^ 53 : ℕ)) (by positivity)
  have b1 := Nat.le_ceil (b * (2 ^ 53 : ℕ))
  have b2 := Nat.ceil_lt_add_one (a := b * (2 ^ 53 : ℕ)) (mul_nonneg (ha.trans hab) hM'.le)
  set M : ℕ := 2 ^ 53 with hMdef
  clear_value M
  have hMr : (0 : ℝ) < (M : ℝ) := by exact_mod_cast hM
  have a1' : (a : ℝ) * M ≤ (⌈a * M⌉₊ : ℝ) := by exact_mod_cast a1
  have a2' : (⌈a * M⌉₊ : ℝ) < (a : ℝ) * M + 1 := by exact_mod_cast a2
  have b1' : (b : ℝ) * M ≤ (⌈b * M⌉₊ : ℝ) := by exact_mod_cast b1
  have b2' : (⌈b * M⌉₊ : ℝ) < (b : ℝ) * M + 1 := by exact_mod_cast b2
  have hMM : (2 : ℝ) ^ 53 = M := by rw [hMdef, Nat.cast_pow, Nat.cast_ofNat]
  rw [hMM, Rat.cast_sub]
  generalize (⌈a * M⌉₊ : ℝ) = x at *
  generalize (⌈b * M⌉₊ : ℝ) = y at *
  have e3 : (y - x) / (M : ℝ) - ((b : ℝ) - a) = (y - x - ((b : ℝ) - a) * M) / M := by field_simp
  rw [e3, abs_div, abs_of_pos hMr]
  refine div_le_div_of_nonneg_right (abs_le.2 ⟨?_, ?_⟩) hMr.le <;> linarith

/-! ## The start of an event -/

theorem nodup_choices {fc : ℤ} (hf : 1 ≤ fc) : ∀ {spots : List Spot}, SpotsDisjoint spots → (switchOnChoices spots fc).Nodup
  | [], _ => by simp [switchOnChoices]
  | s :: spots, h => by
    obtain ⟨h1, h2⟩ := List.pairwise_cons.1 h
    have e : switchOnChoices (s :: spots) fc = (if s.stop - s.start ≥ fc then arange s.start (s.stop - fc + 1) else []) ++ switchOnChoices spots fc := rfl
    rw [e, List.nodup_append]
    refine ⟨?_, nodup_choices hf h2, ?_⟩
    · split_ifs
      · unfold arange
        exact List.Nodup.map (fun i j hij => by simpa using hij) List.nodup_range
      · exact List.nodup_nil
    · intro x hx y hy hxy
      subst hxy
      obtain ⟨t, ht, k1, k2, k3⟩ := mem_switchOnChoices.1 hy
      split_ifs at hx with hs
      · unfold arange at hx
        obtain ⟨i, hi, hi2⟩ := List.mem_map.1 hx
        rw [List.mem_range] at hi
        rcases h1 t ht with h3 | h3 <;> omega
      · cases hx

theorem starts_eq {spots : List Spot} {fc : ℤ} : possibleStarts spots fc = {m | m ∈ switchOnChoices spots fc} := by
  ext m
  show (∃ s ∈ spots, s.start ≤ m ∧ m + fc ≤ s.stop) ↔ m ∈ switchOnChoices spots fc
  rw [mem_switchOnChoices]
  exact ⟨fun ⟨s, h1, h2, h3⟩ => ⟨s, h1, h2, by omega, by omega⟩, fun ⟨s, h1, h2, h3, _⟩ => ⟨s, h1, h2, by omega⟩⟩

theorem ncard_starts {spots : List Spot} {fc : ℤ} (hf : 1 ≤ fc) (h : SpotsDisjoint spots) : (possibleStarts spots fc).ncard = (switchOnChoices spots fc).length := by
  classical
  rw [starts_eq, ← List.toFinset_card_of_nodup (nodup_choices hf h), ← Set.ncard_coe_finset]
  congr 1
  ext m
  simp

theorem find_spot {fc : ℤ} (hf : 1 ≤ fc) {m : ℤ} {s : Spot} (h1 : s.start ≤ m) (h2 : m + fc ≤ s.stop) : ∀ {spots : List Spot}, SpotsDisjoint spots → s ∈ spots →
    spots.find? (fun fs => fs.start ≤ m && m ≤ fs.stop - fc) = some s
  | [], _, h => by cases h
  | t :: spots, h, hs => by
    obtain ⟨h3, h4⟩ := List.pairwise_cons.1 h
    rcases List.mem_cons.1 hs with rfl | hs
    · rw [List.find?_cons_of_pos]
      simp only [Bool.and_eq_true, decide_eq_true_eq]
      omega
    · rw [List.find?_cons_of_neg, find_spot hf h1 h2 h4 hs]
      simp only [Bool.and_eq_true, decide_eq_true_eq]
      rcases h3 s hs with h5 | h5 <;> omega

theorem never_drawIndexes {fc L a : ℤ} (h1 : 1 ≤ fc) (hL : fc ≤ L) : NeverRaises (drawIndexes fc L a) := fun e he => by
  obtain ⟨r, hr⟩ := he
  have := sat_duration (a := a) h1 hL r
  rw [hr] at this
  exact this

/-- The event that starts at a given minute. -/
def eventAt (a : Appliance) (rt m : ℤ) : Sim (Appliance × Option SwitchOn) :=
  match a.freeSpots.find? (fun fs => fs.start ≤ m && m ≤ fs.stop - a.funcCycle) with
  | none => raise .typeError
  | some spot => drawIndexes a.funcCycle (min rt (spot.stop - m)) m >>= fun l => pure (a, some ⟨l, l⟩)

theorem randSwitch_eq {a : Appliance} {rt : ℤ} (hc : a.fixedCycle ≤ 0) (depth : ℕ) {n : ℕ} (hn : (switchOnChoices a.freeSpots a.funcCycle).length = n) (h0 : 0 < n) :
    randSwitchOnWindow (depth + 1) a rt = nextDraw >>= fun d => match (switchOnChoices a.freeSpots a.funcCycle)[d.k % n]? with
      | none => raise .indexError
      | some m => eventAt a rt m := by
  rw [randSwitchOnWindow_succ, hn, if_pos (by omega)]
  unfold randint
  rw [if_neg (by omega), sim_bind_assoc]
  congr 1
  funext d
  rw [sim_pure_bind]
  have e : (0 + (d.k : ℤ) % ((n : ℤ) - 1 - 0 + 1)).toNat = d.k % n := by
    rw [zero_add, show (n : ℤ) - 1 - 0 + 1 = (n : ℤ) by ring, ← Int.natCast_mod, Int.toNat_natCast]
  rw [e]
  cases (switchOnChoices a.freeSpots a.funcCycle)[d.k % n]? with
  | none => rfl
  | some m =>
    unfold eventAt
    simp only
    cases a.freeSpots.find? (fun fs => fs.start ≤ m && m ≤ fs.stop - a.funcCycle) with
    | none => rfl
    | some spot =>
      unfold afterStart
      simp only [if_neg (not_lt.2 hc)]

theorem fin_eventAt (a : Appliance) (rt m : ℤ) : Finitary (eventAt a rt m) := by
  unfold eventAt
  split
  · exact fin_raise _
  · exact fin_bind (fin_drawIndexes _ _ _) fun _ => fin_pure _

theorem head_arange {a d : ℤ} (h : 1 ≤ d) : (arange a (a + d)).head? = some a := by
  obtain ⟨n, hn⟩ : ∃ n : ℕ, d = n + 1 := ⟨(d - 1).toNat, by omega⟩
  unfold arange
  rw [show (a + d - a).toNat = n + 1 by omega, List.range_succ_eq_map]
  simp

/-- The chance of an event from `m` on that satisfies `ψ`. -/
theorem chance_event {N : ℕ} (h : PythonRandom N μ) {a : Appliance} {rt : ℤ} (hc : a.fixedCycle ≤ 0) (hf : 1 ≤ a.funcCycle) (hrt : a.funcCycle ≤ rt)
    (hd : SpotsDisjoint a.freeSpots) (hN : (possibleStarts a.freeSpots a.funcCycle).ncard ≤ N) {s : Spot} (hs : s ∈ a.freeSpots) {m : ℤ} (h1 : s.start ≤ m)
    (h2 : m + a.funcCycle ≤ s.stop) (depth : ℕ) (ψ : List ℤ → Prop) :
    ChanceOf μ (randSwitchOnWindow (depth + 1) a rt) (Switched (fun l => l.head? = some m ∧ ψ l)) =
      ((possibleStarts a.freeSpots a.funcCycle).ncard : ℝ≥0∞)⁻¹ * ChanceOf μ (drawIndexes a.funcCycle (min rt (s.stop - m)) m) ψ := by
  have := h.probability
  have hmem : m ∈ switchOnChoices a.freeSpots a.funcCycle := mem_switchOnChoices.2 ⟨s, hs, h1, by omega, by omega⟩
  rw [ncard_starts hf hd] at hN ⊢
  have hnd := nodup_choices hf hd
  generalize hn : (switchOnChoices a.freeSpots a.funcCycle).length = n at *
  have h0 : 0 < n := by rw [← hn]; exact List.length_pos_of_mem hmem
  obtain ⟨j, hj, hjm⟩ := List.getElem_of_mem hmem
  rw [randSwitch_eq hc depth hn h0]
  have hfin : ∀ d : Draw, Finitary (match (switchOnChoices a.freeSpots a.funcCycle)[d.k % n]? with
      | none => raise .indexError
      | some m => eventAt a rt m) := by
    intro d
    cases (switchOnChoices a.freeSpots a.funcCycle)[d.k % n]? with
    | none => exact fin_raise _
    | some m => exact fin_eventAt _ _ _
  rw [chanceOf_ind (fin_bind fin_nextDraw hfin), meanOf_bind fin_nextDraw hfin, meanOf_nextDraw]
  have hval : ∀ d : Draw, MeanOf μ (match (switchOnChoices a.freeSpots a.funcCycle)[d.k % n]? with
      | none => raise .indexError
      | some m => eventAt a rt m) (fun x => ind (Switched (fun l => l.head? = some m ∧ ψ l) x)) =
      Set.indicator {d : Draw | d.k % n = j} (fun _ => ChanceOf μ (drawIndexes a.funcCycle (min rt (s.stop - m)) m) ψ) d := by
    intro d
    have hlt : d.k % n < (switchOnChoices a.freeSpots a.funcCycle).length := by rw [hn]; exact Nat.mod_lt _ h0
    rw [List.getElem?_eq_getElem hlt]
    simp only
    by_cases hdj : d.k % n = j
    · rw [Set.indicator_of_mem (show d ∈ {d : Draw | d.k % n = j} from hdj)]
      have hm' : (switchOnChoices a.freeSpots a.funcCycle)[d.k % n] = m := by
        rw [← hjm]
        congr 1
      rw [hm']
      unfold eventAt
      rw [find_spot hf h1 h2 hd hs]
      simp only
      rw [meanOf_bind (fin_drawIndexes _ _ _) fun _ => fin_pure _, chanceOf_ind (fin_drawIndexes _ _ _)]
      refine meanOf_congr fun l hl => ?_
      rw [meanOf_pure]
      refine ind_congr ⟨?_, fun hψ => ⟨_, rfl, ?_, hψ⟩⟩
      · rintro ⟨ev, hev, _, hψ⟩
        cases hev
        exact hψ
      · obtain ⟨r, r', hr⟩ := hl
        have := sat_duration (a := m) hf (le_min hrt (show a.funcCycle ≤ s.stop - m by omega)) r
        rw [hr] at this
        obtain ⟨d', rfl, hd1, _⟩ := this
        exact head_arange (by omega)
    · rw [Set.indicator_of_notMem (show d ∉ {d : Draw | d.k % n = j} from hdj)]
      generalize hm' : (switchOnChoices a.freeSpots a.funcCycle)[d.k % n] = m'
      have hne : m' ≠ m := by
        rw [← hm', ← hjm]
        intro he
        exact hdj ((List.Nodup.getElem_inj_iff hnd).1 he)
      have hmem' : m' ∈ switchOnChoices a.freeSpots a.funcCycle := by rw [← hm']; exact List.getElem_mem hlt
      obtain ⟨t, ht, k1, k2, k3⟩ := mem_switchOnChoices.1 hmem'
      unfold eventAt
      rw [find_spot hf k1 (by omega) hd ht]
      simp only
      rw [meanOf_bind (fin_drawIndexes _ _ _) fun _ => fin_pure _]
      refine (meanOf_congr fun l hl => ?_).trans (meanOf_zero (drawIndexes a.funcCycle (min rt (t.stop - m')) m'))
      rw [meanOf_pure]
      refine ind_false ?_
      rintro ⟨ev, hev, hhead, _⟩
      cases hev
      obtain ⟨r, r', hr⟩ := hl
      have := sat_duration (a := m') hf (le_min hrt (show a.funcCycle ≤ t.stop - m' by omega)) r
      rw [hr] at this
      obtain ⟨d', rfl, hd1, _⟩ := this
      rw [head_arange (by omega)] at hhead
      exact hne (Option.some.inj hhead)
  rw [lintegral_congr hval, lintegral_indicator_const MeasurableSet.of_discrete, h.integers n h0 hN j (by omega), mul_comm]

/-- **C106.** An event starts at each of the minutes that leave room for `func_cycle` minutes with the same probability. -/
theorem C106_start {N : ℕ} (h : PythonRandom N μ) {a : Appliance} {rt : ℤ} (hc : a.fixedCycle ≤ 0) (hf : 1 ≤ a.funcCycle) (hrt : a.funcCycle ≤ rt)
    (hd : SpotsDisjoint a.freeSpots) (hN : (possibleStarts a.freeSpots a.funcCycle).ncard ≤ N) (depth : ℕ) {m : ℤ} (hm : m ∈ possibleStarts a.freeSpots a.funcCycle) :
    ChanceOf μ (randSwitchOnWindow (depth + 1) a rt) (Switched (fun l => l.head? = some m)) = ((possibleStarts a.freeSpots a.funcCycle).ncard : ℝ≥0∞)⁻¹ := by
  have := h.probability
  obtain ⟨s, hs, h1, h2⟩ := hm
  have e := chance_event h hc hf hrt hd hN hs h1 h2 depth (fun _ => True)
  rw [chanceOf_sure (fin_drawIndexes _ _ _) (never_drawIndexes hf (le_min hrt (show a.funcCycle ≤ s.stop - m by omega))), mul_one] at e
  rw [← e]
  simp only [and_true]

theorem chance_duration {N : ℕ} (h : PythonRandom N μ) {fc L m : ℤ} (hf : 1 ≤ fc) (hL : fc < L) {l : ℕ} (hl : fc ≤ l) (hlL : (l : ℤ) < L) :
    Nearly (ChanceOf μ (drawIndexes fc L m) (fun x => x.length = l)) (1 / (L - fc)) := by
  have := h.probability
  have hD : (0 : ℚ) < (L : ℚ) - fc := by exact_mod_cast (by omega : (0 : ℤ) < L - fc)
  have hl' : (0 : ℚ) ≤ (l : ℚ) - fc := by exact_mod_cast (by omega : (0 : ℤ) ≤ (l : ℤ) - fc)
  have hl2 : (l : ℚ) + 1 ≤ L := by exact_mod_cast (by omega : (l : ℤ) + 1 ≤ L)
  have e : ChanceOf μ (drawIndexes fc L m) (fun x => x.length = l) = μ {d | ((l : ℚ) - fc) / (L - fc) ≤ d.u ∧ d.u < ((l : ℚ) + 1 - fc) / (L - fc)} := by
    have e1 : drawIndexes fc L m = nextDraw >>= fun d => pure (arange m (m + pyInt ((fc : ℚ) + ((L : ℚ) - fc) * d.u))) := by
      unfold drawIndexes uniform
      rw [if_pos hL, sim_bind_assoc]
      rfl
    rw [e1, chanceOf_draw]
    congr 1
    ext d
    have hx : (0 : ℚ) ≤ (fc : ℚ) + ((L : ℚ) - fc) * d.u := by
      have := mul_nonneg hD.le d.u_nonneg
      have h1 : (0 : ℚ) ≤ fc := by exact_mod_cast (by omega : (0 : ℤ) ≤ fc)
      linarith
    show (arange m (m + pyInt ((fc : ℚ) + ((L : ℚ) - fc) * d.u))).length = l ↔ _
    have hlen : ∀ z : ℤ, (arange m (m + z)).length = z.toNat := by
      intro z
      unfold arange
      rw [List.length_map, List.length_range]
      congr 1
      omega
    rw [hlen]
    unfold pyInt
    rw [if_pos hx]
    have hfl : 0 ≤ ⌊(fc : ℚ) + ((L : ℚ) - fc) * d.u⌋ := Int.floor_nonneg.2 hx
    have h3 : ⌊(fc : ℚ) + ((L : ℚ) - fc) * d.u⌋.toNat = l ↔ ⌊(fc : ℚ) + ((L : ℚ) - fc) * d.u⌋ = (l : ℤ) := by omega
    rw [h3, Int.floor_eq_iff]
    show _ ↔ ((l : ℚ) - fc) / (L - fc) ≤ d.u ∧ d.u < ((l : ℚ) + 1 - fc) / (L - fc)
    rw [div_le_iff₀ hD, lt_div_iff₀ hD, Int.cast_natCast]
    constructor
    · rintro ⟨h1, h2⟩
      constructor <;> linarith
    · rintro ⟨h1, h2⟩
      constructor <;> linarith
  rw [e]
  have := python_interval h (a := ((l : ℚ) - fc) / (L - fc)) (b := ((l : ℚ) + 1 - fc) / (L - fc)) (by positivity)
    (div_le_div_of_nonneg_right (by linarith) hD.le) (by rw [div_le_one hD]; linarith)
  rwa [← sub_div, show (l : ℚ) + 1 - fc - (l - fc) = 1 by ring] at this

/-- **C106.** An event that starts at minute `m` of the free range `s` takes each number of minutes from `func_cycle` to one less than what is left of the range
(or of the time of use) with nearly the same probability, independently of where it starts; if just `func_cycle` minutes are left, it takes those. -/
theorem C106_duration {N : ℕ} (h : PythonRandom N μ) {a : Appliance} {rt : ℤ} (hc : a.fixedCycle ≤ 0) (hf : 1 ≤ a.funcCycle) (hrt : a.funcCycle ≤ rt)
    (hd : SpotsDisjoint a.freeSpots) (hN : (possibleStarts a.freeSpots a.funcCycle).ncard ≤ N) {s : Spot} (hs : s ∈ a.freeSpots) {m : ℤ} (h1 : s.start ≤ m)
    (h2 : m + a.funcCycle ≤ s.stop) (depth : ℕ) {longest : ℤ} (hlo : longest = min rt (s.stop - m)) (l : ℕ) :
    ∃ p, ChanceOf μ (randSwitchOnWindow (depth + 1) a rt) (Switched (fun x => x.head? = some m ∧ x.length = l)) =
        ((possibleStarts a.freeSpots a.funcCycle).ncard : ℝ≥0∞)⁻¹ * p ∧
      (longest = a.funcCycle → p = if (l : ℤ) = a.funcCycle then 1 else 0) ∧
      (a.funcCycle < longest → (a.funcCycle ≤ l → (l : ℤ) < longest → Nearly p (1 / (longest - a.funcCycle))) ∧
        ((l : ℤ) < a.funcCycle ∨ longest ≤ l → p = 0)) := by
  have := h.probability
  have hfl : a.funcCycle ≤ longest := by rw [hlo]; exact le_min hrt (by omega)
  refine ⟨_, chance_event h hc hf hrt hd hN hs h1 h2 depth (fun x => x.length = l), ?_⟩
  rw [← hlo]
  have hlen : ∀ z : ℤ, (arange m (m + z)).length = z.toNat := by
    intro z
    unfold arange
    rw [List.length_map, List.length_range]
    congr 1
    omega
  refine ⟨fun he => ?_, fun hlt => ⟨fun h3 h4 => chance_duration h hf hlt h3 h4, fun h3 => ?_⟩⟩
  · have e1 : drawIndexes a.funcCycle longest m = pure (arange m (m + longest)) := by
      unfold drawIndexes
      rw [if_neg (by omega), if_pos he]
    rw [e1, chanceOf_ind (fin_pure _), meanOf_pure, hlen]
    split_ifs with hl
    · exact ind_true (by omega)
    · exact ind_false (by omega)
  · have hD : (0 : ℚ) < (longest : ℚ) - a.funcCycle := by exact_mod_cast (by omega : (0 : ℤ) < longest - a.funcCycle)
    have e1 : drawIndexes a.funcCycle longest m = nextDraw >>= fun d => pure (arange m (m + pyInt ((a.funcCycle : ℚ) + ((longest : ℚ) - a.funcCycle) * d.u))) := by
      unfold drawIndexes uniform
      rw [if_pos hlt, sim_bind_assoc]
      rfl
    rw [e1, chanceOf_draw]
    have hsure := grid_sure (by positivity) h.grid
    refine le_antisymm (le_trans (measure_mono ?_) hsure.le) zero_le
    rintro d hdl ⟨k, hk, hu⟩
    have hdl' : (arange m (m + pyInt ((a.funcCycle : ℚ) + ((longest : ℚ) - a.funcCycle) * d.u))).length = l := hdl
    have hfc : (0 : ℚ) ≤ (a.funcCycle : ℚ) := by exact_mod_cast (by omega : (0 : ℤ) ≤ a.funcCycle)
    have hge : (a.funcCycle : ℚ) ≤ (a.funcCycle : ℚ) + ((longest : ℚ) - a.funcCycle) * d.u := by
      have := mul_nonneg hD.le d.u_nonneg
      linarith
    have hu1 : d.u < 1 := by
      rw [hu, div_lt_one (by positivity)]
      exact_mod_cast Finset.mem_range.1 hk
    have hltL : (a.funcCycle : ℚ) + ((longest : ℚ) - a.funcCycle) * d.u < longest := by nlinarith
    rw [hlen] at hdl'
    unfold pyInt at hdl'
    rw [if_pos (hfc.trans hge)] at hdl'
    have f1 : a.funcCycle ≤ ⌊(a.funcCycle : ℚ) + ((longest : ℚ) - a.funcCycle) * d.u⌋ := Int.le_floor.2 hge
    have f2 : ⌊(a.funcCycle : ℚ) + ((longest : ℚ) - a.funcCycle) * d.u⌋ < longest := Int.floor_lt.2 hltL
    omega

/-! ## The windows of the day -/

theorem meanOf_randint {N : ℕ} (h : PythonRandom N μ) {lo hi : ℤ} {n : ℕ} (hn : hi - lo + 1 = n) (h0 : 0 < n) (hN : n ≤ N) (f : ℤ → ℝ≥0∞) :
    MeanOf μ (randint lo hi) f = (n : ℝ≥0∞)⁻¹ * ∑ x ∈ Finset.Icc lo hi, f x := by
  have := h.probability
  have e1 : randint lo hi = nextDraw >>= fun d => pure (lo + ((d.k % n : ℕ) : ℤ)) := by
    unfold randint
    rw [if_neg (by omega), hn]
    rfl
  have e2 : ∑ x ∈ Finset.Icc lo hi, f x = ∑ j ∈ Finset.range n, f (lo + j) := by
    symm
    refine Finset.sum_nbij (fun j : ℕ => lo + (j : ℤ)) ?_ ?_ ?_ fun _ _ => rfl
    · intro j hj
      rw [Finset.mem_range] at hj
      rw [Finset.mem_Icc]
      omega
    · intro i _ j _ hij
      have : lo + (i : ℤ) = lo + (j : ℤ) := hij
      omega
    · intro x hx
      have hx' : x ∈ Finset.Icc lo hi := hx
      rw [Finset.mem_Icc] at hx'
      refine ⟨(x - lo).toNat, ?_, ?_⟩
      · show (x - lo).toNat ∈ Finset.range n
        rw [Finset.mem_range]
        omega
      · show lo + ((x - lo).toNat : ℤ) = x
        omega
  rw [e1, meanOf_bind fin_nextDraw fun _ => fin_pure _, meanOf_nextDraw, e2]
  have e3 : ∀ d : Draw, MeanOf μ (pure (lo + ((d.k % n : ℕ) : ℤ))) f = ∑ j ∈ Finset.range n, Set.indicator {d : Draw | d.k % n = j} (fun _ => f (lo + j)) d := by
    intro d
    rw [meanOf_pure, Finset.sum_eq_single (d.k % n)]
    · rw [Set.indicator_of_mem (show d ∈ {d' : Draw | d'.k % n = d.k % n} from rfl)]
    · intro j _ hj
      exact Set.indicator_of_notMem (s := {d : Draw | d.k % n = j}) (fun hd : d.k % n = j => hj hd.symm) (fun _ => f (lo + j))
    · intro hd
      exact absurd (Finset.mem_range.2 (Nat.mod_lt _ h0)) hd
  rw [lintegral_congr e3, lintegral_finsetSum _ fun j _ => Measurable.of_discrete, Finset.mul_sum]
  refine Finset.sum_congr rfl fun j hj => ?_
  rw [lintegral_indicator_const MeasurableSet.of_discrete, h.integers n h0 hN j (Finset.mem_range.1 hj), mul_comm]

/-- **C106.** The bounds of a window of use of the day are those of the window moved independently by up to `v` minutes, all moves being equally likely, and then
cut to the day: a window is obtained with the number of moves that lead to it over `(2 v + 1)²`. -/
theorem C106_window {N : ℕ} (h : PythonRandom N μ) {w : ℤ × ℤ} {v : ℕ} (hN : 2 * v + 1 ≤ N) (a b : ℤ) :
    ChanceOf μ (calcRandWindow w v) (fun x => x = (a, b)) =
      (({x : ℤ | |x - w.1| ≤ v ∧ max x 0 = a}.ncard * {y : ℤ | |y - w.2| ≤ v ∧ min y 1440 = b}.ncard : ℕ) : ℝ≥0∞) / ((2 * v + 1) ^ 2 : ℕ) := by
  classical
  have := h.probability
  have hr : ∀ lo hi : ℤ, Finitary (randint lo hi) := fun lo hi => fin_randint lo hi
  have hcount : ∀ (c : ℤ) (g : ℤ → ℤ) (t : ℤ), ∑ x ∈ Finset.Icc (c - (v : ℤ)) (c + v), (ind (g x = t) : ℝ≥0∞) = ({x : ℤ | |x - c| ≤ v ∧ g x = t}.ncard : ℝ≥0∞) := by
    intro c g t
    have e : {x : ℤ | |x - c| ≤ v ∧ g x = t} = (((Finset.Icc (c - (v : ℤ)) (c + v)).filter (fun x => g x = t) : Finset ℤ) : Set ℤ) := by
      ext x
      rw [Finset.coe_filter]
      show (|x - c| ≤ v ∧ g x = t) ↔ (x ∈ Finset.Icc (c - (v : ℤ)) (c + v) ∧ g x = t)
      rw [Finset.mem_Icc, abs_le]
      constructor
      · rintro ⟨⟨h1, h2⟩, h3⟩
        exact ⟨⟨by omega, by omega⟩, h3⟩
      · rintro ⟨⟨h1, h2⟩, h3⟩
        exact ⟨⟨by omega, by omega⟩, h3⟩
    rw [e, Set.ncard_coe_finset, Finset.card_filter, Nat.cast_sum]
    refine Finset.sum_congr rfl fun x _ => ?_
    by_cases hx : g x = t
    · rw [ind_true hx, if_pos hx, Nat.cast_one]
    · rw [ind_false hx, if_neg hx, Nat.cast_zero]
  have e1 : calcRandWindow w v = randint (w.1 - v) (w.1 + v) >>= fun x => randint (w.2 - v) (w.2 + v) >>= fun y => pure (max x 0, min y 1440) := by
    unfold calcRandWindow
    congr 1
    funext x
    congr 1
    funext y
    have f1 : (if x < 0 then 0 else x) = max x 0 := by split_ifs <;> omega
    have f2 : (if y > 1440 then 1440 else y) = min y 1440 := by split_ifs <;> omega
    simp only [f1, f2]
  have hfin : ∀ x : ℤ, Finitary (randint (w.2 - v) (w.2 + v) >>= fun y => (pure (max x 0, min y 1440) : Sim (ℤ × ℤ))) := fun x => fin_bind (hr _ _) fun _ => fin_pure _
  rw [e1, chanceOf_ind (fin_bind (hr _ _) hfin), meanOf_bind (hr _ _) hfin]
  have e2 : ∀ x : ℤ, MeanOf μ (randint (w.2 - v) (w.2 + v) >>= fun y => (pure (max x 0, min y 1440) : Sim (ℤ × ℤ))) (fun x => ind (x = (a, b))) =
      ind (max x 0 = a) * (((2 * v + 1 : ℕ) : ℝ≥0∞)⁻¹ * ({y : ℤ | |y - w.2| ≤ v ∧ min y 1440 = b}.ncard : ℝ≥0∞)) := by
    intro x
    rw [meanOf_bind (hr _ _) fun _ => fin_pure _, meanOf_randint h (n := 2 * v + 1) (by push_cast; ring) (by omega) hN, ← hcount w.2 (fun y => min y 1440) b]
    rw [mul_left_comm]
    congr 1
    rw [Finset.mul_sum]
    refine Finset.sum_congr rfl fun y _ => ?_
    rw [meanOf_pure]
    by_cases hx : max x 0 = a
    · rw [ind_true hx, one_mul]
      exact ind_congr ⟨fun hh => (Prod.mk.inj hh).2, fun hh => Prod.ext hx hh⟩
    · rw [ind_false hx, zero_mul]
      exact ind_false fun hh => hx (Prod.mk.inj hh).1
  simp only [e2]
  rw [meanOf_randint h (n := 2 * v + 1) (by push_cast; ring) (by omega) hN, ← Finset.sum_mul, hcount w.1 (fun x => max x 0) a]
  rw [div_eq_mul_inv, Nat.cast_mul, Nat.cast_pow, ENNReal.inv_pow, pow_two]
  ring

/-! ## The number of appliances switched on together -/

theorem onNumber_floor {n : ℤ} (hn : 1 ≤ n) {x : ℚ} (h0 : 0 ≤ x) (h1 : x < n) : onNumber (x / n) n = ⌊x⌋ + 1 := by
  obtain ⟨m, rfl⟩ := Int.eq_ofNat_of_zero_le (by omega : 0 ≤ n)
  have hm : (0 : ℚ) < ((m : ℤ) : ℚ) := by exact_mod_cast (by omega : (0 : ℤ) < m)
  have hfl : 0 ≤ ⌊x⌋ := Int.floor_nonneg.2 h0
  have hlt : ⌊x⌋ < m := Int.floor_lt.2 (by exact_mod_cast h1)
  have hle : ∀ i : ℕ, (x / ((m : ℤ) : ℚ) ≥ (i : ℚ) / ((m : ℤ) : ℚ)) ↔ i < ⌊x⌋.toNat + 1 := by
    intro i
    rw [ge_iff_le, div_le_div_iff_of_pos_right hm, Nat.lt_succ_iff]
    have : ((i : ℕ) : ℚ) ≤ x ↔ (i : ℤ) ≤ ⌊x⌋ := by rw [Int.le_floor, Int.cast_natCast]
    rw [this]
    omega
  have hfilter : ∀ k : ℕ, ⌊x⌋.toNat + 1 ≤ k → (List.range k).filter (fun i : ℕ => decide (x / ((m : ℤ) : ℚ) ≥ (i : ℚ) / ((m : ℤ) : ℚ))) = List.range (⌊x⌋.toNat + 1) := by
    intro k hk
    induction k with
    | zero => omega
    | succ k ih =>
      rw [List.range_succ, List.filter_append]
      by_cases hk2 : ⌊x⌋.toNat + 1 ≤ k
      · rw [ih hk2, List.filter_cons_of_neg, List.filter_nil, List.append_nil]
        rw [decide_eq_true_eq, hle]
        omega
      · have hk3 : k = ⌊x⌋.toNat := by omega
        rw [List.filter_eq_self.2, List.filter_cons_of_pos, List.filter_nil, hk3, List.range_succ]
        · rw [decide_eq_true_eq, hle]
          omega
        · intro i hi
          rw [decide_eq_true_eq, hle]
          rw [List.mem_range] at hi
          omega
  unfold onNumber
  rw [Int.toNat_natCast, hfilter m (by omega), List.range_succ, List.getLast?_append]
  simp only [List.getLast?_singleton, Option.some_or]
  omega

/-- **C107.** Outside the peak, `j` of `n` appliances not always switched on together are switched on with nearly the probability `2 / (2 n - 1)` for each
`j` from 1 to `n - 1`, and half of it for `j = n`. -/
theorem C107_off_peak {N : ℕ} (h : PythonRandom N μ) {a : Appliance} (hfix : a.fixed = "no") (hn : 1 ≤ a.number) (j : ℤ) :
    (1 ≤ j → j < a.number → Nearly (ChanceOf μ (calcCoincidentSwitchOn a false) (fun c => c = j)) (2 / (2 * a.number - 1))) ∧
    (j = a.number → Nearly (ChanceOf μ (calcCoincidentSwitchOn a false) (fun c => c = j)) (1 / (2 * a.number - 1))) ∧
    (j < 1 ∨ a.number < j → ChanceOf μ (calcCoincidentSwitchOn a false) (fun c => c = j) = 0) := by
  have := h.probability
  have hn' : (1 : ℚ) ≤ (a.number : ℚ) := by exact_mod_cast hn
  have hD : (0 : ℚ) < (a.number : ℚ) - 1 / 2 := by linarith
  have hrun : calcCoincidentSwitchOn a false = nextDraw >>= fun d => pure (⌊((a.number : ℚ) - 1 / 2) * d.u⌋ + 1) := by
    unfold calcCoincidentSwitchOn
    rw [if_neg (by simp), if_pos ⟨rfl, hfix⟩, if_neg (by omega)]
    unfold uniform
    rw [sim_bind_assoc]
    congr 1
    funext d
    rw [sim_pure_bind]
    have e1 : (0 : ℚ) + (((a.number : ℚ) - switchOnParameters.2.2) / a.number - 0) * d.u = (((a.number : ℚ) - 1 / 2) * d.u) / a.number := by
      show (0 : ℚ) + (((a.number : ℚ) - 1 / 2) / a.number - 0) * d.u = _
      ring
    rw [e1, onNumber_floor hn (mul_nonneg hD.le d.u_nonneg)]
    have := mul_le_of_le_one_right hD.le d.u_le_one
    linarith
  have key : ∀ j : ℤ, ChanceOf μ (calcCoincidentSwitchOn a false) (fun c => c = j) = μ {d | ((j : ℚ) - 1) / (a.number - 1 / 2) ≤ d.u ∧ d.u < (j : ℚ) / (a.number - 1 / 2)} := by
    intro j
    rw [hrun, chanceOf_draw]
    congr 1
    ext d
    show ⌊((a.number : ℚ) - 1 / 2) * d.u⌋ + 1 = j ↔ ((j : ℚ) - 1) / (a.number - 1 / 2) ≤ d.u ∧ d.u < (j : ℚ) / (a.number - 1 / 2)
    rw [div_le_iff₀ hD, lt_div_iff₀ hD, ← eq_sub_iff_add_eq, Int.floor_eq_iff, Int.cast_sub, Int.cast_one, mul_comm d.u, sub_add_cancel]
  refine ⟨fun h1 h2 => ?_, ?_, ?_⟩
  · rw [key]
    have h1' : (1 : ℚ) ≤ j := by exact_mod_cast h1
    have h2' : (j : ℚ) + 1 ≤ a.number := by exact_mod_cast h2
    have := python_interval h (a := ((j : ℚ) - 1) / (a.number - 1 / 2)) (b := (j : ℚ) / (a.number - 1 / 2)) (div_nonneg (by linarith) hD.le)
      (div_le_div_of_nonneg_right (by linarith) hD.le) (by rw [div_le_one hD]; linarith)
    rwa [← sub_div, _root_.sub_sub_cancel, show (1 : ℚ) / ((a.number : ℚ) - 1 / 2) = 2 / (2 * a.number - 1) by
      rw [div_eq_div_iff hD.ne' (by linarith)]; ring] at this
  · rintro rfl
    rw [key]
    have e2 : μ {d : Draw | ((a.number : ℚ) - 1) / (a.number - 1 / 2) ≤ d.u ∧ d.u < (a.number : ℚ) / (a.number - 1 / 2)} =
        μ {d : Draw | ((a.number : ℚ) - 1) / (a.number - 1 / 2) ≤ d.u ∧ d.u < 1} := by
      refine measure_congr (ae_iff.2 (le_antisymm (le_trans (measure_mono ?_) (grid_sure (by positivity) h.grid).le) zero_le))
      rintro d hd ⟨k, hk, hu⟩
      refine hd (propext ?_)
      have hu1 : d.u < 1 := by
        rw [hu, div_lt_one (by positivity)]
        exact_mod_cast Finset.mem_range.1 hk
      exact ⟨fun h => ⟨h.1, hu1⟩, fun h => ⟨h.1, lt_of_lt_of_le h.2 (by rw [one_le_div hD]; linarith)⟩⟩
    rw [e2]
    have := python_interval h (a := ((a.number : ℚ) - 1) / (a.number - 1 / 2)) (b := 1) (div_nonneg (by linarith) hD.le) (by rw [div_le_one hD]; linarith) le_rfl
    rwa [show (1 : ℚ) - ((a.number : ℚ) - 1) / (a.number - 1 / 2) = 1 / (2 * a.number - 1) by
      rw [one_sub_div hD.ne', div_eq_div_iff hD.ne' (by linarith)]; ring] at this
  · intro hj
    rw [key]
    refine le_antisymm (le_trans (measure_mono ?_) (measure_empty (μ := μ)).le) zero_le
    rintro d ⟨h1, h2⟩
    rw [div_le_iff₀ hD] at h1
    rw [lt_div_iff₀ hD] at h2
    have hu0 := mul_nonneg d.u_nonneg hD.le
    have hu1 : d.u * ((a.number : ℚ) - 1 / 2) ≤ a.number - 1 / 2 := mul_le_of_le_one_left hD.le d.u_le_one
    rcases hj with hj | hj
    · have : (j : ℚ) ≤ 0 := by exact_mod_cast (by omega : j ≤ 0)
      linarith
    · have : (a.number : ℚ) + 1 ≤ j := by exact_mod_cast hj
      linarith

/-- **C107.** During the peak the number of appliances switched on is a normal deviate of mean `n / 2` and standard deviation `n / 4`, rounded up and cut to
`1..n`: at most `j` are switched on with the probability that the standard deviate is at most `4 j / n - 2`. -/
theorem C107_on_peak [IsProbabilityMeasure μ] {a : Appliance} (hfix : a.fixed = "no") (hn : 1 ≤ a.number) (j : ℤ) :
    ChanceOf μ (calcCoincidentSwitchOn a true) (fun c => c ≤ j) =
      if j < 1 then 0 else if a.number ≤ j then 1 else μ {d | d.z ≤ 4 * j / a.number - 2} := by
  have hn' : (0 : ℚ) < (a.number : ℚ) := by exact_mod_cast (by omega : (0 : ℤ) < a.number)
  have hrun : calcCoincidentSwitchOn a true = nextDraw >>= fun d => pure (min a.number (max 1 ⌈(a.number : ℚ) / 2 + d.z * (a.number / 4)⌉)) := by
    unfold calcCoincidentSwitchOn
    rw [if_pos ⟨rfl, hfix⟩]
    unfold gauss
    rw [sim_bind_assoc]
    congr 1
    funext d
    rw [sim_pure_bind]
    have e1 : (a.number : ℚ) * switchOnParameters.2.1 + d.z * (switchOnParameters.1 * a.number * switchOnParameters.2.1) = (a.number : ℚ) / 2 + d.z * (a.number / 4) := by
      show (a.number : ℚ) * (1 / 2) + d.z * (1 / 2 * a.number * (1 / 2)) = _
      ring
    rw [e1]
  rw [hrun, chanceOf_draw]
  split_ifs with h1 h2
  · refine le_antisymm (le_trans (measure_mono ?_) (measure_empty (μ := μ)).le) zero_le
    intro d hd
    have hd' : min a.number (max 1 ⌈(a.number : ℚ) / 2 + d.z * (a.number / 4)⌉) ≤ j := hd
    rcases min_le_iff.1 hd' with h | h
    · omega
    · have := le_max_left 1 ⌈(a.number : ℚ) / 2 + d.z * (a.number / 4)⌉
      omega
  · have : {d : Draw | min a.number (max 1 ⌈(a.number : ℚ) / 2 + d.z * (a.number / 4)⌉) ≤ j} = Set.univ :=
      Set.eq_univ_of_forall fun d => (min_le_left _ _).trans h2
    rw [this, measure_univ]
  · congr 1
    ext d
    show min a.number (max 1 ⌈(a.number : ℚ) / 2 + d.z * (a.number / 4)⌉) ≤ j ↔ d.z ≤ 4 * j / a.number - 2
    rw [min_le_iff, max_le_iff, Int.ceil_le, le_sub_iff_add_le, le_div_iff₀ hn']
    constructor
    · rintro (h | ⟨_, h⟩)
      · omega
      · linarith
    · intro h
      exact .inr ⟨by omega, by linarith⟩

/-- **C107.** Appliances always switched on together (`fixed` other than "no") are all switched on. -/
theorem C107_together [IsProbabilityMeasure μ] {a : Appliance} (hfix : a.fixed ≠ "no") (inside : Bool) :
    ChanceOf μ (calcCoincidentSwitchOn a inside) (fun c => c = a.number) = 1 := by
  have hrun : calcCoincidentSwitchOn a inside = pure a.number := by
    unfold calcCoincidentSwitchOn
    rw [if_neg fun h => hfix h.2, if_neg fun h => hfix h.2]
  rw [hrun, chanceOf_ind (fin_pure _), meanOf_pure]
  exact ind_true rfl

/-! ## A case -/

/-- Ten lamps, of which any number can be on, free from 10:00 to 13:20. -/
def tenLamps : Appliance where
  number := 10
  fixed := "no"
  power := List.replicate 367 7
  window1 := (600, 800)
  funcTime := 60
  funcCycle := 10
  freeSpots := [⟨600, 800⟩]

theorem tenLamps_starts : (possibleStarts tenLamps.freeSpots tenLamps.funcCycle).ncard = 191 := by
  rw [ncard_starts (spots := tenLamps.freeSpots) (by decide) (List.pairwise_singleton _ _)]
  decide +kernel

/-- A case for C106: a generator exists, and the event of the ten lamps starts at 10:17 with probability 1/191. -/
theorem tenLamps_start : ∃ μ, PythonRandom 1440 μ ∧
    ChanceOf μ (randSwitchOnWindow 3 tenLamps 60) (Switched (fun l => l.head? = some 617)) = (191 : ℝ≥0∞)⁻¹ := by
  obtain ⟨μ, h⟩ := C102_python_exists 1440
  refine ⟨μ, h, ?_⟩
  have := C106_start h (a := tenLamps) (rt := 60) (by decide) (by decide) (by decide) (List.pairwise_singleton _ _) (by rw [tenLamps_starts]; norm_num) 2 (m := 617)
    ⟨⟨600, 800⟩, List.mem_singleton.2 rfl, by decide, by decide⟩
  rw [this, tenLamps_starts]
  norm_num

/-- A case for C106: the ten lamps are on from 10:17 for each of 10, …, 59 minutes with nearly the probability 1/191 · 1/50, and never for the 60 minutes left. -/
theorem tenLamps_duration : ∃ μ, PythonRandom 1440 μ ∧ ∃ p q,
    ChanceOf μ (randSwitchOnWindow 3 tenLamps 60) (Switched (fun l => l.head? = some 617 ∧ l.length = 25)) = (191 : ℝ≥0∞)⁻¹ * p ∧ Nearly p (1 / 50) ∧
    ChanceOf μ (randSwitchOnWindow 3 tenLamps 60) (Switched (fun l => l.head? = some 617 ∧ l.length = 60)) = (191 : ℝ≥0∞)⁻¹ * q ∧ q = 0 := by
  obtain ⟨μ, h⟩ := C102_python_exists 1440
  have := fun l : ℕ => C106_duration h (a := tenLamps) (rt := 60) (by decide) (by decide) (by decide) (List.pairwise_singleton _ _) (by rw [tenLamps_starts]; norm_num)
    (s := ⟨600, 800⟩) (List.mem_singleton.2 rfl) (m := 617) (by decide) (by decide) 2 (longest := 60) (by decide) l
  obtain ⟨p, h1, _, h2⟩ := this 25
  obtain ⟨q, h3, _, h4⟩ := this 60
  rw [tenLamps_starts] at h1 h3
  refine ⟨μ, h, p, q, by exact_mod_cast h1, ?_, by exact_mod_cast h3, (h4 (by decide)).2 (.inr (by decide))⟩
  have := (h2 (by decide)).1 (by decide) (by decide)
  norm_num [tenLamps] at this ⊢
  exact this

/-- A case for C106: a window from 10:00 moved by up to 15 minutes starts at 9:50 and ends at 13:20 with probability 1/961. -/
theorem tenLamps_window : ∃ μ, PythonRandom 1440 μ ∧ ChanceOf μ (calcRandWindow (600, 800) 15) (fun x => x = (590, 800)) = 1 / 961 := by
  obtain ⟨μ, h⟩ := C102_python_exists 1440
  refine ⟨μ, h, ?_⟩
  have := C106_window h (w := (600, 800)) (v := 15) (by decide) 590 800
  have e1 : {x : ℤ | |x - (600, (800 : ℤ)).1| ≤ (15 : ℕ) ∧ max x 0 = 590} = {590} := by
    ext x
    show (|x - 600| ≤ ((15 : ℕ) : ℤ) ∧ max x 0 = 590) ↔ x = 590
    rw [abs_le]
    omega
  have e2 : {x : ℤ | |x - ((600 : ℤ), 800).2| ≤ (15 : ℕ) ∧ min x 1440 = 800} = {800} := by
    ext x
    show (|x - 800| ≤ ((15 : ℕ) : ℤ) ∧ min x 1440 = 800) ↔ x = 800
    rw [abs_le]
    omega
  rw [e1, e2, Set.ncard_singleton, Set.ncard_singleton] at this
  norm_num at this ⊢
  exact this

/-- A case for C107: outside the peak 3 of the ten lamps are on with nearly the probability 2/19, all ten with 1/19. -/
theorem tenLamps_number : ∃ μ, PythonRandom 1440 μ ∧ Nearly (ChanceOf μ (calcCoincidentSwitchOn tenLamps false) (fun c => c = 3)) (2 / 19) ∧
    Nearly (ChanceOf μ (calcCoincidentSwitchOn tenLamps false) (fun c => c = 10)) (1 / 19) := by
  obtain ⟨μ, h⟩ := C102_python_exists 1440
  have h1 := (C107_off_peak h (a := tenLamps) rfl (by decide) 3).1 (by decide) (by decide)
  have h2 := (C107_off_peak h (a := tenLamps) rfl (by decide) 10).2.1 rfl
  refine ⟨μ, h, ?_, ?_⟩
  · norm_num [tenLamps] at h1 ⊢
    exact h1
  · norm_num [tenLamps] at h2 ⊢
    exact h2

end Ramp
