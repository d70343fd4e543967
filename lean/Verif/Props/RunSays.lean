import Verif.Model.RunSays
import Verif.Props.Told
import Verif.Props.Says

/-! # C119: what a run announces -/

set_option autoImplicit false

namespace Ramp

theorem outcome_toldMake (env : Env) (stream : ℤ → Rng) (a : UseCaseArgs) (rng : Rng) : (toldMake env stream a rng).2 = mkUseCase env stream a rng := by
  unfold toldMake mkUseCase
  simp only
  rcases addUsers _ a.users with ⟨uc, e | ⟨⟩⟩
  · rfl
  · simp only
    by_cases h : (collectAppliances uc).dateStart.isSome = true ∧ (collectAppliances uc).dateEnd.isSome = true
    · rw [if_pos h, if_pos h, ← C114_same_initialize]
      rcases toldInitialize env (collectAppliances uc) {} rng with ⟨l, e | ⟨⟨uc', e | ⟨⟩⟩, r⟩⟩
      · rfl
      · rfl
      · simp only
        cases a.randomSeed with
        | none => rfl
        | some s => simp only; split_ifs <;> rfl
    · rw [if_neg h, if_neg h]
      simp only
      cases a.randomSeed with
      | none => rfl
      | some s => simp only; split_ifs <;> rfl

/-- **C119, runs.** The messages accompany the preparation of a run, they do not change it. -/
theorem C119_same_preparation (w : World) (r : RunArgs) (rng : Rng) : (toldPrepare w r rng).2 = prepareRun w r rng := by
  have : outcome (toldPrepare w r) = prepareRun w r := by
    unfold toldPrepare prepareRun
    rw [outcome_bind, show outcome (toldMake w.env w.stream { dateStart := r.dateStart, dateEnd := r.dateEnd, parallel := r.parallel }) =
      mkUseCase w.env w.stream { dateStart := r.dateStart, dateEnd := r.dateEnd, parallel := r.parallel } from funext (outcome_toldMake _ _ _)]
    congr 1
    funext uc
    simp only [outcome_bind, outcome_quiet, outcome_toldInitialize]
  exact congrFun this rng

/-- **C119, the announcement of a run.** A run that gets as far as its simulation has announced exactly once how many days it will simulate, from which to which day, and these are the
days that are simulated, as many as the daily profiles it returns.  It has said that the use case is already initialised, which is the case when `-n` is ignored, exactly if it has
both dates. -/
theorem C119_announced (w : World) (r : RunArgs) (rng rng' : Rng) (uc : UseCase) (h : prepareRun w r rng = .ok (uc, rng')) :
    (∃ n first last ds, announcements (visited (toldPrepare w r) rng) = [.willSimulate n first (last + 1440)] ∧ uc.days = some ds ∧ ds.head? = some first ∧
      ds.getLast? = some last ∧ n = (ds.length : ℤ) ∧ ∀ wk rows, Returns (simulateRun w wk uc) rows → (rows.length : ℤ) = n) ∧
    (.alreadyInitialized ∈ visited (toldPrepare w r) rng ↔ r.dateStart ≠ none ∧ r.dateEnd ≠ none) := by
  have hbase : ∀ (rng1 : Rng) (l : List Message) (uc1 : UseCase), toldMake w.env w.stream { dateStart := r.dateStart, dateEnd := r.dateEnd, parallel := r.parallel } rng = (l, .ok (uc1, rng1)) →
      ∃ l2 uc2 rng2, toldInitialize w.env uc1 { numDays := r.numDays } rng1 = (l2, .ok ((uc2, .ok ()), rng2)) ∧ visited (toldPrepare w r) rng = l ++ l2 ∧ uc.days = uc2.days := by
    intro rng1 l uc1 hm
    have h' : (toldPrepare w r rng).2 = .ok (uc, rng') := by rw [C119_same_preparation, h]
    unfold visited
    unfold toldPrepare at h' ⊢
    rw [traced_ok hm] at h' ⊢
    simp only at h' ⊢
    rcases hi : toldInitialize w.env uc1 { numDays := r.numDays } rng1 with ⟨l2, e | ⟨⟨uc2, e | ⟨⟩⟩, rng2⟩⟩
    · rw [traced_error hi] at h'
      cases h'
    · rw [traced_ok hi] at h'
      cases h'
    · rw [traced_ok hi] at h' ⊢
      simp only at h' ⊢
      rw [traced_ok (l := []) (x := ()) (r' := rng2) rfl] at h' ⊢
      simp only at h' ⊢
      cases hl : loadRun w r.fname uc2 with
      | error e => rw [hl] at h'; cases h'
      | ok uc3 =>
        rw [hl] at h'
        cases h'
        obtain ⟨us, apps, rfl⟩ := loadRun_ok hl
        refine ⟨l2, uc2, _, rfl, ?_, rfl⟩
        show l ++ (l2 ++ ([] ++ [])) = l ++ l2
        simp
  have hrows : ∀ ds, uc.days = some ds → ∀ wk rows, Returns (simulateRun w wk uc) rows → (rows.length : ℤ) = ds.length := by
    intro ds hds wk rows hret
    obtain ⟨ds', peak, -, hr, -, -⟩ := prepareRun_fields ⟨rng, rng', h⟩
    rw [hr.days] at hds
    cases hds
    exact_mod_cast simulateRun_length hr hret
  have hc0 : collectAppliances { name := "", dateStart := r.dateStart, dateEnd := r.dateEnd, parallel := r.parallel, peakEnlarge := 15 / 100 } = emptyCase r := rfl
  have hnot : ¬ ((emptyCase r).isInitialized = true) := by simp [emptyCase, UseCase.isInitialized]
  have hann : ∀ l l' : List Message, announcements (l ++ l') = announcements l ++ announcements l' := fun l l' => List.filter_append _ _
  by_cases hb : r.dateStart.isSome ∧ r.dateEnd.isSome
  · have hcond : (emptyCase r).dateStart.isSome = true ∧ (emptyCase r).dateEnd.isSome = true := hb
    rcases hi : toldInitialize w.env (emptyCase r) {} rng with ⟨l, e | ⟨⟨uc1, e | ⟨⟩⟩, rng1⟩⟩
    · exfalso
      have hmk : mkUseCase w.env w.stream { dateStart := r.dateStart, dateEnd := r.dateEnd, parallel := r.parallel } rng = .error e := by
        rw [← outcome_toldMake]
        unfold toldMake
        simp only [addUsers]
        rw [hc0, if_pos hcond, hi]
      unfold prepareRun at h
      rw [bind_error hmk] at h
      cases h
    · exfalso
      have hmk : mkUseCase w.env w.stream { dateStart := r.dateStart, dateEnd := r.dateEnd, parallel := r.parallel } rng = .error e := by
        rw [← outcome_toldMake]
        unfold toldMake
        simp only [addUsers]
        rw [hc0, if_pos hcond, hi]
      unfold prepareRun at h
      rw [bind_error hmk] at h
      cases h
    · have hmk : toldMake w.env w.stream { dateStart := r.dateStart, dateEnd := r.dateEnd, parallel := r.parallel } rng = (l, .ok (uc1, rng1)) := by
        unfold toldMake
        simp only [addUsers]
        rw [hc0, if_pos hcond, hi]
      obtain ⟨l2, uc2, rng2, h2, hv, hd⟩ := hbase rng1 l uc1 hmk
      have hinit : initUseCase w.env (emptyCase r) {} rng = .ok ((uc1, .ok ()), rng1) := by rw [← C114_same_initialize, hi]
      have hinited : uc1.isInitialized = true := by
        rcases returns_init ⟨rng, rng1, hinit⟩ with ⟨hh, _, rfl⟩ | ⟨_, hh⟩
        · exact hh
        · exact hh.fields.2.2.1
      rw [(C114_already_initialized w.env uc1 { numDays := r.numDays } rng1).2 ⟨hinited, rfl⟩] at h2
      cases h2
      obtain ⟨n, first, last, ds, k1, -, k3, k4, k5, k6⟩ := C114_announced (fun hh => hnot hh.1) hinit
      have hvl : visited (toldInitialize w.env (emptyCase r) {}) rng = l := by unfold visited; rw [hi]
      rw [hvl] at k1
      have hn := k6 (.inr hcond)
      refine ⟨⟨n, first, last, ds, ?_, hd.trans k3, k4, k5, hn, fun wk rows hr => by rw [hrows ds (hd.trans k3) wk rows hr, hn]⟩, ?_⟩
      · rw [hv, hann, k1]
        rfl
      · rw [hv]
        refine ⟨fun _ => ⟨Option.isSome_iff_ne_none.1 hb.1, Option.isSome_iff_ne_none.1 hb.2⟩, fun _ => List.mem_append_right _ (List.mem_singleton.2 rfl)⟩
  · have hmk : toldMake w.env w.stream { dateStart := r.dateStart, dateEnd := r.dateEnd, parallel := r.parallel } rng = ([], .ok (emptyCase r, rng)) := by
      unfold toldMake
      simp only [addUsers]
      rw [hc0, if_neg (show ¬ ((emptyCase r).dateStart.isSome = true ∧ (emptyCase r).dateEnd.isSome = true) from hb)]
    obtain ⟨l2, uc2, rng2, h2, hv, hd⟩ := hbase rng [] _ hmk
    have hinit : initUseCase w.env (emptyCase r) { numDays := r.numDays } rng = .ok ((uc2, .ok ()), rng2) := by rw [← C114_same_initialize, h2]
    obtain ⟨n, first, last, ds, k1, -, k3, k4, k5, k6⟩ := C114_announced (fun hh => hnot hh.1) hinit
    have hvl : visited (toldInitialize w.env (emptyCase r) { numDays := r.numDays }) rng = l2 := by unfold visited; rw [h2]
    have hno := (C114_already_initialized w.env (emptyCase r) { numDays := r.numDays } rng).1
    rw [hvl] at k1 hno
    have hn := k6 (.inl (.inl ⟨by simpa using hnot, rfl⟩))
    rw [hv, List.nil_append]
    refine ⟨⟨n, first, last, ds, k1, hd.trans k3, k4, k5, hn, fun wk rows hr => by rw [hrows ds (hd.trans k3) wk rows hr, hn]⟩, ?_⟩
    rw [hno]
    refine ⟨fun hh => absurd hh.1 hnot, fun hh => absurd ⟨Option.isSome_iff_ne_none.2 hh.1, Option.isSome_iff_ne_none.2 hh.2⟩ hb⟩

/-- The lamp with both dates and `-n 5`: three days are announced, and that the use case is already initialised. -/
example : ∃ rng uc rng', prepareRun lampWorld { fname := "1.xlsx".toList, numDays := some 5, dateStart := some 0, dateEnd := some 2880 } rng = .ok (uc, rng') ∧
    .alreadyInitialized ∈ visited (toldPrepare lampWorld { fname := "1.xlsx".toList, numDays := some 5, dateStart := some 0, dateEnd := some 2880 }) rng ∧
    ∃ first last, announcements (visited (toldPrepare lampWorld { fname := "1.xlsx".toList, numDays := some 5, dateStart := some 0, dateEnd := some 2880 }) rng) =
      [.willSimulate 3 first (last + 1440)] := by
  obtain ⟨rows, h⟩ := lamp_three_days
  obtain ⟨-, uc, ⟨rng, rng', h1⟩, h2⟩ := returns_run h
  obtain ⟨⟨n, first, last, ds, k1, -, -, -, -, k6⟩, k7⟩ := C119_announced _ _ rng rng' uc h1
  have h3 := (C63_both_dates_partial _ _ _ 0 2880 rows rfl rfl h).2
  have h4 := k6 _ _ h2
  refine ⟨rng, uc, rng', h1, k7.2 (by simp), first, last, ?_⟩
  rw [k1, ← h4, h3]
  norm_num

end Ramp
