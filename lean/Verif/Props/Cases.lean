import Verif.Model.Cases
import Verif.Props.Days
import Verif.Lemmas.CliFin

/-! # C90: several independent runs, `generate_daily_load_profiles(cases=...)` -/

set_option autoImplicit false

namespace Ramp

/-- The labels of the columns: "case " and the text of the case, each once, in the order of their first appearance. -/
def caseLabels (cases : List String) : List String := cases.foldl (fun acc c => if "case " ++ c ∈ acc then acc else acc ++ ["case " ++ c]) []

theorem fin_datetimeindex (env : Env) (uc : UseCase) : Finitary (datetimeindexProperty env uc) := by
  unfold datetimeindexProperty
  split
  · exact fin_pure _
  · refine fin_bind (fin_initUseCase _ _ _) fun p => ?_
    obtain ⟨uc, r⟩ := p
    cases r <;> exact fin_pure _

theorem fin_casesLoop (env : Env) (depth : ℕ) (days : Option (List ℤ)) : ∀ (cs : List String) (uc : UseCase) (acc : List (String × List ℚ)),
    Finitary (casesLoop env depth days cs uc acc)
  | [], _, _ => fin_pure _
  | _ :: cs, _, _ => fin_bind (fin_generateDaily _ _ _ _) fun _ => fin_bind (fin_datetimeindex _ _) fun _ => fin_bind (fin_liftE _) fun _ =>
      fin_ite (fin_casesLoop env depth days cs _ _) (fin_raise _)

/-- Add a label unless it is there. -/
def addLabel (ks : List String) (k : String) : List String := if k ∈ ks then ks else ks ++ [k]

theorem setKey_keys (acc : List (String × List ℚ)) (k : String) (v : List ℚ) : (setKey acc k v).map Prod.fst = addLabel (acc.map Prod.fst) k := by
  unfold setKey addLabel
  have hany : acc.any (fun p => p.1 = k) = true ↔ k ∈ acc.map Prod.fst := by simp
  by_cases h : k ∈ acc.map Prod.fst
  · rw [if_pos (hany.2 h), if_pos h, List.map_map]
    refine List.map_congr_left fun p _ => ?_
    simp only [Function.comp_apply]
    split_ifs with e
    · exact e.symm
    · rfl
  · rw [if_neg (fun h' => h (hany.1 h')), if_neg h]
    simp

theorem setKey_values {acc : List (String × List ℚ)} {k : String} {v : List ℚ} {p : String × List ℚ} (h : p ∈ setKey acc k v) :
    p ∈ acc ∨ p.2 = v := by
  unfold setKey at h
  split_ifs at h
  · obtain ⟨q, hq, rfl⟩ := List.mem_map.1 h
    split_ifs
    · exact .inr rfl
    · exact .inl hq
  · rcases List.mem_append.1 h with h | h
    · exact .inl h
    · rw [List.mem_singleton.1 h]; exact .inr rfl

theorem setKey_table (ks : List String) (g : String → List ℚ) (k : String) :
    setKey (ks.map fun k => (k, g k)) k (g k) = (addLabel ks k).map fun k => (k, g k) := by
  unfold setKey addLabel
  have hany : (ks.map fun k => (k, g k)).any (fun p => p.1 = k) = true ↔ k ∈ ks := by simp
  by_cases h : k ∈ ks
  · rw [if_pos (hany.2 h), if_pos h, List.map_map]
    refine List.map_congr_left fun x _ => ?_
    simp only [Function.comp_apply]
    split_ifs with e
    · rw [e]
    · rfl
  · rw [if_neg (fun h' => h (hany.1 h')), if_neg h]
    simp

/-- The dictionary after a list of assignments. -/
def assignAll (acc : List (String × List ℚ)) (l : List (String × List ℚ)) : List (String × List ℚ) := l.foldl (fun acc p => setKey acc p.1 p.2) acc

theorem assignAll_keys : ∀ (l acc : List (String × List ℚ)), (assignAll acc l).map Prod.fst = (l.map Prod.fst).foldl addLabel (acc.map Prod.fst)
  | [], _ => rfl
  | p :: l, acc => by
    show (assignAll (setKey acc p.1 p.2) l).map Prod.fst = _
    rw [assignAll_keys, setKey_keys]
    rfl

theorem assignAll_values : ∀ {l acc : List (String × List ℚ)} {p : String × List ℚ}, p ∈ assignAll acc l → p ∈ acc ∨ ∃ q ∈ l, p.2 = q.2
  | [], _, _, h => .inl h
  | q :: l, acc, p, h => by
    rcases assignAll_values (l := l) (acc := setKey acc q.1 q.2) h with h | ⟨x, hx, e⟩
    · rcases setKey_values h with h | h
      · exact .inl h
      · exact .inr ⟨q, by simp, h⟩
    · exact .inr ⟨x, by simp [hx], e⟩

theorem assignAll_table (g : String → List ℚ) : ∀ (l ks : List String), assignAll (ks.map fun k => (k, g k)) (l.map fun k => (k, g k)) =
    (l.foldl addLabel ks).map fun k => (k, g k)
  | [], _ => rfl
  | k :: l, ks => by
    show assignAll (setKey _ k (g k)) _ = _
    rw [setKey_table, assignAll_table g l]
    rfl

theorem caseLabels_eq (cases : List String) : caseLabels cases = (cases.map ("case " ++ ·)).foldl addLabel [] := by
  unfold caseLabels
  rw [List.foldl_map]
  rfl

theorem addLabel_nodup : ∀ (l ks : List String), ks.Nodup → (l.foldl addLabel ks).Nodup
  | [], _, h => h
  | k :: l, ks, h => by
    refine addLabel_nodup l _ ?_
    unfold addLabel
    split_ifs with hk
    · exact h
    · exact List.nodup_append.2 ⟨h, by simp, by rintro a ha b hb rfl; exact hk (by rwa [List.mem_singleton.1 hb] at ha)⟩

theorem addLabel_mem : ∀ (l ks : List String) (k : String), k ∈ l.foldl addLabel ks ↔ k ∈ ks ∨ k ∈ l
  | [], _, _ => by simp
  | x :: l, ks, k => by
    show k ∈ l.foldl addLabel (addLabel ks x) ↔ _
    rw [addLabel_mem l]
    unfold addLabel
    split_ifs with h
    · constructor
      · rintro (h' | h')
        · exact .inl h'
        · exact .inr (by simp [h'])
      · rintro (h' | h')
        · exact .inl h'
        · rcases List.mem_cons.1 h' with rfl | h'
          · exact .inl h
          · exact .inr h'
    · simp only [List.mem_append, List.mem_cons, List.not_mem_nil, or_false]
      tauto

theorem addLabel_new : ∀ (l ks : List String), (ks ++ l).Nodup → l.foldl addLabel ks = ks ++ l
  | [], ks, _ => by simp
  | k :: l, ks, h => by
    show l.foldl addLabel (addLabel ks k) = _
    have hk : k ∉ ks := by
      intro hk
      rw [List.nodup_append] at h
      exact h.2.2 k hk k (by simp) rfl
    have hadd : addLabel ks k = ks ++ [k] := if_neg hk
    rw [hadd, addLabel_new l _ (by simpa using h)]
    simp

/-- **C90.** The labels: every label of a case once; for cases with different texts one column per case, in their order. -/
theorem C90_labels (cases : List String) : (caseLabels cases).Nodup ∧ (∀ l, l ∈ caseLabels cases ↔ ∃ c ∈ cases, l = "case " ++ c) ∧
    (cases.Nodup → caseLabels cases = cases.map ("case " ++ ·)) := by
  rw [caseLabels_eq]
  refine ⟨addLabel_nodup _ _ (by simp), fun l => ?_, fun h => ?_⟩
  · rw [addLabel_mem]
    simp [eq_comm]
  · rw [addLabel_new _ _ ?_]
    · rfl
    · rw [List.nil_append]
      refine h.map fun a b hab => ?_
      have : ("case " ++ a).toList = ("case " ++ b).toList := congrArg _ hab
      exact String.toList_injective (by simpa using this)

/-- A use case whose users have the same definitions has the same possible simulations. -/
theorem returns_same_users {env : Env} {depth : ℕ} {uc uc0 : UseCase} {ds peak : List ℤ} (hr : Ready uc0 ds peak)
    (hu : uc = { uc0 with users := uc.users }) (hs : List.Forall₂ SameUser uc0.users uc.users) (days : Option (List ℤ)) (rows : List Profile) :
    (∃ uc', Returns (generateDaily env depth uc days) (uc', rows)) ↔ ∃ uc', Returns (generateDaily env depth uc0 days) (uc', rows) := by
  have hr' : Ready uc ds peak := by rw [hu]; exact ⟨hr.days, hr.numDays, hr.peak⟩
  rw [C45_superposition days hr, C45_superposition days hr']
  constructor
  · rintro ⟨h3, h4⟩
    exact ⟨h3, fun k d p hd hp => caseDay_same hs (h4 k d p hd hp)⟩
  · rintro ⟨h3, h4⟩
    exact ⟨h3, fun k d p hd hp => caseDay_same (sameUsers_symm hs) (h4 k d p hd hp)⟩

theorem returns_casesLoop {env : Env} {depth : ℕ} {days : Option (List ℤ)} {uc0 : UseCase} {ds peak idx : List ℤ} (hr : Ready uc0 ds peak)
    (hi : uc0.datetimeindex = some idx) (hl : idx.length = 1440 * ds.length) : ∀ {cs : List String} {uc : UseCase} {acc acc' : List (String × List ℚ)},
    uc = { uc0 with users := uc.users } → List.Forall₂ SameUser uc0.users uc.users →
    ((∃ uc', Returns (casesLoop env depth days cs uc acc) (uc', acc') ∧ uc' = { uc0 with users := uc'.users } ∧ List.Forall₂ SameUser uc0.users uc'.users) ↔
      ∃ rowss : List (List Profile), rowss.length = cs.length ∧ (∀ rows ∈ rowss, ∃ uc', Returns (generateDaily env depth uc0 days) (uc', rows)) ∧
        acc' = assignAll acc ((cs.map ("case " ++ ·)).zip (rowss.map flatten)))
  | [], uc, acc, acc', hu, hs => by
    unfold casesLoop
    constructor
    · rintro ⟨uc', h, _⟩
      have := returns_pure.1 h
      cases this
      exact ⟨[], rfl, by simp, rfl⟩
    · rintro ⟨rowss, h1, _, h2⟩
      obtain rfl : rowss = [] := List.length_eq_zero_iff.1 h1
      exact ⟨uc, returns_pure.2 (by rw [h2]; rfl), hu, hs⟩
  | c :: cs, uc, acc, acc', hu, hs => by
    have hr' : Ready uc ds peak := by rw [hu]; exact ⟨hr.days, hr.numDays, hr.peak⟩
    have step : ∀ {uc1 : UseCase} {rows : List Profile}, Returns (generateDaily env depth uc days) (uc1, rows) →
        uc1 = { uc0 with users := uc1.users } ∧ List.Forall₂ SameUser uc0.users uc1.users ∧
        datetimeindexProperty env uc1 = pure (uc1, .ok idx) ∧ idx.length = (flatten rows).length := by
      intro uc1 rows h
      obtain ⟨e1, e2⟩ := C49_configuration_unchanged (by rw [hr'.days]; rfl) (by rw [hr'.numDays]; rfl) h
      have e3 : uc1 = { uc0 with users := uc1.users } := by rw [e1, hu]
      refine ⟨e3, forall₂_trans (fun _ _ _ h h' => h.trans h') hs e2, ?_, ?_⟩
      · unfold datetimeindexProperty
        have : uc1.datetimeindex = some idx := by rw [e3]; exact hi
        rw [this]
      · obtain ⟨_, e4, _⟩ := C44_shape h
        rw [e4, hl, ((C45_superposition days hr' rows).1 ⟨_, h⟩).1]
    unfold casesLoop
    constructor
    · rintro ⟨uc', h, hu', hs'⟩
      obtain ⟨⟨uc1, rows⟩, h1, h2⟩ := (returns_bind (fin_generateDaily _ _ _ _)).1 h
      obtain ⟨e1, e2, e3, e4⟩ := step h1
      simp only [e3] at h2
      obtain ⟨⟨uc2, i2⟩, h3, h4⟩ := (returns_bind (fin_pure _)).1 h2
      have := returns_pure.1 h3
      cases this
      obtain ⟨i3, h5, h6⟩ := (returns_bind (fin_liftE _)).1 h4
      have := returns_liftE.1 h5
      cases this
      simp only [if_pos e4] at h6
      obtain ⟨rowss, k1, k2, k3⟩ := (returns_casesLoop hr hi hl e1 e2).1 ⟨_, h6, hu', hs'⟩
      refine ⟨rows :: rowss, by simp [k1], ?_, by rw [k3]; rfl⟩
      intro x hx
      rcases List.mem_cons.1 hx with rfl | hx
      · exact (returns_same_users hr hu hs days _).1 ⟨_, h1⟩
      · exact k2 x hx
    · rintro ⟨rowss, k1, k2, k3⟩
      obtain _ | ⟨rows, rowss⟩ := rowss
      · simp at k1
      obtain ⟨uc1, h1⟩ := (returns_same_users hr hu hs days _).2 (k2 rows (by simp))
      obtain ⟨e1, e2, e3, e4⟩ := step h1
      obtain ⟨uc', h2, h3, h4⟩ := (returns_casesLoop (env := env) (depth := depth) (days := days) (cs := cs) (acc := setKey acc ("case " ++ c) (flatten rows)) (acc' := acc') hr hi hl e1 e2).2
        ⟨rowss, by simpa using k1, fun x hx => k2 x (by simp [hx]), by rw [k3]; rfl⟩
      refine ⟨uc', (returns_bind (fin_generateDaily _ _ _ _)).2 ⟨_, h1, ?_⟩, h3, h4⟩
      simp only [e3]
      refine (returns_bind (fin_pure _)).2 ⟨_, returns_pure.2 rfl, (returns_bind (fin_liftE _)).2 ⟨_, returns_liftE.2 rfl, ?_⟩⟩
      rw [if_pos e4]
      exact h2

/-- The loop changes nothing but what simulations leave in the users. -/
theorem casesLoop_same {env : Env} {depth : ℕ} {days : Option (List ℤ)} {uc0 : UseCase} {ds peak idx : List ℤ} (hr : Ready uc0 ds peak)
    (hi : uc0.datetimeindex = some idx) : ∀ {cs : List String} {uc uc' : UseCase} {acc acc' : List (String × List ℚ)},
    uc = { uc0 with users := uc.users } → List.Forall₂ SameUser uc0.users uc.users → Returns (casesLoop env depth days cs uc acc) (uc', acc') →
      uc' = { uc0 with users := uc'.users } ∧ List.Forall₂ SameUser uc0.users uc'.users
  | [], uc, uc', acc, acc', hu, hs, h => by
    unfold casesLoop at h
    have := returns_pure.1 h
    cases this
    exact ⟨hu, hs⟩
  | c :: cs, uc, uc', acc, acc', hu, hs, h => by
    have hr' : Ready uc ds peak := by rw [hu]; exact ⟨hr.days, hr.numDays, hr.peak⟩
    unfold casesLoop at h
    obtain ⟨⟨uc1, rows⟩, h1, h2⟩ := (returns_bind (fin_generateDaily _ _ _ _)).1 h
    obtain ⟨e1, e2⟩ := C49_configuration_unchanged (by rw [hr'.days]; rfl) (by rw [hr'.numDays]; rfl) h1
    have e3 : uc1 = { uc0 with users := uc1.users } := by rw [e1, hu]
    have e4 : datetimeindexProperty env uc1 = pure (uc1, .ok idx) := by
      unfold datetimeindexProperty
      have : uc1.datetimeindex = some idx := by rw [e3]; exact hi
      rw [this]
    simp only [e4] at h2
    obtain ⟨⟨uc2, i2⟩, h3, h4⟩ := (returns_bind (fin_pure _)).1 h2
    have := returns_pure.1 h3
    cases this
    obtain ⟨i3, h5, h6⟩ := (returns_bind (fin_liftE _)).1 h4
    have := returns_liftE.1 h5
    cases this
    simp only at h6
    split_ifs at h6
    · exact casesLoop_same hr hi e3 (forall₂_trans (fun _ _ _ h h' => h.trans h') hs e2) h6
    · exact absurd h6 returns_raise

/-- **C90.** `generate_daily_load_profiles(cases=cases)` on an initialised use case returns a frame with the minutes of the simulated days as
index and one column per label; the columns are independent runs: any choice of possible results of `generate_daily_load_profiles()` is
possible, and nothing else.  (Without cases: `ValueError`.) -/
theorem C90_cases {env : Env} {depth : ℕ} {uc : UseCase} {ds peak idx : List ℤ} (hr : Ready uc ds peak) (hi : uc.datetimeindex = some idx)
    (hl : idx.length = 1440 * ds.length) (days : Option (List ℤ)) (cases : List String) (f : CasesFrame) :
    (∃ uc', Returns (generateCases env depth uc days cases) (uc', f)) ↔
      cases ≠ [] ∧ f.index = idx ∧ f.columns.map Prod.fst = caseLabels cases ∧
      ∀ col ∈ f.columns, ∃ rows uc', Returns (generateDaily env depth uc days) (uc', rows) ∧ col.2 = flatten rows := by
  have hself : List.Forall₂ SameUser uc.users uc.users := List.forall₂_same.2 fun u _ => SameUser.refl u
  have hzip : ∀ (a : List String) (b : List (List ℚ)), b.length = a.length → (a.zip b).map Prod.fst = a := fun a b h => by
    rw [List.map_fst_zip (by omega)]
  constructor
  · rintro ⟨uc', h⟩
    unfold generateCases at h
    obtain ⟨⟨uc1, cols⟩, h1, h2⟩ := (returns_bind (fin_casesLoop _ _ _ _ _ _)).1 h
    simp only at h2
    split_ifs at h2 with hc
    · exact absurd h2 returns_raise
    have := returns_pure.1 h2
    cases this
    obtain ⟨e1, e2⟩ := casesLoop_same hr hi rfl hself h1
    obtain ⟨rowss, k1, k2, k3⟩ := (returns_casesLoop hr hi hl rfl hself).1 ⟨_, h1, e1, e2⟩
    refine ⟨?_, ?_, ?_, ?_⟩
    · rintro rfl
      exact hc (by rw [k3]; rfl)
    · simp only
      rw [e1]
      show uc.datetimeindex.getD [] = idx
      rw [hi]; rfl
    · show cols.map Prod.fst = _
      rw [k3, assignAll_keys, hzip _ _ (by simp [k1]), caseLabels_eq]
      rfl
    · intro col hcol
      change col ∈ cols at hcol
      rw [k3] at hcol
      rcases assignAll_values hcol with h | ⟨q, hq, e⟩
      · simp at h
      · have hq2 := (List.of_mem_zip hq).2
        obtain ⟨rows, hrows, e'⟩ := List.mem_map.1 hq2
        obtain ⟨uc'', h''⟩ := k2 rows hrows
        exact ⟨rows, uc'', h'', by rw [e, e']⟩
  · rintro ⟨hne, hidx, hkeys, hcols⟩
    obtain ⟨fi, fc⟩ := f
    simp only at hidx hkeys hcols
    subst hidx
    -- a possible simulation for every label
    have hex : ∀ l ∈ caseLabels cases, ∃ rows : List Profile, (l, flatten rows) ∈ fc ∧ ∃ uc', Returns (generateDaily env depth uc days) (uc', rows) := by
      intro l hl
      rw [← hkeys] at hl
      obtain ⟨col, hcol, rfl⟩ := List.mem_map.1 hl
      obtain ⟨rows, uc', h1, h2⟩ := hcols col hcol
      exact ⟨rows, by rw [← h2]; exact hcol, uc', h1⟩
    have hex' : ∀ l : String, ∃ rows : List Profile, l ∈ caseLabels cases →
        (l, flatten rows) ∈ fc ∧ ∃ uc', Returns (generateDaily env depth uc days) (uc', rows) := by
      intro l
      by_cases hl : l ∈ caseLabels cases
      · obtain ⟨rows, h⟩ := hex l hl
        exact ⟨rows, fun _ => h⟩
      · exact ⟨[], fun h => absurd h hl⟩
    choose g hg using hex'
    have hmem : ∀ c ∈ cases, "case " ++ c ∈ caseLabels cases := fun c hc => ((C90_labels cases).2.1 _).2 ⟨c, hc, rfl⟩
    have hnd : (fc.map Prod.fst).Nodup := by rw [hkeys]; exact (C90_labels cases).1
    have hfc : fc = (caseLabels cases).map fun k => (k, flatten (g k)) := by
      rw [← hkeys, List.map_map]
      conv_lhs => rw [← List.map_id fc]
      refine List.map_congr_left fun col hcol => ?_
      have h1 := (hg col.1 (by rw [← hkeys]; exact List.mem_map_of_mem hcol)).1
      have h2 : col = (col.1, flatten (g col.1)) := List.inj_on_of_nodup_map hnd hcol h1 rfl
      exact h2
    have hass : fc = assignAll [] ((cases.map ("case " ++ ·)).zip ((cases.map fun c => g ("case " ++ c)).map flatten)) := by
      have := assignAll_table (fun k => flatten (g k)) (cases.map ("case " ++ ·)) []
      rw [hfc, caseLabels_eq, ← this]
      congr 1
      rw [List.map_map, List.map_map, List.zip_map', ]
      rfl
    obtain ⟨uc1, h1, e1, _⟩ := (returns_casesLoop (env := env) (depth := depth) (days := days) (cs := cases) (acc := []) (acc' := fc) hr hi hl rfl hself).2
      ⟨cases.map fun c => g ("case " ++ c), by simp, by
        intro rows hrows
        obtain ⟨c, hc, rfl⟩ := List.mem_map.1 hrows
        exact (hg _ (hmem c hc)).2, hass⟩
    refine ⟨uc1, (returns_bind (fin_casesLoop _ _ _ _ _ _)).2 ⟨_, h1, ?_⟩⟩
    have hfcne : fc ≠ [] := by
      obtain ⟨c, hc⟩ := List.exists_mem_of_ne_nil _ hne
      obtain ⟨h, _⟩ := hg _ (hmem c hc)
      exact List.ne_nil_of_mem h
    simp only [if_neg hfcne]
    refine returns_pure.2 ?_
    have : uc1.datetimeindex.getD [] = fi := by rw [e1]; show uc.datetimeindex.getD [] = fi; rw [hi]; rfl
    rw [this]

/-- **C90.** After a successful `initialize()` the hypotheses hold; each column has one value per minute of the index. -/
theorem C90_shape {env : Env} {depth : ℕ} {uc uc' : UseCase} {peak : List ℤ} (hc : ConsistentCalendar uc) (hp : uc.peakTimeRange = some peak)
    {days : Option (List ℤ)} {cases : List String} {f : CasesFrame} (h : Returns (generateCases env depth uc days cases) (uc', f)) :
    uc.datetimeindex = some f.index ∧ ∀ col ∈ f.columns, col.2.length = f.index.length := by
  obtain ⟨d, n, _, h1, h2, h3⟩ := hc
  have hlen : (daysFrom d n).length = n := daysFrom_length n d
  have hr : Ready uc (daysFrom d n) peak := ⟨h1, by rw [h2, hlen], hp⟩
  obtain ⟨_, k2, _, k4⟩ := (C90_cases hr h3 (by rw [hlen]; exact length_minutesFrom _ _) days cases f).1 ⟨_, h⟩
  refine ⟨by rw [k2, h3], fun col hcol => ?_⟩
  obtain ⟨rows, uc'', h4, h5⟩ := k4 col hcol
  obtain ⟨_, e4, _⟩ := C44_shape h4
  rw [h5, e4, ((C45_superposition days hr rows).1 ⟨_, h4⟩).1, k2, hlen, length_minutesFrom]

/-- A case for C90: a weekend with its minutes as index meets the hypotheses of `C90_cases` and `C90_shape`. -/
def indexedWeekend : UseCase := { weekendCase with datetimeindex := some (minutesFrom 5760 2880) }

example : Ready indexedWeekend [5760, 7200] [] ∧ indexedWeekend.datetimeindex = some (minutesFrom 5760 2880) ∧
    (minutesFrom 5760 2880).length = 1440 * ([5760, 7200] : List ℤ).length := ⟨⟨rfl, rfl, rfl⟩, rfl, length_minutesFrom _ _⟩

example : ConsistentCalendar indexedWeekend ∧ indexedWeekend.peakTimeRange = some [] := ⟨⟨5760, 2, by decide, rfl, rfl, rfl⟩, rfl⟩

/-- A case for C90: two labels, one of them given twice. -/
example : caseLabels ["1", "2", "1"] = ["case 1", "case 2"] := by decide

end Ramp
