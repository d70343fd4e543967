import Verif.Lemmas.Cli

/-! # Runs of the command line read finitely many random numbers -/

set_option autoImplicit false

namespace Ramp

variable {α β : Type}

theorem fin_attemptPeak (us : List User) (pe : ℚ) : Finitary (attempt (peakTimeRangeOf us pe)) := by
  by_cases hu : ∃! i : Fin 1440, ∀ k, totalMaximumProfile us k ≤ totalMaximumProfile us i
  · rw [peak_one hu]
    exact fin_pure (Except.error (α := List ℤ) Err.indexError)
  · obtain ⟨mu, sigma, _, heq⟩ := peak_many (pe := pe) hu
    rw [heq]
    have : attempt (peakRest pe mu sigma) = peakRest pe mu sigma >>= fun r => pure (Except.ok r) := rfl
    rw [this]
    exact fin_bind (fin_bind (fin_gauss _ _) fun _ => fin_bind (fin_gauss _ _) fun _ => fin_pure _) fun _ => fin_pure _

theorem fin_setPeakEnlarge (uc : UseCase) (x : PyNum) : Finitary (setPeakEnlarge uc x) := by
  cases x with
  | other => exact fin_pure _
  | float q =>
    unfold setPeakEnlarge
    simp only
    split_ifs
    · refine fin_bind (fin_attemptPeak _ _) fun r => ?_
      split <;> exact fin_pure _
    · exact fin_pure _

theorem fin_initUseCase (env : Env) (uc : UseCase) (args : InitArgs) : Finitary (initUseCase env uc args) := by
  unfold initUseCase
  split_ifs
  · exact fin_pure _
  all_goals
    simp only
    split
    · exact fin_pure _
    · split
      · refine fin_bind (fin_setPeakEnlarge _ _) fun p => ?_
        obtain ⟨uc, r⟩ := p
        cases r <;> exact fin_pure _
      · refine fin_bind (fin_attemptPeak _ _) fun r => ?_
        cases r <;> exact fin_pure _

theorem fin_numDays (env : Env) (uc : UseCase) : Finitary (numDaysProperty env uc) := by
  unfold numDaysProperty
  split
  · exact fin_pure _
  · refine fin_bind (fin_initUseCase _ _ _) fun p => ?_
    obtain ⟨uc, r⟩ := p
    cases r <;> exact fin_pure _

theorem fin_generateDaily (env : Env) (depth : ℕ) (uc : UseCase) (days : Option (List ℤ)) : Finitary (generateDaily env depth uc days) := by
  unfold generateDaily
  split
  · exact fin_raise _
  · refine fin_bind (fin_numDays _ _) fun p => ?_
    obtain ⟨uc, n⟩ := p
    cases n with
    | error e => exact fin_raise _
    | ok n => exact fin_bind (fin_liftE _) fun rows => fin_bind (fin_daysLoop _ _ _ _ _ _) fun _ => fin_pure _

theorem fin_simulateRun (w : World) (wk : Workers) (uc : UseCase) : Finitary (simulateRun w wk uc) := by
  unfold simulateRun
  split_ifs
  · exact fin_liftE _
  · exact fin_bind (fin_generateDaily _ _ _ _) fun _ => fin_pure _

theorem fin_peakRest (pe mu sigma : ℚ) : Finitary (peakRest pe mu sigma) :=
  fin_bind (fin_gauss _ _) fun _ => fin_bind (fin_gauss _ _) fun _ => fin_pure _

theorem fin_startRun (env : Env) (r : RunArgs) : Finitary (startRun env r) :=
  fin_bind (fin_liftE _) fun _ => fin_bind (fin_peakRest _ _ _) fun _ => fin_pure _

theorem fin_prepareRun (w : World) (r : RunArgs) : Finitary (prepareRun w r) := by
  rw [prepareRun_eq]
  exact fin_bind (fin_startRun _ _) fun _ => fin_liftE _

theorem fin_runUseCase (w : World) (wk : Workers) (r : RunArgs) : Finitary (runUseCase w wk r) := by
  unfold runUseCase
  split_ifs
  · exact fin_bind (fin_prepareRun _ _) fun _ => fin_bind (fin_simulateRun _ _ _) fun _ => fin_pure _
  · exact fin_pure _
  · exact fin_raise _
  · exact fin_raise _

end Ramp
