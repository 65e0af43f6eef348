import Verif.Proofs.ResCert
import Mathlib.Tactic.FinCases

/-!
# C82: allocation failures and errors of subroutines are handled

Each theorem `C82_safe_...` is about all runs of the routine, for every pattern of failing
allocations, subroutines and checks and every way data dependent branches may go.
-/

namespace FNFT.Res

set_option maxRecDepth 100000

/-- The reachable states of the definition of `Safe` are those of the runs: for every list of
choices of the environment, a safe routine does nothing undefined and returns cleanly. -/
theorem C82_run {r : Routine} (h : Safe r) (cs : List Bool) :
    match run r.prog cs start with
    | .cont _ => True
    | .done c s => Clean r [] c s
    | .fault => False := by
  have key : ∀ (cs : List Bool) (s : St), Reach exNone r.prog s →
      match run r.prog cs s with
      | .cont _ => True
      | .done c s => Clean r [] c s
      | .fault => False := by
    intro cs
    induction cs with
    | nil => intro s _; trivial
    | cons c cs ih =>
      intro s hs
      have hal : Allowed exNone r.prog s c := Or.inr (fun _ _ => rfl)
      have h1 := h s hs c hal
      unfold run
      cases hst : step r.prog s c with
      | cont s' => exact ih s' (hs.step hal hst)
      | done d s' => rw [hst] at h1; exact h1
      | fault => rw [hst] at h1; exact h1
  exact key cs start .start

/-- A routine with an undefined, leaking, silent or garbage run is not safe. -/
theorem C82_not_safe {r : Routine} (h : CanFault r ∨ (∃ v vs, CanLeak r (v :: vs)) ∨ CanHide r ∨
    CanReturnGarbage r) : ¬ Safe r := by
  intro hs
  rcases h with ⟨cs, h⟩ | ⟨v, vs, cs, s, h, hv⟩ | ⟨cs, s, h, hf⟩ | ⟨cs, s, h⟩
  · have := C82_run hs cs
    rw [h] at this; exact this
  · have := C82_run hs cs
    rw [h] at this
    obtain ⟨id, hid, -⟩ := hv v (by simp)
    obtain ⟨w, hw, -⟩ := this.failure rfl id hid
    simp at hw
  · have := C82_run hs cs
    rw [h] at this
    have := this.reported.2 hf
    cases this
  · have := C82_run hs cs
    rw [h] at this
    exact this.set rfl

/-! ## Routines that are safe -/

theorem C82_safe_polyChirpz : Safe polyChirpz :=
  check_sound (t := resCert polyChirpz exNone) (by decide +kernel)

theorem C82_safe_polyFmult : Safe polyFmult :=
  check_sound (t := resCert polyFmult exNone) (by decide +kernel)

theorem C82_safe_polyFmultMat : Safe polyFmultMat :=
  check_sound (t := resCert polyFmultMat exNone) (by decide +kernel)

theorem C82_safe_polySpecfact : Safe polySpecfact :=
  check_sound (t := resCert polySpecfact exNone) (by decide +kernel)

theorem C82_safe_miscDownsample : Safe miscDownsample :=
  check_sound (t := resCert miscDownsample exNone) (by decide +kernel)

theorem C82_safe_miscResample : Safe miscResample :=
  check_sound (t := resCert miscResample exNone) (by decide +kernel)

theorem C82_safe_aknsFscatter : Safe aknsFscatter :=
  check_sound (t := resCert aknsFscatter exNone) (by decide +kernel)

theorem C82_safe_manFscatter : Safe manFscatter :=
  check_sound (t := resCert manFscatter exNone) (by decide +kernel)

theorem C82_safe_fftGridsearch : Safe fftGridsearch :=
  check_sound (t := resCert fftGridsearch exNone) (by decide +kernel)

theorem C82_safe_methodWeights : Safe methodWeights :=
  check_sound (t := resCert methodWeights exNone) (by decide +kernel)

theorem C82_safe_aknsScatterMatrix : Safe aknsScatterMatrix :=
  check_sound (t := resCert aknsScatterMatrix exNone) (by decide +kernel)

theorem C82_safe_finvscatter : Safe finvscatter :=
  check_sound (t := resCert finvscatter exNone) (by decide +kernel)

theorem C82_safe_nsevBase : Safe nsevBase :=
  check_sound (t := resCert nsevBase exNone) (by decide +kernel)

theorem C82_safe_manakovvBase : Safe manakovvBase :=
  check_sound (t := resCert manakovvBase exNone) (by decide +kernel)

theorem C82_safe_nsevBoundstates : Safe nsevBoundstates :=
  check_sound (t := resCert nsevBoundstates exNone) (by decide +kernel)

theorem C82_safe_kdvvBoundstates : Safe kdvvBoundstates :=
  check_sound (t := resCert kdvvBoundstates exNone) (by decide +kernel)

theorem C82_safe_fnftKdvv : Safe fnftKdvv :=
  check_sound (t := resCert fnftKdvv exNone) (by decide +kernel)

theorem C82_safe_nsepGridsearch : Safe nsepGridsearch :=
  check_sound (t := resCert nsepGridsearch exNone) (by decide +kernel)

theorem C82_safe_nsepNewton : Safe nsepNewton :=
  check_sound (t := resCert nsepNewton exNone) (by decide +kernel)

theorem C82_safe_fnftNsevInverse : Safe fnftNsevInverse :=
  check_sound (t := resCert fnftNsevInverse exNone) (by decide +kernel)

theorem C82_safe_invTfMatrix : Safe invTfMatrix :=
  check_sound (t := resCert invTfMatrix exNone) (by decide +kernel)

theorem C82_safe_invTfMatrixIter : Safe invTfMatrixIter :=
  check_sound (t := resCert invTfMatrixIter exNone) (by decide +kernel)

/-! ## Routines that are not

For each the failing runs are shown, and that nothing else goes wrong. -/

/-- The product of a single polynomial: the uninitialised `ret_code` is returned. -/
theorem C82_garbage_polyFmultOne : CanReturnGarbage polyFmultOne :=
  ⟨List.replicate 18 true, _, rfl⟩

/-- Every failure is reported, nothing undefined happens, but the result arrays are lost. -/
theorem C82_except_aknsPreprocess : SafeExcept exNone aknsPreprocess [5, 6] :=
  check_sound (t := resCert aknsPreprocess exNone) (by decide +kernel)

/-- An unknown discretization or a failing resampling: the result arrays are lost. -/
theorem C82_leak_aknsPreprocess : CanLeak aknsPreprocess [5, 6] :=
  ⟨List.replicate 17 true ++ List.replicate 3 false ++ List.replicate 7 true, _, rfl, by decide +kernel⟩

/-- If the scratch arrays are available and `misc_resample` works, only the result arrays can be
lost. -/
theorem C82_except_manPreprocess : SafeExcept exMan manPreprocess [6, 7] :=
  check_sound (t := resCert manPreprocess exMan) (by decide +kernel)

/-- A scratch array is not available: `NULL` is dereferenced. -/
theorem C82_fault_manPreprocess : CanFault manPreprocess :=
  ⟨List.replicate 23 true ++ List.replicate 1 false ++ List.replicate 4 true, rfl⟩

/-- An unknown discretization: the result arrays are lost. -/
theorem C82_leak_manPreprocess : CanLeak manPreprocess [6, 7] :=
  ⟨List.replicate 25 true ++ List.replicate 2 false ++ List.replicate 8 true, _, rfl, by decide +kernel⟩

/-- `misc_resample` fails, e.g. for lack of memory, and success is reported. -/
theorem C82_hide_manPreprocess : CanHide manPreprocess :=
  ⟨List.replicate 29 true ++ List.replicate 1 false ++ List.replicate 16 true, _, rfl, rfl⟩

/-- Safe unless exactly the allocation of `WPSI` fails. -/
theorem C82_except_aknsScatterBoundStates : SafeExcept exWpsi aknsScatterBoundStates [] :=
  check_sound (t := resCert aknsScatterBoundStates exWpsi) (by decide +kernel)

/-- The allocation of `WPSI` fails: `NULL` is dereferenced. -/
theorem C82_fault_aknsScatterBoundStates : CanFault aknsScatterBoundStates :=
  ⟨List.replicate 25 true ++ List.replicate 1 false ++ List.replicate 21 true, rfl⟩

/-- The only flaw are the early returns. -/
theorem C82_except_nsevContspec : SafeExcept exNone nsevContspec [0, 1, 2, 3] :=
  check_sound (t := resCert nsevContspec exNone) (by decide +kernel)

/-- `a(ξ) = 0` for some `ξ`: all arrays are lost. -/
theorem C82_leak_nsevContspec : CanLeak nsevContspec [0, 1, 2, 3] :=
  ⟨List.replicate 30 true ++ List.replicate 1 false ++ List.replicate 2 true ++ List.replicate 1 false, _, rfl, by decide +kernel⟩

/-- The only flaw are the early returns. -/
theorem C82_except_kdvvContspec : SafeExcept exNone kdvvContspec [0, 1, 2, 3] :=
  check_sound (t := resCert kdvvContspec exNone) (by decide +kernel)

/-- `a(ξ) = 0` for some `ξ`: all arrays are lost. -/
theorem C82_leak_kdvvContspec : CanLeak kdvvContspec [0, 1, 2, 3] :=
  ⟨List.replicate 30 true ++ List.replicate 1 false ++ List.replicate 2 true ++ List.replicate 1 false, _, rfl, by decide +kernel⟩

/-- The only flaw are the early returns. -/
theorem C82_except_manakovvContspec : SafeExcept exNone manakovvContspec [0, 1, 2] :=
  check_sound (t := resCert manakovvContspec exNone) (by decide +kernel)

/-- `a(ξ) = 0` for some `ξ`: all arrays are lost. -/
theorem C82_leak_manakovvContspec : CanLeak manakovvContspec [0, 1, 2] :=
  ⟨List.replicate 20 true ++ List.replicate 1 false ++ List.replicate 2 true ++ List.replicate 1 false, _, rfl, by decide +kernel⟩

/-- The only flaw are the early returns. -/
theorem C82_except_normconsts : SafeExcept exNone normconsts [0, 1, 2] :=
  check_sound (t := resCert normconsts exNone) (by decide +kernel)

/-- `a'(λ) = 0` for some `λ`: all arrays are lost. -/
theorem C82_leak_normconsts : CanLeak normconsts [0, 1, 2] :=
  ⟨List.replicate 4 true ++ List.replicate 1 false ++ List.replicate 5 true ++ List.replicate 1 false ++ List.replicate 6 true ++ List.replicate 2 false, _, rfl, by decide +kernel⟩

/-- Safe unless the preprocessing of the subsampled signal fails. -/
theorem C82_except_fnftNsev : SafeExcept exSub fnftNsev [] :=
  check_sound (t := resCert fnftNsev exSub) (by decide +kernel)

/-- `SUBSAMPLE_AND_REFINE` with Richardson extrapolation, the second preprocessing fails: the
subsampled signal of the first one is released twice. -/
theorem C82_fault_fnftNsev : CanFault fnftNsev :=
  ⟨List.replicate 21 true ++ List.replicate 2 false ++ List.replicate 29 true ++ List.replicate 1 false ++ List.replicate 2 true, rfl⟩

/-- Safe unless the preprocessing of the subsampled signal fails. -/
theorem C82_except_fnftManakovv : SafeExcept exSub fnftManakovv [] :=
  check_sound (t := resCert fnftManakovv exSub) (by decide +kernel)

/-- Bound states with Richardson extrapolation, the second preprocessing fails: the subsampled
signal of the first one is released twice. -/
theorem C82_fault_fnftManakovv : CanFault fnftManakovv :=
  ⟨List.replicate 20 true ++ List.replicate 1 false ++ List.replicate 25 true ++ List.replicate 1 false ++ List.replicate 4 true, rfl⟩

/-- The only flaw are the early returns. -/
theorem C82_except_fnftNsep : SafeExcept exNone fnftNsep [0] :=
  check_sound (t := resCert fnftNsep exNone) (by decide +kernel)

/-- An unknown localization method: the copy of the signal is lost. -/
theorem C82_leak_fnftNsep : CanLeak fnftNsep [0] :=
  ⟨List.replicate 14 true ++ List.replicate 3 false, _, rfl, by decide +kernel⟩

/-- Apart from the early return and the return code that is not used everything is fine. -/
theorem C82_except_nsepSubsample : SafeExcept exIgnore nsepSubsample [2, 3, 4, 5] :=
  check_sound (t := resCert nsepSubsample exIgnore) (by decide +kernel)

/-- The early return: the preprocessed signals are lost. -/
theorem C82_leak_nsepSubsample : CanLeak nsepSubsample [2, 3, 4, 5] :=
  ⟨List.replicate 11 true ++ List.replicate 1 false, _, rfl, by decide +kernel⟩

/-- The root finder fails and success is reported. -/
theorem C82_hide_nsepSubsample : CanHide nsepSubsample :=
  ⟨List.replicate 19 true ++ List.replicate 1 false ++ List.replicate 1 true ++ List.replicate 1 false ++ List.replicate 14 true, _, rfl, rfl⟩

/-- The only flaw is the early return. -/
theorem C82_except_invAddDiscrete : SafeExcept exNone invAddDiscrete [0, 1, 2, 3, 4, 5, 6, 7] :=
  check_sound (t := resCert invAddDiscrete exNone) (by decide +kernel)

/-- An unknown inversion method: all arrays are lost. -/
theorem C82_leak_invAddDiscrete : CanLeak invAddDiscrete [0, 1, 2, 3, 4, 5, 6, 7] :=
  ⟨List.replicate 22 true ++ List.replicate 2 false ++ List.replicate 11 true ++ List.replicate 3 false, _, rfl, by decide +kernel⟩

end FNFT.Res
