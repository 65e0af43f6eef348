import Verif.Props.MexRun
import Verif.Props.MexKdvv
import Verif.Props.MexManakovv
import Verif.Props.MexNsep
import Verif.Props.MexInv
/-!
# The MATLAB interface: concrete calls that satisfy the hypotheses of C84
-/
namespace FNFT
open Spec

theorem exSign_one : IsSign 1 1 := ⟨Or.inl rfl, by norm_num, by norm_num⟩
theorem exSign_neg : IsSign (-1) (-1) := ⟨Or.inr rfl, by norm_num, by norm_num⟩
theorem exFloor (x : ℝ) (n : ℕ) (h : (n : ℝ) ≤ x) (h' : x < n + 1) : ⌊x⌋₊ = n :=
  (Nat.floor_eq_iff (le_trans (Nat.cast_nonneg n) h)).mpr ⟨h, h'⟩

/-- `mex_fnft_kdvv([2 3], [-1 1], [-2 2], 'M', 8.5, 'grid_spacing', 0.1, 'discr_BO', 'skip_nc')` with three outputs -/
example : (∀ a ∈ [exPair 2 3, exPair (-1) 1, exPair (-2) 2, exText "M", exNum 8.5, exText "grid_spacing", exNum 0.1, exText "discr_BO", exText "skip_nc"], MxValid a) ∧
    ∃ s v t x, KdvvMexCall 3 [exPair 2 3, exPair (-1) 1, exPair (-2) 2, exText "M", exNum 8.5, exText "grid_spacing", exNum 0.1, exText "discr_BO", exText "skip_nc"] 2 v t x s ∧
      v 1 = 3 ∧ s.M = 8 ∧ s.K = 2 ∧ s.skipBs = false ∧ s.skipNc = true ∧ s.o.disc = .BO ∧ s.o.grid_spacing = 0.1 := by
  constructor
  · intro a ha
    simp only [List.mem_cons, List.not_mem_nil, or_false] at ha
    rcases ha with rfl | rfl | rfl | rfl | rfl | rfl | rfl | rfl | rfl
    all_goals first | exact exPair_valid _ _ | exact exText_valid _ | exact exNum_valid _
  · refine ⟨_, _, _, _, ⟨_, _, _, _, rfl, exPair_row _ _, rfl, by norm_num, exPair_row _ _, by norm_num, exPair_row _ _, by norm_num,
      Options.cons (KdvvRule.M (exText_text "M") (exNum_num 8.5) (by norm_num))
        (Options.cons (KdvvRule.spacing (exText_text "grid_spacing") (exNum_num 0.1) (by norm_num))
          (Options.cons (KdvvRule.disc (exText_text "discr_BO") (d := .BO) (by simp [kdvvNames]))
            (Options.cons (KdvvRule.skipNc (exText_text "skip_nc")) (Options.nil _))))⟩, by norm_num, exFloor _ _ (by norm_num) (by norm_num), rfl, ?_, rfl, rfl, rfl⟩
    show decide (3 < 2) = false; rfl

/-- `mex_fnft_manakovv([1 2 2i 4], [1 2 2i 4], [-1 1], [-2 2], -1, 'M', 8.5, 'cstype_both', 'discr_2split6B')` -/
example : (∀ a ∈ [exSig, exSig, exPair (-1) 1, exPair (-2) 2, exNum (-1), exText "M", exNum 8.5, exText "cstype_both", exText "discr_2split6B"], MxValid a) ∧
    ∃ s v t x, ManMexCall [exSig, exSig, exPair (-1) 1, exPair (-2) 2, exNum (-1), exText "M", exNum 8.5, exText "cstype_both", exText "discr_2split6B"] 4 v v t x (-1) s ∧
      s.skipBs = false ∧ manakovv_max_K 4 (some s.o) ≠ 0 ∧ manSize s.o.cs s.M = 40 := by
  constructor
  · intro a ha
    simp only [List.mem_cons, List.not_mem_nil, or_false] at ha
    rcases ha with rfl | rfl | rfl | rfl | rfl | rfl | rfl | rfl | rfl
    all_goals first | exact exPair_valid _ _ | exact exText_valid _ | exact exNum_valid _ | exact exSig_row.valid
  · refine ⟨_, _, _, _, ⟨_, _, _, _, _, _, _, rfl, exSig_row, exSig_row, by norm_num, exPair_row _ _, by norm_num, exPair_row _ _, by norm_num, exNum_num (-1), exSign_neg,
      Options.cons (ManRule.M (exText_text "M") (exNum_num 8.5) (by norm_num))
        (Options.cons (ManRule.both (exText_text "cstype_both"))
          (Options.cons (ManRule.disc (exText_text "discr_2split6B") (d := .D2SPLIT6B) (by simp [manNames])) (Options.nil _)))⟩, rfl, by decide, ?_⟩
    show 5 * ⌊(8.5 : ℝ)⌋₊ = 40
    rw [exFloor 8.5 8 (by norm_num) (by norm_num)]

theorem Spec.IsCplxRow.emptyValid {a : MxArray} {n : ℕ} {v : ℕ → ℂ} (h : IsCplxRow a n v) : MxEmptyValid a :=
  ⟨h.valid, fun h0 => by rw [h.2.2.1, Nat.one_mul] at h0; exact h0⟩

/-- `mex_fnft_nsep([1 2 2i 4], [0 1], 1, 'points_per_spine', 1, 'loc_newton', [1 2 2i 4], [i, 1+2i])` -/
example : (∀ a ∈ [exSig, exPair 0 1, exNum 1, exText "points_per_spine", exNum 1, exText "loc_newton", exSig, exGuess], a.cls = .double → MxEmptyValid a) ∧
    ∃ s v t, NsepMexCall [exSig, exPair 0 1, exNum 1, exText "points_per_spine", exNum 1, exText "loc_newton", exSig, exGuess] 4 v t 1 s ∧
      s.o.loc = .NEWTON ∧ s.o.pps = 1 ∧ s.o.disc = .BO ∧ s.K = 4 ∧ s.M = 2 := by
  constructor
  · intro a ha hc
    simp only [List.mem_cons, List.not_mem_nil, or_false] at ha
    rcases ha with rfl | rfl | rfl | rfl | rfl | rfl | rfl | rfl
    · exact exSig_row.emptyValid
    · exact ⟨exPair_valid _ _, by simp [exPair]⟩
    · exact ⟨exNum_valid _, by simp [exNum]⟩
    · simp [exText] at hc
    · exact ⟨exNum_valid _, by simp [exNum]⟩
    · simp [exText] at hc
    · exact exSig_row.emptyValid
    · exact exGuess_row.emptyValid
  · obtain ⟨g, -, hg⟩ := mxComplex_of exSig_row
    obtain ⟨g', -, hg'⟩ := mxComplex_of exGuess_row
    refine ⟨_, _, _, ⟨_, _, _, _, _, rfl, exSig_row, ⟨2, by norm_num, by norm_num⟩, exPair_row _ _, by norm_num, exNum_num 1, exSign_one,
      Options.cons (NsepRule.pps (exText_text "points_per_spine") (exNum_num 1) (by norm_num))
        (Options.cons (NsepRule.newton (exText_text "loc_newton") (Or.inl exSig_row) (Or.inl exGuess_row) hg hg') (Options.nil _))⟩, rfl, ?_, rfl, rfl, rfl⟩
    exact exFloor 1 1 (by norm_num) (by norm_num)

/-- `[]` -/
noncomputable def exEmpty : MxArray := ⟨.double, false, 0, 0, Buf.malloc 0, Buf.malloc 0, ""⟩

/-- Text arguments that are not empty and `[]` are covered by C84_nsep, too. -/
example : MxEmptyValid exEmpty ∧ MxEmptyValid (exText "quiet") := by
  refine ⟨⟨Or.inl ⟨rfl, fun i hi => ?_, fun h => by simp [exEmpty] at h⟩, fun _ => rfl⟩, exText_valid _, fun h => ?_⟩
  · simp [exEmpty] at hi
  · exact absurd h (by decide)

/-- `mex_fnft_nsev_inverse([1 2 2i 4], [-2 2], [i, 1+2i], [i, 1+2i], 64, [-1 1], 1, 'cstype_b_of_xi', 'dstype_residues')` and
`mex_fnft_nsev_inverse([], [-2 2], [i, 1+2i], [i, 1+2i], 4, [-1 1], 1, 'csmethod_use_seed_potential_instead', [1 2 2i 4])` -/
example : (∃ s v w x t, InvMexCall [exSig, exPair (-2) 2, exGuess, exGuess, exNum 64, exPair (-1) 1, exNum 1, exText "cstype_b_of_xi", exText "dstype_residues"] 4 v x 2 w w 64 t 1 s ∧
      s.o.cs = .B_OF_XI ∧ s.o.ds = .RESIDUES) ∧
    (∃ s v w x t, InvMexCall [exEmpty, exPair (-2) 2, exGuess, exGuess, exNum 4, exPair (-1) 1, exNum 1, exText "csmethod_use_seed_potential_instead", exSig] 0 v x 2 w w 4 t 1 s ∧
      s.o.meth = .USE_SEED ∧ s.q0 = some exSig) := by
  have f1 : 64 = ⌊(64 : ℝ)⌋₊ := (exFloor 64 64 (by norm_num) (by norm_num)).symm
  have f2 : 4 = ⌊(4 : ℝ)⌋₊ := (exFloor 4 4 (by norm_num) (by norm_num)).symm
  constructor
  · exact ⟨_, _, _, _, _, ⟨_, _, _, _, _, _, _, _, _, _, rfl, Or.inl exSig_row, exPair_row _ _, by norm_num, Or.inl exGuess_row, Or.inl exGuess_row, exNum_num 64, f1, by norm_num,
      exPair_row _ _, by norm_num, exNum_num 1, exSign_one,
      Options.cons (InvRule.bxi (exText_text "cstype_b_of_xi")) (Options.cons (InvRule.residues (exText_text "dstype_residues")) (Options.nil _))⟩, rfl, rfl⟩
  · exact ⟨_, fun _ => 0, _, _, _, ⟨_, _, _, _, _, _, _, _, _, _, rfl, Or.inr ⟨rfl, rfl⟩, exPair_row _ _, by norm_num, Or.inl exGuess_row, Or.inl exGuess_row, exNum_num 4, f2, by norm_num,
      exPair_row _ _, by norm_num, exNum_num 1, exSign_one,
      Options.cons (InvRule.seed (exText_text _) exSig_row rfl) (Options.nil _)⟩, rfl, rfl⟩

end FNFT
