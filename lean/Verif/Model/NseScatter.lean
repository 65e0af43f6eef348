import Verif.Model.NseDisc
/-!
# Model of fnft__nse_fscatter.c and of `nse_scatter_matrix` in fnft__nse_scatter.c
-/
namespace FNFT

/-- `nse_fscatter_numel`, /repo/src/private/fnft__nse_fscatter.c:34-41. -/
def nse_fscatter_numel (D : ℕ) (d : NseDisc) : Option ℕ :=
  let deg := nse_degree d
  if deg = 0 then some 0 else poly_fmult_numel 4 deg D

/-- `nse_fscatter`, fnft__nse_fscatter.c:43-71; conventions as for `akns_fscatter`. `CHECK_RETCODE` turns
an error of the subroutine into that of a failed subroutine. -/
noncomputable def nse_fscatter (D : ℕ) (q r : Option (Buf ℂ)) (eps_t : ℝ) (result : Option (Buf ℂ))
    (deg_ptr : Option ℕ) (W_ptr : Option ℤ) (d : NseDisc) : Option FscatterRes :=
  let bad (rc : ℤ) : FscatterRes := ⟨some rc, deg_ptr.getD 0, W_ptr.getD 0, result.getD (Buf.malloc 0)⟩
  if D = 0 ∨ q = none ∨ eps_t ≤ 0 ∨ result = none ∨ deg_ptr = none then some (bad EC_INVALID_ARGUMENT)
  else match nse_to_akns d with
    | .error ec => some (bad (E_SUBROUTINE ec))
    | .ok a => do
      let R ← akns_fscatter D q r eps_t result deg_ptr W_ptr a
      return ⟨R.ret.map fun rc => if rc = SUCCESS then SUCCESS else E_SUBROUTINE rc, R.deg, R.W, R.result⟩

/-- `nse_scatter_matrix`, /repo/src/private/fnft__nse_scatter.c:37-83. -/
noncomputable def nse_scatter_matrix (D : ℕ) (q r : Option (Buf ℂ)) (eps_t : ℝ) (kappa : ℤ) (K : ℕ)
    (lambda result : Option (Buf ℂ)) (W : Option (Buf ℤ)) (d : NseDisc) (derivative_flag : ℕ) : Option ScatRes :=
  let bad (rc : ℤ) : ScatRes := ⟨rc, result.getD (Buf.malloc 0), W⟩
  if D = 0 ∨ q = none ∨ r = none ∨ ¬ eps_t > 0 ∨ |kappa| ≠ 1 ∨ K = 0 ∨ lambda = none ∨ result = none then
    some (bad EC_INVALID_ARGUMENT)
  else match nse_to_akns d with
    | .error ec => some (bad (E_SUBROUTINE ec))
    | .ok a => do
      let R ← akns_scatter_matrix D q r eps_t K lambda result W a .NSE 0 derivative_flag
      return ⟨if R.ret = SUCCESS then SUCCESS else E_SUBROUTINE R.ret, R.result, R.W⟩

end FNFT
