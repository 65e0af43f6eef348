import Verif.Proofs.KdvFast
/-!
# Continuous spectrum of the KdV equation: matrix elements
-/
namespace FNFT
open Complex

theorem kdvLambdaToZ1_ok {d : KdvDisc} {a : AknsDisc} (hd : kdv_to_akns d = .ok a) (hdeg : akns_degree a ≠ 0) (eps : ℝ) (x : ℂ) :
    kdvLambdaToZ1 eps x d = some (SUCCESS, exp (2 * I * x * eps / Spec.degree1step a)) := by
  obtain ⟨b, e1, e2, e3⟩ := C33_lambda_to_z 1 eps a (Buf.ofList [x]) (fun _ => x)
    (fun i hi => by rw [Buf.rd_ofList]; have : i = 0 := by omega
                    subst this; rfl) hdeg
  have e4 := e3 0 (by omega)
  unfold kdvLambdaToZ1 kdv_lambda_to_z
  rw [hd]
  simp only [e1, Option.bind_eq_bind, Option.bind_some]
  rw [Nat.zero_add] at e4
  rw [e4]; rfl

/-- The loop over the four polynomials. -/
theorem chirp_loop {n M : ℕ} {tm : Buf ℂ} {y : ℕ → ℂ} (hy : tm.Holds 0 (4 * (n + 1)) y) (hM : 1 ≤ M) (hs : n + M < 3 ^ 32)
    {A V : ℂ} (hA : A ≠ 0) (hV : V ≠ 0) :
    ∃ H, forLoop 4 (kdvChirpBody n tm A V M) (SUCCESS, Buf.malloc (4 * M)) = some (SUCCESS, H) ∧ H.len = 4 * M ∧
      ∀ k i, k < 4 → i < M → H.rd (k * M + i) =
        some ((Spec.poly n (fun j => y (k * (n + 1) + j))).eval (A⁻¹ * V ^ i)) := by
  have key := forLoop_inv (n := 4) (body := kdvChirpBody n tm A V M) (s := (SUCCESS, (Buf.malloc (4 * M) : Buf ℂ)))
    (fun k s => s.1 = SUCCESS ∧ s.2.len = 4 * M ∧ ∀ k' i, k' < k → i < M → s.2.rd (k' * M + i) =
        some ((Spec.poly n (fun j => y (k' * (n + 1) + j))).eval (A⁻¹ * V ^ i))) ?_ ?_
  · obtain ⟨⟨c, H⟩, e, e1, e2, e3⟩ := key
    dsimp only at e1; subst e1
    exact ⟨H, e, e2, e3⟩
  · exact ⟨rfl, by simp, fun k' i h => by omega⟩
  · rintro k ⟨c, H⟩ hk ⟨e1, e2, e3⟩
    dsimp only at e1 e2 e3; subst e1
    have hk4 : (k + 1) * (n + 1) ≤ 4 * (n + 1) := Nat.mul_le_mul_right _ hk
    obtain ⟨h, f1, -, f3, -⟩ := C13_chirpz n M (tm.view (k * (n + 1))) (Buf.malloc M) (fun j => y (k * (n + 1) + j)) A V
      (fun i hi => by
        rw [rd_view, Nat.zero_add]
        have := hy (k * (n + 1) + i) (by nlinarith)
        rwa [Nat.zero_add] at this) hM (by simp) hA hV hs
    have hkM : (k + 1) * M ≤ 4 * M := Nat.mul_le_mul_right _ hk
    obtain ⟨H', g1, g2, g3⟩ := fill_spec (off := k * M) (cnt := M) (b := H) (f := fun i => h.rd (i - k * M))
      (fun i => (Spec.poly n (fun j => y (k * (n + 1) + j))).eval (A⁻¹ * V ^ (i - k * M)))
      (fun i h1 h2 => by
        have := f3 (i - k * M) (by omega)
        rwa [Nat.zero_add] at this) (Or.inl (by rw [e2]; nlinarith))
    refine ⟨(SUCCESS, H'), ?_, rfl, by rw [g2, e2], ?_⟩
    · simp only [kdvChirpBody, ne_eq, not_true_eq_false, if_false, chirpzChk, f1, Option.bind_eq_bind, Option.bind_some,
        Option.pure_def, if_true, g1]
    · intro k' i hk' hi
      show H'.rd _ = _
      rw [g3]
      by_cases hkk : k' = k
      · subst hkk
        rw [if_pos ⟨by omega, by omega⟩, Nat.add_sub_cancel_left]
      · have : (k' + 1) * M ≤ k * M := Nat.mul_le_mul_right _ (by omega)
        rw [if_neg (by rintro ⟨c1, c2⟩; nlinarith)]
        exact e3 k' i (by omega) hi

theorem kdv_basis_ok {d : KdvDisc} {a : AknsDisc} {v : ℕ} (hd : kdv_to_akns d = .ok a) (hv : kdv_vanilla_flag d = .ok v) (eps : ℝ)
    {x : ℂ} (hx : x ≠ 0) :
    (∃ T, kdv_basis_to_S x false eps d = .ok T ∧ Spec.Stores (Buf.ofList T) (basisTo eps a (v ≠ 0) .KdV x)) ∧
    (∃ T, kdv_basis_from_S x false eps d = .ok T ∧ Spec.Stores (Buf.ofList T) (basisFrom eps a (v ≠ 0) .KdV x)) := by
  obtain ⟨⟨T, t1, t2⟩, ⟨F, f1, f2⟩⟩ := storesD_to (xi := x) false (eps := eps) (d := a) (v ≠ 0) (pde := .KdV) (Or.inl rfl) (kdv_known hd).1
    (fun _ => hx)
  refine ⟨⟨T, ?_, t2⟩, ⟨F, ?_, f2⟩⟩
  · unfold kdv_basis_to_S
    rw [hv, hd]; dsimp only; rw [t1]
  · unfold kdv_basis_from_S
    rw [hv, hd]; dsimp only; rw [f1]

/-- The loop over the frequencies. -/
theorem basis_loop {d : KdvDisc} {a : AknsDisc} {v : ℕ} (hd : kdv_to_akns d = .ok a) (hv : kdv_vanilla_flag d = .ok v) (eps : ℝ)
    {M : ℕ} {xi : Buf ℂ} {x : ℕ → ℂ} (hx : xi.Holds 0 M x) (hx0 : ∀ i, i < M → x i ≠ 0) {H : Buf ℂ} (hl : H.len = 4 * M)
    (P : ℕ → Spec.M2) (hH : ∀ (j k : Fin 2) i, i < M → H.rd ((2 * j + k) * M + i) = some (P i j k)) :
    ∃ H', forLoop M (kdvBasisBody eps M xi d) (SUCCESS, H) = some (SUCCESS, H') ∧ H'.len = 4 * M ∧
      ∀ (j k : Fin 2) i, i < M → H'.rd ((2 * j + k) * M + i) =
        some ((basisTo eps a (v ≠ 0) .KdV (x i) * (P i * basisFrom eps a (v ≠ 0) .KdV (x i))) j k) := by
  have key := forLoop_inv (n := M) (body := kdvBasisBody eps M xi d) (s := (SUCCESS, H))
    (fun m s => s.1 = SUCCESS ∧ s.2.len = 4 * M ∧ ∀ (j k : Fin 2) i, i < M → s.2.rd ((2 * j + k) * M + i) =
        some (if i < m then (basisTo eps a (v ≠ 0) .KdV (x i) * (P i * basisFrom eps a (v ≠ 0) .KdV (x i))) j k else P i j k)) ?_ ?_
  · obtain ⟨⟨c, H'⟩, e, e1, e2, e3⟩ := key
    dsimp only at e1; subst e1
    refine ⟨H', e, e2, fun j k i hi => ?_⟩
    rw [e3 j k i hi, if_pos hi]
  · exact ⟨rfl, hl, fun j k i hi => by rw [hH j k i hi, if_neg (by omega)]⟩
  · rintro m ⟨c, G⟩ hm ⟨e1, e2, e3⟩
    dsimp only at e1 e2 e3; subst e1
    have r0 := e3 0 0 m hm
    have r1 := e3 0 1 m hm
    have r2 := e3 1 0 m hm
    have r3 := e3 1 1 m hm
    rw [if_neg (by omega)] at r0 r1 r2 r3
    have rr0 : G.rd (0 * M + m) = some (P m 0 0) := r0
    have rr1 : G.rd (1 * M + m) = some (P m 0 1) := r1
    have rr2 : G.rd (2 * M + m) = some (P m 1 0) := r2
    have rr3 : G.rd (3 * M + m) = some (P m 1 1) := r3
    have rx : xi.rd m = some (x m) := by have := hx m hm; rwa [Nat.zero_add] at this
    obtain ⟨⟨T, t1, t2⟩, ⟨F, f1, f2⟩⟩ := kdv_basis_ok hd hv eps (hx0 m hm)
    have hS : Spec.Stores (Buf.ofList [P m 0 0, P m 0 1, P m 1 0, P m 1 1]) (P m) := by
      intro i j
      fin_cases i <;> fin_cases j <;> simp [Buf.rd_ofList]
    obtain ⟨b1, u1, u2, u3, -⟩ := C19_matrix_mult (P m) (basisFrom eps a (v ≠ 0) .KdV (x m)) _ (Buf.ofList F) (Buf.malloc 4) hS f2 (by simp)
    obtain ⟨b2, w1, w2, w3, -⟩ := C19_matrix_mult (basisTo eps a (v ≠ 0) .KdV (x m)) (P m * basisFrom eps a (v ≠ 0) .KdV (x m))
      (Buf.ofList T) b1 (Buf.ofList [P m 0 0, P m 0 1, P m 1 0, P m 1 1]) t2 u2 (by simp [Buf.ofList])
    set Z := basisTo eps a (v ≠ 0) .KdV (x m) * (P m * basisFrom eps a (v ≠ 0) .KdV (x m)) with hZ
    have z0 : b2.rd 0 = some (Z 0 0) := w2 0 0
    have z1 : b2.rd 1 = some (Z 0 1) := w2 0 1
    have z2 : b2.rd 2 = some (Z 1 0) := w2 1 0
    have z3 : b2.rd 3 = some (Z 1 1) := w2 1 1
    have hloop := forLoop_inv (n := 4) (body := fun n (H : Buf ℂ) => do
          let v ← b2.rd n
          H.wr (n * M + m) v) (s := G)
      (fun k B => B.len = 4 * M ∧ ∀ j, B.rd j = if j % M = m ∧ j / M < k then b2.rd (j / M) else G.rd j) ?_ ?_
    · obtain ⟨B, o1, o2, o3⟩ := hloop
      refine ⟨(SUCCESS, B), ?_, rfl, o2, ?_⟩
      · simp only [kdvBasisBody, ne_eq, not_true_eq_false, if_false, rr0, rr1, rr2, rr3, rx, f1, t1, u1, w1,
          Option.bind_eq_bind, Option.bind_some, Option.pure_def]
        simp only [Option.bind_eq_bind] at o1
        rw [o1]; rfl
      · intro j k i hi
        show B.rd _ = _
        have hmod : ((2 * (j : ℕ) + k) * M + i) % M = i := by
          rw [Nat.mul_comm, Nat.mul_add_mod]; exact Nat.mod_eq_of_lt hi
        have hdiv : ((2 * (j : ℕ) + k) * M + i) / M = 2 * (j : ℕ) + k := by
          rw [Nat.mul_comm, Nat.mul_add_div (by omega), Nat.div_eq_of_lt hi, Nat.add_zero]
        rw [o3, hmod, hdiv]
        by_cases him : i = m
        · subst him
          rw [if_pos ⟨rfl, by omega⟩, if_pos (by omega), Nat.mul_comm]
          exact w2 j k
        · rw [if_neg (by omega), e3 j k i hi]
          congr 1
          split_ifs <;> first | rfl | omega
    · exact ⟨e2, fun j => by rw [if_neg (fun h => Nat.not_lt_zero _ h.2)]⟩
    · rintro k B hk ⟨o2, o3⟩
      have hb : ∃ c, b2.rd k = some c := by
        rcases (by omega : k = 0 ∨ k = 1 ∨ k = 2 ∨ k = 3) with h | h | h | h <;> subst h <;> exact ⟨_, by assumption⟩
      obtain ⟨c, hc⟩ := hb
      have hkM : (k + 1) * M ≤ 4 * M := Nat.mul_le_mul_right _ hk
      refine ⟨B.set (k * M + m) c, ?_, by simp [o2], ?_⟩
      · simp only [hc, Option.bind_eq_bind, Option.bind_some]
        exact Buf.wr_eq _ (by rw [o2]; nlinarith)
      · intro j
        rw [Buf.rd_set _ (by rw [o2]; nlinarith), o3]
        have hM : 0 < M := by omega
        have hdm := Nat.div_add_mod j M
        by_cases hj : j = k * M + m
        · have hmod : j % M = m := by rw [hj, Nat.mul_comm, Nat.mul_add_mod]; exact Nat.mod_eq_of_lt hm
          have hdiv : j / M = k := by
            rw [hj, Nat.mul_comm, Nat.mul_add_div (by omega), Nat.div_eq_of_lt hm, Nat.add_zero]
          rw [if_pos hj, hmod, hdiv, if_pos ⟨rfl, by omega⟩, hc]
        · rw [if_neg hj]
          have hne : j % M = m → j / M ≠ k := by
            intro h1 h2
            apply hj
            rw [← hdm, h1, h2, Nat.mul_comm]
          by_cases c1 : j % M = m
          · have := hne c1
            by_cases c2 : j / M < k
            · rw [if_pos ⟨c1, c2⟩, if_pos ⟨c1, by omega⟩]
            · rw [if_neg (by omega), if_neg (by omega)]
          · rw [if_neg (by omega), if_neg (by omega)]

/-- The change of basis of the polynomial methods and the one of the slow methods agree on the scattering matrix. -/
theorem shift_basis (a : AknsDisc) (eps : ℝ) (van : Bool) {x : ℂ} (hx : x ≠ 0) (S : Spec.M2) :
    basisTo eps a van .KdV x * (shiftG a eps x (-1 / 2) * S * shiftG a eps x (1 / 2) * basisFrom eps a van .KdV x) =
      (Spec.fromS true van x)⁻¹ * S * Spec.fromS true van x := by
  have hG : shiftG a eps x (1 / 2) * shiftG a eps x (-1 / 2) = 1 := by
    unfold shiftG
    split_ifs
    · rw [expA_mul, ← expA_zero eps x]; norm_num
    · rw [one_mul]
  have hF : basisFrom eps a van .KdV x = shiftG a eps x (-1 / 2) * Spec.fromS true van x := by
    have hm : akns_basis_modified a = true ↔ a = .D2SPLIT2A ∨ a = .D2SPLIT2_MODAL := by
      cases a <;> simp [akns_basis_modified]
    unfold shiftG
    split_ifs with h
    · rw [expA_diag]
      have e1 : exp (-I * x * eps * (-1 / 2)) = exp (I * x * eps / 2) := by congr 1; ring
      have e2 : exp (I * x * eps * (-1 / 2)) = exp (-(I * x * eps / 2)) := by congr 1; ring
      rw [e1, e2]
      ext i j
      cases van <;> fin_cases i <;> fin_cases j <;> simp [basisFrom, Spec.fromS, hm, h, Matrix.mul_apply, Fin.sum_univ_two] <;> ring
    · ext i j
      cases van <;> fin_cases i <;> fin_cases j <;> simp [basisFrom, Spec.fromS, hm, h]
  have hT : basisTo eps a van .KdV x = (Spec.fromS true van x)⁻¹ * shiftG a eps x (1 / 2) := by
    have h1 := (basis_inv eps a van .KdV x (fun _ => hx)).1
    rw [← Matrix.inv_eq_left_inv h1, hF, Matrix.mul_inv_rev]
    congr 1
    exact Matrix.inv_eq_left_inv hG
  have hG' : shiftG a eps x (-1 / 2) * shiftG a eps x (1 / 2) = 1 := mul_eq_one_comm.mp hG
  rw [hT, hF]
  calc _ = (Spec.fromS true van x)⁻¹ * (shiftG a eps x (1 / 2) * shiftG a eps x (-1 / 2)) * S *
        (shiftG a eps x (1 / 2) * shiftG a eps x (-1 / 2)) * Spec.fromS true van x := by simp only [mul_assoc]
    _ = _ := by rw [hG]; simp only [mul_one]

theorem kdvContFast_ok {d : KdvDisc} {a : AknsDisc} {v : ℕ} (hd : kdv_to_akns d = .ok a) (hv : kdv_vanilla_flag d = .ok v)
    (hdeg : akns_degree a ≠ 0) {n M Dg : ℕ} {W : ℤ} {tm : Buf ℂ} {y : ℕ → ℂ} (hy : tm.Holds 0 (4 * (n + 1)) y) (hM : 1 ≤ M)
    (hs : n + M < 3 ^ 32) (eps X0 ex : ℝ) {xi : Buf ℂ} (hx : xi.Holds 0 M (fun i => ((X0 + ex * i : ℝ) : ℂ)))
    (hx0 : ∀ i, i < M → ((X0 + ex * i : ℝ) : ℂ) ≠ 0) {S : ℂ → Spec.M2}
    (hS : ∀ l, FullOK a eps Dg W n (exp (2 * I * l * eps / (Spec.degree1step a : ℕ))) l y (S l)) :
    ∃ H h1 h2, kdvContFast n tm eps X0 ex M xi d = some (.ok H) ∧ H.1.Holds 0 M h1 ∧ H.2.Holds 0 M h2 ∧
      ∀ i, i < M → ∀ x : ℂ, x = ((X0 + ex * i : ℝ) : ℂ) →
        h1 i * 2 ^ W = exp (I * x * (eps * Dg)) *
          ((Spec.fromS true (v ≠ 0) x)⁻¹ * S x * Spec.fromS true (v ≠ 0) x) 0 0 ∧
        h2 i * 2 ^ W = exp (I * x * (eps * Dg)) *
          ((Spec.fromS true (v ≠ 0) x)⁻¹ * S x * Spec.fromS true (v ≠ 0) x) 1 0 := by
  have hA := kdvLambdaToZ1_ok hd hdeg eps (-X0 : ℂ)
  have hV := kdvLambdaToZ1_ok hd hdeg eps (ex : ℂ)
  obtain ⟨C, c1, c2, c3⟩ := chirp_loop hy hM hs (exp_ne_zero (2 * I * (-X0 : ℂ) * eps / Spec.degree1step a))
    (exp_ne_zero (2 * I * (ex : ℂ) * eps / Spec.degree1step a))
  have hg := fun k => chirp_grid X0 ex eps (Spec.degree1step a) k
  set P : ℕ → Spec.M2 := fun i => (Spec.pmat 2 n (n + 1) 0 y).map
    (Polynomial.eval (exp (2 * I * ((X0 + ex * i : ℝ) : ℂ) * eps / Spec.degree1step a))) with hP
  obtain ⟨H, e1, e2, e3⟩ := basis_loop hd hv eps hx hx0 c2 P (fun j k i hi => by
    rw [c3 (2 * j + k) i (by omega) hi, hg i]
    simp only [hP, Matrix.map_apply, Spec.pmat, Matrix.of_apply, Nat.add_zero])
  refine ⟨(H, H.view (2 * M)),
    fun i => (basisTo eps a (v ≠ 0) .KdV ((X0 + ex * i : ℝ) : ℂ) * (P i * basisFrom eps a (v ≠ 0) .KdV ((X0 + ex * i : ℝ) : ℂ))) 0 0,
    fun i => (basisTo eps a (v ≠ 0) .KdV ((X0 + ex * i : ℝ) : ℂ) * (P i * basisFrom eps a (v ≠ 0) .KdV ((X0 + ex * i : ℝ) : ℂ))) 1 0,
    ?_, ?_, ?_, ?_⟩
  rotate_left
  · intro i hi
    have := e3 0 0 i hi
    simpa using this
  · intro i hi
    have := e3 1 0 i hi
    simpa [rd_view] using this
  · intro i hi x hxx
    have key := hS x
    unfold FullOK at key
    have key2 : (2 : ℂ) ^ W • P i = exp (I * x * (eps * Dg)) • (shiftG a eps x (-1 / 2) * S x * shiftG a eps x (1 / 2)) := by
      rw [← key, hP, hxx]
    have key3 : (2 : ℂ) ^ W • (basisTo eps a (v ≠ 0) .KdV x * (P i * basisFrom eps a (v ≠ 0) .KdV x)) =
        exp (I * x * (eps * Dg)) • ((Spec.fromS true (v ≠ 0) x)⁻¹ * S x * Spec.fromS true (v ≠ 0) x) := by
      rw [← shift_basis a eps (v ≠ 0) (by rw [hxx]; exact hx0 i hi) (S x), ← Matrix.mul_smul, ← Matrix.smul_mul, key2,
        Matrix.smul_mul, Matrix.mul_smul]
    have k0 := congrFun (congrFun key3 0) 0
    have k1 := congrFun (congrFun key3 1) 0
    simp only [Matrix.smul_apply, smul_eq_mul] at k0 k1
    dsimp only
    rw [← hxx]
    exact ⟨by rw [← k0, mul_comm], by rw [← k1, mul_comm]⟩
  · unfold kdvContFast
    simp only [hA, hV, Option.bind_eq_bind, Option.bind_some, ne_eq, not_true_eq_false, if_false, c1, e1]
    rfl

/-! ## Slow methods -/

theorem kdv_scatter_eq {D : ℕ} {q r : Buf ℂ} {eps : ℝ} {K : ℕ} {lambda result : Buf ℂ} {W : Option (Buf ℤ)} {d : KdvDisc} {a : AknsDisc}
    {v : ℕ} (hd : kdv_to_akns d = .ok a) (hv : kdv_vanilla_flag d = .ok v) (hD : D ≠ 0) (heps : 0 < eps) (hK : K ≠ 0) (df : ℕ)
    {R : ScatRes} (h : akns_scatter_matrix D (some (swapIf v q r)) (some (swapIf v r q)) eps K (some lambda) (some result) W a .KdV v df =
      some R) :
    kdv_scatter_matrix D (some q) (some r) eps K (some lambda) (some result) W d df = some ⟨chk R.ret, R.result, R.W⟩ := by
  unfold kdv_scatter_matrix
  dsimp only
  rw [if_neg (by push Not; exact ⟨hD, by simp, by simp, heps, hK, by simp, by simp⟩), hd]
  dsimp only
  rw [hv]
  dsimp only
  by_cases hv0 : v = 0
  · rw [if_neg (by simpa using hv0)]
    simp only [swapIf, hv0] at h ⊢
    rw [if_neg (by simp), if_neg (by simp)] at h
    rw [h]; rfl
  · rw [if_pos hv0]
    simp only [swapIf] at h
    rw [if_pos hv0, if_pos hv0] at h
    rw [h]; rfl

/-- The slow methods return `2^(-w) B⁻¹ U_(N-1) ⋯ U_0 B`, with `w` in `W`. -/
theorem kdv_scatter_ok {d : KdvDisc} {a : AknsDisc} {v : ℕ} (hd : kdv_to_akns d = .ok a) (hv : kdv_vanilla_flag d = .ok v)
    (hs : Spec.slow a) {D : ℕ} (hD : 0 < D) (hsmp : Spec.slowSamples a D) {q r : Buf ℂ} {qf rf : ℕ → ℂ} (hq : q.Holds 0 D qf)
    (hr : r.Holds 0 D rf) {eps : ℝ} (heps : 0 < eps) {M : ℕ} (hM : 0 < M) {xi : Buf ℂ} {x : ℕ → ℂ} (hx : xi.Holds 0 M x)
    (hx0 : ∀ i, i < M → x i ≠ 0) {Ws : Option (Buf ℤ)} (hWl : ∀ V, Ws = some V → M ≤ V.len) :
    ∃ (R : ScatRes) (w : ℕ → ℤ), kdv_scatter_matrix D (some q) (some r) eps M (some xi) (some (Buf.malloc (4 * M))) Ws d 0 = some R ∧
      R.ret = SUCCESS ∧
      (∀ i, i < M → ∀ j k : Fin 2, R.result.rd (4 * i + (2 * j + k)) = some ((2 : ℂ) ^ (-w i) *
        ((Spec.fromS true (v ≠ 0) (x i))⁻¹ * Spec.chain (Spec.slowStep expS a eps (Spec.cfWeight a) (swapIf v qf rf) (swapIf v rf qf) (x i))
          (Spec.slowCount a D) * Spec.fromS true (v ≠ 0) (x i)) j k)) ∧
      (∀ V, R.W = some V → ∀ i, i < M → V.rd i = some (w i)) ∧ (R.W = none → ∀ i, w i = 0) ∧ (R.W = none ↔ Ws = none) := by
  have hq' : (swapIf v q r).Holds 0 D (swapIf v qf rf) := by unfold swapIf; split_ifs <;> assumption
  have hr' : (swapIf v r q).Holds 0 D (swapIf v rf qf) := by unfold swapIf; split_ifs <;> assumption
  obtain ⟨R, w, h1, h2, h3, h4, -, h6, h7⟩ := slow_scattering_expS D (swapIf v q r) (swapIf v r q) (swapIf v qf rf) (swapIf v rf qf)
    eps M xi x (Buf.malloc (4 * M)) Ws a .KdV v false
    ⟨hD, hq', hr', heps, hM, hx, hs, hsmp, Or.inl rfl, fun _ => hx0, (by simp), hWl⟩
  refine ⟨⟨chk R.ret, R.result, R.W⟩, w, kdv_scatter_eq hd hv hD.ne' heps hM.ne' 0 (by simpa using h1), by rw [h2]; rfl, ?_, ?_, ?_, ?_⟩
  · intro i hi j k
    have := h4 i hi j k
    simpa using this
  · intro V hV i hi
    cases hW : Ws with
    | none => rw [(h7 hW).1] at hV; cases hV
    | some V0 =>
      obtain ⟨V', v1, -, v3, -⟩ := h6 V0 hW
      rw [hV] at v1; cases v1
      exact v3 i hi
  · intro hN
    cases hW : Ws with
    | none => exact (h7 hW).2
    | some V0 =>
      obtain ⟨V', v1, -⟩ := h6 V0 hW
      rw [hN] at v1; cases v1
  · constructor
    · intro hN
      cases hW : Ws with
      | none => rfl
      | some V0 =>
        obtain ⟨V', v1, -⟩ := h6 V0 hW
        rw [hN] at v1; cases v1
    · intro hN
      exact (h7 hN).1

theorem kdvContSlow_ok {d : KdvDisc} {a : AknsDisc} {v : ℕ} (hd : kdv_to_akns d = .ok a) (hv : kdv_vanilla_flag d = .ok v)
    (hs : Spec.slow a) {D : ℕ} (hD : 0 < D) (hsmp : Spec.slowSamples a D) {q r : Buf ℂ} {qf rf : ℕ → ℂ} (hq : q.Holds 0 D qf)
    (hr : r.Holds 0 D rf) {eps : ℝ} (heps : 0 < eps) {M : ℕ} (hM : 0 < M) {xi : Buf ℂ} {x : ℕ → ℂ} (hx : xi.Holds 0 M x)
    (hx0 : ∀ i, i < M → x i ≠ 0) (nrm : Bool) :
    ∃ H, kdvContSlow D (some q) (some r) eps M xi nrm d = some (.ok H) ∧
      H.1.Holds 0 M (fun i => ((Spec.fromS true (v ≠ 0) (x i))⁻¹ * Spec.chain (Spec.slowStep expS a eps (Spec.cfWeight a)
        (swapIf v qf rf) (swapIf v rf qf) (x i)) (Spec.slowCount a D) * Spec.fromS true (v ≠ 0) (x i)) 0 0) ∧
      H.2.Holds 0 M (fun i => ((Spec.fromS true (v ≠ 0) (x i))⁻¹ * Spec.chain (Spec.slowStep expS a eps (Spec.cfWeight a)
        (swapIf v qf rf) (swapIf v rf qf) (x i)) (Spec.slowCount a D) * Spec.fromS true (v ≠ 0) (x i)) 1 0) := by
  obtain ⟨Ws, hWs⟩ : ∃ Ws : Option (Buf ℤ), Ws = if nrm then some (Buf.malloc (4 * M)) else none := ⟨_, rfl⟩
  have hWl : ∀ V, Ws = some V → M ≤ V.len := by
    intro V hV
    cases nrm with
    | true => simp [hWs] at hV; rw [← hV]; simp; omega
    | false => simp [hWs] at hV
  obtain ⟨R, w, h1, h2, h3, h4, h5, -⟩ := kdv_scatter_ok hd hv hs hD hsmp hq hr heps hM hx hx0 hWl
  obtain ⟨H, e1, e2, e3⟩ := copy_loop (M := M) (coef := R.result) (Ws := R.W) (w := w)
    (c1 := fun i => ((Spec.fromS true (v ≠ 0) (x i))⁻¹ * Spec.chain (Spec.slowStep expS a eps (Spec.cfWeight a)
        (swapIf v qf rf) (swapIf v rf qf) (x i)) (Spec.slowCount a D) * Spec.fromS true (v ≠ 0) (x i)) 0 0)
    (c2 := fun i => ((Spec.fromS true (v ≠ 0) (x i))⁻¹ * Spec.chain (Spec.slowStep expS a eps (Spec.cfWeight a)
        (swapIf v qf rf) (swapIf v rf qf) (x i)) (Spec.slowCount a D) * Spec.fromS true (v ≠ 0) (x i)) 1 0)
    (fun i hi => by have := h3 i hi 0 0; rw [Nat.mul_comm i 4]; exact this)
    (fun i hi => by have := h3 i hi 1 0; rw [Nat.mul_comm i 4]; exact this) h4 h5
  refine ⟨H, ?_, e2, e3⟩
  unfold kdvContSlow
  rw [← hWs]
  simp only [h1, h2, Option.bind_eq_bind, Option.bind_some, ne_eq, not_true_eq_false, if_false, e1, Option.pure_def]

/-! ## The switch -/

/-- A discretization of the NSE with the same phase factors. -/
def kdvComp (d : KdvDisc) : NseDisc := if kdv_degree d = 0 then .BO else .D2SPLIT4B

theorem comp_known (d : KdvDisc) : ∀ n, kdvComp d ≠ .other n := by
  intro n; unfold kdvComp; split_ifs <;> simp

theorem comp_phB (d : KdvDisc) (eps : ℝ) : phB (kdvComp d) eps = 0 := by
  unfold phB kdvComp; split_ifs <;> first | rfl | simp_all

theorem comp_phC (d : KdvDisc) (eps : ℝ) (D : ℕ) : phC (kdvComp d) eps D = if kdv_degree d = 0 then 0 else -eps * D := by
  unfold phC kdvComp
  by_cases h : kdv_degree d = 0
  · simp [h, nse_degree, nse_to_akns, akns_degree]
  · simp [h, nse_degree, nse_to_akns, akns_degree]

theorem kdvSwitch_eq {d : KdvDisc} (hd : ∀ n, d ≠ .other n) (cs : CsType) (eps : ℝ) (Dg : ℕ) (T0 T1 : ℝ) (W : ℤ) (M : ℕ)
    (xi H11 H21 result : Buf ℂ) :
    kdvContSwitch cs eps Dg T0 T1 W M xi H11 H21 result d = contSwitch cs eps Dg T0 T1 W M xi H11 H21 result (kdvComp d) := by
  obtain ⟨k1, k2, k3⟩ := C47_phase_factors d hd eps Dg T0 T1
  have p1 := phase_rho (comp_known d) eps T1
  have p2 := phase_a (comp_known d) eps Dg T0 T1
  have p3 := phase_b (comp_known d) eps Dg T0 T1
  rw [comp_phB, add_zero, mul_one_div] at p1
  rw [comp_phC, mul_one_div] at p2
  rw [comp_phC, comp_phB, add_zero, mul_one_div] at p3
  have e1 : ∀ result, kdvContRho eps T1 M xi H11 H21 result d = contRho eps T1 M xi H11 H21 result (kdvComp d) := by
    intro result
    unfold kdvContRho contRho
    rw [k1, p1]
  have e2 : ∀ off result, kdvContAB eps Dg T0 T1 W off M xi H11 H21 result d = contAB eps Dg T0 T1 W off M xi H11 H21 result (kdvComp d) := by
    intro off result
    unfold kdvContAB contAB
    rw [k2, k3, p2, p3]
  unfold kdvContSwitch contSwitch
  cases cs <;> simp only [e1, e2]

/-! ## All methods -/

/-- What the first half of the computation of the continuous spectrum delivers for every discretization. -/
theorem kdv_cont_values {d : KdvDisc} {a : AknsDisc} {v : ℕ} (hd : kdv_to_akns d = .ok a) (hv : kdv_vanilla_flag d = .ok v) {D Dg : ℕ}
    (hDg : D = Dg * akns_upsampling_factor a) (hDg2 : 2 ≤ Dg) {q r : Buf ℂ} {qf rf : ℕ → ℂ}
    (hq : q.Holds 0 D qf) (hr : r.Holds 0 D rf) {eps : ℝ} (heps : 0 < eps) {M : ℕ}
    (hM : 2 ≤ M) (hsz : D * akns_degree a + M < 3 ^ 32) {U : ℂ → ℕ → Spec.M2} {deg : ℕ} {W : ℤ} {tm : Option (Buf ℂ)}
    (ht : KdvTransferData a D Dg eps (swapIf v qf rf) (swapIf v rf qf) U deg W tm) (X0 ex : ℝ) {xi : Buf ℂ}
    (hx : xi.Holds 0 M (fun i => ((X0 + ex * i : ℝ) : ℂ))) (hx0 : ∀ i, i < M → ((X0 + ex * i : ℝ) : ℂ) ≠ 0) (nrm : Bool) (T0 T1 : ℝ) :
    ∃ H h1 h2, kdvContH deg W tm (some q) (some r) eps D X0 ex M xi nrm d = some (.ok H) ∧
      H.1.Holds 0 M h1 ∧ H.2.Holds 0 M h2 ∧
      ∀ i, i < M → ∀ x : ℂ, x = ((X0 + ex * i : ℝ) : ℂ) → ∀ S : Spec.M2,
        S = (Spec.fromS true (v ≠ 0) x)⁻¹ * Spec.chain (U x) (Spec.slowCount a D) * Spec.fromS true (v ≠ 0) x →
        valA W (kdvComp d) eps Dg T0 T1 (fun i => ((X0 + ex * i : ℝ) : ℂ)) h1 i = Spec.jostA S T0 T1 eps x ∧
        valB W (kdvComp d) eps Dg T0 T1 (fun i => ((X0 + ex * i : ℝ) : ℂ)) h2 i = Spec.jostB S T0 T1 eps x := by
  have hup := (kdv_known hd).1
  have hupD : 2 ≤ D := by rw [hDg]; nlinarith [Nat.pos_of_ne_zero hup]
  have hdd : kdv_degree d = akns_degree a := by rw [kdv_degree, hd]
  by_cases hs : Spec.slow a
  · have hsmp : Spec.slowSamples a D := by
      rcases hs with h | h | h | h | h | h | h <;> subst h <;> simp [Spec.slowSamples, hDg, akns_upsampling_factor]
    obtain ⟨H, e1, e3, e4⟩ := kdvContSlow_ok hd hv hs (by omega) hsmp hq hr heps (show 0 < M by omega) hx hx0 nrm
    obtain ⟨rfl, rfl, rfl, rfl⟩ := ht.slow hs
    refine ⟨H, _, _, ?_, e3, e4, ?_⟩
    · simp only [kdvContH, and_self, if_true, e1]
    · intro i hi x hxx S hS
      rw [jostA_eq, jostB_eq]
      unfold valA valB
      rw [comp_phB, comp_phC, if_pos (by rw [hdd]; exact slow_degree hs), zpow_zero, mul_one, mul_one, zero_add, add_zero, zero_sub, hS,
        hxx]
      exact ⟨rfl, rfl⟩
  · obtain ⟨hdeg, rfl, t, y, rfl, e3, e4⟩ := ht.fast hs
    obtain ⟨H, h1, h2, f1, f2, f3, f4⟩ := kdvContFast_ok hd hv hdeg e3 (show 1 ≤ M by omega) hsz eps X0 ex hx hx0 e4
    refine ⟨H, h1, h2, f1, f2, f3, fun i hi x hxx S hS => ?_⟩
    obtain ⟨g1, g2⟩ := f4 i hi x hxx
    rw [← hS] at g1 g2
    rw [jostA_eq, jostB_eq]
    unfold valA valB
    rw [comp_phB, comp_phC, if_neg (by rw [hdd]; exact hdeg)]
    dsimp only
    rw [← hxx, g1, g2]
    have p1 : exp (I * x * (eps * Dg)) * exp (I * x * (-eps * Dg + (T1 + eps * (1 / 2)) - (T0 - eps * (1 / 2)) : ℝ)) =
        exp (I * x * ((T1 + eps * (1 / 2)) - (T0 - eps * (1 / 2)) : ℝ)) := by
      rw [← exp_add]; congr 1; push_cast; ring
    have p2 : exp (I * x * (eps * Dg)) * exp (I * x * (-eps * Dg - (T1 + eps * (1 / 2)) - (T0 - eps * (1 / 2)) + 0 : ℝ)) =
        exp (I * x * (-(T1 + eps * (1 / 2)) - (T0 - eps * (1 / 2)) : ℝ)) := by
      rw [← exp_add]; congr 1; push_cast; ring
    exact ⟨by rw [← p1]; ring, by rw [← p2]; ring⟩

/-- `kdvv_compute_contspec` after `kdvTransfer`. -/
theorem kdv_contspec_ok {d : KdvDisc} {a : AknsDisc} {v : ℕ} (hd : kdv_to_akns d = .ok a) (hv : kdv_vanilla_flag d = .ok v) {D Dg : ℕ}
    (hDg : D = Dg * akns_upsampling_factor a) (hDg2 : 2 ≤ Dg) {q r : Buf ℂ} {qf rf : ℕ → ℂ}
    (hq : q.Holds 0 D qf) (hr : r.Holds 0 D rf) {T0 T1 : ℝ} (hT : T0 < T1) {M : ℕ}
    (hM : 2 ≤ M) (hsz : D * akns_degree a + M < 3 ^ 32) (XI0 XI1 : ℝ) (hXI : ∀ i, i < M → Spec.grid XI0 XI1 M i ≠ 0) {eps : ℝ}
    (heps : eps = (T1 - T0) / (Dg - 1))
    {U : ℂ → ℕ → Spec.M2} {deg : ℕ} {W : ℤ} {tm : Option (Buf ℂ)}
    (ht : KdvTransferData a D Dg eps (swapIf v qf rf) (swapIf v rf qf) U deg W tm) (nrm : Bool) {cs : CsType} (hcs : ∀ n, cs ≠ .other n)
    {result : Buf ℂ} (hres : Spec.csLen cs * M ≤ result.len) :
    ∀ (S : ℕ → Spec.M2) (av bv : ℕ → ℂ),
        (∀ i, S i = (Spec.fromS true (v ≠ 0) (Spec.grid XI0 XI1 M i))⁻¹ * Spec.chain (U (Spec.grid XI0 XI1 M i)) (Spec.slowCount a D) *
          Spec.fromS true (v ≠ 0) (Spec.grid XI0 XI1 M i)) →
        (∀ i, av i = Spec.jostA (S i) T0 T1 eps (Spec.grid XI0 XI1 M i)) →
        (∀ i, bv i = Spec.jostB (S i) T0 T1 eps (Spec.grid XI0 XI1 M i)) →
        ((cs = .AB ∨ ∀ i, i < M → av i ≠ 0) →
          ∃ b, kdvv_compute_contspec deg W tm (some q) (some r) T0 T1 D XI0 XI1 M result cs nrm d = some (SUCCESS, b) ∧
            b.len = result.len ∧ b.Holds 0 (Spec.csLen cs * M) (Spec.csOut cs M av bv) ∧
            ∀ j, Spec.csLen cs * M ≤ j → b.rd j = result.rd j) ∧
        (cs ≠ .AB → (∃ i, i < M ∧ av i = 0) →
          ∃ b, kdvv_compute_contspec deg W tm (some q) (some r) T0 T1 D XI0 XI1 M result cs nrm d =
            some (EC_DIV_BY_ZERO, b) ∧ b.len = result.len ∧ ∀ j, M ≤ j → b.rd j = result.rd j) := by
  have hup := (kdv_known hd).1
  have hkn := (kdv_known hd).2
  have hup' : kdv_upsampling_factor d = akns_upsampling_factor a := by rw [kdv_upsampling_factor, hd]
  have hdiv : D / akns_upsampling_factor a = Dg := by rw [hDg, Nat.mul_div_cancel _ (Nat.pos_of_ne_zero hup)]
  have hpos : 0 < eps := by
    rw [heps]
    have : (2 : ℝ) ≤ Dg := by exact_mod_cast hDg2
    exact div_pos (by linarith) (by linarith)
  obtain ⟨xi, x1, x2, x3⟩ := fill_spec (off := 0) (cnt := M) (b := (Buf.malloc M : Buf ℂ))
    (f := fun i => some ((XI0 + (XI1 - XI0) / (M - 1) * i : ℝ) : ℂ)) (fun i => ((XI0 + (XI1 - XI0) / (M - 1) * i : ℝ) : ℂ))
    (fun i _ _ => rfl) (Or.inl (by simp))
  have hx : xi.Holds 0 M (fun i => ((XI0 + (XI1 - XI0) / (M - 1) * i : ℝ) : ℂ)) := by
    intro i hi
    rw [x3, if_pos ⟨by omega, by omega⟩, Nat.zero_add]
  have hgrid : ∀ i, ((Spec.grid XI0 XI1 M i : ℝ) : ℂ) = ((XI0 + (XI1 - XI0) / (M - 1) * i : ℝ) : ℂ) := by
    intro i; rw [Spec.grid, mul_comm]
  obtain ⟨H, h1, h2, e3, e4, e5, e6⟩ := kdv_cont_values hd hv hDg hDg2 hq hr hpos hM hsz ht
    XI0 ((XI1 - XI0) / (M - 1)) hx (fun i hi => by rw [← hgrid]; exact_mod_cast hXI i hi) nrm T0 T1
  intro S av bv hS hav hbv
  have ea : ∀ i, i < M → valA W (kdvComp d) eps Dg T0 T1 (fun i => ((XI0 + (XI1 - XI0) / (M - 1) * i : ℝ) : ℂ)) h1 i = av i := by
    intro i hi; rw [hav]; exact (e6 i hi _ (hgrid i) _ (hS i)).1
  have eb : ∀ i, i < M → valB W (kdvComp d) eps Dg T0 T1 (fun i => ((XI0 + (XI1 - XI0) / (M - 1) * i : ℝ) : ℂ)) h2 i = bv i := by
    intro i hi; rw [hbv]; exact (e6 i hi _ (hgrid i) _ (hS i)).2
  have hzero : ∀ i, i < M → (h1 i = 0 ↔ av i = 0) := by
    intro i hi; rw [← ea i hi]; exact valA_ne.symm
  have hrun : kdvv_compute_contspec deg W tm (some q) (some r) T0 T1 D XI0 XI1 M result cs nrm d =
      contSwitch cs eps Dg T0 T1 W M xi H.1 H.2 result (kdvComp d) := by
    unfold kdvv_compute_contspec
    rw [hup']
    dsimp only
    rw [if_neg hup, hdiv, if_neg (by omega), ← heps]
    simp only [x1, e3, Option.bind_eq_bind, Option.bind_some, kdvSwitch_eq hkn]
  rw [hrun]
  constructor
  · intro h0
    obtain ⟨b, f1, f2, f3, f4⟩ := contSwitch_ok hcs (comp_known d) eps Dg T0 T1 W hx e4 e5 hres
      (h0.imp id fun h i hi => mt (hzero i hi).1 (h i hi))
    refine ⟨b, f1, f2, fun i hi => ?_, f4⟩
    rw [f3 i hi]
    congr 1
    rcases cs with _ | _ | _ | n
    · simp only [Spec.csLen, Nat.one_mul] at hi
      simp only [Spec.csOut, ea i hi, eb i hi]
    · simp only [Spec.csLen] at hi
      simp only [Spec.csOut]
      split_ifs with c
      · rw [ea i c]
      · rw [eb _ (by omega)]
    · simp only [Spec.csLen] at hi
      simp only [Spec.csOut]
      split_ifs with c c'
      · rw [ea i c, eb i c]
      · rw [ea _ (by omega)]
      · rw [eb _ (by omega)]
    · exact absurd rfl (hcs n)
  · rintro hne ⟨i, hi, hz⟩
    have hcs' : cs = .REFLECTION_COEFFICIENT ∨ cs = .BOTH := by
      rcases cs with _ | _ | _ | n
      · exact Or.inl rfl
      · exact absurd rfl hne
      · exact Or.inr rfl
      · exact absurd rfl (hcs n)
    exact contSwitch_div hcs' (comp_known d) eps Dg T0 T1 W hx e4 e5 hres ⟨i, hi, (hzero i hi).2 hz⟩

end FNFT
