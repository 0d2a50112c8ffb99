import Verif.Props.LobpcgUnit
import Verif.Props.LobpcgEig
import Verif.Props.LobpcgBlockEx

/-! C119, C120: LOBPCG with the Jacobi preconditioner. -/

namespace Verif.Lobpcg

open Spec Solver Lapack Matrix

variable {K : Type} [Field K] [LinearOrder K] [IsStrictOrderedRing K] {n : Nat} {M : Matrix (Fin n) (Fin n) K}

/-- the Jacobi preconditioner of a matrix without zeros on the diagonal is the division by the diagonal, and keeps a NaN -/
theorem jacobi_pcIs {sq : K → K} {A : Mat (Ext K)} (hA : IsMat A Ext.fin M) (hd : ∀ i, M i i ≠ 0) :
    ∃ pc, jacobiPrecond (Ext.num sq) A = .ok pc ∧ Strict (n := n) pc (fun v i => v i / M i i) ∧ PcIs (n := n) pc (fun v i => v i / M i i) := by
  obtain ⟨pc, e1, e2⟩ := jacobi_strict sq hA hd
  have hT : byMatrix (Matrix.diagonal fun i => 1 / M i i) = fun (v : Fin n → K) i => v i / M i i := by
    funext v i
    simp [byMatrix, Matrix.mulVec_diagonal, div_eq_inv_mul]
  rw [hT] at e2
  refine ⟨pc, e1, e2, e2.app, ?_⟩
  · intro w w' _ hw hww
    unfold jacobiPrecond at e1
    rw [if_neg (by rw [hA.row, hA.col]; simp), hA.diag, Res.ok_bind] at e1
    cases e1
    unfold Num.vmul at hww
    obtain ⟨_, hc, hww⟩ := Res.bind_eq_ok.mp hww
    have hlen := Solver.of_cassert hc
    cases hww
    obtain ⟨j, hj, he⟩ := List.getElem_of_mem hw
    refine List.mem_of_getElem (i := j) (h := by rw [List.length_zipWith, hlen.1]; simpa using hj) ?_
    rw [List.getElem_zipWith, he]
    exact Ext.mul_nan _

/-- the constant of the Jacobi preconditioner is the least element of the diagonal -/
theorem jacobi_coercive {c : K} (hc : 0 < c) (hd : ∀ i, c ≤ M i i) (v : Fin n → K) :
    c * ((fun i => v i / M i i) ⬝ᵥ fun i => v i / M i i) ≤ v ⬝ᵥ fun i => v i / M i i := by
  simp only [dotProduct]
  rw [Finset.mul_sum]
  refine Finset.sum_le_sum fun i _ => ?_
  have hp : 0 < M i i := lt_of_lt_of_le hc (hd i)
  have h1 : v i * (v i / M i i) = M i i * (v i / M i i * (v i / M i i)) := by field_simp
  rw [h1]
  exact mul_le_mul_of_nonneg_right (hd i) (mul_self_nonneg _)

section

variable {sq : K → K} (hsq : ∀ a, 0 ≤ a → sq a * sq a = a) (hsq0 : ∀ a, 0 ≤ a → 0 ≤ sq a) (hn : 0 < n)
  {A : Mat (Ext K)} (hA : IsMat A Ext.fin M) (hM : Mᵀ = M) {L : Lib (Ext K)} (hL : Dsygvd L) {cfg : Cfg (Ext K)}

include hsq hsq0 hn hA hM hL

/-- **C120** with the Jacobi preconditioner and any number of vectors: if all elements of the diagonal are at least `c > 0`
and `(maxiter - 1) (c tol)² > 2 m D²`, LOBPCG does not run out of iterations. -/
theorem C120_jacobi_partial {lo D : K} (hlo : ∀ v : Fin n → K, lo * (v ⬝ᵥ v) ≤ v ⬝ᵥ (M *ᵥ v))
    (hhi : ∀ v : Fin n → K, v ⬝ᵥ (M *ᵥ v) ≤ (lo + D) * (v ⬝ᵥ v)) {c : K} (hc : 0 < c) (hd : ∀ i, c ≤ M i i) {tol : K}
    (htol : cfg.tol = .fin tol) (htol0 : 0 < tol) (hmin : cfg.miniter = 0)
    {l : List (Ext K)} {xin : List (List (Ext K))} {xcol : Nat} {rs : Option (List (List (Ext K)))}
    (hrs : ∀ r, rs = some r → l.length ≤ r.length)
    (hmax : 2 * l.length * D ^ 2 < ((cfg.maxiter : K) - 1) * (c * tol) ^ 2) {fuel : Nat} {out : Out (Ext K)}
    (h : standard (Ext.num sq) L cfg A (jacobiPrecond (Ext.num sq) A) l xin xcol rs fuel = some (.ok out))
    (hheard : standard (Ext.num sq) (loud l.length L) cfg A (jacobiPrecond (Ext.num sq) A) l xin xcol rs fuel ≠
      some (.throw "internal LAPACK sygvd returned error")) :
    out.status = SUCCESS ∨ out.status = RESIDUAL_NAN := by
  obtain ⟨pc, e, -, hpc⟩ := jacobi_pcIs (sq := sq) hA (fun i => (lt_of_lt_of_le hc (hd i)).ne')
  rw [e] at h hheard
  exact C120_precond_partial hsq hsq0 hn hA hM hlo hhi hL htol htol0 hmin hpc hc (jacobi_coercive hc hd) hrs hmax h hheard

/-- **C119** with the Jacobi preconditioner: orthonormal Ritz vectors, not worse than the start vectors, without assuming
that the result is finite. -/
theorem C119_jacobi_partial (hd : ∀ i, M i i ≠ 0) (hmax : 0 < cfg.maxiter) {l : List (Ext K)}
    {xin : List (List (Ext K))} {xcol : Nat} {rs : Option (List (List (Ext K)))}
    (hrs : ∀ r, rs = some r → l.length ≤ r.length) {fuel : Nat} {out : Out (Ext K)}
    (h : standard (Ext.num sq) L cfg A (jacobiPrecond (Ext.num sq) A) l xin xcol rs fuel = some (.ok out))
    (hheard : standard (Ext.num sq) (loud l.length L) cfg A (jacobiPrecond (Ext.num sq) A) l xin xcol rs fuel ≠
      some (.throw "internal LAPACK sygvd returned error"))
    (hst : out.status ≠ RESIDUAL_NAN) :
    ∃ (v : Fin l.length → Fin n → K) (lam : Fin l.length → K), (out.x = List.ofFn fun i => vec Ext.fin (v i)) ∧
      out.l = List.ofFn (fun i => Ext.fin (lam i)) ∧ (∀ i j, v i ⬝ᵥ v j = if i = j then 1 else 0) ∧
      RitzPairs M 1 lam v ∧ Improves M 1 Ext.fin (startOf l.length rs xin) lam := by
  obtain ⟨pc, e, -, hpc⟩ := jacobi_pcIs (sq := sq) hA hd
  rw [e] at h hheard
  exact C119_precond_partial hsq hsq0 hn hA hpc hM hL hmax hrs h hheard hst

/-- **C120** with the Jacobi preconditioner, one vector: if all elements of the diagonal are at least `c > 0` and
`(maxiter - 1) (c tol)² > 2 D²`, LOBPCG finds an eigenpair from every vector of length 1 that is not an eigenvector. The
residual that is below the tolerance is the one divided by the diagonal. -/
theorem C120_converges_jacobi_partial (hmv : ∀ u, u.length = n → ∃ v, A.mv u = .ok v) (hC : DsygvdCompletes L) {lo D : K}
    (hlo : ∀ v : Fin n → K, lo * (v ⬝ᵥ v) ≤ v ⬝ᵥ (M *ᵥ v))
    (hhi : ∀ v : Fin n → K, v ⬝ᵥ (M *ᵥ v) ≤ (lo + D) * (v ⬝ᵥ v)) {c : K} (hc : 0 < c) (hd : ∀ i, c ≤ M i i) {tol : K}
    (htol : cfg.tol = .fin tol) (htol0 : 0 < tol) (hmin : cfg.miniter = 0) (l0 : Ext K)
    {u : Fin n → K} (hu : u ⬝ᵥ u = 1) (hne : M *ᵥ u ≠ (u ⬝ᵥ (M *ᵥ u)) • u)
    (hmax : 2 * D ^ 2 < ((cfg.maxiter : K) - 1) * (c * tol) ^ 2) {fuel : Nat} (hfuel : 2 * cfg.maxiter + 1 ≤ fuel) :
    ∃ out, standard (Ext.num sq) L cfg A (jacobiPrecond (Ext.num sq) A) [l0] [vec Ext.fin u] n none fuel = some (.ok out) ∧
      FoundPre sq M (fun v i => v i / M i i) tol out := by
  obtain ⟨pc, e, hpc, -⟩ := jacobi_pcIs (sq := sq) hA (fun i => (lt_of_lt_of_le hc (hd i)).ne')
  rw [e]
  exact C120_converges_precond_partial hsq hsq0 hA hmv hM hlo hhi hL hC htol htol0 hmin hpc hc (jacobi_coercive hc hd) l0 hu
    hne hmax hfuel

end

/-- the hypotheses of `C120_converges_jacobi_partial` are met -/
theorem two_jacobi_run : ∃ out, standard (Ext.num Real.sqrt) realLib
      { tol := .fin (1 / 10), maxiter := 1000, omega := .fin 1, prevResid := .fin 0 }
      (ofCrs [1, 0] [0, 1] (crsMap Ext.fin twoA))
      (jacobiPrecond (Ext.num Real.sqrt) (ofCrs [1, 0] [0, 1] (crsMap Ext.fin twoA))) [.fin 0]
      [vec Ext.fin (![3/5, 4/5] : Fin 2 → ℝ)] 2 none 2001 = some (.ok out) ∧
      FoundPre Real.sqrt (Matrix.of fun i j : Fin 2 => crsAt twoA i j)
        (fun v i => v i / (Matrix.of fun i j : Fin 2 => crsAt twoA i j) i i) (1 / 10) out := by
  refine C120_converges_jacobi_partial (n := 2) (lo := 1) (D := 2) (c := 2) (fun _ h => Real.mul_self_sqrt h)
    (fun _ _ => Real.sqrt_nonneg _) (by decide)
    (isMat_crsExt (n := 2) twoA twoA_safe twoA_distinct rfl rfl [1, 0] [0, 1] (by unfold Order; decide) (by unfold Order; decide))
    twoA_symm realLib_dsygvd (mv_crsExt (n := 2) twoA twoA_safe rfl rfl [1, 0] [0, 1] (by unfold Order; decide))
    realLib_completes twoA_lo twoA_hi (by norm_num) ?_ rfl (by norm_num) rfl _ ?_ ?_ (by norm_num) (by decide)
  · intro i
    rw [twoA_at]
    fin_cases i <;> exact le_refl _
  · simp [dotProduct, Fin.sum_univ_two]
    norm_num
  · rw [twoA_at]
    intro h
    have := congrFun h 0
    simp [dotProduct, Matrix.mulVec, Fin.sum_univ_two] at this
    norm_num at this

/-- and those of `C120_jacobi_partial` and `C119_jacobi_partial` -/
example : ∃ out, standard (Ext.num Real.sqrt) realLib
      { tol := .fin (1 / 10), maxiter := 1000, omega := .fin 1, prevResid := .fin 0 }
      (ofCrs [1, 0] [0, 1] (crsMap Ext.fin twoA))
      (jacobiPrecond (Ext.num Real.sqrt) (ofCrs [1, 0] [0, 1] (crsMap Ext.fin twoA))) [.fin 0]
      [vec Ext.fin (![3/5, 4/5] : Fin 2 → ℝ)] 2 none 2001 = some (.ok out) ∧
      (out.status = SUCCESS ∨ out.status = RESIDUAL_NAN) ∧ ∃ v : Fin 1 → Fin 2 → ℝ, ∃ lam : Fin 1 → ℝ,
        out.l = List.ofFn (fun i => Ext.fin (lam i)) ∧
        RitzPairs (Matrix.of fun i j : Fin 2 => crsAt twoA i j) 1 lam v := by
  obtain ⟨out, h, hf⟩ := two_jacobi_run
  have hA := isMat_crsExt (n := 2) twoA twoA_safe twoA_distinct rfl rfl [1, 0] [0, 1] (by unfold Order; decide)
    (by unfold Order; decide)
  have hd : ∀ i, 2 ≤ (Matrix.of fun i j : Fin 2 => crsAt twoA i j) i i := by
    intro i
    rw [twoA_at]
    fin_cases i <;> exact le_refl _
  have hheard : standard (Ext.num Real.sqrt) (loud [Ext.fin (0 : ℝ)].length realLib)
      { tol := .fin (1 / 10), maxiter := 1000, omega := .fin 1, prevResid := .fin 0 }
      (ofCrs [1, 0] [0, 1] (crsMap Ext.fin twoA))
      (jacobiPrecond (Ext.num Real.sqrt) (ofCrs [1, 0] [0, 1] (crsMap Ext.fin twoA))) [.fin 0]
      [vec Ext.fin (![3/5, 4/5] : Fin 2 → ℝ)] 2 none 2001 ≠ some (.throw "internal LAPACK sygvd returned error") := by
    rw [List.length_singleton, realLib_loud (by decide), h]
    simp
  refine ⟨out, h, C120_jacobi_partial (n := 2) (lo := 1) (D := 2) (c := 2) (tol := 1 / 10) (fun _ h => Real.mul_self_sqrt h)
    (fun _ _ => Real.sqrt_nonneg _) (by decide) hA twoA_symm realLib_dsygvd twoA_lo twoA_hi (by norm_num) hd rfl
    (by norm_num) rfl (fun r hr => by cases hr) (by norm_num) h hheard, ?_⟩
  obtain ⟨v, lam, -, h1, -, h2, -⟩ := C119_jacobi_partial (n := 2) (fun _ h => Real.mul_self_sqrt h)
    (fun _ _ => Real.sqrt_nonneg _) (by decide) hA twoA_symm realLib_dsygvd (fun i => by have := hd i; linarith) (by decide)
    (fun r hr => by cases hr) h hheard (by rw [hf.1]; decide)
  exact ⟨v, lam, h1, h2⟩

end Verif.Lobpcg
