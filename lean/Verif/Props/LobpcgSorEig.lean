import Verif.Props.LobpcgSor

/-! C104: the eigenvalues found by LOBPCG with the SOR preconditioner. -/

namespace Verif.Lobpcg

open Spec Solver Lapack Matrix

variable {K : Type} [Field K] [LinearOrder K] [IsStrictOrderedRing K] {n : Nat}

/-- **C104** with the SOR preconditioner, CRS matrices: within `κ · tol` of an eigenvalue, where `κ` bounds the matrix
`(w D + L) (w D)⁻¹ (w D + U)` of the preconditioner. -/
theorem C104_sor {sq : K → K} {ε : K} (hsq : NearSqrt sq ε) (h0 : 0 ≤ ε) (h1 : ε < 1)
    (φ : K →+* ℝ) (hφ : StrictMono φ) (hn : 0 < n) {L : Lib (Ext K)} {cfg : Cfg (Ext K)} {tol : K} (htol : cfg.tol = .fin tol)
    (A : Crs K) (hA : A.Safe) (hdist : DistinctPos A.entries) (hr : A.rowN = n) (hc : A.colN = n)
    (hsym : ∀ i j : Fin n, crsAt A i j = crsAt A j i) (hd : ∀ i : Fin n, crsAt A i i ≠ 0)
    (order zo : List Nat) (ho : Order order n) (hz : Order zo n) {w : K} (hw : w ≠ 0) {κ : K} (hκ0 : 0 ≤ κ)
    (hκ : ∀ v, (sorMat (Matrix.of fun i j : Fin n => crsAt A i j) w *ᵥ v) ⬝ᵥ
      (sorMat (Matrix.of fun i j : Fin n => crsAt A i j) w *ᵥ v) ≤ κ ^ 2 * (v ⬝ᵥ v))
    {l : List (Ext K)} {xin : List (List (Ext K))} {xcol : Nat} {rs : Option (List (List (Ext K)))}
    (hrs : ∀ r, rs = some r → l.length ≤ r.length) {fuel : Nat} {out : Out (Ext K)}
    (h : standard (Ext.num sq) L cfg (ofCrs order zo (crsMap Ext.fin A))
      (sorPrecond (Ext.num sq) (.fin w) (ofCrs order zo (crsMap Ext.fin A)) (crsPrecond (Ext.num sq) (crsMap Ext.fin A)))
      l xin xcol rs fuel = some (.ok out))
    (hs : out.status = SUCCESS) :
    out.l.length = l.length ∧
    ∀ i, i < l.length → ∃ lam : K, out.l[i]? = some (.fin lam) ∧
      ∃ (mu : ℝ) (u : Fin n → ℝ), u ≠ 0 ∧ ((Matrix.of fun i j : Fin n => crsAt A i j).map φ) *ᵥ u = mu • u ∧
        |φ lam - mu| ≤ φ (κ * tol * ((1 + ε) / (1 - ε))) := by
  have hAm := isMat_crsExt A hA hdist hr hc order zo ho hz
  obtain ⟨pc, P, e, hpc, -, hP⟩ := sor_strict sq A hA hr hc _ hAm hd w hw
  rw [e] at h
  refine C104_eigenvalues hsq h0 h1 φ hφ hn htol hAm (by ext i j; exact hsym j i) hpc hκ0 ?_ hrs h hs
  intro u
  have := hκ (P u)
  rw [hP u] at this
  exact this

/-- the matrix of the preconditioner of `twoA` with `w = 1` -/
theorem sorMat_two (v : Fin 2 → ℝ) :
    (sorMat (Matrix.of fun i j : Fin 2 => crsAt twoA i j) 1 *ᵥ v) ⬝ᵥ
      (sorMat (Matrix.of fun i j : Fin 2 => crsAt twoA i j) 1 *ᵥ v) ≤ 4 ^ 2 * (v ⬝ᵥ v) := by
  rw [twoA_at]
  simp [sorMat, strictLower, strictUpper, dotProduct, Matrix.mulVec, Matrix.mul_apply, Matrix.diagonal_apply, Fin.sum_univ_two]
  nlinarith [sq_nonneg (v 0 - v 1), sq_nonneg (v 0 + v 1), sq_nonneg (v 0), sq_nonneg (v 1)]

/-- The hypotheses of `C104_sor` are met: enough iterations from `e₁`, and the value returned is within `4/1000` of an
eigenvalue of the matrix. -/
example : ∃ (cfg : Cfg (Ext ℝ)) (fuel : Nat) (out : Out (Ext ℝ)), standard (Ext.num Real.sqrt) realLib cfg
      (ofCrs [1, 0] [0, 1] (crsMap Ext.fin twoA))
      (sorPrecond (Ext.num Real.sqrt) (.fin 1) (ofCrs [1, 0] [0, 1] (crsMap Ext.fin twoA))
        (crsPrecond (Ext.num Real.sqrt) (crsMap Ext.fin twoA)))
      [.fin 0] [vec Ext.fin (![1, 0] : Fin 2 → ℝ)] 2 none fuel = some (.ok out) ∧
      ∃ lam : ℝ, out.l[0]? = some (.fin lam) ∧ ∃ (mu : ℝ) (u : Fin 2 → ℝ), u ≠ 0 ∧
        ((Matrix.of fun i j : Fin 2 => crsAt twoA i j).map (RingHom.id ℝ)) *ᵥ u = mu • u ∧ |lam - mu| ≤ 4 / 1000 := by
  have s1 : ∀ a : ℝ, 0 ≤ a → Real.sqrt a * Real.sqrt a = a := fun _ h => Real.mul_self_sqrt h
  have s2 : ∀ a : ℝ, 0 ≤ a → 0 ≤ Real.sqrt a := fun _ _ => Real.sqrt_nonneg _
  obtain ⟨P, -, N, h⟩ := C120_sor_partial s1 s2 twoA twoA_safe twoA_distinct (n := 2) rfl rfl twoA_sym' twoA_diag [1, 0] [0, 1]
    (by unfold Order; decide) (by unfold Order; decide) (w := 1) one_pos (tol := 1 / 1000) (by norm_num)
  obtain ⟨fuel, out, hr, hf⟩ := h realLib realLib_dsygvd realLib_completes
    { tol := .fin (1 / 1000), maxiter := N, omega := .fin 1, prevResid := .fin 0 } rfl rfl (Nat.le_refl _) (.fin 0) ![1, 0]
    (by simp [dotProduct, Fin.sum_univ_two]) (by
      intro c hc
      rw [twoA_at] at hc
      have := congrFun hc 1
      simp [Matrix.mulVec, dotProduct, Fin.sum_univ_two] at this)
  refine ⟨_, fuel, out, hr, ?_⟩
  obtain ⟨-, k⟩ := C104_sor (ε := 0) nearSqrt_real (le_refl _) one_pos (RingHom.id ℝ) strictMono_id (by decide) rfl twoA twoA_safe
    twoA_distinct (n := 2) rfl rfl twoA_sym' (fun i => (twoA_diag i).ne') [1, 0] [0, 1] (by unfold Order; decide)
    (by unfold Order; decide) (w := 1) one_ne_zero (κ := 4) (by norm_num) sorMat_two (fun r hr => by cases hr) hr hf.1
  obtain ⟨lam, k1, mu, u, k2, k3, k4⟩ := k 0 (by decide)
  refine ⟨lam, k1, mu, u, k2, k3, ?_⟩
  simpa using k4.trans (by norm_num)

end Verif.Lobpcg
