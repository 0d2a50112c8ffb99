import Verif.Props.CGCheb
import Verif.Props.SolverMat
import Verif.Lemmas.Dominance

/-!
C102 for CRS matrices, and a family of matrices for which the number of iterations does not depend on the size.
-/

namespace Verif.Solver

open Verif.Spec Matrix

variable {K : Type} {n : Nat}

/-- **C102 for CRS matrices**, without preconditioner: a symmetric CRS matrix with eigenvalues between `m > 0` and
`m'`, any schedule of the loops of `matvec`. If `2 ((√m' - √m) / (√m' + √m))^k √(m' E_0)` is below the tolerance,
`solve` returns SUCCESS after at most `k` iterations. -/
theorem C102_crs (cfg : Cfg ℝ) (hlib : cfg.lib = 0) (hm0 : cfg.residMethod = 0) (hmin : cfg.miniter = 0)
    (A : Crs ℝ) (hA : A.Safe) (hd : DistinctPos A.entries) (hr : A.rowN = n) (hc : A.colN = n)
    (order zo : List Nat) (ho : Order order n) (hz : Order zo n) {m m' : ℝ} (hm : 0 < m)
    (hsym : (Matrix.of (fun i j : Fin n => crsAt A i j))ᵀ = Matrix.of (fun i j : Fin n => crsAt A i j))
    (hb : Between (Matrix.of (fun i j : Fin n => crsAt A i j)) m m')
    (x b xs : Fin n → ℝ) (hs : Matrix.of (fun i j : Fin n => crsAt A i j) *ᵥ xs = b)
    (hx : Matrix.of (fun i j : Fin n => crsAt A i j) *ᵥ x ≠ b) (k : Nat) (hk1 : 1 ≤ k) (hmax : k ≤ cfg.maxiter)
    (hk : 2 * ((√m' - √m) / (√m' + √m)) ^ k * √(m' * energy (Matrix.of (fun i j : Fin n => crsAt A i j)) xs x) <
      cfg.tol) :
    ∃ j y, 1 ≤ j ∧ j ≤ k ∧
      √((b - Matrix.of (fun i j : Fin n => crsAt A i j) *ᵥ y) ⬝ᵥ (b - Matrix.of (fun i j : Fin n => crsAt A i j) *ᵥ y)) <
        cfg.tol ∧
      energy (Matrix.of (fun i j : Fin n => crsAt A i j)) xs y ≤
        (2 * ((√m' - √m) / (√m' + √m)) ^ j) ^ 2 * energy (Matrix.of (fun i j : Fin n => crsAt A i j)) xs x ∧
      CG.solve (fieldNum Real.sqrt) cfg (ofCrs order zo A) noPrecond (List.ofFn x) (List.ofFn b) =
        .ok { status := SUCCESS
              x := List.ofFn y
              finalIter := j
              finalResid := √((b - Matrix.of (fun i j : Fin n => crsAt A i j) *ᵥ y) ⬝ᵥ
                (b - Matrix.of (fun i j : Fin n => crsAt A i j) *ᵥ y)) } := by
  have hI := isMat_crs A hA hd hr hc order zo ho hz
  generalize Matrix.of (fun i j : Fin n => crsAt A i j) = M at *
  have hM : SPD M := ⟨hsym, fun v hv =>
    lt_of_lt_of_le (mul_pos hm (dot_self_pos hv)) (hb v).1⟩
  have hmm : m ≤ m' := by
    by_contra hlt
    push Not at hlt
    have hne : xs - x ≠ 0 := by
      intro h
      rw [sub_eq_zero] at h
      exact hx (by rw [← h]; exact hs)
    have h1 := hb (xs - x)
    have h2 := mul_lt_mul_of_pos_right hlt (dot_self_pos hne)
    linarith [h1.1, h1.2]
  have hp := Between.precond hM hm hb
  exact C102_solve (fieldNum_exact Real.sqrt) cfg cfg.tol rfl hlib hm0 hmin _ M hI hM _ 1 spd_one
    (noPrecond_is id) hm hmm hp (fun v => by have := (hp v).2; rwa [one_mulVec] at this) x b xs hs hx k hk1 hmax hk

/-- the quadratic form of a multiple of the identity -/
theorem dot_smul_one [Field K] (c : K) (v : Fin n → K) : v ⬝ᵥ ((c • (1 : Matrix (Fin n) (Fin n) K)) *ᵥ v) = c * (v ⬝ᵥ v) := by
  rw [smul_mulVec, one_mulVec, dotProduct_smul, smul_eq_mul]

theorem tri_psd [Field K] [LinearOrder K] [IsStrictOrderedRing K] (b : K) (v : Fin n → K) :
    0 ≤ v ⬝ᵥ (triMatrix n (2 * |b|) b *ᵥ v) := by
  by_cases hb : b = 0
  · subst hb
    have : triMatrix n (2 * |(0 : K)|) 0 = 0 := by
      funext i j
      simp [triMatrix]
    rw [this, zero_mulVec, dotProduct_zero]
  · by_cases hv : v = 0
    · rw [hv, zero_dotProduct]
    · exact le_of_lt ((spd_tri (2 * |b|) b (by have := abs_pos.2 hb; linarith) (le_refl _)).2 v hv)

/-- the eigenvalues of a tridiagonal Toeplitz matrix of any size are between `a - 2|b|` and `a + 2|b|` -/
theorem C102_toeplitz [Field K] [LinearOrder K] [IsStrictOrderedRing K] (n : Nat) (a b : K) :
    Between (triMatrix n a b) (a - 2 * |b|) (a + 2 * |b|) := by
  have key : ∀ (c s : K) (v : Fin n → K), v ⬝ᵥ (triMatrix n c s *ᵥ v) = c * (v ⬝ᵥ v) + v ⬝ᵥ (triMatrix n 0 s *ᵥ v) := by
    intro c s v
    have e : triMatrix n c s = c • (1 : Matrix (Fin n) (Fin n) K) + triMatrix n 0 s := by
      funext i j
      simp only [triMatrix, Matrix.of_apply, Matrix.add_apply, Matrix.smul_apply, Matrix.one_apply, smul_eq_mul]
      split
      · simp
      · simp
    rw [e, add_mulVec, dotProduct_add, dot_smul_one]
  have hneg : ∀ (s : K) (v : Fin n → K), v ⬝ᵥ (triMatrix n 0 (-s) *ᵥ v) = - (v ⬝ᵥ (triMatrix n 0 s *ᵥ v)) := by
    intro s v
    have e : triMatrix n 0 (-s) = - triMatrix n 0 s := by
      funext i j
      simp only [triMatrix, Matrix.of_apply, Matrix.neg_apply]
      split
      · simp
      · split <;> simp
    rw [e, neg_mulVec, dotProduct_neg]
  intro v
  have h1 := tri_psd b v
  have h2 := tri_psd (-b) v
  rw [key] at h1 h2
  rw [hneg, abs_neg] at h2
  rw [key a b]
  constructor <;> linarith

/-- A case: the matrix with 5 on the diagonal and -2 beside it, of any size, has eigenvalues between 1 and 9, so the
error at least halves in every iteration: the factor is `(3 - 1) / (3 + 1)`. -/
example (n : Nat) (b x xs : Fin n → ℝ) (hs : triMatrix n (5 : ℝ) (-2) *ᵥ xs = b) (k : Nat) :
    energy (triMatrix n 5 (-2)) xs (Spec.CG.at (triMatrix n 5 (-2)) (byMatrix 1) b x k).x ≤
      (2 * (1 / 2) ^ k) ^ 2 * energy (triMatrix n 5 (-2)) xs x := by
  have hA : SPD (triMatrix n (5 : ℝ) (-2)) := spd_tri 5 (-2) (by norm_num) (by norm_num)
  have hb : Between (triMatrix n (5 : ℝ) (-2)) 1 9 := by
    have := C102_toeplitz n (5 : ℝ) (-2)
    norm_num at this
    exact this
  have h := C102_rate hA spd_one (m := 1) (M := 9) (by norm_num) (by norm_num)
    (Between.precond hA (by norm_num) hb) b x xs hs k
  have e9 : √(9 : ℝ) = 3 := by
    rw [show (9 : ℝ) = 3 ^ 2 by norm_num]
    exact Real.sqrt_sq (by norm_num)
  rw [e9, Real.sqrt_one] at h
  norm_num at h ⊢
  exact h

/-- With `k = 10`, tolerance 1/10 and initial error 100 the hypothesis on `k` of `C102_crs` holds, for any size. -/
example : 2 * ((√9 - √1) / (√9 + √1)) ^ 10 * √(9 * (100 : ℝ)) < 1 / 10 := by
  have e9 : √(9 : ℝ) = 3 := by
    rw [show (9 : ℝ) = 3 ^ 2 by norm_num]
    exact Real.sqrt_sq (by norm_num)
  have e900 : √(9 * 100 : ℝ) = 30 := by
    rw [show (9 * 100 : ℝ) = 30 ^ 2 by norm_num]
    exact Real.sqrt_sq (by norm_num)
  rw [e9, e900, Real.sqrt_one]
  norm_num

/-- `C102_terminates` with one distinct eigenvalue: one iteration, for any size. -/
example (n : Nat) (b x xs : Fin n → ℚ) (hs : ((2 : ℚ) • (1 : Matrix (Fin n) (Fin n) ℚ)) *ᵥ xs = b) :
    (Spec.CG.at ((2 : ℚ) • (1 : Matrix (Fin n) (Fin n) ℚ)) (byMatrix 1) b x 1).x = xs := by
  have hA : SPD ((2 : ℚ) • (1 : Matrix (Fin n) (Fin n) ℚ)) := by
    refine ⟨by simp, fun v hv => ?_⟩
    rw [dot_smul_one]
    have := dot_self_pos hv
    linarith
  refine C102_terminates hA spd_one b x xs hs 1 (fun _ => -1 / 2) ?_
  rw [Fin.sum_univ_one, one_mul]
  simp only [Fin.val_zero, zero_add, pow_one]
  rw [smul_mulVec, one_mulVec, smul_smul]
  norm_num

end Verif.Solver
