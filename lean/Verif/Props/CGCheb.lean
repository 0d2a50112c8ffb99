import Verif.Props.CGRate
import Verif.Lemmas.PolyBound

/-!
C102: the rate of CG with the square root of the condition number, and the number of iterations of `solve`.
-/

namespace Verif.Solver

open Verif.Spec Matrix

variable {α K : Type} {n : Nat}

section

variable [Field K] [LinearOrder K] [IsStrictOrderedRing K] {A Q : Matrix (Fin n) (Fin n) K}

/-- optimality in terms of polynomials -/
theorem CG.poly_optimal (hA : SPD A) (hQ : SPD Q) (b x xs : Fin n → K) (hs : A *ᵥ xs = b) (k : Nat)
    (q : Polynomial K) (hk : q.natDegree ≤ k) (h0 : q.eval 0 = 1) :
    energy A xs (Spec.CG.at A (byMatrix Q) b x k).x ≤
      (Polynomial.aeval (Q * A) q *ᵥ (xs - x)) ⬝ᵥ (A *ᵥ (Polynomial.aeval (Q * A) q *ᵥ (xs - x))) := by
  have h := C102_optimal hA hQ b x xs hs k (fun j => - q.coeff (j + 1))
  have e : xs - (x + ∑ j : Fin k, (- q.coeff (j + 1)) • ((Q * A) ^ (j : Nat) *ᵥ (Q *ᵥ (b - A *ᵥ x)))) =
      Polynomial.aeval (Q * A) q *ᵥ (xs - x) := by
    rw [Polynomial.aeval_eq_sum_range' (Nat.lt_succ_of_le hk), Finset.sum_range_succ', add_mulVec, Finset.sum_range,
      sum_mulVec, Polynomial.coeff_zero_eq_eval_zero, h0, one_smul, pow_zero, one_mulVec, ← sub_sub,
      sub_eq_add_neg (xs - x), ← Finset.sum_neg_distrib, add_comm]
    congr 1
    refine Finset.sum_congr rfl (fun j _ => ?_)
    rw [neg_smul, neg_neg, smul_mulVec, pow_succ, ← mulVec_mulVec, ← mulVec_mulVec _ Q A, mulVec_sub A, hs]
  unfold energy at h ⊢
  rw [e] at h
  exact h

end

/-- the scalar product of the energy norm -/
noncomputable abbrev energyCore (A : Matrix (Fin n) (Fin n) ℝ) (hA : SPD A) : InnerProductSpace.Core ℝ (Fin n → ℝ) where
  inner u v := u ⬝ᵥ (A *ᵥ v)
  conj_inner_symm u v := by
    show v ⬝ᵥ (A *ᵥ u) = _
    exact spd_symm hA v u
  re_inner_nonneg v := by
    show 0 ≤ v ⬝ᵥ (A *ᵥ v)
    by_cases h : v = 0
    · rw [h, zero_dotProduct]
    · exact le_of_lt (hA.2 v h)
  add_left u v w := add_dotProduct _ _ _
  smul_left u v c := by
    show (c • u) ⬝ᵥ (A *ᵥ v) = c * (u ⬝ᵥ (A *ᵥ v))
    rw [smul_dotProduct, smul_eq_mul]
  definite v h := by
    by_contra hv
    exact absurd h (ne_of_gt (hA.2 v hv))

/-- a polynomial of the preconditioned matrix in the energy norm -/
theorem energy_poly {A Q : Matrix (Fin n) (Fin n) ℝ} (hA : SPD A) (hQ : SPD Q) {m M : ℝ}
    (hb : PrecondBetween A Q m M) (q : Polynomial ℝ) {C : ℝ} (hq : ∀ t, m ≤ t → t ≤ M → |q.eval t| ≤ C)
    (v : Fin n → ℝ) :
    (Polynomial.aeval (Q * A) q *ᵥ v) ⬝ᵥ (A *ᵥ (Polynomial.aeval (Q * A) q *ᵥ v)) ≤ C ^ 2 * (v ⬝ᵥ (A *ᵥ v)) := by
  let core := energyCore A hA
  let g : NormedAddCommGroup (Fin n → ℝ) := core.toNormedAddCommGroup
  let ip : @InnerProductSpace ℝ (Fin n → ℝ) _ g.toSeminormedAddCommGroup := InnerProductSpace.ofCore core.toCore
  have hin : ∀ u w : Fin n → ℝ, @inner ℝ _ ip.toInner u w = u ⬝ᵥ (A *ᵥ w) := fun u w => rfl
  have hap : ∀ w, Matrix.toLinAlgEquiv' (Q * A) w = Q *ᵥ (A *ᵥ w) := by
    intro w
    rw [Matrix.toLinAlgEquiv'_apply, ← mulVec_mulVec]
  have hsym : @LinearMap.IsSymmetric ℝ (Fin n → ℝ) _ g.toSeminormedAddCommGroup ip
      (Matrix.toLinAlgEquiv' (Q * A)) := by
    intro u w
    rw [hin, hin, hap, hap, dotProduct_comm, ← spd_symm hQ, spd_symm hA u, dotProduct_comm]
  have := @PolyBound.aeval_le (Fin n → ℝ) g ip inferInstance (Matrix.toLinAlgEquiv' (Q * A)) hsym m M (by
    intro w
    rw [hin, hin, hap, dotProduct_comm (Q *ᵥ (A *ᵥ w))]
    exact hb w) q C hq v
  rw [hin, hin] at this
  have e : Polynomial.aeval (Matrix.toLinAlgEquiv' (Q * A) : (Fin n → ℝ) →ₗ[ℝ] (Fin n → ℝ)) q v =
      Polynomial.aeval (Q * A) q *ᵥ v := by
    have h1 := Polynomial.aeval_algHom_apply
      (Matrix.toLinAlgEquiv' (R := ℝ) (n := Fin n)).toAlgHom (Q * A) q
    have h2 := congrArg (fun f : (Fin n → ℝ) →ₗ[ℝ] (Fin n → ℝ) => f v) h1
    exact h2
  rw [e] at this
  exact this

/-- **C102, rate**: if the eigenvalues of the preconditioned matrix are between `m` and `M`, the error of `x_k` in
the energy norm is at most `2 ((√M - √m) / (√M + √m))^k` times the initial error. -/
theorem C102_rate {A Q : Matrix (Fin n) (Fin n) ℝ} (hA : SPD A) (hQ : SPD Q) {m M : ℝ} (hm : 0 < m) (hM : m ≤ M)
    (hb : PrecondBetween A Q m M) (b x xs : Fin n → ℝ) (hs : A *ᵥ xs = b) (k : Nat) :
    energy A xs (Spec.CG.at A (byMatrix Q) b x k).x ≤
      (2 * ((√M - √m) / (√M + √m)) ^ k) ^ 2 * energy A xs x := by
  rcases lt_or_eq_of_le hM with hlt | heq
  · obtain ⟨q, h1, h2, h3⟩ := PolyBound.exists_small hm hlt k
    exact (CG.poly_optimal hA hQ b x xs hs k q h1 h2).trans (energy_poly hA hQ hb q h3 (xs - x))
  · subst heq
    rw [sub_self, zero_div]
    cases k with
    | zero =>
      show energy A xs x ≤ _
      have := energy_nonneg hA xs x
      rw [pow_zero]
      linarith
    | succ k =>
      have h := (C102_rate_simple hA hQ hm hb b x xs hs k).2
      rw [div_self (ne_of_gt hm), sub_self, zero_mul] at h
      rw [zero_pow (Nat.succ_ne_zero k)]
      simpa using h

/-- **C102, iterations of `solve`**: for a symmetric positive definite matrix and preconditioner with eigenvalue
bounds `m`, `M` of the preconditioned matrix and `L` of the matrix, if `k` is so large that
`2 ((√M - √m) / (√M + √m))^k √(L E_0)` is below the tolerance (`E_0` the initial error in the energy norm, squared),
then `solve` returns SUCCESS after at most `k` iterations, whatever the size of the matrix, and the returned vector
has at most the error of the rate. Exact real arithmetic. -/
theorem C102_solve {N : Num α} {ι : ℝ → α} (hE : Exact N ι Real.sqrt)
    (cfg : Cfg α) (tol : ℝ) (ht : cfg.tol = ι tol) (hlib : cfg.lib = 0)
    (hm0 : cfg.residMethod = 0) (hmin : cfg.miniter = 0)
    (A : Mat α) (M : Matrix (Fin n) (Fin n) ℝ) (hA : IsMat A ι M) (hM : SPD M)
    (create : Res (List α → Res (List α))) (Q : Matrix (Fin n) (Fin n) ℝ) (hQ : SPD Q)
    (hP : IsPrecond create ι (byMatrix Q)) {m m' L : ℝ} (hm : 0 < m) (hmm : m ≤ m')
    (hb : PrecondBetween M Q m m') (hL : ∀ v, (M *ᵥ v) ⬝ᵥ (M *ᵥ v) ≤ L * (v ⬝ᵥ (M *ᵥ v)))
    (x b xs : Fin n → ℝ) (hs : M *ᵥ xs = b) (hx : M *ᵥ x ≠ b) (k : Nat) (hk1 : 1 ≤ k) (hmax : k ≤ cfg.maxiter)
    (hk : 2 * ((√m' - √m) / (√m' + √m)) ^ k * √(L * energy M xs x) < tol) :
    ∃ j y, 1 ≤ j ∧ j ≤ k ∧ √((b - M *ᵥ y) ⬝ᵥ (b - M *ᵥ y)) < tol ∧
      energy M xs y ≤ (2 * ((√m' - √m) / (√m' + √m)) ^ j) ^ 2 * energy M xs x ∧
      CG.solve N cfg A create (vec ι x) (vec ι b) =
        .ok { status := SUCCESS, x := vec ι y, finalIter := j,
              finalResid := ι (√((b - M *ᵥ y) ⬝ᵥ (b - M *ᵥ y))) } := by
  have hrho : 0 ≤ (√m' - √m) / (√m' + √m) := by
    apply div_nonneg
    · exact sub_nonneg.2 (Real.sqrt_le_sqrt hmm)
    · exact add_nonneg (Real.sqrt_nonneg _) (Real.sqrt_nonneg _)
  have hL0 : 0 ≤ L * energy M xs x := (dot_self_nonneg (M *ᵥ (xs - x))).trans (hL (xs - x))
  have hLpos : 0 < L := by
    by_contra hneg
    push Not at hneg
    have hne : xs - x ≠ 0 := by
      intro h
      rw [sub_eq_zero] at h
      exact hx (by rw [← h]; exact hs)
    have h1 := hM.2 _ hne
    have h2 := hL (xs - x)
    have h3 : M *ᵥ (xs - x) ≠ 0 := by
      intro h
      rw [h, dotProduct_zero] at h1
      exact lt_irrefl _ h1
    have h4 := dot_self_pos h3
    nlinarith
  -- small residual in iteration k
  have hacc : Accept Real.sqrt M b tol cfg.miniter k (Spec.CG.at M (byMatrix Q) b x k).x := by
    refine ⟨?_, by omega⟩
    refine lt_of_le_of_lt ?_ hk
    have h1 := C102_rate hM hQ hm hmm hb b x xs hs k
    have h2 := hL (xs - (Spec.CG.at M (byMatrix Q) b x k).x)
    rw [mulVec_sub, hs] at h2
    have h3 : (b - M *ᵥ (Spec.CG.at M (byMatrix Q) b x k).x) ⬝ᵥ (b - M *ᵥ (Spec.CG.at M (byMatrix Q) b x k).x) ≤
        (2 * ((√m' - √m) / (√m' + √m)) ^ k) ^ 2 * (L * energy M xs x) := by
      have e : (xs - (Spec.CG.at M (byMatrix Q) b x k).x) ⬝ᵥ (b - M *ᵥ (Spec.CG.at M (byMatrix Q) b x k).x) =
          energy M xs (Spec.CG.at M (byMatrix Q) b x k).x := by
        unfold energy
        rw [mulVec_sub, hs]
      rw [e] at h2
      have := mul_le_mul_of_nonneg_left h1 (le_of_lt hLpos)
      linarith
    show Real.sqrt _ ≤ _
    refine (Real.sqrt_le_sqrt h3).trans ?_
    rw [Real.sqrt_mul (sq_nonneg _), Real.sqrt_sq (mul_nonneg zero_le_two (pow_nonneg hrho k))]
  -- regular until the solution is found
  have hreg : ∀ j, (∀ i, 1 ≤ i → i ≤ j → ¬ Accept Real.sqrt M b tol cfg.miniter i (Spec.CG.at M (byMatrix Q) b x i).x) →
      (Spec.CG.at M (byMatrix Q) b x j).Regular M := by
    intro j hno
    have htol : 0 < tol := lt_of_le_of_lt (mul_nonneg (mul_nonneg zero_le_two (pow_nonneg hrho k))
      (Real.sqrt_nonneg _)) hk
    have hne : ∀ i, i ≤ j → (Spec.CG.at M (byMatrix Q) b x i).r ≠ 0 := by
      intro i hi h0
      rw [CG.residual] at h0
      rcases Nat.eq_zero_or_pos i with hi0 | hi0
      · subst hi0
        exact hx (sub_eq_zero.1 h0).symm
      · refine hno i hi0 hi ⟨?_, by omega⟩
        rw [h0]
        show Real.sqrt (0 ⬝ᵥ 0) < tol
        rw [dotProduct_zero, Real.sqrt_zero]
        exact htol
    have hinv := CG.inv_all (b := b) (x := x) hM hQ j (fun i hi => hne i (by omega))
    exact ⟨ne_of_gt (CG.zr_pos hQ (hne j (le_refl _))), ne_of_gt (hinv.pq_pos hM hQ (le_refl _) (hne j (le_refl _)))⟩
  obtain ⟨j, status, hj, heq, hfirst, hcase⟩ := C29_exact hE cfg tol ht hlib hm0 A M hA create _ hP x b
    (fun j _ hno => hreg j hno)
  have hjk : j ≤ k := by
    by_contra hc
    exact hfirst k hk1 (by omega) hacc
  rcases hcase with ⟨hst, h1, hacc'⟩ | ⟨hst, hkm, hno⟩
  · subst hst
    exact ⟨j, _, h1, hjk, hacc'.1, C102_rate hM hQ hm hmm hb b x xs hs j, heq⟩
  · have : j = k := by omega
    subst this
    exact absurd hacc (hno hk1)

end Verif.Solver
