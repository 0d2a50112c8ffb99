import Verif.Props.SolverMat
import Mathlib.Algebra.Order.Archimedean.Basic
import Mathlib.Data.Finset.Lattice.Fold
import Mathlib.Algebra.Order.BigOperators.Ring.Finset

/-!
C31: the Jacobi solver. C54: it converges for strictly diagonally dominant matrices.
C55: it never succeeds for the right-hand side 0.
-/

namespace Verif.Solver

open Verif.Spec Matrix

variable {α K : Type} {n : Nat} [Field K]

/-- C31 (fixed points): for a matrix with non-zero diagonal a Jacobi sweep leaves `x` unchanged
exactly when `A x = b`. -/
theorem C31_fixed (A : Matrix (Fin n) (Fin n) K) (hd : ∀ i, A i i ≠ 0) (b x : Fin n → K) :
    jacobiNext A b x = x ↔ A *ᵥ x = b := by
  constructor
  · intro h
    funext i
    have := congrFun h i
    simp only [jacobiNext, Pi.sub_apply, add_eq_left, div_eq_zero_iff, hd i, or_false] at this
    exact (sub_eq_zero.1 this).symm
  · intro h
    funext i
    simp [jacobiNext, h]

variable [LinearOrder K] [IsStrictOrderedRing K]

/-- the number that the solver compares with the tolerance in iteration `k ≥ 1`: the relative
residual of the iterate **before** the sweep -/
def jacobiRel (sq : K → K) (A : Matrix (Fin n) (Fin n) K) (b x : Fin n → K) (k : Nat) : K :=
  norm2 sq (b - A *ᵥ jacobiAt A b x (k - 1)) * (1 / norm2 sq b)

/-- the vector reported after iteration `k`: the last correction, not the residual -/
def jacobiCorr (A : Matrix (Fin n) (Fin n) K) (b x : Fin n → K) (k : Nat) : Fin n → K :=
  if k = 0 then 0 else jacobiAt A b x k - jacobiAt A b x (k - 1)

theorem Jacobi.loop_exact {N : Num α} {ι : K → α} {sq : K → K} (h : Exact N ι sq) {cfg : Cfg α}
    {tol : K} (ht : cfg.tol = ι tol) (hm : cfg.residMethod = 0) {A : Mat α}
    {M : Matrix (Fin n) (Fin n) K} (hA : IsMat A ι M) (hd : ∀ i, M i i ≠ 0)
    {pc : List α → Res (List α)} (hpc : ∀ v : Fin n → K, ∃ z, pc (vec ι v) = .ok z)
    (x b : Fin n → K) (m : Nat) : ∀ iter, iter + m = cfg.maxiter →
    (∀ i, 1 ≤ i → i ≤ iter → ¬ (jacobiRel sq M b x i < tol ∧ cfg.miniter ≤ i)) →
    ∃ k status, k ≤ cfg.maxiter ∧
      Jacobi.loop N cfg A pc (vec ι b) (vec ι (fun i => 1 / M i i)) (ι (1 / norm2 sq b)) m iter
        (vec ι (jacobiAt M b x iter)) (vec ι (jacobiCorr M b x iter)) =
        .ok { status := status, x := vec ι (jacobiAt M b x k), finalIter := k,
              finalResid := ι (norm2 sq (jacobiCorr M b x k)) } ∧
      (∀ i, 1 ≤ i → i < k → ¬ (jacobiRel sq M b x i < tol ∧ cfg.miniter ≤ i)) ∧
      ((status = SUCCESS ∧ 1 ≤ k ∧ jacobiRel sq M b x k < tol ∧ cfg.miniter ≤ k) ∨
       (status = MAXITER ∧ k = cfg.maxiter ∧
        (1 ≤ k → ¬ (jacobiRel sq M b x k < tol ∧ cfg.miniter ≤ k)))) := by
  induction m with
  | zero =>
    intro iter hit hno
    have hit : iter = cfg.maxiter := by omega
    refine ⟨iter, MAXITER, by omega, ?_, fun i h1 h2 => hno i h1 (by omega), .inr ⟨rfl, hit, fun h1 => hno _ h1 (le_refl _)⟩⟩
    simp only [Jacobi.loop, atMaxiter, getResidual, hm, Res.ok_bind, nrm2_vec h, ← hit]
  | succ m ih =>
    intro iter hit hno
    obtain ⟨z, hz⟩ := hpc (jacobiAt M b x iter)
    have hstep : N.axpyz (N.neg N.one) (vec ι (M *ᵥ jacobiAt M b x iter)) (vec ι b) n =
        .ok (vec ι (b - M *ᵥ jacobiAt M b x iter)) := by
      rw [h.one, axpyz_neg_vec h, one_smul]
    have hnx : jacobiAt M b x iter + (b - M *ᵥ jacobiAt M b x iter) * (fun i => 1 / M i i) =
        jacobiAt M b x (iter + 1) := by
      funext i
      simp [jacobiAt, jacobiNext, div_eq_mul_inv]
    have hco : (b - M *ᵥ jacobiAt M b x iter) * (fun i => 1 / M i i) =
        jacobiCorr M b x (iter + 1) := by
      rw [jacobiCorr, if_neg (by omega), ← hnx]
      simp
    have hnx' : jacobiAt M b x iter + jacobiCorr M b x (iter + 1) = jacobiAt M b x (iter + 1) := by
      rw [← hco, hnx]
    simp only [Jacobi.loop, hz, Res.ok_bind, hA.row, copyV_vec, hA.mv, hstep, nrm2_vec h,
      vmul_vec h, vec_length, vadd_vec h, hco, hnx', h.mul]
    rw [stopCheck_exact h ht hm, Res.ok_bind]
    have hrel : norm2 sq (b - M *ᵥ jacobiAt M b x iter) * (1 / norm2 sq b) =
      jacobiRel sq M b x (iter + 1) := rfl
    rw [hrel]
    by_cases hacc : jacobiRel sq M b x (iter + 1) < tol ∧ cfg.miniter ≤ iter + 1
    · rw [if_pos hacc]
      exact ⟨iter + 1, SUCCESS, by omega, rfl, fun i h1 h2 => hno i h1 (by omega),
        .inl ⟨rfl, by omega, hacc⟩⟩
    · rw [if_neg hacc]
      refine ih (iter + 1) (by omega) (fun i h1 h2 => ?_)
      by_cases hi : i = iter + 1
      · rw [hi]; exact hacc
      · exact hno i h1 (by omega)

/-- C31 (exact arithmetic), what the Jacobi solver really returns: matrix with non-zero diagonal,
`b ≠ 0`. `k` is the first iteration for which the relative residual **of the previous iterate** is
below the tolerance; `x` is the iterate `x_k` after one more sweep, and `get_final_residual()` is the
norm of the last correction `x_k - x_{k-1}`. The user's preconditioner has no influence. -/
theorem C31_exact_partial {N : Num α} {ι : K → α} {sq : K → K} (h : Exact N ι sq) (cfg : Cfg α)
    (tol : K) (ht : cfg.tol = ι tol) (hlib : cfg.lib = 0) (hm : cfg.residMethod = 0) (A : Mat α)
    (M : Matrix (Fin n) (Fin n) K) (hA : IsMat A ι M) (hd : ∀ i, M i i ≠ 0)
    (pc : List α → Res (List α)) (hpc : ∀ v : Fin n → K, ∃ z, pc (vec ι v) = .ok z)
    (x b : Fin n → K) (hb : norm2 sq b ≠ 0) :
    ∃ k status, k ≤ cfg.maxiter ∧
      Jacobi.solve N cfg A (.ok pc) (vec ι x) (vec ι b) =
        .ok { status := status, x := vec ι (jacobiAt M b x k), finalIter := k,
              finalResid := ι (norm2 sq (jacobiCorr M b x k)) } ∧
      (∀ i, 1 ≤ i → i < k → ¬ (jacobiRel sq M b x i < tol ∧ cfg.miniter ≤ i)) ∧
      ((status = SUCCESS ∧ 1 ≤ k ∧ jacobiRel sq M b x k < tol ∧ cfg.miniter ≤ k) ∨
       (status = MAXITER ∧ k = cfg.maxiter ∧
        (1 ≤ k → ¬ (jacobiRel sq M b x k < tol ∧ cfg.miniter ≤ k)))) := by
  have := Jacobi.loop_exact h ht hm hA hd hpc x b cfg.maxiter 0 (by omega)
    (fun i h1 h2 => absurd h1 (by omega))
  have hrep : List.replicate n N.zero = vec ι (jacobiCorr M b x 0) := by
    rw [h.zero]
    apply List.ext_getElem
    · simp [vec]
    · intro i _ _; simp [vec, jacobiCorr]
  simp only [Jacobi.solve, hlib, if_true, Jacobi.monolish, hA.row, hA.col, ne_eq,
    not_true_eq_false, if_false, Res.ok_bind, hA.diag, reciprocal_vec h M.diag (fun i => hd i),
    nrm2_vec h, h.one, h.div _ _ hb, hrep]
  exact this

/-- C31: a matrix that is not square is rejected. -/
theorem C31_nonsquare (N : Num α) (cfg : Cfg α) (hlib : cfg.lib = 0) (A : Mat α)
    (hA : A.row ≠ A.col) (create : Res (List α → Res (List α))) (x b : List α) :
    ∃ msg, Jacobi.solve N cfg A create x b = .throw msg := by
  refine ⟨"error, A.row != A.col", ?_⟩
  simp [Jacobi.solve, hlib, Jacobi.monolish, hA]

/-- C31 is violated: the reported residual is not the residual of the returned vector. For
`A = [[4]], b = 1, x = 0`, one sweep: the true residual is 0, the reported one is 1/16 (squared norm
as `sq = id`). -/
theorem C31_reported_violated :
    Jacobi.solve (fieldNum (id : ℚ → ℚ)) { tol := 10, maxiter := 5, omega := 1, prevResid := 0 }
      (ofCrs [0] [0] ⟨1, 1, [0, 1], [0], [4], 1, 1, true⟩) noPrecond [0] [1] =
      .ok { status := SUCCESS, x := [1 / 4], finalIter := 1, finalResid := 1 / 16 } ∧
    (fieldNum (id : ℚ → ℚ)).nrm2 [1 - 4 * (1 / 4)] = 0 := by
  constructor <;> decide +kernel

/-! ### C54: convergence -/

/-- strictly diagonally dominant by rows, with contraction factor `q` -/
def Dominant (A : Matrix (Fin n) (Fin n) K) (q : K) : Prop :=
  ∀ i, 0 < |A i i| ∧ ∑ j ∈ Finset.univ.erase i, |A i j| ≤ q * |A i i|

/-- one sweep contracts the error in the maximum norm -/
theorem jacobi_contract {A : Matrix (Fin n) (Fin n) K} {q : K} (hA : Dominant A q)
    {b s : Fin n → K} (hs : A *ᵥ s = b) (x : Fin n → K) {e : K} (he : ∀ j, |x j - s j| ≤ e) (i : Fin n) :
    |jacobiNext A b x i - s i| ≤ q * e := by
  obtain ⟨h0, h1⟩ := hA i
  have hii : A i i ≠ 0 := abs_pos.1 h0
  have he0 : 0 ≤ e := le_trans (abs_nonneg _) (he i)
  have key : A i i * (jacobiNext A b x i - s i) =
      ∑ j ∈ Finset.univ.erase i, A i j * (s j - x j) := by
    have hbi : b i = ∑ j, A i j * s j := by rw [← hs]; rfl
    have hres : (b - A *ᵥ x) i = ∑ j, A i j * (s j - x j) := by
      simp only [Pi.sub_apply, hbi, Matrix.mulVec, dotProduct, mul_sub, Finset.sum_sub_distrib]
    rw [jacobiNext, hres, ← Finset.add_sum_erase _ _ (Finset.mem_univ i)]
    field_simp
    ring
  have habs : |A i i| * |jacobiNext A b x i - s i| ≤ |A i i| * (q * e) := by
    rw [← abs_mul, key]
    calc |∑ j ∈ Finset.univ.erase i, A i j * (s j - x j)|
        ≤ ∑ j ∈ Finset.univ.erase i, |A i j * (s j - x j)| := Finset.abs_sum_le_sum_abs _ _
      _ ≤ ∑ j ∈ Finset.univ.erase i, |A i j| * e := by
          apply Finset.sum_le_sum
          intro j _
          rw [abs_mul, abs_sub_comm]
          exact mul_le_mul_of_nonneg_left (he j) (abs_nonneg _)
      _ = (∑ j ∈ Finset.univ.erase i, |A i j|) * e := by rw [Finset.sum_mul]
      _ ≤ q * |A i i| * e := mul_le_mul_of_nonneg_right h1 he0
      _ = |A i i| * (q * e) := by ring
  exact le_of_mul_le_mul_left habs h0

theorem jacobi_error {A : Matrix (Fin n) (Fin n) K} {q : K} (hA : Dominant A q)
    {b s : Fin n → K} (hs : A *ᵥ s = b) (x : Fin n → K) {e : K} (he : ∀ j, |x j - s j| ≤ e) (k : Nat) :
    ∀ i, |jacobiAt A b x k i - s i| ≤ q ^ k * e := by
  induction k with
  | zero => intro i; simpa [jacobiAt] using he i
  | succ k ih =>
    intro i
    have := jacobi_contract hA hs (jacobiAt A b x k) ih i
    rw [pow_succ', mul_assoc]
    exact this

/-- the residual of an iterate in terms of its error -/
theorem residual_le {A : Matrix (Fin n) (Fin n) K} {b s : Fin n → K} (hs : A *ᵥ s = b)
    (y : Fin n → K) {e : K} (he : ∀ j, |y j - s j| ≤ e) (i : Fin n) :
    |(b - A *ᵥ y) i| ≤ (∑ j, |A i j|) * e := by
  have hres : (b - A *ᵥ y) i = ∑ j, A i j * (s j - y j) := by
    rw [← hs]
    simp only [Pi.sub_apply, Matrix.mulVec, dotProduct, mul_sub, Finset.sum_sub_distrib]
  rw [hres, Finset.sum_mul]
  refine le_trans (Finset.abs_sum_le_sum_abs _ _) (Finset.sum_le_sum (fun j _ => ?_))
  rw [abs_mul, abs_sub_comm]
  exact mul_le_mul_of_nonneg_left (he j) (abs_nonneg _)

/-- C54: for a strictly diagonally dominant matrix of any size, `b ≠ 0`, a positive tolerance and any
initial guess there is an iteration limit from which on the Jacobi solver always returns SUCCESS
(default `miniter`; exact arithmetic over an Archimedean ordered field such as the reals; `sq` is any
square root that is small on small numbers). -/
theorem C54_jacobi_converges [Archimedean K] {N : Num α} {ι : K → α} {sq : K → K}
    (h : Exact N ι sq) (hsq : ∀ eps, 0 < eps → ∃ d, 0 < d ∧ ∀ a, 0 ≤ a → a ≤ d → sq a < eps)
    (hsq0 : ∀ a, 0 ≤ a → 0 ≤ sq a)
    (tol : K) (htol : 0 < tol) (A : Mat α) (M : Matrix (Fin n) (Fin n) K) (hA : IsMat A ι M)
    (q : K) (hq : q < 1) (hdom : Dominant M q) (pc : List α → Res (List α))
    (hpc : ∀ v : Fin n → K, ∃ z, pc (vec ι v) = .ok z) (x b s : Fin n → K) (hs : M *ᵥ s = b)
    (hb : norm2 sq b ≠ 0) :
    ∃ K0, ∀ cfg : Cfg α, cfg.tol = ι tol → cfg.lib = 0 → cfg.residMethod = 0 → cfg.miniter = 0 →
      K0 ≤ cfg.maxiter → ∃ out, Jacobi.solve N cfg A (.ok pc) (vec ι x) (vec ι b) = .ok out ∧
        out.status = SUCCESS ∧ out.finalIter ≤ K0 := by
  have hd : ∀ i, M i i ≠ 0 := fun i => abs_pos.1 (hdom i).1
  have hbpos : 0 < norm2 sq b :=
    lt_of_le_of_ne (hsq0 _ (Finset.sum_nonneg (fun i _ => mul_self_nonneg _))) (Ne.symm hb)
  -- a bound on the initial error and on the matrix
  obtain ⟨e, he⟩ : ∃ e : K, ∀ j, |x j - s j| ≤ e :=
    ⟨∑ j, |x j - s j|, fun j => Finset.single_le_sum (f := fun j => |x j - s j|)
      (fun i _ => abs_nonneg _) (Finset.mem_univ j)⟩
  obtain ⟨c, hc, hc0⟩ : ∃ c : K, (∀ i, ∑ j, |M i j| ≤ c) ∧ 0 ≤ c :=
    ⟨∑ i, ∑ j, |M i j|, fun i => Finset.single_le_sum (f := fun i => ∑ j, |M i j|)
      (fun i _ => Finset.sum_nonneg (fun j _ => abs_nonneg _)) (Finset.mem_univ i),
      Finset.sum_nonneg (fun i _ => Finset.sum_nonneg (fun j _ => abs_nonneg _))⟩
  -- the relative residual becomes small
  have hsmall : ∃ k, jacobiRel sq M b x (k + 1) < tol := by
    rcases Nat.eq_zero_or_pos n with hn | hn
    · subst hn
      exact absurd hbpos (by
        intro hbp
        have : M *ᵥ s = b := hs
        obtain ⟨d, hd0, hdd⟩ := hsq (norm2 sq b) hbp
        have := hdd (b ⬝ᵥ b) (by simp [dotProduct]) (by simp [dotProduct]; exact le_of_lt hd0)
        exact lt_irrefl _ this)
    have he0 : 0 ≤ e := le_trans (abs_nonneg _) (he ⟨0, hn⟩)
    have hq0 : 0 ≤ q := by
      by_contra hneg
      have h1 := (hdom ⟨0, hn⟩).2
      have h2 : (0 : K) ≤ ∑ j ∈ Finset.univ.erase (⟨0, hn⟩ : Fin n), |M ⟨0, hn⟩ j| :=
        Finset.sum_nonneg (fun j _ => abs_nonneg _)
      have h3 := mul_neg_of_neg_of_pos (not_le.1 hneg) (hdom ⟨0, hn⟩).1
      linarith
    obtain ⟨d, hd0, hdd⟩ := hsq (tol * norm2 sq b) (mul_pos htol hbpos)
    -- choose k with n * (c q^k e)^2 ≤ d, using q^k * (c e)^2 * n ≤ d
    have hC : 0 ≤ (n : K) * (c * e) * (c * e) := by positivity
    obtain ⟨k, hk⟩ : ∃ k : Nat, q ^ k * ((n : K) * (c * e) * (c * e) + 1) < d := by
      obtain ⟨k, hk⟩ := exists_pow_lt_of_lt_one
        (show 0 < d / ((n : K) * (c * e) * (c * e) + 1) by positivity) hq
      exact ⟨k, by rwa [lt_div_iff₀ (by positivity)] at hk⟩
    refine ⟨k, ?_⟩
    have herr := jacobi_error hdom hs x he k
    have hr : ∀ i, |(b - M *ᵥ jacobiAt M b x k) i| ≤ c * (q ^ k * e) := by
      intro i
      refine le_trans (residual_le hs _ herr i) ?_
      exact mul_le_mul_of_nonneg_right (hc i) (mul_nonneg (pow_nonneg hq0 _) he0)
    have hpk : q ^ k ≤ 1 := pow_le_one₀ hq0 (le_of_lt hq)
    have hpk0 : 0 ≤ q ^ k := pow_nonneg hq0 _
    have hdot : (b - M *ᵥ jacobiAt M b x k) ⬝ᵥ (b - M *ᵥ jacobiAt M b x k) ≤ d := by
      have h1 : (b - M *ᵥ jacobiAt M b x k) ⬝ᵥ (b - M *ᵥ jacobiAt M b x k) ≤
          ∑ _i : Fin n, (c * (q ^ k * e)) * (c * (q ^ k * e)) := by
        apply Finset.sum_le_sum
        intro i _
        rw [← abs_mul_abs_self]
        exact mul_self_le_mul_self (abs_nonneg _) (hr i)
      rw [Finset.sum_const, Finset.card_univ, Fintype.card_fin, nsmul_eq_mul] at h1
      have h2 : (n : K) * (c * (q ^ k * e) * (c * (q ^ k * e))) ≤
          q ^ k * ((n : K) * (c * e) * (c * e) + 1) := by
        have h3 : (n : K) * (c * (q ^ k * e) * (c * (q ^ k * e))) =
          q ^ k * (q ^ k * ((n : K) * (c * e) * (c * e))) := by ring
        rw [h3]
        apply mul_le_mul_of_nonneg_left _ hpk0
        have h4 : q ^ k * ((n : K) * (c * e) * (c * e)) ≤ 1 * ((n : K) * (c * e) * (c * e)) :=
          mul_le_mul_of_nonneg_right hpk hC
        linarith
      linarith
    have hlt := hdd _ (Finset.sum_nonneg (fun i _ => mul_self_nonneg _)) hdot
    show norm2 sq (b - M *ᵥ jacobiAt M b x k) * (1 / norm2 sq b) < tol
    rw [mul_one_div, div_lt_iff₀ hbpos]
    exact hlt
  obtain ⟨k0, hk0⟩ := hsmall
  refine ⟨k0 + 1, fun cfg ht hlib hm hmin hmax => ?_⟩
  obtain ⟨k, status, hk, heq, hfirst, hcase⟩ :=
    C31_exact_partial h cfg tol ht hlib hm A M hA hd pc hpc x b hb
  have hkk : k ≤ k0 + 1 := by
    by_contra hcon
    exact hfirst (k0 + 1) (by omega) (by omega) ⟨hk0, by omega⟩
  rcases hcase with ⟨hst, _⟩ | ⟨_, hkm, hno⟩
  · exact ⟨_, heq, hst, hkk⟩
  · have : k = k0 + 1 := by omega
    subst this
    exact absurd ⟨hk0, by omega⟩ (hno (by omega))

/-! ### C55: right-hand side zero -/

theorem Ext.nrm2_mul_inf (sq : K → K) (hsq : ∀ a, 0 ≤ a → 0 ≤ sq a) (r : List (Ext K)) (tol : Ext K) :
    (Ext.num sq).lt ((Ext.num sq).mul ((Ext.num sq).nrm2 r) .pinf) tol = false := by
  have hcase : (Ext.num sq).nrm2 r = .nan ∨ (Ext.num sq).nrm2 r = .pinf ∨
      ∃ a, 0 ≤ a ∧ (Ext.num sq).nrm2 r = .fin a := by
    unfold Num.nrm2
    generalize (Ext.num sq).sum _ = v
    cases v with
    | fin a =>
      show Ext.sqrt sq (.fin a) = _ ∨ _
      unfold Ext.sqrt
      by_cases ha : a < 0
      · simp [ha]
      · simp only [ha, if_false]
        exact .inr (.inr ⟨sq a, hsq a (not_lt.1 ha), by
          show Ext.sqrt sq (.fin a) = _; simp [Ext.sqrt, ha]⟩)
    | pinf => exact .inr (.inl rfl)
    | ninf => exact .inl rfl
    | nan => exact .inl rfl
  rcases hcase with h | h | ⟨a, ha, h⟩
  · rw [h]; rfl
  · rw [h]; cases tol <;> rfl
  · rw [h]
    show Ext.lt (Ext.scaleInf .pinf a) tol = false
    unfold Ext.scaleInf
    by_cases h0 : a = 0
    · rw [if_pos h0]; rfl
    · rw [if_neg h0, if_pos (lt_of_le_of_ne ha (Ne.symm h0))]
      cases tol <;> rfl

theorem Jacobi.loop_zero_rhs (sq : K → K) (hsq : ∀ a, 0 ≤ a → 0 ≤ sq a) {cfg : Cfg (Ext K)}
    {A : Mat (Ext K)} {pc : List (Ext K) → Res (List (Ext K))} {b d : List (Ext K)} (m : Nat) :
    ∀ iter x r out, Jacobi.loop (Ext.num sq) cfg A pc b d .pinf m iter x r = .ok out →
      out.status ≠ SUCCESS := by
  induction m with
  | zero =>
    intro iter x r out h
    obtain ⟨fr, h1, h2⟩ := Res.bind_eq_ok.1 h
    injection h2 with h2; subst h2
    show MAXITER ≠ SUCCESS
    decide
  | succ m ih =>
    intro iter x r out h
    unfold Jacobi.loop at h
    obtain ⟨_, _, h⟩ := Res.bind_eq_ok.1 h
    obtain ⟨s, _, h⟩ := Res.bind_eq_ok.1 h
    obtain ⟨t, _, h⟩ := Res.bind_eq_ok.1 h
    obtain ⟨r1, _, h⟩ := Res.bind_eq_ok.1 h
    obtain ⟨r2, _, h⟩ := Res.bind_eq_ok.1 h
    obtain ⟨x1, _, h⟩ := Res.bind_eq_ok.1 h
    obtain ⟨o, ho, h⟩ := Res.bind_eq_ok.1 h
    cases o with
    | none => exact ih _ _ _ _ h
    | some o =>
      injection h with h; subst h
      unfold stopCheck at ho
      rw [Ext.nrm2_mul_inf sq hsq, Bool.false_and, if_neg Bool.false_ne_true] at ho
      split at ho
      · obtain ⟨fr, h1, h2⟩ := Res.bind_eq_ok.1 ho
        injection h2 with h2; injection h2 with h2; subst h2
        show RESIDUAL_NAN ≠ SUCCESS
        decide
      · cases ho

/-- C55 is violated: with IEEE special values, the Jacobi solver **never** returns SUCCESS for the
right-hand side 0 (it multiplies by `1 / nrm2(b)`, which is infinite), whatever the matrix,
preconditioner, initial guess, tolerance and limits are. -/
theorem C55_jacobi_violated (sq : K → K) (hsq : ∀ a, 0 ≤ a → 0 ≤ sq a) (hsq0 : sq 0 = 0)
    (cfg : Cfg (Ext K)) (hlib : cfg.lib = 0) (A : Mat (Ext K))
    (create : Res (List (Ext K) → Res (List (Ext K)))) (x : List (Ext K)) (out : Out (Ext K))
    (h : Jacobi.solve (Ext.num sq) cfg A create x (List.replicate n (.fin 0)) = .ok out) :
    out.status ≠ SUCCESS := by
  unfold Jacobi.solve at h
  rw [if_pos hlib] at h
  unfold Jacobi.monolish at h
  split at h
  · cases h
  obtain ⟨d, _, h⟩ := Res.bind_eq_ok.1 h
  obtain ⟨pc, _, h⟩ := Res.bind_eq_ok.1 h
  have hz : List.replicate n (Ext.fin (0 : K)) = vec Ext.fin (0 : Fin n → K) := by
    apply List.ext_getElem
    · simp [vec]
    · intro i _ _; simp [vec]
  have hinf : (Ext.num sq).div (Ext.num sq).one ((Ext.num sq).nrm2 (List.replicate n (.fin 0))) =
      .pinf := by
    rw [hz, nrm2_vec (Ext.exact sq), norm2, dotProduct_zero, hsq0]
    simp [Ext.num, Ext.div]
  rw [hinf] at h
  exact Jacobi.loop_zero_rhs sq hsq _ _ _ _ _ h

/-- the system `4 x = 0` with the exact initial guess 0: RESIDUAL_NAN -/
example : Jacobi.solve (Ext.num (id : ℚ → ℚ))
    { tol := .fin (1 / 100), maxiter := 10, omega := .fin 1, prevResid := .fin 0 }
    (ofCrs [0] [0] (crsMap Ext.fin ⟨1, 1, [0, 1], [0], [4], 1, 1, true⟩)) noPrecond [.fin 0] [.fin 0] =
    .ok { status := RESIDUAL_NAN, x := [.fin 0], finalIter := 1, finalResid := .fin 0 } := by
  decide +kernel

/-- a strictly diagonally dominant matrix, and a run on it -/
example : Dominant (!![4, 1; 1, 4] : Matrix (Fin 2) (Fin 2) ℚ) (1 / 4) := by
  unfold Dominant
  decide +kernel

example : Jacobi.solve (fieldNum (id : ℚ → ℚ)) { tol := 1 / 100, maxiter := 50, omega := 1, prevResid := 0 }
    (ofCrs [1, 0] [0, 1] ⟨2, 2, [0, 2, 4], [0, 1, 0, 1], [4, 1, 1, 4], 4, 4, true⟩) noPrecond [0, 0] [5, 5]
    = .ok { status := SUCCESS, x := [65/64, 65/64], finalIter := 3, finalResid := 25/2048 } := by
  decide +kernel

end Verif.Solver
