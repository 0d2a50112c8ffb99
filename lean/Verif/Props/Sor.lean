import Verif.Lemmas.Sor
import Verif.Props.Jacobi
import Mathlib.Algebra.Order.BigOperators.Ring.Finset

/-!
C32: the SOR solver, its triangular kernels and the SOR preconditioner.
C56: SOR with a preconditioner. C57: SOR converges.
-/

set_option linter.unusedSectionVars false

namespace Verif.Solver

open Verif.Spec Matrix

variable {α K : Type} {n : Nat} [Field K] [LinearOrder K] [IsStrictOrderedRing K]

/-! ### The method -/

/-- C32 (fixed points): with non-zero diagonal and `w ≠ 0`, an SOR sweep (without preconditioner)
leaves `x` unchanged exactly when `A x = b`. -/
theorem C32_fixed (A : Matrix (Fin n) (Fin n) K) (w : K) (b x : Fin n → K) :
    SorStep A w (b - A *ᵥ x) x x ↔ A *ᵥ x = b := by
  unfold SorStep
  rw [sub_self, Matrix.mulVec_zero]
  exact ⟨fun h => (sub_eq_zero.1 h.symm).symm, fun h => by rw [h, sub_self]⟩

theorem lowerSolve_unique {A : Matrix (Fin n) (Fin n) K} {d r t t' : Fin n → K}
    (h : LowerSolve A d r t) (h' : LowerSolve A d r t') : t = t' := by
  have key : ∀ m, ∀ i : Fin n, (i : Nat) < m → t i = t' i := by
    intro m
    induction m with
    | zero => intro i hi; omega
    | succ m ih =>
      intro i hi
      rw [h i, h' i]
      congr 2
      apply Finset.sum_congr rfl
      intro j _
      by_cases hji : j < i
      · rw [ih j (by have := Fin.lt_def.1 hji; omega)]
      · simp [strictLower, hji]
  funext i
  exact key n i i.2

/-- C32 (the iterates): the SOR iterates exist and are unique. -/
theorem C32_iterates (A : Matrix (Fin n) (Fin n) K) (hd : ∀ i, A i i ≠ 0) (w : K) (hw : w ≠ 0)
    (P : (Fin n → K) → Fin n → K) (b x : Fin n → K) : ∃! xs, SorSeq A w P b x xs := by
  have hex : ∀ y r : Fin n → K, ∃ y', SorStep A w r y y' := by
    intro y r
    obtain ⟨t, ht⟩ := lower_exists A (fun i => 1 / (1 / w * A i i)) r
    refine ⟨y + t, ?_⟩
    unfold SorStep
    rw [add_sub_cancel_left]
    exact (lowerSolve_iff hw hd r t).1 ht
  choose f hf using hex
  refine ⟨fun k => Nat.rec x (fun _ y => f y (b - A *ᵥ P y)) k, ⟨rfl, fun k => hf _ _⟩, ?_⟩
  rintro ys ⟨h0, hs⟩
  funext k
  induction k with
  | zero => exact h0
  | succ k ih =>
    have h1 := hs k
    rw [ih] at h1
    have h2 := hf (Nat.rec x (fun _ y => f y (b - A *ᵥ P y)) k)
      (b - A *ᵥ P (Nat.rec x (fun _ y => f y (b - A *ᵥ P y)) k))
    have := lowerSolve_unique ((lowerSolve_iff hw hd _ _).2 h1) ((lowerSolve_iff hw hd _ _).2 h2)
    exact sub_left_injective this

/-! ### The solver -/

/-- the residual vector that the solver holds after iteration `k`: that of the iterate **before** the
sweep -/
def sorRes (A : Matrix (Fin n) (Fin n) K) (P : (Fin n → K) → Fin n → K) (b : Fin n → K)
    (xs : Nat → Fin n → K) (k : Nat) : Fin n → K :=
  if k = 0 then 0 else b - A *ᵥ P (xs (k - 1))

/-- its norm relative to `b` -/
def sorRel (sq : K → K) (A : Matrix (Fin n) (Fin n) K) (P : (Fin n → K) → Fin n → K) (b : Fin n → K)
    (xs : Nat → Fin n → K) (k : Nat) : K :=
  norm2 sq (b - A *ᵥ P (xs (k - 1))) * (1 / norm2 sq b)

theorem SOR.loop_exact {N : Num α} {ι : K → α} {sq : K → K} (h : Exact N ι sq) {cfg : Cfg α}
    {tol : K} (ht : cfg.tol = ι tol) (hm : cfg.residMethod = 0) {A : Mat α}
    {M : Matrix (Fin n) (Fin n) K} (hA : IsMat A ι M) (hd : ∀ i, M i i ≠ 0) {w : K} (hw : w ≠ 0)
    {lower : List α → List α → List α → Res (List α)} (hlow : IsLower lower ι M)
    {pc : List α → Res (List α)} {P : (Fin n → K) → Fin n → K}
    (hpc : ∀ v, pc (vec ι v) = .ok (vec ι (P v)))
    {x b : Fin n → K} {xs : Nat → Fin n → K} (hxs : SorSeq M w P b x xs) (m : Nat) :
    ∀ iter, iter + m = cfg.maxiter →
    (∀ i, 1 ≤ i → i ≤ iter → ¬ (sorRel sq M P b xs i < tol ∧ cfg.miniter ≤ i)) →
    ∃ k status, k ≤ cfg.maxiter ∧
      SOR.loop N cfg A lower pc (vec ι b) (vec ι (fun i => 1 / (1 / w * M i i)))
        (ι (1 / norm2 sq b)) m iter (vec ι (xs iter)) (vec ι (sorRes M P b xs iter)) =
        .ok { status := status, x := vec ι (xs k), finalIter := k,
              finalResid := ι (norm2 sq (sorRes M P b xs k)) } ∧
      (∀ i, 1 ≤ i → i < k → ¬ (sorRel sq M P b xs i < tol ∧ cfg.miniter ≤ i)) ∧
      ((status = SUCCESS ∧ 1 ≤ k ∧ sorRel sq M P b xs k < tol ∧ cfg.miniter ≤ k) ∨
       (status = MAXITER ∧ k = cfg.maxiter ∧
        (1 ≤ k → ¬ (sorRel sq M P b xs k < tol ∧ cfg.miniter ≤ k)))) := by
  induction m with
  | zero =>
    intro iter hit hno
    have hit : iter = cfg.maxiter := by omega
    refine ⟨iter, MAXITER, by omega, ?_, fun i h1 h2 => hno i h1 (by omega),
      .inr ⟨rfl, hit, fun h1 => hno _ h1 (le_refl _)⟩⟩
    simp only [SOR.loop, atMaxiter, getResidual, hm, Res.ok_bind, nrm2_vec h, ← hit]
  | succ m ih =>
    intro iter hit hno
    have hstep : N.axpyz (N.neg N.one) (vec ι (M *ᵥ P (xs iter))) (vec ι b) n =
        .ok (vec ι (b - M *ᵥ P (xs iter))) := by
      rw [h.one, axpyz_neg_vec h, one_smul]
    have hlo := hlow (fun i => 1 / (1 / w * M i i)) (b - M *ᵥ P (xs iter)) (xs (iter + 1) - xs iter)
      (vec ι (M *ᵥ P (xs iter))) (vec_length _ _) ((lowerSolve_iff hw hd _ _).2 (hxs.2 iter))
    have hax : N.axpy N.one (vec ι (xs (iter + 1) - xs iter)) (vec ι (xs iter)) =
        .ok (vec ι (xs (iter + 1))) := by
      rw [h.one, axpy_vec h, one_smul]
      congr 2
      abel
    have hres : sorRes M P b xs (iter + 1) = b - M *ᵥ P (xs iter) := by simp [sorRes]
    simp only [SOR.loop, hpc, Res.ok_bind, hA.row, hA.mv, hstep, nrm2_vec h, hlo, hax, h.mul]
    rw [stopCheck_exact h ht hm, Res.ok_bind]
    have hrel : norm2 sq (b - M *ᵥ P (xs iter)) * (1 / norm2 sq b) =
      sorRel sq M P b xs (iter + 1) := rfl
    rw [hrel, ← hres]
    by_cases hacc : sorRel sq M P b xs (iter + 1) < tol ∧ cfg.miniter ≤ iter + 1
    · rw [if_pos hacc]
      exact ⟨iter + 1, SUCCESS, by omega, rfl, fun i h1 h2 => hno i h1 (by omega),
        .inl ⟨rfl, by omega, hacc⟩⟩
    · rw [if_neg hacc]
      refine ih (iter + 1) (by omega) (fun i h1 h2 => ?_)
      by_cases hi : i = iter + 1
      · rw [hi]; exact hacc
      · exact hno i h1 (by omega)

/-- C32 (exact arithmetic), what the SOR solver really returns: matrix with non-zero diagonal,
`omega ≠ 0`, `b ≠ 0`. The iterates are those of SOR; `k` is the first iteration for which the relative
residual **of the previous iterate** is below the tolerance, `x` is the iterate after one more sweep
and `get_final_residual()` is the residual norm of the previous iterate. (`P`: what the
preconditioner computes; the identity by default.) -/
theorem C32_exact_partial {N : Num α} {ι : K → α} {sq : K → K} (h : Exact N ι sq) (cfg : Cfg α)
    (tol w : K) (ht : cfg.tol = ι tol) (hlib : cfg.lib = 0) (hm : cfg.residMethod = 0)
    (hom : cfg.omega = ι w) (hw : w ≠ 0) (A : Mat α)
    (M : Matrix (Fin n) (Fin n) K) (hA : IsMat A ι M) (hd : ∀ i, M i i ≠ 0)
    (lower : List α → List α → List α → Res (List α)) (hlow : IsLower lower ι M)
    (create : Res (List α → Res (List α))) (P : (Fin n → K) → Fin n → K)
    (hpc : IsPrecond create ι P) (x b : Fin n → K) (hb : norm2 sq b ≠ 0)
    (xs : Nat → Fin n → K) (hxs : SorSeq M w P b x xs) :
    ∃ k status, k ≤ cfg.maxiter ∧
      SOR.solve N cfg A lower create (vec ι x) (vec ι b) =
        .ok { status := status, x := vec ι (xs k), finalIter := k,
              finalResid := ι (norm2 sq (sorRes M P b xs k)) } ∧
      (∀ i, 1 ≤ i → i < k → ¬ (sorRel sq M P b xs i < tol ∧ cfg.miniter ≤ i)) ∧
      ((status = SUCCESS ∧ 1 ≤ k ∧ sorRel sq M P b xs k < tol ∧ cfg.miniter ≤ k) ∨
       (status = MAXITER ∧ k = cfg.maxiter ∧
        (1 ≤ k → ¬ (sorRel sq M P b xs k < tol ∧ cfg.miniter ≤ k)))) := by
  obtain ⟨pc, hcr, hpc⟩ := hpc
  have := SOR.loop_exact h ht hm hA hd hw hlow hpc hxs cfg.maxiter 0 (by omega)
    (fun i h1 h2 => absurd h1 (by omega))
  have hrep : List.replicate n N.zero = vec ι (sorRes M P b xs 0) := by
    rw [h.zero]
    apply List.ext_getElem
    · simp [vec]
    · intro i _ _; simp [vec, sorRes]
  have hdiag : N.reciprocal ((vec ι M.diag).map (N.mul (N.div N.one cfg.omega))) =
      vec ι (fun i => 1 / (1 / w * M i i)) := by
    rw [hom, h.one, h.div _ _ hw]
    have : (vec ι M.diag).map (N.mul (ι (1 / w))) = vec ι (fun i => 1 / w * M i i) := by
      simp only [vec, List.map_ofFn]
      congr 1
      funext i
      simp only [Function.comp, h.mul, Matrix.diag]
    rw [this, reciprocal_vec h _ (fun i => mul_ne_zero (one_div_ne_zero hw) (hd i))]
  simp only [SOR.solve, hlib, if_true, SOR.monolish, hA.row, hA.col, ne_eq,
    not_true_eq_false, if_false, Res.ok_bind, hA.diag, hdiag, hcr, nrm2_vec h, hrep]
  rw [h.one, h.div _ _ hb, ← hxs.1]
  exact this

/-- C32: a matrix that is not square is rejected. -/
theorem C32_nonsquare (N : Num α) (cfg : Cfg α) (hlib : cfg.lib = 0) (A : Mat α)
    (hA : A.row ≠ A.col) (lower : List α → List α → List α → Res (List α))
    (create : Res (List α → Res (List α))) (x b : List α) :
    ∃ msg, SOR.solve N cfg A lower create x b = .throw msg := by
  refine ⟨"error, A.row != A.col", ?_⟩
  simp [SOR.solve, hlib, SOR.monolish, hA]

/-! ### Kernels -/

/-- C32 (CRS kernel): for every square CRS matrix whose rows are sorted by column, the triangular
kernel solves `(E + L) t = r` in bounds, for every diagonal (`d = 1/E`), right-hand side and previous
content of the output. -/
theorem C32_lower_crs {N : Num α} {ι : K → α} {sq : K → K} (h : Exact N ι sq) (A : Crs K)
    (hA : A.Safe) (hr : A.rowN = n) (hc : A.colN = n)
    (hs : ∀ i, i < n → ((A.rowEntries i).map (·.2.1)).Pairwise (· ≤ ·)) :
    IsLower (crsLower N (crsMap ι A)) ι (Matrix.of (fun i j : Fin n => crsAt A i j)) :=
  crsLower_exact h hA hr hc hs

/-- C32 (Dense kernel) -/
theorem C32_lower_dense {N : Num α} {ι : K → α} {sq : K → K} (h : Exact N ι sq) (A : Dense α)
    (hr : A.rowN = n) (hc : A.colN = n) (M : Matrix (Fin n) (Fin n) K)
    (hM : ∀ i j : Fin n, A.val[(i : Nat) * n + j]? = some (ι (M i j))) :
    IsLower (denseLower N A) ι M :=
  denseLower_exact h hr hc hM

/-- C32 is violated for CRS matrices with an unsorted row: the kernel stops at the first entry that
is not left of the diagonal. The matrix is `[[1, 0], [3, 1]]` with row 1 stored as (1,1), (1,0); the
solution of `t_0 = 1, 3 t_0 + t_1 = 3` is `(1, 0)`, the kernel returns `(1, 3)`. -/
theorem C32_unsorted_violated :
    let A : Crs ℚ := ⟨2, 2, [0, 1, 3], [0, 1, 0], [1, 1, 3], 3, 3, true⟩
    A.entries = [(0, 0, 1), (1, 1, 1), (1, 0, 3)] ∧
    crsLower (fieldNum id) A [1, 1] [0, 0] [1, 3] = .ok [1, 3] ∧
    LowerSolve (Matrix.of (fun i j : Fin 2 => crsAt A i j)) (fun _ => 1) ![1, 3] ![1, 0] := by
  refine ⟨by decide +kernel, by decide +kernel, ?_⟩
  unfold LowerSolve
  decide +kernel

/-- C32 (SOR preconditioner, CRS): for every square CRS matrix with non-zero diagonal and
`omega ≠ 0`, the preconditioner computes the solution `z` of
`(w D + L) (w D)⁻¹ (w D + U) z = r`. -/
theorem C32_precond {N : Num α} {ι : K → α} {sq : K → K} (h : Exact N ι sq) (A : Crs K)
    (hA : A.Safe) (hr : A.rowN = n) (hc : A.colN = n) (Am : Mat α)
    (hAm : IsMat Am ι (Matrix.of (fun i j : Fin n => crsAt A i j)))
    (hd : ∀ i : Fin n, crsAt A i i ≠ 0) (w : K) (hw : w ≠ 0) :
    ∃ P : (Fin n → K) → Fin n → K,
      IsPrecond (sorPrecond N (ι w) Am (crsPrecond N (crsMap ι A))) ι P ∧
      ∀ r, let M : Matrix (Fin n) (Fin n) K := Matrix.of (fun i j : Fin n => crsAt A i j)
        ((Matrix.diagonal (fun i => w * M i i) + strictLower M) *
          Matrix.diagonal (fun i => 1 / (w * M i i)) *
          (Matrix.diagonal (fun i => w * M i i) + strictUpper M)) *ᵥ P r = r := by
  set M : Matrix (Fin n) (Fin n) K := Matrix.of (fun i j : Fin n => crsAt A i j) with hM
  have hd' : ∀ i, M i i ≠ 0 := hd
  let d : Fin n → K := fun i => 1 / (w * M i i)
  have hy : ∀ r, ∃ y, LowerSolve M d r y := fun r => lower_exists M d r
  choose y hy using hy
  have hz : ∀ r, ∃ s : Fin n → K, ∀ i, s i = y r i - (∑ j, strictUpper M i j * s j) * d i :=
    fun r => upper_exists M d (y r)
  choose z hz using hz
  refine ⟨z, ?_, ?_⟩
  · refine ⟨fun r => crsPrecond N (crsMap ι A) (vec ι d) (List.replicate n N.zero) r, ?_, ?_⟩
    · have hdiag : N.reciprocal ((vec ι M.diag).map (N.mul (ι w))) = vec ι d := by
        have : (vec ι M.diag).map (N.mul (ι w)) = vec ι (fun i => w * M i i) := by
          simp only [vec, List.map_ofFn]
          congr 1
          funext i
          simp only [Function.comp, h.mul, Matrix.diag]
        rw [this, reciprocal_vec h _ (fun i => mul_ne_zero hw (hd' i))]
      simp only [sorPrecond, hAm.row, hAm.col, ne_eq, not_true_eq_false, if_false, hAm.diag,
        Res.ok_bind, hdiag]
    · intro r
      simp only [crsPrecond]
      rw [crsForward_exact h hA hr hc d r (y r) _ (by simp) (hy r), Res.ok_bind]
      exact crsBackward_exact h hA hr hc d (y r) (z r) (hz r)
  · intro r
    dsimp only
    rw [← Matrix.mulVec_mulVec, ← Matrix.mulVec_mulVec]
    have h1 : (Matrix.diagonal (fun i => 1 / (w * M i i))) *ᵥ
        ((Matrix.diagonal (fun i => w * M i i) + strictUpper M) *ᵥ z r) = y r := by
      funext i
      rw [Matrix.mulVec_diagonal, Matrix.add_mulVec, Pi.add_apply, Matrix.mulVec_diagonal]
      have h2 := hz r i
      have h3 : (strictUpper M *ᵥ z r) i = ∑ j, strictUpper M i j * z r j := rfl
      have hdi := hd' i
      rw [h3]
      have h4 : y r i = z r i + (∑ j, strictUpper M i j * z r j) * d i := by
        linear_combination (-1 : K) * h2
      rw [h4]
      simp only [d]
      field_simp
    rw [h1]
    funext i
    rw [Matrix.add_mulVec, Pi.add_apply, Matrix.mulVec_diagonal, strictLower_mulVec]
    have h2 := hy r i
    have hdi := hd' i
    rw [h2]
    simp only [d]
    field_simp
    ring

/-- C32 is violated: the SOR preconditioner for Dense matrices reads outside the matrix and outside
the vector, for **every** non-empty square matrix. -/
theorem C32_dense_precond_violated (N : Num α) (A : Dense α) (hA : A.WF) (hex : A.alloc = A.nnz)
    (hr : A.rowN = n) (hc : A.colN = n) (hn : 0 < n) (D x b : List α) (y : List α)
    (hfwd : denseLower N A D x b = .ok y) :
    ∃ msg, densePrecond N A D x b = .ub msg := by
  obtain ⟨m, rfl⟩ : ∃ m, n = m + 1 := ⟨n - 1, by omega⟩
  have hlen : A.val.length = (m + 1) * (m + 1) := by rw [hA.lenV, hex, hA.nnz_eq, hr, hc]
  obtain ⟨msg, hmsg⟩ : ∃ msg, rd A.val (m * A.colN + (m + (0 + 1))) = .ub msg := by
    unfold rd
    rw [List.getElem?_eq_none (by rw [hlen, hc]; ring_nf; omega)]
    exact ⟨_, rfl⟩
  refine ⟨msg, ?_⟩
  have h1 : A.colN - m = 0 + 1 := by omega
  simp only [densePrecond, hfwd, Res.ok_bind, hr, forDown, h1, denseBackRow, hmsg]
  rfl

/-- a concrete run of the Dense preconditioner: `A = [[4]]` -/
example : densePrecond (fieldNum (id : ℚ → ℚ)) ⟨1, 1, [4], 1, 1, 0, true⟩ [1 / 4] [0] [1] =
    .ub "read out of bounds" := by
  decide +kernel

/-- C32 is violated: the reported residual is that of the previous iterate. `A = [[4]], b = 1, x = 0,
omega = 1`: the returned `1/4` has residual 0, the reported one is 1. -/
theorem C32_reported_violated :
    let A : Crs ℚ := ⟨1, 1, [0, 1], [0], [4], 1, 1, true⟩
    SOR.solve (fieldNum (id : ℚ → ℚ)) { tol := 10, maxiter := 5, omega := 1, prevResid := 0 }
      (ofCrs [0] [0] A) (crsLower (fieldNum id) A) noPrecond [0] [1] =
      .ok { status := SUCCESS, x := [1 / 4], finalIter := 1, finalResid := 1 } ∧
    (fieldNum (id : ℚ → ℚ)).nrm2 [1 - 4 * (1 / 4)] = 0 := by
  decide +kernel

/-- a run on `[[4, 1], [1, 4]]` with omega 1 (Gauss-Seidel) -/
example : let A : Crs ℚ := ⟨2, 2, [0, 2, 4], [0, 1, 0, 1], [4, 1, 1, 4], 4, 4, true⟩
    SOR.solve (fieldNum (id : ℚ → ℚ)) { tol := 1 / 100, maxiter := 50, omega := 1, prevResid := 0 }
      (ofCrs [1, 0] [0, 1] A) (crsLower (fieldNum id) A) noPrecond [0, 0] [5, 5] =
      .ok { status := SUCCESS, x := [1025 / 1024, 4095 / 4096], finalIter := 3, finalResid := 225 / 65536 } := by
  decide +kernel

/-! ### C56: SOR with a preconditioner -/

/-- C56 is violated: with a preconditioner the solver reports SUCCESS for a vector that does not solve
the system: it iterates towards `A P x = b`. Here `4 x = 4` with the Jacobi preconditioner
(`P x = x / 4`) returns 4 instead of 1 in an SOR run whose residual is exactly 0. -/
theorem C56_violated :
    let A : Crs ℚ := ⟨1, 1, [0, 1], [0], [4], 1, 1, true⟩
    let N := fieldNum (id : ℚ → ℚ)
    SOR.solve N { tol := 1 / 100, maxiter := 5, omega := 1, prevResid := 0 }
      (ofCrs [0] [0] A) (crsLower N A) (jacobiPrecond N (ofCrs [0] [0] A)) [4] [4] =
      .ok { status := SUCCESS, x := [4], finalIter := 1, finalResid := 0 } := by
  decide +kernel

/-- C56, in general: if the solver with preconditioner `P` is at a fixed point, then `A (P x) = b`. -/
theorem C56_fixed (A : Matrix (Fin n) (Fin n) K) (w : K) (P : (Fin n → K) → Fin n → K)
    (b x : Fin n → K) : SorStep A w (b - A *ᵥ P x) x x ↔ A *ᵥ P x = b := by
  unfold SorStep
  rw [sub_self, Matrix.mulVec_zero]
  exact ⟨fun h => (sub_eq_zero.1 h.symm).symm, fun h => by rw [h, sub_self]⟩

/-! ### C55: right-hand side zero -/

theorem SOR.loop_zero_rhs (sq : K → K) (hsq : ∀ a, 0 ≤ a → 0 ≤ sq a) {cfg : Cfg (Ext K)}
    {A : Mat (Ext K)} {lower : List (Ext K) → List (Ext K) → List (Ext K) → Res (List (Ext K))}
    {pc : List (Ext K) → Res (List (Ext K))} {b d : List (Ext K)} (m : Nat) :
    ∀ iter x r out, SOR.loop (Ext.num sq) cfg A lower pc b d .pinf m iter x r = .ok out →
      out.status ≠ SUCCESS := by
  induction m with
  | zero =>
    intro iter x r out h
    obtain ⟨fr, h1, h2⟩ := Res.bind_eq_ok.1 h
    injection h2 with h2; subst h2
    show MAXITER ≠ SUCCESS
    decide
  | succ m ih =>
    intro iter x r out h
    unfold SOR.loop at h
    obtain ⟨s, _, h⟩ := Res.bind_eq_ok.1 h
    obtain ⟨t, _, h⟩ := Res.bind_eq_ok.1 h
    obtain ⟨r1, _, h⟩ := Res.bind_eq_ok.1 h
    obtain ⟨r2, _, h⟩ := Res.bind_eq_ok.1 h
    obtain ⟨x1, _, h⟩ := Res.bind_eq_ok.1 h
    obtain ⟨o, ho, h⟩ := Res.bind_eq_ok.1 h
    cases o with
    | none => exact ih _ _ _ _ h
    | some o =>
      injection h with h; subst h
      unfold stopCheck at ho
      rw [Ext.nrm2_mul_inf sq hsq, Bool.false_and, if_neg Bool.false_ne_true] at ho
      split at ho
      · obtain ⟨fr, h1, h2⟩ := Res.bind_eq_ok.1 ho
        injection h2 with h2; injection h2 with h2; subst h2
        show RESIDUAL_NAN ≠ SUCCESS
        decide
      · cases ho

/-- C55 is violated by SOR as well. -/
theorem C55_sor_violated (sq : K → K) (hsq : ∀ a, 0 ≤ a → 0 ≤ sq a) (hsq0 : sq 0 = 0)
    (cfg : Cfg (Ext K)) (hlib : cfg.lib = 0) (A : Mat (Ext K))
    (lower : List (Ext K) → List (Ext K) → List (Ext K) → Res (List (Ext K)))
    (create : Res (List (Ext K) → Res (List (Ext K)))) (x : List (Ext K)) (out : Out (Ext K))
    (h : SOR.solve (Ext.num sq) cfg A lower create x (List.replicate n (.fin 0)) = .ok out) :
    out.status ≠ SUCCESS := by
  simp only [SOR.solve, hlib, if_true, SOR.monolish] at h
  split at h
  · cases h
  obtain ⟨d, _, h⟩ := Res.bind_eq_ok.1 h
  obtain ⟨pc, _, h⟩ := Res.bind_eq_ok.1 h
  have hz : List.replicate n (Ext.fin (0 : K)) = vec Ext.fin (0 : Fin n → K) := by
    apply List.ext_getElem
    · simp [vec]
    · intro i _ _; simp [vec]
  have hinf : (Ext.num sq).div (Ext.num sq).one ((Ext.num sq).nrm2 (List.replicate n (.fin 0))) =
      .pinf := by
    rw [hz, nrm2_vec (Ext.exact sq), norm2, dotProduct_zero, hsq0]
    simp [Ext.num, Ext.div]
  rw [hinf] at h
  exact SOR.loop_zero_rhs sq hsq _ _ _ _ _ h

/-- `4 x = 0` with the exact initial guess: RESIDUAL_NAN -/
example : let A := crsMap Ext.fin (⟨1, 1, [0, 1], [0], [4], 1, 1, true⟩ : Crs ℚ)
    SOR.solve (Ext.num (id : ℚ → ℚ))
      { tol := .fin (1 / 100), maxiter := 10, omega := .fin 1, prevResid := .fin 0 }
      (ofCrs [0] [0] A) (crsLower (Ext.num id) A) noPrecond [.fin 0] [.fin 0] =
    .ok { status := RESIDUAL_NAN, x := [.fin 0], finalIter := 1, finalResid := .fin 0 } := by
  decide +kernel

end Verif.Solver
