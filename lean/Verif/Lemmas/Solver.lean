import Verif.Spec.SolverSpec
import Mathlib.Algebra.BigOperators.Fin
import Mathlib.Algebra.Order.BigOperators.Group.Finset
import Mathlib.Tactic.Ring

set_option linter.unusedSectionVars false

/-! The vector operations of the solver model on exact data, and one step of each method. -/

namespace Verif.Solver

open Verif.Spec Matrix

variable {α K : Type} {n : Nat}

theorem vec_length (ι : K → α) (v : Fin n → K) : (vec ι v).length = n := by simp [vec]

theorem zipWith_vec (f : α → α → α) (ι : K → α) (u v : Fin n → K) :
    List.zipWith f (vec ι u) (vec ι v) = List.ofFn (fun i => f (ι (u i)) (ι (v i))) := by
  apply List.ext_getElem
  · simp [vec]
  · intro i h1 h2
    simp [vec]

variable [Field K] [LinearOrder K] [IsStrictOrderedRing K] {N : Num α} {ι : K → α} {sq : K → K}

theorem sum_ofFn (h : Exact N ι sq) (f : Fin n → K) :
    N.sum (List.ofFn (fun i => ι (f i))) = ι (∑ i, f i) := by
  have : List.ofFn (fun i => ι (f i)) = (List.ofFn f).map ι := by
    rw [List.map_ofFn]; rfl
  rw [this, h.sum, List.sum_ofFn]

theorem dot_vec (h : Exact N ι sq) (u v : Fin n → K) :
    N.dot (vec ι u) (vec ι v) = .ok (ι (u ⬝ᵥ v)) := by
  simp only [Num.dot, vec_length, cassert, zipWith_vec, h.mul]
  rw [sum_ofFn h]
  rfl

theorem nrm2_vec (h : Exact N ι sq) (u : Fin n → K) : N.nrm2 (vec ι u) = ι (norm2 sq u) := by
  simp only [Num.nrm2, zipWith_vec, h.mul]
  rw [sum_ofFn h, h.sqrt _ (Finset.sum_nonneg (fun i _ => mul_self_nonneg _))]
  rfl

theorem axpy_vec (h : Exact N ι sq) (a : K) (u v : Fin n → K) :
    N.axpy (ι a) (vec ι u) (vec ι v) = .ok (vec ι (v + a • u)) := by
  simp only [Num.axpy, vec_length, cassert, zipWith_vec, h.mul, h.add]
  have : (fun i => ι (a * u i + v i)) = fun i => ι ((v + a • u) i) := by
    funext i; simp [add_comm]
  rw [this]; rfl

theorem axpy_neg_vec (h : Exact N ι sq) (a : K) (u v : Fin n → K) :
    N.axpy (N.neg (ι a)) (vec ι u) (vec ι v) = .ok (vec ι (v - a • u)) := by
  rw [h.neg, axpy_vec h, neg_smul, sub_eq_add_neg]

theorem xpay_vec (h : Exact N ι sq) (a : K) (u v : Fin n → K) :
    N.xpay (ι a) (vec ι u) (vec ι v) = .ok (vec ι (u + a • v)) := by
  simp only [Num.xpay, vec_length, cassert, zipWith_vec, h.mul, h.add]
  rfl

theorem axpyz_neg_vec (h : Exact N ι sq) (a : K) (u v : Fin n → K) :
    N.axpyz (N.neg (ι a)) (vec ι u) (vec ι v) n = .ok (vec ι (v - a • u)) := by
  simp only [Num.axpyz, vec_length, cassert, zipWith_vec, h.mul, h.add, h.neg]
  have : (fun i => ι (-a * u i + v i)) = fun i => ι ((v - a • u) i) := by
    funext i; simp; ring_nf
  rw [this]; simp [vec]

theorem copyV_vec (u : Fin n → K) : Num.copyV (vec ι u) n = .ok (vec ι u) := by
  simp [Num.copyV, vec_length, cassert]

theorem vsub_vec (h : Exact N ι sq) (u v : Fin n → K) :
    N.vsub (vec ι u) (vec ι v) n = .ok (vec ι (u - v)) := by
  simp only [Num.vsub, vec_length, cassert, zipWith_vec, h.sub]
  simp [vec]

theorem vadd_vec (h : Exact N ι sq) (u v : Fin n → K) :
    N.vadd (vec ι u) (vec ι v) n = .ok (vec ι (u + v)) := by
  simp only [Num.vadd, vec_length, cassert, zipWith_vec, h.add]
  simp [vec]

theorem vmul_vec (h : Exact N ι sq) (u v : Fin n → K) :
    N.vmul (vec ι u) (vec ι v) n = .ok (vec ι (u * v)) := by
  simp only [Num.vmul, vec_length, cassert, zipWith_vec, h.mul]
  simp [vec]

theorem reciprocal_vec (h : Exact N ι sq) (u : Fin n → K) (hu : ∀ i, u i ≠ 0) :
    N.reciprocal (vec ι u) = vec ι (fun i => 1 / u i) := by
  simp only [Num.reciprocal, vec, List.map_ofFn]
  congr 1
  funext i
  simp only [Function.comp, h.one]
  rw [h.div _ _ (hu i)]

/-! ### CG -/

/-- the machine state that holds the textbook state -/
def CG.embed (ι : K → α) (s : Spec.CG n K) : CG.St α :=
  { x := vec ι s.x, r := vec ι s.r, z := vec ι s.z, p := vec ι s.p }

theorem CG.step_exact (h : Exact N ι sq) {A : Mat α} {M : Matrix (Fin n) (Fin n) K}
    (hA : IsMat A ι M) {pc : List α → Res (List α)} {P : (Fin n → K) → Fin n → K}
    (hpc : ∀ v, pc (vec ι v) = .ok (vec ι (P v))) (s : Spec.CG n K) (hs : s.Regular M) :
    CG.step N A pc (CG.embed ι s) = .ok (CG.embed ι (s.next M P)) := by
  simp only [CG.step, CG.embed, hA.mv, Res.ok_bind, dot_vec h, h.div _ _ hs.2, axpy_vec h,
    axpy_neg_vec h, hpc, h.div _ _ hs.1, xpay_vec h]
  rfl

theorem CG.init_exact (h : Exact N ι sq) {A : Mat α} {M : Matrix (Fin n) (Fin n) K}
    (hA : IsMat A ι M) {pc : List α → Res (List α)} {P : (Fin n → K) → Fin n → K}
    (hpc : ∀ v, pc (vec ι v) = .ok (vec ι (P v))) (x b : Fin n → K) :
    CG.init N A pc (vec ι x) (vec ι b) = .ok (CG.embed ι (Spec.CG.start M P b x)) := by
  simp only [CG.init, hA.mv, Res.ok_bind, hA.row, vsub_vec h, hpc, copyV_vec]
  rfl

/-- the residual vector of the method is the true residual of its `x` -/
theorem CG.residual (M : Matrix (Fin n) (Fin n) K) (P : (Fin n → K) → Fin n → K) (b x : Fin n → K)
    (k : Nat) : (Spec.CG.at M P b x k).r = b - M *ᵥ (Spec.CG.at M P b x k).x := by
  induction k with
  | zero => rfl
  | succ k ih =>
    simp only [Spec.CG.at, Spec.CG.next, ih, mulVec_add, mulVec_smul]
    exact sub_sub _ _ _

/-- the check at the end of an iteration, on exact data -/
theorem stopCheck_exact (h : Exact N ι sq) {cfg : Cfg α} {tol : K} (ht : cfg.tol = ι tol)
    (hm : cfg.residMethod = 0) (iter : Nat) (x r : Fin n → K) (v : K) :
    stopCheck N cfg iter (ι v) (vec ι x) (vec ι r) =
      .ok (if v < tol ∧ cfg.miniter ≤ iter + 1 then
        some { status := SUCCESS, x := vec ι x, finalIter := iter + 1,
               finalResid := ι (norm2 sq r) } else none) := by
  simp only [stopCheck, ht, h.lt, h.isNaN, getResidual, hm, nrm2_vec h, Res.ok_bind]
  by_cases hc : v < tol ∧ cfg.miniter ≤ iter + 1
  · simp [hc]
  · have : (decide (v < tol) && decide (cfg.miniter ≤ iter + 1)) = false := by
      simpa using hc
    simp [this, hc]

end Verif.Solver
