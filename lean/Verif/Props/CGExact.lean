import Verif.Props.CG
import Verif.Lemmas.Ext

/-!
C33: an exact initial guess (or an exact iterate that is not accepted because of `miniter`) destroys
the solution: CG divides 0 by 0.
-/

namespace Verif.Solver

open Verif.Spec Matrix

variable {α K : Type} {n : Nat} [Field K] [LinearOrder K] [IsStrictOrderedRing K]

/-- running the loop up to iteration `k` -/
theorem CG.loop_to {N : Num α} {ι : K → α} {sq : K → K} (h : Exact N ι sq) {cfg : Cfg α} {tol : K}
    (ht : cfg.tol = ι tol) (hm : cfg.residMethod = 0) {A : Mat α} {M : Matrix (Fin n) (Fin n) K}
    (hA : IsMat A ι M) {pc : List α → Res (List α)} {P : (Fin n → K) → Fin n → K}
    (hpc : ∀ v, pc (vec ι v) = .ok (vec ι (P v))) (x b : Fin n → K) (k : Nat)
    (hreg : ∀ j, j < k → (Spec.CG.at M P b x j).Regular M)
    (hno : ∀ i, 1 ≤ i → i ≤ k → ¬ Accept sq M b tol cfg.miniter i (Spec.CG.at M P b x i).x)
    (m : Nat) :
    CG.loop N cfg A pc (k + m) 0 (CG.embed ι (Spec.CG.at M P b x 0)) =
      CG.loop N cfg A pc m k (CG.embed ι (Spec.CG.at M P b x k)) := by
  induction k generalizing m with
  | zero => rw [Nat.zero_add]
  | succ k ih =>
    rw [show k + 1 + m = k + (m + 1) by omega,
      ih (fun j hj => hreg j (by omega)) (fun i h1 h2 => hno i h1 (by omega))]
    have hstep := CG.step_exact h hA hpc _ (hreg k (by omega))
    have hnext : (Spec.CG.at M P b x k).next M P = Spec.CG.at M P b x (k + 1) := rfl
    rw [hnext] at hstep
    simp only [CG.loop, hstep, Res.ok_bind]
    have hres : getResidual N cfg (CG.embed ι (Spec.CG.at M P b x (k + 1))).r
        = .ok (ι (norm2 sq (b - M *ᵥ (Spec.CG.at M P b x (k + 1)).x))) := by
      simp only [getResidual, hm, CG.embed, nrm2_vec h, CG.residual]
    simp only [hres, Res.ok_bind]
    have hstop : stopCheck N cfg k (ι (norm2 sq (b - M *ᵥ (Spec.CG.at M P b x (k + 1)).x)))
        (CG.embed ι (Spec.CG.at M P b x (k + 1))).x (CG.embed ι (Spec.CG.at M P b x (k + 1))).r
        = _ := stopCheck_exact h ht hm k _ _ _
    have hacc := hno (k + 1) (by omega) (le_refl _)
    unfold Accept at hacc
    rw [hstop, Res.ok_bind, if_neg hacc]

/-- a vector all of whose elements are NaN -/
def nans (K : Type) (n : Nat) : List (Ext K) := List.replicate n .nan

theorem mem_nans (hn : 0 < n) : Ext.nan ∈ nans K n := by
  simp [nans, List.mem_replicate]; omega

/-- One iteration from an exact solution (`r = z = p = 0`): everything becomes NaN. -/
theorem CG.step_zero (sq : K → K) {A : Mat (Ext K)} {M : Matrix (Fin n) (Fin n) K}
    (hA : IsMat A Ext.fin M) {pc : List (Ext K) → Res (List (Ext K))}
    (hnan : ∃ z, pc (nans K n) = .ok z ∧ z.length = n) (s : Spec.CG n K)
    (hr : s.r = 0) (hz : s.z = 0) (hp : s.p = 0) :
    ∃ z p, CG.step (Ext.num sq) A pc (CG.embed Ext.fin s) =
      .ok { x := nans K n, r := nans K n, z := z, p := p } := by
  have hE := Ext.exact sq (K := K)
  obtain ⟨z, hz1, hz2⟩ := hnan
  have hdiv : (Ext.num sq).div (Ext.fin 0) (Ext.fin (0 : K)) = .nan := by simp [Ext.num, Ext.div]
  have key : ∀ (c : Ext K) (u v : List (Ext K)), c = .nan → u.length = n → v.length = n →
      (Ext.num sq).axpy c u v = .ok (nans K n) := by
    intro c u v hc hu hv
    subst hc
    simp only [Num.axpy, hu, hv, cassert, decide_true, if_true]
    show Res.ok _ = _
    congr 1
    apply List.ext_getElem
    · simp [nans, hu, hv]
    · intro i _ _
      simp [nans, Ext.num, Ext.nan_mul, Ext.nan_add]
  have hneg : (Ext.num sq).neg (Ext.nan : Ext K) = .nan := rfl
  simp only [CG.step, CG.embed, hA.mv, Res.ok_bind, dot_vec hE, hr, hz, hp, mulVec_zero,
    dotProduct_zero, hdiv, hneg]
  rw [key _ _ _ rfl (vec_length _ _) (vec_length _ _), Res.ok_bind,
    key _ _ _ rfl (vec_length _ _) (vec_length _ _), Res.ok_bind, hz1, Res.ok_bind]
  have hdot : ∃ d, (Ext.num sq).dot z (nans K n) = .ok d := by
    refine ⟨(Ext.num sq).sum (List.zipWith (Ext.num sq).mul z (nans K n)), ?_⟩
    simp [Num.dot, hz2, nans, cassert]
  obtain ⟨d, hd⟩ := hdot
  rw [hd, Res.ok_bind]
  have hx : ∀ c, ∃ p, (Ext.num sq).xpay c z (vec Ext.fin (0 : Fin n → K)) = .ok p := by
    intro c
    refine ⟨List.zipWith (fun u v => (Ext.num sq).add u ((Ext.num sq).mul c v)) z
      (vec Ext.fin (0 : Fin n → K)), ?_⟩
    simp [Num.xpay, hz2, vec_length, cassert]
  obtain ⟨p, hp⟩ := hx ((Ext.num sq).div d (Ext.fin 0))
  rw [hp]
  exact ⟨z, p, rfl⟩

/-- C33 is violated, for **every** system: in arithmetic with IEEE special values and no rounding, if
the textbook iterate `x_k` solves `A x = b` exactly and CG is still running (`k = 0`: the initial
guess is exact; `k > 0`: `miniter` asks for more iterations), the next iteration turns every element
of `x` into NaN and `solve` returns RESIDUAL_NAN. Any matrix of any size `n > 0`, any preconditioner
that maps 0 to 0 and keeps the length of a NaN vector. -/
theorem C33_violated (sq : K → K) (cfg : Cfg (Ext K)) (tol : K) (ht : cfg.tol = .fin tol)
    (hlib : cfg.lib = 0) (hm : cfg.residMethod = 0) (A : Mat (Ext K)) (M : Matrix (Fin n) (Fin n) K)
    (hA : IsMat A Ext.fin M) (hn : 0 < n) (pc : List (Ext K) → Res (List (Ext K)))
    (P : (Fin n → K) → Fin n → K) (hpc : ∀ v, pc (vec Ext.fin v) = .ok (vec Ext.fin (P v)))
    (hP0 : P 0 = 0) (hnan : ∃ z, pc (nans K n) = .ok z ∧ z.length = n)
    (x b : Fin n → K) (k : Nat) (hk : k < cfg.maxiter)
    (hsol : M *ᵥ (Spec.CG.at M P b x k).x = b)
    (hreg : ∀ j, j < k → (Spec.CG.at M P b x j).Regular M)
    (hno : ∀ i, 1 ≤ i → i ≤ k → ¬ Accept sq M b tol cfg.miniter i (Spec.CG.at M P b x i).x) :
    CG.solve (Ext.num sq) cfg A (.ok pc) (vec Ext.fin x) (vec Ext.fin b) =
      .ok { status := RESIDUAL_NAN, x := nans K n, finalIter := k + 1, finalResid := .nan } := by
  have hE := Ext.exact sq (K := K)
  have hr : (Spec.CG.at M P b x k).r = 0 := by rw [CG.residual, hsol, sub_self]
  have hz : (Spec.CG.at M P b x k).z = 0 := by
    cases k with
    | zero =>
      have : (Spec.CG.at M P b x 0).z = P (Spec.CG.at M P b x 0).r := rfl
      rw [this, hr, hP0]
    | succ k =>
      have : (Spec.CG.at M P b x (k + 1)).z = P (Spec.CG.at M P b x (k + 1)).r := rfl
      rw [this, hr, hP0]
  have hp : (Spec.CG.at M P b x k).p = 0 := by
    cases k with
    | zero =>
      have : (Spec.CG.at M P b x 0).p = P (Spec.CG.at M P b x 0).r := rfl
      rw [this, hr, hP0]
    | succ k =>
      have : (Spec.CG.at M P b x (k + 1)).p = P (Spec.CG.at M P b x (k + 1)).r +
        ((P (Spec.CG.at M P b x (k + 1)).r ⬝ᵥ (Spec.CG.at M P b x (k + 1)).r) /
          ((Spec.CG.at M P b x k).z ⬝ᵥ (Spec.CG.at M P b x k).r)) • (Spec.CG.at M P b x k).p := rfl
      rw [this, hr, hP0]
      simp
  simp only [CG.solve, hlib, if_true, CG.monolish, hA.row, hA.col, ne_eq, not_true_eq_false,
    if_false, Res.ok_bind, CG.init_exact hE hA hpc]
  obtain ⟨m, hmk⟩ : ∃ m, cfg.maxiter = k + (m + 1) := ⟨cfg.maxiter - k - 1, by omega⟩
  have hto := CG.loop_to hE ht hm hA hpc x b k hreg hno (m + 1)
  rw [hmk]
  show CG.loop (Ext.num sq) cfg A pc (k + (m + 1)) 0 (CG.embed Ext.fin (Spec.CG.at M P b x 0)) = _
  rw [hto]
  obtain ⟨z, p, hs⟩ := CG.step_zero sq hA hnan _ hr hz hp
  simp only [CG.loop, hs, Res.ok_bind, getResidual, hm, Ext.nrm2_nan sq _ (mem_nans hn)]
  simp only [stopCheck, getResidual, hm, Ext.nrm2_nan sq _ (mem_nans hn), Res.ok_bind]
  have h1 : (Ext.num sq).lt (Ext.nan : Ext K) cfg.tol = false := rfl
  have h2 : (Ext.num sq).isNaN (Ext.nan : Ext K) = true := rfl
  simp [h1, h2]

end Verif.Solver
