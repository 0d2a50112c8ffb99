import Verif.Lemmas.BiCGTerm
import Verif.Props.CGExact

/-!
C93: in exact arithmetic BiCGSTAB ends within `n` iterations: the half step of the `n`-th iteration (at the latest) is
the exact solution. The code has no test there, divides 0 by 0 and overwrites the solution with NaN; it can report
SUCCESS only if an earlier iterate already happens to be below the tolerance.
-/

namespace Verif.Solver

open Matrix Spec

variable {n : Nat} {K : Type} [Field K] [LinearOrder K] [IsStrictOrderedRing K]

section steps

variable {α : Type} {N : Num α} {ι : K → α} {sq : K → K}

/-- one complete iteration -/
theorem BiCG.step_regular (h : Exact N ι sq) {cfg : Cfg α} {tol : K} (ht : cfg.tol = ι tol)
    (hm : cfg.residMethod = 0) {A : Mat α} {M : Matrix (Fin n) (Fin n) K}
    (hA : IsMat A ι M) {pc : List α → Res (List α)} {P : (Fin n → K) → Fin n → K}
    (hpc : ∀ v, pc (vec ι v) = .ok (vec ι (P v))) (x b : Fin n → K) (m iter : Nat)
    (hold : 1 ≤ iter → (Spec.BiCG.at' M P b x iter).rho ≠ 0 ∧ (Spec.BiCG.at' M P b x iter).omega ≠ 0)
    (hrho : (Spec.BiCG.at' M P b x iter).r ⬝ᵥ (b - M *ᵥ x) ≠ 0)
    (hreg : (Spec.BiCG.at' M P b x iter).Regular M P (b - M *ᵥ x) iter)
    (hom : (Spec.BiCG.at' M P b x iter).newOmega M P (b - M *ᵥ x) iter ≠ 0) :
    (Accept sq M b tol cfg.miniter (iter + 1) (Spec.BiCG.at' M P b x (iter + 1)).x →
      BiCG.loop N cfg A pc (vec ι (b - M *ᵥ x)) (m + 1) iter (BiCG.embed ι (Spec.BiCG.at' M P b x iter)) =
        .ok { status := SUCCESS
              x := vec ι (Spec.BiCG.at' M P b x (iter + 1)).x
              finalIter := iter + 1
              finalResid := ι (norm2 sq (b - M *ᵥ (Spec.BiCG.at' M P b x (iter + 1)).x)) }) ∧
    (¬ Accept sq M b tol cfg.miniter (iter + 1) (Spec.BiCG.at' M P b x (iter + 1)).x →
      BiCG.loop N cfg A pc (vec ι (b - M *ᵥ x)) (m + 1) iter (BiCG.embed ι (Spec.BiCG.at' M P b x iter)) =
      BiCG.loop N cfg A pc (vec ι (b - M *ᵥ x)) m (iter + 1)
        (BiCG.embed ι (Spec.BiCG.at' M P b x (iter + 1)))) := by
  set s := Spec.BiCG.at' M P b x iter with hs
  set r0 := b - M *ᵥ x with hr0
  have hdot : N.dot (BiCG.embed ι s).r (vec ι r0) = .ok (ι (s.r ⬝ᵥ r0)) := dot_vec h _ _
  rw [BiCG.loop]
  simp only [hdot, Res.ok_bind, h.isZero]
  have hd : BiCG.direction N A.row iter (BiCG.embed ι s) (ι (s.r ⬝ᵥ r0)) =
      .ok (vec ι (s.dir r0 iter)) := by
    rw [hA.row]; exact BiCG.direction_exact h r0 iter s hold
  simp only [hrho, decide_false, Bool.false_eq_true, if_false, hd, Res.ok_bind, hpc, hA.mv]
  have hv : M *ᵥ P (s.dir r0 iter) = s.newV M P r0 iter := rfl
  have ha : N.div (ι (s.r ⬝ᵥ r0)) (ι (s.newV M P r0 iter ⬝ᵥ r0)) =
    ι (s.newAlpha M P r0 iter) := h.div _ _ hreg.1
  have hmid : N.axpyz (N.neg (ι (s.newAlpha M P r0 iter))) (vec ι (s.newV M P r0 iter))
      (BiCG.embed ι s).r A.row = .ok (vec ι (s.mid M P r0 iter)) := by
    rw [hA.row]; exact axpyz_neg_vec h _ _ _
  simp only [hv, dot_vec h, Res.ok_bind, ha, hmid, hpc, hA.mv]
  have htt : M *ᵥ P (s.mid M P r0 iter) = s.newT M P r0 iter := rfl
  have ho : N.div (ι (s.newT M P r0 iter ⬝ᵥ s.mid M P r0 iter))
      (ι (s.newT M P r0 iter ⬝ᵥ s.newT M P r0 iter)) = ι (s.newOmega M P r0 iter) :=
    h.div _ _ hreg.2
  simp only [htt, dot_vec h, Res.ok_bind, ho, h.isZero]
  simp only [hom, decide_false, Bool.false_eq_true, if_false]
  have hx1 : N.axpy (ι (s.newAlpha M P r0 iter)) (vec ι (P (s.dir r0 iter))) (BiCG.embed ι s).x =
    .ok (vec ι (s.x + s.newAlpha M P r0 iter • P (s.dir r0 iter))) := axpy_vec h _ _ _
  have hr1 : N.axpyz (N.neg (ι (s.newOmega M P r0 iter))) (vec ι (s.newT M P r0 iter))
      (vec ι (s.mid M P r0 iter)) A.row =
      .ok (vec ι (s.mid M P r0 iter - s.newOmega M P r0 iter • s.newT M P r0 iter)) := by
    rw [hA.row]; exact axpyz_neg_vec h _ _ _
  simp only [hx1, Res.ok_bind, axpy_vec h, hr1, getResidual, hm, nrm2_vec h]
  have hnx : s.x + s.newAlpha M P r0 iter • P (s.dir r0 iter) +
      s.newOmega M P r0 iter • P (s.mid M P r0 iter) = (Spec.BiCG.at' M P b x (iter + 1)).x := rfl
  have hnr : s.mid M P r0 iter - s.newOmega M P r0 iter • s.newT M P r0 iter =
    (Spec.BiCG.at' M P b x (iter + 1)).r := rfl
  rw [hnx, hnr, stopCheck_exact h ht hm, Res.ok_bind, BiCG.residual]
  constructor
  · intro hacc
    unfold Accept at hacc
    rw [if_pos hacc]
  · intro hacc
    unfold Accept at hacc
    rw [if_neg hacc, ← BiCG.residual M P b x (iter + 1)]
    rfl

/-- an iteration with `rho = 0`, or with a regular `omega = 0` -/
theorem BiCG.step_breakdown (h : Exact N ι sq) {cfg : Cfg α}
    (hm : cfg.residMethod = 0) {A : Mat α} {M : Matrix (Fin n) (Fin n) K}
    (hA : IsMat A ι M) {pc : List α → Res (List α)} {P : (Fin n → K) → Fin n → K}
    (hpc : ∀ v, pc (vec ι v) = .ok (vec ι (P v))) (x b : Fin n → K) (m iter : Nat)
    (hold : 1 ≤ iter → (Spec.BiCG.at' M P b x iter).rho ≠ 0 ∧ (Spec.BiCG.at' M P b x iter).omega ≠ 0)
    (hb : (Spec.BiCG.at' M P b x iter).r ⬝ᵥ (b - M *ᵥ x) = 0 ∨
      ((Spec.BiCG.at' M P b x iter).r ⬝ᵥ (b - M *ᵥ x) ≠ 0 ∧
        (Spec.BiCG.at' M P b x iter).Regular M P (b - M *ᵥ x) iter ∧
        (Spec.BiCG.at' M P b x iter).newOmega M P (b - M *ᵥ x) iter = 0)) :
    BiCG.loop N cfg A pc (vec ι (b - M *ᵥ x)) (m + 1) iter (BiCG.embed ι (Spec.BiCG.at' M P b x iter)) =
      .ok { status := BREAKDOWN
            x := vec ι (Spec.BiCG.at' M P b x iter).x
            finalIter := iter + 1
            finalResid := ι (norm2 sq (b - M *ᵥ (Spec.BiCG.at' M P b x iter).x)) } := by
  set s := Spec.BiCG.at' M P b x iter with hs
  set r0 := b - M *ᵥ x with hr0
  have hsr : s.r = b - M *ᵥ s.x := BiCG.residual M P b x iter
  have hgr : getResidual N cfg (BiCG.embed ι s).r = .ok (ι (norm2 sq (b - M *ᵥ s.x))) := by
    simp only [getResidual, hm, BiCG.embed, nrm2_vec h, hsr]
  have hdot : N.dot (BiCG.embed ι s).r (vec ι r0) = .ok (ι (s.r ⬝ᵥ r0)) := dot_vec h _ _
  unfold BiCG.loop
  simp only [hdot, Res.ok_bind, h.isZero]
  rcases hb with hrho | ⟨hrho, hreg, hom⟩
  · simp only [hrho, decide_true, if_true, hgr, Res.ok_bind]
    rfl
  have hd : BiCG.direction N A.row iter (BiCG.embed ι s) (ι (s.r ⬝ᵥ r0)) =
      .ok (vec ι (s.dir r0 iter)) := by
    rw [hA.row]; exact BiCG.direction_exact h r0 iter s hold
  simp only [hrho, decide_false, Bool.false_eq_true, if_false, hd, Res.ok_bind, hpc, hA.mv]
  have hv : M *ᵥ P (s.dir r0 iter) = s.newV M P r0 iter := rfl
  have ha : N.div (ι (s.r ⬝ᵥ r0)) (ι (s.newV M P r0 iter ⬝ᵥ r0)) =
    ι (s.newAlpha M P r0 iter) := h.div _ _ hreg.1
  have hmid : N.axpyz (N.neg (ι (s.newAlpha M P r0 iter))) (vec ι (s.newV M P r0 iter))
      (BiCG.embed ι s).r A.row = .ok (vec ι (s.mid M P r0 iter)) := by
    rw [hA.row]; exact axpyz_neg_vec h _ _ _
  simp only [hv, dot_vec h, Res.ok_bind, ha, hmid, hpc, hA.mv]
  have htt : M *ᵥ P (s.mid M P r0 iter) = s.newT M P r0 iter := rfl
  have ho : N.div (ι (s.newT M P r0 iter ⬝ᵥ s.mid M P r0 iter))
      (ι (s.newT M P r0 iter ⬝ᵥ s.newT M P r0 iter)) = ι (s.newOmega M P r0 iter) :=
    h.div _ _ hreg.2
  simp only [htt, dot_vec h, Res.ok_bind, ho, h.isZero]
  simp only [hom, decide_true, if_true, hgr, Res.ok_bind]
  rfl

end steps

/-- an iteration whose half step is exact: everything becomes NaN -/
theorem BiCG.step_nan (sq : K → K) {cfg : Cfg (Ext K)} (hm : cfg.residMethod = 0) (hn : 0 < n) {A : Mat (Ext K)}
    {M : Matrix (Fin n) (Fin n) K} (hA : IsMat A Ext.fin M) {pc : List (Ext K) → Res (List (Ext K))}
    {P : (Fin n → K) → Fin n → K} (hpc : ∀ v, pc (vec Ext.fin v) = .ok (vec Ext.fin (P v))) (hP0 : P 0 = 0)
    (x b : Fin n → K) (m iter : Nat)
    (hold : 1 ≤ iter → (Spec.BiCG.at' M P b x iter).rho ≠ 0 ∧ (Spec.BiCG.at' M P b x iter).omega ≠ 0)
    (hrho : (Spec.BiCG.at' M P b x iter).r ⬝ᵥ (b - M *ᵥ x) ≠ 0)
    (hvr : (Spec.BiCG.at' M P b x iter).newV M P (b - M *ᵥ x) iter ⬝ᵥ (b - M *ᵥ x) ≠ 0)
    (hmid0 : (Spec.BiCG.at' M P b x iter).mid M P (b - M *ᵥ x) iter = 0) :
    BiCG.loop (Ext.num sq) cfg A pc (vec Ext.fin (b - M *ᵥ x)) (m + 1) iter
        (BiCG.embed Ext.fin (Spec.BiCG.at' M P b x iter)) =
      .ok { status := RESIDUAL_NAN
            x := nans K n
            finalIter := iter + 1
            finalResid := .nan } := by
  have h := Ext.exact sq (K := K)
  set s := Spec.BiCG.at' M P b x iter with hs
  set r0 := b - M *ᵥ x with hr0
  have hdot : (Ext.num sq).dot (BiCG.embed Ext.fin s).r (vec Ext.fin r0) = .ok (Ext.fin (s.r ⬝ᵥ r0)) := dot_vec h _ _
  unfold BiCG.loop
  simp only [hdot, Res.ok_bind, h.isZero]
  have hd : BiCG.direction (Ext.num sq) A.row iter (BiCG.embed Ext.fin s) (Ext.fin (s.r ⬝ᵥ r0)) =
      .ok (vec Ext.fin (s.dir r0 iter)) := by
    rw [hA.row]; exact BiCG.direction_exact h r0 iter s hold
  simp only [hrho, decide_false, Bool.false_eq_true, if_false, hd, Res.ok_bind, hpc, hA.mv]
  have hv : M *ᵥ P (s.dir r0 iter) = s.newV M P r0 iter := rfl
  have ha : (Ext.num sq).div (Ext.fin (s.r ⬝ᵥ r0)) (Ext.fin (s.newV M P r0 iter ⬝ᵥ r0)) =
    Ext.fin (s.newAlpha M P r0 iter) := h.div _ _ hvr
  have hmid : (Ext.num sq).axpyz ((Ext.num sq).neg (Ext.fin (s.newAlpha M P r0 iter)))
      (vec Ext.fin (s.newV M P r0 iter)) (BiCG.embed Ext.fin s).r A.row = .ok (vec Ext.fin (0 : Fin n → K)) := by
    rw [hA.row, ← hmid0]; exact axpyz_neg_vec h _ _ _
  simp only [hv, dot_vec h, Res.ok_bind, ha, hmid, hpc, hA.mv, hP0, mulVec_zero, dotProduct_zero]
  have hdiv : (Ext.num sq).div (Ext.fin 0) (Ext.fin (0 : K)) = .nan := by simp [Ext.num, Ext.div]
  have hz : (Ext.num sq).isZero (Ext.nan : Ext K) = false := rfl
  have key : ∀ (c : Ext K) (u v : List (Ext K)), c = .nan → u.length = n → v.length = n →
      List.zipWith (fun u v => (Ext.num sq).add ((Ext.num sq).mul c u) v) u v = nans K n := by
    intro c u v hc hu hv
    subst hc
    apply List.ext_getElem
    · simp [nans, hu, hv]
    · intro i _ _
      simp [nans, Ext.num, Ext.nan_mul, Ext.nan_add]
  have haxpy : ∀ u v : Fin n → K, (Ext.num sq).axpy .nan (vec Ext.fin u) (vec Ext.fin v) =
      .ok (nans K n) := by
    intro u v
    simp only [Num.axpy, vec_length, cassert, decide_true, if_true]
    rw [key _ _ _ rfl (vec_length _ _) (vec_length _ _)]
    rfl
  have haxpyz : ∀ u v : Fin n → K, (Ext.num sq).axpyz ((Ext.num sq).neg .nan) (vec Ext.fin u)
      (vec Ext.fin v) n = .ok (nans K n) := by
    intro u v
    simp only [Num.axpyz, vec_length, cassert, and_self, decide_true, if_true]
    rw [key ((Ext.num sq).neg .nan) _ _ rfl (vec_length _ _) (vec_length _ _)]
    rfl
  have hx1 : (Ext.num sq).axpy (Ext.fin (s.newAlpha M P r0 iter)) (vec Ext.fin (P (s.dir r0 iter)))
      (BiCG.embed Ext.fin s).x = .ok (vec Ext.fin (s.x + s.newAlpha M P r0 iter • P (s.dir r0 iter))) :=
    axpy_vec h _ _ _
  have h1 : (Ext.num sq).lt (Ext.nan : Ext K) cfg.tol = false := rfl
  have h2 : (Ext.num sq).isNaN (Ext.nan : Ext K) = true := rfl
  simp only [hdiv, hz, hx1, Res.ok_bind, haxpy, hA.row, haxpyz, getResidual, hm,
    Ext.nrm2_nan sq _ (mem_nans hn), stopCheck, h1, h2, Bool.false_and, Bool.false_eq_true, if_false, if_true]

/-- the textbook quantities of iteration `k` (counted from 0) for the preconditioner `Q` -/
abbrev bst (M Q : Matrix (Fin n) (Fin n) K) (b x : Fin n → K) (k : Nat) : Spec.BiCG n K :=
  Spec.BiCG.at' M (byMatrix Q) b x k

/-- **C93 (mathematics).** If `rho` and the denominator of `alpha` do not vanish in the first `n` iterations and
`omega` does not in the first `n - 1`, the half step of iteration `n` is the exact solution. -/
theorem C93_half_step (M Q : Matrix (Fin n) (Fin n) K) (b x : Fin n → K) (hn : 0 < n)
    (hr : ∀ j, j < n → (bst M Q b x j).r ⬝ᵥ (b - M *ᵥ x) ≠ 0)
    (hv : ∀ j, j < n → (bst M Q b x j).newV M (byMatrix Q) (b - M *ᵥ x) j ⬝ᵥ (b - M *ᵥ x) ≠ 0)
    (ho : ∀ j, j + 1 < n → (bst M Q b x j).newOmega M (byMatrix Q) (b - M *ᵥ x) j ≠ 0) :
    M *ᵥ ((bst M Q b x (n - 1)).x + (bst M Q b x (n - 1)).newAlpha M (byMatrix Q) (b - M *ᵥ x) (n - 1) •
      (Q *ᵥ (bst M Q b x (n - 1)).dir (b - M *ᵥ x) (n - 1))) = b := by
  have h0 := BiCGT.half_step (A := M) (Q := Q) (b := b) (x := x) hn hr hv ho
  unfold Spec.BiCG.mid Spec.BiCG.newV at h0
  rw [BiCG.residual M (byMatrix Q) b x] at h0
  rw [mulVec_add, mulVec_smul]
  have : b - (M *ᵥ (bst M Q b x (n - 1)).x + (bst M Q b x (n - 1)).newAlpha M (byMatrix Q) (b - M *ᵥ x) (n - 1) •
      (M *ᵥ (Q *ᵥ (bst M Q b x (n - 1)).dir (b - M *ᵥ x) (n - 1)))) = 0 := by
    rw [← sub_sub]; exact h0
  exact (sub_eq_zero.mp this).symm

theorem dot_self_zero {v : Fin n → K} (h : v ⬝ᵥ v = 0) : v = 0 := by
  have := (Finset.sum_eq_zero_iff_of_nonneg (fun i _ => mul_self_nonneg (v i))).1 h
  exact funext fun i => mul_self_eq_zero.1 (this i (Finset.mem_univ _))

theorem C93_loop (sq : K → K) {cfg : Cfg (Ext K)} {tol : K} (ht : cfg.tol = .fin tol)
    (hm : cfg.residMethod = 0) (hmax : n ≤ cfg.maxiter) {A : Mat (Ext K)} {M Q : Matrix (Fin n) (Fin n) K}
    (hA : IsMat A Ext.fin M) (hMd : M.det ≠ 0) (hQd : Q.det ≠ 0) {pc : List (Ext K) → Res (List (Ext K))}
    (hpc : ∀ v, pc (vec Ext.fin v) = .ok (vec Ext.fin (byMatrix Q v))) (x b : Fin n → K)
    (hv : ∀ j, j < n → (∀ i, i < j → (bst M Q b x i).r ⬝ᵥ (b - M *ᵥ x) ≠ 0 ∧
        (bst M Q b x i).newOmega M (byMatrix Q) (b - M *ᵥ x) i ≠ 0) → (bst M Q b x j).r ⬝ᵥ (b - M *ᵥ x) ≠ 0 →
      (bst M Q b x j).newV M (byMatrix Q) (b - M *ᵥ x) j ⬝ᵥ (b - M *ᵥ x) ≠ 0) (m : Nat) :
    ∀ iter, iter < n → iter + m = cfg.maxiter →
    (∀ i, 1 ≤ i → i ≤ iter → ¬ Accept sq M b tol cfg.miniter i (bst M Q b x i).x) →
    (∀ i, i < iter → (bst M Q b x i).r ⬝ᵥ (b - M *ᵥ x) ≠ 0 ∧
      (bst M Q b x i).newOmega M (byMatrix Q) (b - M *ᵥ x) i ≠ 0) →
    ∃ k, k < n ∧ (∀ i, 1 ≤ i → i < k → ¬ Accept sq M b tol cfg.miniter i (bst M Q b x i).x) ∧
      ((1 ≤ k ∧ Accept sq M b tol cfg.miniter k (bst M Q b x k).x ∧
        BiCG.loop (Ext.num sq) cfg A pc (vec Ext.fin (b - M *ᵥ x)) m iter (BiCG.embed Ext.fin (bst M Q b x iter)) =
          .ok { status := SUCCESS
                x := vec Ext.fin (bst M Q b x k).x
                finalIter := k
                finalResid := .fin (norm2 sq (b - M *ᵥ (bst M Q b x k).x)) }) ∨
       (((bst M Q b x k).r ⬝ᵥ (b - M *ᵥ x) = 0 ∨
          ((bst M Q b x k).mid M (byMatrix Q) (b - M *ᵥ x) k ≠ 0 ∧
            (bst M Q b x k).newT M (byMatrix Q) (b - M *ᵥ x) k ⬝ᵥ
              (bst M Q b x k).mid M (byMatrix Q) (b - M *ᵥ x) k = 0)) ∧
        BiCG.loop (Ext.num sq) cfg A pc (vec Ext.fin (b - M *ᵥ x)) m iter (BiCG.embed Ext.fin (bst M Q b x iter)) =
          .ok { status := BREAKDOWN
                x := vec Ext.fin (bst M Q b x k).x
                finalIter := k + 1
                finalResid := .fin (norm2 sq (b - M *ᵥ (bst M Q b x k).x)) }) ∨
       (M *ᵥ ((bst M Q b x k).x + (bst M Q b x k).newAlpha M (byMatrix Q) (b - M *ᵥ x) k •
          (Q *ᵥ (bst M Q b x k).dir (b - M *ᵥ x) k)) = b ∧
        BiCG.loop (Ext.num sq) cfg A pc (vec Ext.fin (b - M *ᵥ x)) m iter (BiCG.embed Ext.fin (bst M Q b x iter)) =
          .ok { status := RESIDUAL_NAN
                x := nans K n
                finalIter := k + 1
                finalResid := .nan })) := by
  have h := Ext.exact sq (K := K)
  induction m with
  | zero => intro iter h1 h2; omega
  | succ m ih =>
    intro iter hit hsum hno hold'
    have hold : 1 ≤ iter → (bst M Q b x iter).rho ≠ 0 ∧ (bst M Q b x iter).omega ≠ 0 := by
      intro h1
      obtain ⟨j, rfl⟩ : ∃ j, iter = j + 1 := ⟨iter - 1, by omega⟩
      exact hold' j (by omega)
    have hno' : ∀ i, 1 ≤ i → i < iter → ¬ Accept sq M b tol cfg.miniter i (bst M Q b x i).x :=
      fun i h1 h2 => hno i h1 (by omega)
    by_cases hrho : (bst M Q b x iter).r ⬝ᵥ (b - M *ᵥ x) = 0
    · exact ⟨iter, hit, hno', .inr (.inl ⟨.inl hrho, BiCG.step_breakdown h hm hA hpc x b m iter hold (.inl hrho)⟩)⟩
    have hvr := hv iter hit hold' hrho
    by_cases hmid : (bst M Q b x iter).mid M (byMatrix Q) (b - M *ᵥ x) iter = 0
    · refine ⟨iter, hit, hno', .inr (.inr ⟨?_, BiCG.step_nan sq hm (by omega) hA hpc (by simp [byMatrix]) x b m iter
        hold hrho hvr hmid⟩)⟩
      unfold Spec.BiCG.mid Spec.BiCG.newV at hmid
      rw [BiCG.residual M (byMatrix Q) b x] at hmid
      rw [mulVec_add, mulVec_smul]
      have : b - (M *ᵥ (bst M Q b x iter).x + (bst M Q b x iter).newAlpha M (byMatrix Q) (b - M *ᵥ x) iter •
          (M *ᵥ (Q *ᵥ (bst M Q b x iter).dir (b - M *ᵥ x) iter))) = 0 := by
        rw [← sub_sub]; exact hmid
      exact (sub_eq_zero.mp this).symm
    have htt : (bst M Q b x iter).newT M (byMatrix Q) (b - M *ᵥ x) iter ⬝ᵥ
        (bst M Q b x iter).newT M (byMatrix Q) (b - M *ᵥ x) iter ≠ 0 := by
      intro h0
      have h1 := dot_self_zero h0
      unfold Spec.BiCG.newT at h1
      have h2 := eq_zero_of_mulVec_eq_zero hMd h1
      exact hmid (eq_zero_of_mulVec_eq_zero hQd h2)
    by_cases hom : (bst M Q b x iter).newOmega M (byMatrix Q) (b - M *ᵥ x) iter = 0
    · refine ⟨iter, hit, hno', .inr (.inl ⟨.inr ?_, BiCG.step_breakdown h hm hA hpc x b m iter hold
        (.inr ⟨hrho, ⟨hvr, htt⟩, hom⟩)⟩)⟩
      unfold Spec.BiCG.newOmega at hom
      rcases div_eq_zero_iff.mp hom with h1 | h1
      · exact ⟨hmid, h1⟩
      · exact absurd h1 htt
    have hstep := BiCG.step_regular h ht hm hA hpc x b m iter hold hrho ⟨hvr, htt⟩ hom
    have hlt : iter + 1 < n := by
      by_contra hc
      have he : iter = n - 1 := by omega
      apply hmid
      rw [he]
      have hall : ∀ j, j < n → (bst M Q b x j).r ⬝ᵥ (b - M *ᵥ x) ≠ 0 := by
        intro j hj
        by_cases e : j = iter
        · rw [e]; exact hrho
        · exact (hold' j (by omega)).1
      refine BiCGT.half_step (A := M) (Q := Q) (b := b) (x := x) (by omega) hall ?_ ?_
      · intro j hj
        exact hv j hj (fun i hi => hold' i (by omega)) (hall j hj)
      · intro j hj
        exact (hold' j (by omega)).2
    by_cases hacc : Accept sq M b tol cfg.miniter (iter + 1) (bst M Q b x (iter + 1)).x
    · exact ⟨iter + 1, hlt, fun i h1 h2 => hno i h1 (by omega), .inl ⟨by omega, hacc, hstep.1 hacc⟩⟩
    · have hno2 : ∀ i, 1 ≤ i → i ≤ iter + 1 → ¬ Accept sq M b tol cfg.miniter i (bst M Q b x i).x := by
        intro i h1 h2
        by_cases e : i = iter + 1
        · rw [e]; exact hacc
        · exact hno i h1 (by omega)
      have hold2 : ∀ i, i < iter + 1 → (bst M Q b x i).r ⬝ᵥ (b - M *ᵥ x) ≠ 0 ∧
          (bst M Q b x i).newOmega M (byMatrix Q) (b - M *ᵥ x) i ≠ 0 := by
        intro i hi
        by_cases e : i = iter
        · rw [e]; exact ⟨hrho, hom⟩
        · exact hold' i (by omega)
      have := ih (iter + 1) hlt (by omega) hno2 hold2
      rw [← hstep.2 hacc] at this
      exact this

/-- **C93.** BiCGSTAB with any nonsingular matrix and nonsingular linear preconditioner, in arithmetic with IEEE
special values and no rounding, as long as the denominators of `alpha` do not vanish: the run ends in one of three
ways, at an iteration `k < n` (counted from 0). SUCCESS, when an iterate before the `n`-th is below the tolerance;
BREAKDOWN, when `rho` or the numerator of `omega` is zero; otherwise the half step of iteration `k` is the exact
solution of `M y = b`, and `solve` returns a vector of NaN with `RESIDUAL_NAN`. `MAXITER`, and SUCCESS in iteration `n`
or later, do not occur. -/
theorem C93_outcome_partial (sq : K → K) (cfg : Cfg (Ext K)) (tol : K) (ht : cfg.tol = .fin tol) (hlib : cfg.lib = 0)
    (hm : cfg.residMethod = 0) (hn : 0 < n) (hmax : n ≤ cfg.maxiter) (A : Mat (Ext K))
    (M Q : Matrix (Fin n) (Fin n) K) (hA : IsMat A Ext.fin M) (hMd : M.det ≠ 0) (hQd : Q.det ≠ 0)
    (create : Res (List (Ext K) → Res (List (Ext K)))) (hP : IsPrecond create Ext.fin (byMatrix Q)) (x b : Fin n → K)
    (hv : ∀ j, j < n → (∀ i, i < j → (bst M Q b x i).r ⬝ᵥ (b - M *ᵥ x) ≠ 0 ∧
        (bst M Q b x i).newOmega M (byMatrix Q) (b - M *ᵥ x) i ≠ 0) → (bst M Q b x j).r ⬝ᵥ (b - M *ᵥ x) ≠ 0 →
      (bst M Q b x j).newV M (byMatrix Q) (b - M *ᵥ x) j ⬝ᵥ (b - M *ᵥ x) ≠ 0) :
    ∃ k, k < n ∧ (∀ i, 1 ≤ i → i < k → ¬ Accept sq M b tol cfg.miniter i (bst M Q b x i).x) ∧
      ((1 ≤ k ∧ Accept sq M b tol cfg.miniter k (bst M Q b x k).x ∧
        BiCG.solve (Ext.num sq) cfg A create (vec Ext.fin x) (vec Ext.fin b) =
          .ok { status := SUCCESS
                x := vec Ext.fin (bst M Q b x k).x
                finalIter := k
                finalResid := .fin (norm2 sq (b - M *ᵥ (bst M Q b x k).x)) }) ∨
       (((bst M Q b x k).r ⬝ᵥ (b - M *ᵥ x) = 0 ∨
          ((bst M Q b x k).mid M (byMatrix Q) (b - M *ᵥ x) k ≠ 0 ∧
            (bst M Q b x k).newT M (byMatrix Q) (b - M *ᵥ x) k ⬝ᵥ
              (bst M Q b x k).mid M (byMatrix Q) (b - M *ᵥ x) k = 0)) ∧
        BiCG.solve (Ext.num sq) cfg A create (vec Ext.fin x) (vec Ext.fin b) =
          .ok { status := BREAKDOWN
                x := vec Ext.fin (bst M Q b x k).x
                finalIter := k + 1
                finalResid := .fin (norm2 sq (b - M *ᵥ (bst M Q b x k).x)) }) ∨
       (M *ᵥ ((bst M Q b x k).x + (bst M Q b x k).newAlpha M (byMatrix Q) (b - M *ᵥ x) k •
          (Q *ᵥ (bst M Q b x k).dir (b - M *ᵥ x) k)) = b ∧
        BiCG.solve (Ext.num sq) cfg A create (vec Ext.fin x) (vec Ext.fin b) =
          .ok { status := RESIDUAL_NAN
                x := nans K n
                finalIter := k + 1
                finalResid := .nan })) := by
  have h := Ext.exact sq (K := K)
  obtain ⟨pc, rfl, hpc⟩ := hP
  have := C93_loop sq ht hm hmax hA hMd hQd hpc x b hv cfg.maxiter 0 hn (by omega)
    (fun i h1 h2 => absurd h1 (by omega)) (fun i h1 => absurd h1 (by omega))
  have hrep : List.replicate n (Ext.num sq).zero = vec Ext.fin (0 : Fin n → K) := by
    rw [h.zero]
    apply List.ext_getElem
    · simp [vec]
    · intro i _ _; simp [vec]
  have he : BiCG.solve (Ext.num sq) cfg A (.ok pc) (vec Ext.fin x) (vec Ext.fin b) =
      BiCG.loop (Ext.num sq) cfg A pc (vec Ext.fin (b - M *ᵥ x)) cfg.maxiter 0
        (BiCG.embed Ext.fin (bst M Q b x 0)) := by
    simp only [BiCG.solve, hlib, if_true, BiCG.monolish, hA.row, hA.col, ne_eq, not_true_eq_false,
      if_false, Res.ok_bind, hA.mv, vsub_vec h]
    rw [hrep, h.one]
    rfl
  rw [he]
  exact this

/-- **C93 (violated).** A run without breakdown whose first `n - 1` iterates are not accepted never succeeds, whatever
`maxiter`: `x` is overwritten with NaN. -/
theorem C93_violated (sq : K → K) (cfg : Cfg (Ext K)) (tol : K) (ht : cfg.tol = .fin tol) (hlib : cfg.lib = 0)
    (hm : cfg.residMethod = 0) (hn : 0 < n) (hmax : n ≤ cfg.maxiter) (A : Mat (Ext K))
    (M Q : Matrix (Fin n) (Fin n) K) (hA : IsMat A Ext.fin M) (hMd : M.det ≠ 0) (hQd : Q.det ≠ 0)
    (create : Res (List (Ext K) → Res (List (Ext K)))) (hP : IsPrecond create Ext.fin (byMatrix Q)) (x b : Fin n → K)
    (hr : ∀ j, j < n → (bst M Q b x j).r ⬝ᵥ (b - M *ᵥ x) ≠ 0 ∧
      (bst M Q b x j).newV M (byMatrix Q) (b - M *ᵥ x) j ⬝ᵥ (b - M *ᵥ x) ≠ 0)
    (ho : ∀ j, j + 1 < n → (bst M Q b x j).newT M (byMatrix Q) (b - M *ᵥ x) j ⬝ᵥ
      (bst M Q b x j).mid M (byMatrix Q) (b - M *ᵥ x) j ≠ 0)
    (hacc : ∀ j, 1 ≤ j → j < n → ¬ Accept sq M b tol cfg.miniter j (bst M Q b x j).x) :
    BiCG.solve (Ext.num sq) cfg A create (vec Ext.fin x) (vec Ext.fin b) =
      .ok { status := RESIDUAL_NAN
            x := nans K n
            finalIter := n
            finalResid := .nan } := by
  have hsucc : ∀ j, j + 1 < n → (bst M Q b x j).newOmega M (byMatrix Q) (b - M *ᵥ x) j ≠ 0 := by
    intro j hj h0
    unfold Spec.BiCG.newOmega at h0
    rcases div_eq_zero_iff.mp h0 with h1 | h1
    · exact ho j hj h1
    · have := dot_self_zero h1
      exact ho j hj (by rw [this, zero_dotProduct])
  obtain ⟨k, hk, -, h1 | h1 | h1⟩ := C93_outcome_partial sq cfg tol ht hlib hm hn hmax A M Q hA hMd hQd create hP x b
    (fun j hj _ _ => (hr j hj).2)
  · exact absurd h1.2.1 (hacc k h1.1 hk)
  · rcases h1.1 with h2 | ⟨h2, h3⟩
    · exact absurd h2 (hr k hk).1
    · by_cases hkn : k + 1 < n
      · exact absurd h3 (ho k hkn)
      · exfalso
        apply h2
        rw [show k = n - 1 by omega]
        exact BiCGT.half_step (A := M) (Q := Q) (b := b) (x := x) hn (fun j hj => (hr j hj).1)
          (fun j hj => (hr j hj).2) hsucc
  · obtain ⟨h1, h2⟩ := h1
    have hmid : (bst M Q b x k).mid M (byMatrix Q) (b - M *ᵥ x) k = 0 := by
      rw [mulVec_add, mulVec_smul] at h1
      unfold Spec.BiCG.mid Spec.BiCG.newV
      rw [BiCG.residual M (byMatrix Q) b x]
      show b - M *ᵥ (bst M Q b x k).x - (bst M Q b x k).newAlpha M (byMatrix Q) (b - M *ᵥ x) k •
        (M *ᵥ (Q *ᵥ (bst M Q b x k).dir (b - M *ᵥ x) k)) = 0
      rw [sub_sub, h1, sub_self]
    by_cases hkn : k + 1 < n
    · exact absurd (by rw [hmid, dotProduct_zero]) (ho k hkn)
    · rw [h2, show k + 1 = n by omega]

/-- the hypotheses of `C93_violated` hold for the nonsingular 2 by 2 system `[2 1; 0 3] x = (1, 2)` from `x = 0`: the
denominators and numerators are nonzero … -/
example : (∀ j, j < 2 →
      (bst (!![2, 1; 0, 3] : Matrix (Fin 2) (Fin 2) ℚ) 1 ![1, 2] 0 j).r ⬝ᵥ (![1, 2] - !![2, 1; 0, 3] *ᵥ 0) ≠ 0 ∧
      (bst (!![2, 1; 0, 3] : Matrix (Fin 2) (Fin 2) ℚ) 1 ![1, 2] 0 j).newV !![2, 1; 0, 3] (byMatrix 1)
        (![1, 2] - !![2, 1; 0, 3] *ᵥ 0) j ⬝ᵥ (![1, 2] - !![2, 1; 0, 3] *ᵥ 0) ≠ 0) ∧
    (∀ j, j + 1 < 2 → (bst (!![2, 1; 0, 3] : Matrix (Fin 2) (Fin 2) ℚ) 1 ![1, 2] 0 j).newT !![2, 1; 0, 3]
      (byMatrix 1) (![1, 2] - !![2, 1; 0, 3] *ᵥ 0) j ⬝ᵥ
      (bst (!![2, 1; 0, 3] : Matrix (Fin 2) (Fin 2) ℚ) 1 ![1, 2] 0 j).mid !![2, 1; 0, 3]
      (byMatrix 1) (![1, 2] - !![2, 1; 0, 3] *ᵥ 0) j ≠ 0) := by
  have h0 : ∀ j, j < 2 → j = 0 ∨ j = 1 := by intro j hj; omega
  constructor
  · intro j hj
    rcases h0 j hj with rfl | rfl <;> decide +kernel
  · intro j hj
    obtain rfl : j = 0 := by omega
    decide +kernel

/-- … and the first iterate is not accepted with tolerance 1/200 (its residual is 1/128) -/
example : ∀ j, 1 ≤ j → j < 2 → ¬ Accept (id : ℚ → ℚ) !![2, 1; 0, 3] ![1, 2] (1 / 200) 0 j
    (bst (!![2, 1; 0, 3] : Matrix (Fin 2) (Fin 2) ℚ) 1 ![1, 2] 0 j).x := by
  intro j h1 h2
  obtain rfl : j = 1 := by omega
  unfold Accept
  decide +kernel

/-- so the run ends with NaN in iteration 2, although `maxiter` is 10 and the system is nonsingular … -/
example : BiCG.solve (Ext.num (id : ℚ → ℚ))
    { tol := .fin (1 / 200), maxiter := 10, omega := .fin 1, prevResid := .fin 0 }
    (ofCrs [0, 1] [1, 0] (crsMap Ext.fin ⟨2, 2, [0, 2, 4], [0, 1, 0, 1], [2, 1, 0, 3], 4, 4, true⟩)) noPrecond
    [.fin 0, .fin 0] [.fin 1, .fin 2] =
    .ok { status := RESIDUAL_NAN, x := [.nan, .nan], finalIter := 2, finalResid := .nan } := by
  decide +kernel

/-- … while a looser tolerance stops at iteration 1 (first alternative of `C93_outcome_partial`) … -/
example : BiCG.solve (Ext.num (id : ℚ → ℚ))
    { tol := .fin (1 / 100), maxiter := 10, omega := .fin 1, prevResid := .fin 0 }
    (ofCrs [0, 1] [1, 0] (crsMap Ext.fin ⟨2, 2, [0, 2, 4], [0, 1, 0, 1], [2, 1, 0, 3], 4, 4, true⟩)) noPrecond
    [.fin 0, .fin 0] [.fin 1, .fin 2] =
    .ok { status := SUCCESS, x := [.fin (3 / 16), .fin (11 / 16)], finalIter := 1, finalResid := .fin (1 / 128) } := by
  decide +kernel

/-- … and the last line of `C93_half_step` is met: the half step of iteration 2 is the solution (1/6, 2/3) -/
example : (bst (!![2, 1; 0, 3] : Matrix (Fin 2) (Fin 2) ℚ) 1 ![1, 2] 0 1).x +
    (bst (!![2, 1; 0, 3] : Matrix (Fin 2) (Fin 2) ℚ) 1 ![1, 2] 0 1).newAlpha !![2, 1; 0, 3] (byMatrix 1)
      (![1, 2] - !![2, 1; 0, 3] *ᵥ 0) 1 •
    ((1 : Matrix (Fin 2) (Fin 2) ℚ) *ᵥ (bst (!![2, 1; 0, 3] : Matrix (Fin 2) (Fin 2) ℚ) 1 ![1, 2] 0 1).dir
      (![1, 2] - !![2, 1; 0, 3] *ᵥ 0) 1) = ![1 / 6, 2 / 3] := by
  decide +kernel

end Verif.Solver
