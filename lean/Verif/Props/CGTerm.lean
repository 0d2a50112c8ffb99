import Verif.Props.CGExact
import Mathlib.LinearAlgebra.Dimension.Constructions
import Mathlib.LinearAlgebra.Dimension.StrongRankCondition
import Mathlib.LinearAlgebra.FiniteDimensional.Basic
import Mathlib.Tactic.LinearCombination
import Mathlib.Tactic.FieldSimp

/-!
C34: in exact arithmetic CG with a symmetric positive definite matrix and a symmetric positive
definite linear preconditioner reaches the solution within `n` iterations.
-/

namespace Verif.Solver

open Verif.Spec Matrix

variable {α K : Type} {n : Nat} [Field K] [LinearOrder K] [IsStrictOrderedRing K]

theorem spd_symm {A : Matrix (Fin n) (Fin n) K} (h : SPD A) (u v : Fin n → K) :
    u ⬝ᵥ (A *ᵥ v) = v ⬝ᵥ (A *ᵥ u) := by
  rw [dotProduct_mulVec, ← mulVec_transpose, h.1, dotProduct_comm]

variable {A Q : Matrix (Fin n) (Fin n) K} {b x : Fin n → K}

/-- preconditioner given by a matrix -/
abbrev byMatrix (Q : Matrix (Fin n) (Fin n) K) : (Fin n → K) → Fin n → K := fun v => Q *ᵥ v

theorem CG.z_eq (k : Nat) : (Spec.CG.at A (byMatrix Q) b x k).z =
    Q *ᵥ (Spec.CG.at A (byMatrix Q) b x k).r := by
  cases k <;> rfl

/-- The invariant of the method: residuals are `Q`-orthogonal, directions are `A`-conjugate. -/
structure CG.Inv (A Q : Matrix (Fin n) (Fin n) K) (b x : Fin n → K) (k : Nat) : Prop where
  orth : ∀ i j, i < j → j ≤ k →
    (Spec.CG.at A (byMatrix Q) b x i).z ⬝ᵥ (Spec.CG.at A (byMatrix Q) b x j).r = 0
  conj : ∀ i j, i < j → j ≤ k →
    (Spec.CG.at A (byMatrix Q) b x i).p ⬝ᵥ (A *ᵥ (Spec.CG.at A (byMatrix Q) b x j).p) = 0
  diag : ∀ i, i ≤ k → (Spec.CG.at A (byMatrix Q) b x i).p ⬝ᵥ (Spec.CG.at A (byMatrix Q) b x i).r =
    (Spec.CG.at A (byMatrix Q) b x i).z ⬝ᵥ (Spec.CG.at A (byMatrix Q) b x i).r

theorem CG.zr_pos (hQ : SPD Q) {k : Nat} (hr : (Spec.CG.at A (byMatrix Q) b x k).r ≠ 0) :
    0 < (Spec.CG.at A (byMatrix Q) b x k).z ⬝ᵥ (Spec.CG.at A (byMatrix Q) b x k).r := by
  rw [CG.z_eq, dotProduct_comm]
  exact hQ.2 _ hr

theorem CG.Inv.pq_pos (hA : SPD A) (hQ : SPD Q) {k : Nat} (h : CG.Inv A Q b x k) {i : Nat}
    (hi : i ≤ k) (hr : (Spec.CG.at A (byMatrix Q) b x i).r ≠ 0) :
    0 < (Spec.CG.at A (byMatrix Q) b x i).p ⬝ᵥ (A *ᵥ (Spec.CG.at A (byMatrix Q) b x i).p) := by
  apply hA.2
  intro h0
  have h1 := h.diag i hi
  rw [h0, zero_dotProduct] at h1
  exact absurd h1.symm (ne_of_gt (CG.zr_pos hQ hr))

theorem CG.Inv.zero : CG.Inv A Q b x 0 where
  orth i j h1 h2 := by omega
  conj i j h1 h2 := by omega
  diag i hi := by
    have : i = 0 := by omega
    subst this
    rfl

/-- `z_{i+1} = p_{i+1} - beta_i p_i` -/
theorem CG.z_succ (i : Nat) : ∃ be : K, (Spec.CG.at A (byMatrix Q) b x (i + 1)).z =
    (Spec.CG.at A (byMatrix Q) b x (i + 1)).p - be • (Spec.CG.at A (byMatrix Q) b x i).p := by
  refine ⟨(Q *ᵥ (Spec.CG.at A (byMatrix Q) b x (i + 1)).r ⬝ᵥ (Spec.CG.at A (byMatrix Q) b x (i + 1)).r)
    / ((Spec.CG.at A (byMatrix Q) b x i).z ⬝ᵥ (Spec.CG.at A (byMatrix Q) b x i).r), ?_⟩
  rw [CG.z_eq, eq_sub_iff_add_eq]
  rfl

theorem CG.Inv.succ (hA : SPD A) (hQ : SPD Q) {k : Nat} (h : CG.Inv A Q b x k)
    (hr : ∀ i, i ≤ k → (Spec.CG.at A (byMatrix Q) b x i).r ≠ 0) : CG.Inv A Q b x (k + 1) := by
  set s := fun i => Spec.CG.at A (byMatrix Q) b x i with hs
  have hrr : ∀ i, (s (i + 1)).r = (s i).r - (s i).len A • (A *ᵥ (s i).p) := fun i => rfl
  have hpp : ∀ i, (s (i + 1)).p = (s (i + 1)).z +
    (((s (i + 1)).z ⬝ᵥ (s (i + 1)).r) / ((s i).z ⬝ᵥ (s i).r)) • (s i).p := fun i => rfl
  have hz : ∀ i, (s i).z = Q *ᵥ (s i).r := fun i => CG.z_eq i
  have hzpos : ∀ i, i ≤ k → 0 < (s i).z ⬝ᵥ (s i).r := fun i hi => CG.zr_pos hQ (hr i hi)
  have hqpos : ∀ i, i ≤ k → 0 < (s i).p ⬝ᵥ (A *ᵥ (s i).p) := fun i hi =>
    h.pq_pos hA hQ hi (hr i hi)
  have hlen : ∀ i, i ≤ k → (s i).len A * ((s i).p ⬝ᵥ (A *ᵥ (s i).p)) = (s i).z ⬝ᵥ (s i).r := by
    intro i hi
    exact div_mul_cancel₀ _ (ne_of_gt (hqpos i hi))
  have hlen0 : ∀ i, i ≤ k → (s i).len A ≠ 0 := fun i hi =>
    div_ne_zero (ne_of_gt (hzpos i hi)) (ne_of_gt (hqpos i hi))
  have hzsym : ∀ i j, (s i).z ⬝ᵥ (s j).r = (s j).z ⬝ᵥ (s i).r := by
    intro i j
    rw [hz, hz, dotProduct_comm, spd_symm hQ, dotProduct_comm]
  -- z_i is A-orthogonal to p_k for i < k, and z_k . A p_k = p_k . A p_k
  have hzq : ∀ i, i < k → (s i).z ⬝ᵥ (A *ᵥ (s k).p) = 0 := by
    intro i hi
    cases i with
    | zero =>
      have : (s 0).z = (s 0).p := rfl
      rw [this]; exact h.conj 0 k hi (le_refl _)
    | succ i =>
      obtain ⟨be, hbe⟩ := CG.z_succ (A := A) (Q := Q) (b := b) (x := x) i
      have hbe : (s (i + 1)).z = (s (i + 1)).p - be • (s i).p := hbe
      rw [hbe, sub_dotProduct, smul_dotProduct, h.conj (i + 1) k hi (le_refl _),
        h.conj i k (by omega) (le_refl _)]
      simp
  have hzqk : (s k).z ⬝ᵥ (A *ᵥ (s k).p) = (s k).p ⬝ᵥ (A *ᵥ (s k).p) := by
    rcases Nat.eq_zero_or_pos k with h0 | h0
    · subst h0; rfl
    · obtain ⟨i, rfl⟩ : ∃ i, k = i + 1 := ⟨k - 1, by omega⟩
      obtain ⟨be, hbe⟩ := CG.z_succ (A := A) (Q := Q) (b := b) (x := x) i
      have hbe : (s (i + 1)).z = (s (i + 1)).p - be • (s i).p := hbe
      rw [hbe, sub_dotProduct, smul_dotProduct, h.conj i (i + 1) (by omega) (le_refl _)]
      simp
  -- new orthogonality
  have horth : ∀ i, i ≤ k → (s i).z ⬝ᵥ (s (k + 1)).r = 0 := by
    intro i hi
    rw [hrr, dotProduct_sub, dotProduct_smul, smul_eq_mul]
    rcases Nat.lt_or_ge i k with hlt | hge
    · rw [hzq i hlt, h.orth i k hlt (le_refl _)]; simp
    · have : i = k := by omega
      subst this
      rw [hzqk, hlen i (le_refl _), sub_self]
  -- new conjugacy
  have hconj : ∀ i, i ≤ k → (s i).p ⬝ᵥ (A *ᵥ (s (k + 1)).p) = 0 := by
    intro i hi
    rw [spd_symm hA]
    have hq : (s i).len A * ((s (k + 1)).z ⬝ᵥ (A *ᵥ (s i).p)) =
        (s (k + 1)).z ⬝ᵥ (s i).r - (s (k + 1)).z ⬝ᵥ (s (i + 1)).r := by
      rw [hrr i, dotProduct_sub, dotProduct_smul, smul_eq_mul]; ring
    rw [hpp k, add_dotProduct, smul_dotProduct, smul_eq_mul]
    rw [hzsym (k + 1) i, horth i hi, zero_sub] at hq
    rcases Nat.lt_or_ge i k with hlt | hge
    · rw [hzsym (k + 1) (i + 1), horth (i + 1) (by omega), neg_zero] at hq
      have h1 := (mul_eq_zero.1 hq).resolve_left (hlen0 i hi)
      rw [h1, spd_symm hA, h.conj i k hlt (le_refl _)]
      simp
    · have : i = k := by omega
      subst this
      have hl := hlen i hi
      have h0 := hlen0 i hi
      have hzp := ne_of_gt (hzpos i hi)
      have : (s i).len A * ((s (i + 1)).z ⬝ᵥ (A *ᵥ (s i).p) +
          ((s (i + 1)).z ⬝ᵥ (s (i + 1)).r) / ((s i).z ⬝ᵥ (s i).r) *
            ((s i).p ⬝ᵥ (A *ᵥ (s i).p))) = 0 := by
        rw [mul_add, hq]
        have : (s i).len A * (((s (i + 1)).z ⬝ᵥ (s (i + 1)).r) / ((s i).z ⬝ᵥ (s i).r) *
            ((s i).p ⬝ᵥ (A *ᵥ (s i).p))) = (s (i + 1)).z ⬝ᵥ (s (i + 1)).r := by
          rw [mul_left_comm, hl, div_mul_cancel₀ _ hzp]
        rw [this, neg_add_cancel]
      exact (mul_eq_zero.1 this).resolve_left h0
  refine ⟨?_, ?_, ?_⟩
  · intro i j hij hj
    rcases Nat.lt_or_ge j (k + 1) with hlt | hge
    · exact h.orth i j hij (by omega)
    · have : j = k + 1 := by omega
      subst this
      exact horth i (by omega)
  · intro i j hij hj
    rcases Nat.lt_or_ge j (k + 1) with hlt | hge
    · exact h.conj i j hij (by omega)
    · have : j = k + 1 := by omega
      subst this
      exact hconj i (by omega)
  · intro i hi
    rcases Nat.lt_or_ge i (k + 1) with hlt | hge
    · exact h.diag i (by omega)
    · have : i = k + 1 := by omega
      subst this
      show (s (k + 1)).p ⬝ᵥ (s (k + 1)).r = (s (k + 1)).z ⬝ᵥ (s (k + 1)).r
      have hpr : (s k).p ⬝ᵥ (s (k + 1)).r = 0 := by
        rw [hrr, dotProduct_sub, dotProduct_smul, smul_eq_mul, hlen k (le_refl _),
          h.diag k (le_refl _), sub_self]
      rw [hpp k, add_dotProduct, smul_dotProduct, hpr]
      simp

theorem CG.inv_all (hA : SPD A) (hQ : SPD Q) (k : Nat)
    (hr : ∀ i, i < k → (Spec.CG.at A (byMatrix Q) b x i).r ≠ 0) : CG.Inv A Q b x k := by
  induction k with
  | zero => exact CG.Inv.zero
  | succ k ih => exact (ih (fun i hi => hr i (by omega))).succ hA hQ (fun i hi => hr i (by omega))

/-- C34 (textbook part): some residual among `r_0, ..., r_n` is zero. -/
theorem C34_residual_vanishes (hA : SPD A) (hQ : SPD Q) (b x : Fin n → K) :
    ∃ k, k ≤ n ∧ A *ᵥ (Spec.CG.at A (byMatrix Q) b x k).x = b ∧
      ∀ i, i < k → A *ᵥ (Spec.CG.at A (byMatrix Q) b x i).x ≠ b := by
  have hex : ∃ k, k ≤ n ∧ (Spec.CG.at A (byMatrix Q) b x k).r = 0 := by
    by_contra hcon
    have hne : ∀ i, i ≤ n → (Spec.CG.at A (byMatrix Q) b x i).r ≠ 0 :=
      fun i hi h0 => hcon ⟨i, hi, h0⟩
    have hinv := CG.inv_all (b := b) (x := x) hA hQ n (fun i hi => hne i (by omega))
    have hli : LinearIndependent K
        (fun i : Fin (n + 1) => (Spec.CG.at A (byMatrix Q) b x i).r) := by
      rw [Fintype.linearIndependent_iff]
      intro g hg j
      have h1 := congrArg (fun v => (Spec.CG.at A (byMatrix Q) b x j).z ⬝ᵥ v) hg
      simp only [dotProduct_zero] at h1
      rw [dotProduct_sum, Finset.sum_eq_single j] at h1
      · rw [dotProduct_smul, smul_eq_mul] at h1
        exact (mul_eq_zero.1 h1).resolve_right (ne_of_gt (CG.zr_pos hQ (hne j (by omega))))
      · intro i _ hij
        rw [dotProduct_smul]
        have hij' : (i : Nat) ≠ j := fun h => hij (Fin.ext h)
        rcases Nat.lt_or_ge (j : Nat) i with h | h
        · rw [hinv.orth j i h (by omega)]; simp
        · rw [CG.z_eq, dotProduct_comm, spd_symm hQ, dotProduct_comm, ← CG.z_eq,
            hinv.orth i j (by omega) (by omega)]; simp
      · intro h; exact absurd (Finset.mem_univ _) h
    have := hli.fintype_card_le_finrank
    simp at this
  classical
  have hspec := Nat.find_spec hex
  refine ⟨Nat.find hex, hspec.1, ?_, ?_⟩
  · have h0 := hspec.2
    rw [CG.residual, sub_eq_zero] at h0
    exact h0.symm
  · intro i hi h0
    exact Nat.find_min hex hi ⟨by omega, by rw [CG.residual, h0, sub_self]⟩

/-- C34: for every symmetric positive definite matrix of every size `n`, every symmetric positive
definite preconditioning matrix (the identity: no preconditioner), every right-hand side and every
initial guess that is not already exact, with default `miniter`, a positive tolerance and
`maxiter ≥ n`: `solve` returns SUCCESS after at most `n` iterations, the reported residual is that of
the returned `x`, and it is below the tolerance. Exact arithmetic; the division-free hypothesis of
C29 is proved here. -/
theorem C34_terminates {N : Num α} {ι : K → α} {sq : K → K} (hE : Exact N ι sq) (hsq : sq 0 = 0)
    (cfg : Cfg α) (tol : K) (htol : 0 < tol) (ht : cfg.tol = ι tol) (hlib : cfg.lib = 0)
    (hm : cfg.residMethod = 0) (hmin : cfg.miniter = 0) (hmax : n ≤ cfg.maxiter)
    (A : Mat α) (M : Matrix (Fin n) (Fin n) K) (hA : IsMat A ι M) (hM : SPD M)
    (create : Res (List α → Res (List α))) (Q : Matrix (Fin n) (Fin n) K) (hQ : SPD Q)
    (hP : IsPrecond create ι (byMatrix Q)) (x b : Fin n → K) (hx : M *ᵥ x ≠ b) :
    ∃ k y, 1 ≤ k ∧ k ≤ n ∧ norm2 sq (b - M *ᵥ y) < tol ∧
      CG.solve N cfg A create (vec ι x) (vec ι b) =
        .ok { status := SUCCESS, x := vec ι y, finalIter := k,
              finalResid := ι (norm2 sq (b - M *ᵥ y)) } := by
  obtain ⟨k0, hk0, hsol, hbefore⟩ := C34_residual_vanishes hM hQ b x
  have hk1 : 1 ≤ k0 := by
    rcases Nat.eq_zero_or_pos k0 with h | h
    · subst h; exact absurd hsol hx
    · exact h
  have hacc0 : Accept sq M b tol cfg.miniter k0 (Spec.CG.at M (byMatrix Q) b x k0).x := by
    refine ⟨?_, by omega⟩
    rw [hsol, sub_self, norm2, dotProduct_zero, hsq]
    exact htol
  have hreg : ∀ j, j < k0 → (Spec.CG.at M (byMatrix Q) b x j).Regular M := by
    intro j hj
    have hne : ∀ i, i < k0 → (Spec.CG.at M (byMatrix Q) b x i).r ≠ 0 := by
      intro i hi h0
      rw [CG.residual, sub_eq_zero] at h0
      exact hbefore i hi h0.symm
    have hinv := CG.inv_all (b := b) (x := x) hM hQ j (fun i hi => hne i (by omega))
    exact ⟨ne_of_gt (CG.zr_pos hQ (hne j hj)), ne_of_gt (hinv.pq_pos hM hQ (le_refl _) (hne j hj))⟩
  obtain ⟨k, status, hk, heq, hfirst, hcase⟩ := C29_exact hE cfg tol ht hlib hm A M hA create _ hP x b
    (fun j _ hno => hreg j (by
      by_contra hj
      exact hno k0 hk1 (by omega) hacc0))
  have hkk : k ≤ k0 := by
    by_contra hc
    exact hfirst k0 hk1 (by omega) hacc0
  rcases hcase with ⟨hst, h1, hacc⟩ | ⟨hst, hkm, hno⟩
  · subst hst
    exact ⟨k, _, h1, by omega, hacc.1, heq⟩
  · have : k = k0 := by omega
    subst this
    exact absurd hacc0 (hno hk1)

end Verif.Solver
