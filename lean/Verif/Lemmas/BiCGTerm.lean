import Verif.Spec.SolverSpec
import Verif.Props.BiCG
import Verif.Props.CGTerm
import Mathlib.LinearAlgebra.Matrix.Block
import Mathlib.LinearAlgebra.Matrix.ToLinearEquiv

/-!
The BiCG polynomials behind BiCGSTAB: with `B = A Q` the residual of iteration `k` is `Q_k(B) ρ_k`, where `Q_k` is a
product of factors `1 - ω B` and `ρ_k` is orthogonal to `Q_j(B)ᵀ r̂` for every `j < k`. After `n` steps nothing is left.
-/

namespace Verif.Solver.BiCGT

open Matrix

variable {n : Nat} {K : Type} [Field K]
variable (A Q : Matrix (Fin n) (Fin n) K) (b x : Fin n → K)

/-- the state before iteration `k` -/
abbrev st (k : Nat) : Spec.BiCG n K := Spec.BiCG.at' A (byMatrix Q) b x k
/-- the shadow residual -/
abbrev sh : Fin n → K := b - A *ᵥ x
abbrev rho (k : Nat) : K := (st A Q b x k).r ⬝ᵥ sh A b x
abbrev al (k : Nat) : K := (st A Q b x k).newAlpha A (byMatrix Q) (sh A b x) k
abbrev om (k : Nat) : K := (st A Q b x k).newOmega A (byMatrix Q) (sh A b x) k
abbrev vr (k : Nat) : K := (st A Q b x k).newV A (byMatrix Q) (sh A b x) k ⬝ᵥ sh A b x
abbrev be (k : Nat) : K := (rho A Q b x (k + 1) / rho A Q b x k) * (al A Q b x k / om A Q b x k)

/-- `Q_k(B)` -/
def BQ : Nat → Matrix (Fin n) (Fin n) K
  | 0 => 1
  | k + 1 => (1 - om A Q b x k • (A * Q)) * BQ k

/-- `ρ_k` and `π_k` -/
def rp : Nat → (Fin n → K) × (Fin n → K)
  | 0 => (sh A b x, sh A b x)
  | k + 1 =>
    let r := (rp k).1 - al A Q b x k • ((A * Q) *ᵥ (rp k).2)
    (r, r + be A Q b x k • (rp k).2)

/-- `u_k = Q_k(B)ᵀ r̂` -/
def u (k : Nat) : Fin n → K := (BQ A Q b x k)ᵀ *ᵥ sh A b x

omit b x in
theorem fac_comm (c : K) (B : Matrix (Fin n) (Fin n) K) : (1 - c • B) * B = B * (1 - c • B) := by
  rw [Matrix.sub_mul, Matrix.mul_sub, Matrix.one_mul, Matrix.mul_one, Matrix.smul_mul, Matrix.mul_smul]

theorem BQ_comm (k : Nat) : BQ A Q b x k * (A * Q) = (A * Q) * BQ A Q b x k := by
  induction k with
  | zero => simp [BQ]
  | succ k ih =>
    unfold BQ
    rw [Matrix.mul_assoc, ih, ← Matrix.mul_assoc, fac_comm, Matrix.mul_assoc]

theorem BQ_succ' (k : Nat) : BQ A Q b x (k + 1) = BQ A Q b x k * (1 - om A Q b x k • (A * Q)) := by
  show (1 - om A Q b x k • (A * Q)) * BQ A Q b x k = _
  rw [Matrix.sub_mul, Matrix.mul_sub, Matrix.one_mul, Matrix.mul_one, Matrix.smul_mul, Matrix.mul_smul,
    BQ_comm]

theorem move (M : Matrix (Fin n) (Fin n) K) (a c : Fin n → K) : (M *ᵥ a) ⬝ᵥ c = a ⬝ᵥ (Mᵀ *ᵥ c) := by
  rw [dotProduct_comm, dotProduct_mulVec, dotProduct_comm, ← mulVec_transpose]

theorem newV_eq (k : Nat) (h : (st A Q b x k).dir (sh A b x) k = BQ A Q b x k *ᵥ (rp A Q b x k).2) :
    (st A Q b x k).newV A (byMatrix Q) (sh A b x) k = BQ A Q b x k *ᵥ ((A * Q) *ᵥ (rp A Q b x k).2) := by
  unfold Spec.BiCG.newV byMatrix
  rw [h, mulVec_mulVec, mulVec_mulVec, mulVec_mulVec, BQ_comm, Matrix.mul_assoc]

theorem mid_of (k : Nat) (h1 : (st A Q b x k).r = BQ A Q b x k *ᵥ (rp A Q b x k).1)
    (h2 : (st A Q b x k).dir (sh A b x) k = BQ A Q b x k *ᵥ (rp A Q b x k).2) :
    (st A Q b x k).mid A (byMatrix Q) (sh A b x) k = BQ A Q b x k *ᵥ (rp A Q b x (k + 1)).1 := by
  unfold Spec.BiCG.mid
  rw [newV_eq A Q b x k h2, h1]
  show _ = BQ A Q b x k *ᵥ ((rp A Q b x k).1 - al A Q b x k • ((A * Q) *ᵥ (rp A Q b x k).2))
  rw [mulVec_sub, mulVec_smul]

theorem rep (k : Nat) : (st A Q b x k).r = BQ A Q b x k *ᵥ (rp A Q b x k).1 ∧
    (st A Q b x k).dir (sh A b x) k = BQ A Q b x k *ᵥ (rp A Q b x k).2 := by
  induction k with
  | zero =>
    constructor
    · simp [BQ, rp, Spec.BiCG.at']
    · simp [BQ, rp, Spec.BiCG.at', Spec.BiCG.dir]
  | succ k ih =>
    obtain ⟨h1, h2⟩ := ih
    have hm := mid_of A Q b x k h1 h2
    have hr : (st A Q b x (k + 1)).r = BQ A Q b x (k + 1) *ᵥ (rp A Q b x (k + 1)).1 := by
      show (st A Q b x k).mid A (byMatrix Q) (sh A b x) k -
        om A Q b x k • (A *ᵥ byMatrix Q ((st A Q b x k).mid A (byMatrix Q) (sh A b x) k)) = _
      rw [hm]
      unfold byMatrix
      show _ = ((1 - om A Q b x k • (A * Q)) * BQ A Q b x k) *ᵥ _
      rw [← mulVec_mulVec, sub_mulVec, one_mulVec, smul_mulVec, ← mulVec_mulVec _ A Q]
    refine ⟨hr, ?_⟩
    show (st A Q b x (k + 1)).r + be A Q b x k • ((st A Q b x k).dir (sh A b x) k -
      om A Q b x k • (st A Q b x k).newV A (byMatrix Q) (sh A b x) k) = _
    rw [hr, newV_eq A Q b x k h2, h2]
    show _ = BQ A Q b x (k + 1) *ᵥ ((rp A Q b x (k + 1)).1 + be A Q b x k • (rp A Q b x k).2)
    rw [mulVec_add, mulVec_smul]
    congr 2
    rw [BQ_succ', ← mulVec_mulVec _ (BQ A Q b x k) (1 - om A Q b x k • (A * Q)), sub_mulVec, one_mulVec, smul_mulVec,
      mulVec_sub, mulVec_smul]

theorem mid_eq (k : Nat) :
    (st A Q b x k).mid A (byMatrix Q) (sh A b x) k = BQ A Q b x k *ᵥ (rp A Q b x (k + 1)).1 :=
  mid_of A Q b x k (rep A Q b x k).1 (rep A Q b x k).2

theorem rho_eq (k : Nat) : rho A Q b x k = (rp A Q b x k).1 ⬝ᵥ u A Q b x k := by
  unfold rho u
  rw [(rep A Q b x k).1, move]

theorem vr_eq (k : Nat) : vr A Q b x k = ((A * Q) *ᵥ (rp A Q b x k).2) ⬝ᵥ u A Q b x k := by
  unfold vr u
  rw [newV_eq A Q b x k (rep A Q b x k).2, move]

theorem u_succ (k : Nat) : u A Q b x (k + 1) = u A Q b x k - om A Q b x k • ((A * Q)ᵀ *ᵥ u A Q b x k) := by
  unfold u
  rw [BQ_succ', Matrix.transpose_mul, ← mulVec_mulVec, Matrix.transpose_sub, Matrix.transpose_one,
    Matrix.transpose_smul, sub_mulVec, one_mulVec, smul_mulVec]

/-- the orthogonality relations before iteration `k` -/
def Inv (k : Nat) : Prop :=
  ∀ j, j < k → (rp A Q b x k).1 ⬝ᵥ u A Q b x j = 0 ∧ ((A * Q) *ᵥ (rp A Q b x k).2) ⬝ᵥ u A Q b x j = 0

variable {A Q b x}

theorem Inv.rho_succ {k : Nat} (h : Inv A Q b x k) (hv : vr A Q b x k ≠ 0) :
    ∀ j, j < k + 1 → (rp A Q b x (k + 1)).1 ⬝ᵥ u A Q b x j = 0 := by
  intro j hj
  show ((rp A Q b x k).1 - al A Q b x k • ((A * Q) *ᵥ (rp A Q b x k).2)) ⬝ᵥ u A Q b x j = 0
  rw [sub_dotProduct, smul_dotProduct, smul_eq_mul]
  by_cases e : j = k
  · subst e
    rw [← rho_eq, ← vr_eq]
    show rho A Q b x j - rho A Q b x j / vr A Q b x j * vr A Q b x j = 0
    rw [div_mul_cancel₀ _ hv, sub_self]
  · obtain ⟨h1, h2⟩ := h j (by omega)
    rw [h1, h2, mul_zero, sub_zero]

theorem Inv.succ {k : Nat} (h : Inv A Q b x k) (hr : rho A Q b x k ≠ 0) (hv : vr A Q b x k ≠ 0)
    (ho : ∀ j, j ≤ k → om A Q b x j ≠ 0) : Inv A Q b x (k + 1) := by
  have h1 := h.rho_succ hv
  intro j hj
  refine ⟨h1 j hj, ?_⟩
  have hB : (A * Q)ᵀ *ᵥ u A Q b x j = (om A Q b x j)⁻¹ • (u A Q b x j - u A Q b x (j + 1)) := by
    rw [u_succ, sub_sub_cancel, smul_smul, inv_mul_cancel₀ (ho j (by omega)), one_smul]
  show ((A * Q) *ᵥ ((rp A Q b x (k + 1)).1 + be A Q b x k • (rp A Q b x k).2)) ⬝ᵥ u A Q b x j = 0
  rw [mulVec_add, mulVec_smul, add_dotProduct, smul_dotProduct, smul_eq_mul, move, hB, dotProduct_smul,
    dotProduct_sub, h1 j hj, smul_eq_mul, zero_sub]
  by_cases e : j = k
  · subst e
    rw [← rho_eq, ← vr_eq]
    have ha : al A Q b x j = rho A Q b x j / vr A Q b x j := rfl
    unfold be
    rw [ha]
    have := ho j (le_refl _)
    field_simp
    ring
  · rw [h1 (j + 1) (by omega), (h j (by omega)).2, mul_zero, neg_zero, mul_zero, add_zero]

theorem inv_all (k : Nat) (hr : ∀ j, j < k → rho A Q b x j ≠ 0) (hv : ∀ j, j < k → vr A Q b x j ≠ 0)
    (ho : ∀ j, j < k → om A Q b x j ≠ 0) : Inv A Q b x k := by
  induction k with
  | zero => intro j hj; omega
  | succ k ih =>
    exact (ih (fun j hj => hr j (by omega)) (fun j hj => hv j (by omega)) (fun j hj => ho j (by omega))).succ
      (hr k (by omega)) (hv k (by omega)) (fun j hj => ho j (by omega))

/-- After `n` steps the half-step residual is zero. -/
theorem half_step (hn : 0 < n) (hr : ∀ j, j < n → rho A Q b x j ≠ 0) (hv : ∀ j, j < n → vr A Q b x j ≠ 0)
    (ho : ∀ j, j + 1 < n → om A Q b x j ≠ 0) :
    (st A Q b x (n - 1)).mid A (byMatrix Q) (sh A b x) (n - 1) = 0 := by
  have hI : ∀ k, k < n → Inv A Q b x k := fun k hk => inv_all k (fun j hj => hr j (by omega))
    (fun j hj => hv j (by omega)) (fun j hj => ho j (by omega))
  have hlast := (hI (n - 1) (by omega)).rho_succ (hv (n - 1) (by omega))
  set R : Matrix (Fin n) (Fin n) K := Matrix.of fun k i => (rp A Q b x k).1 i with hR
  set U : Matrix (Fin n) (Fin n) K := Matrix.of fun i j => u A Q b x j i with hU
  have hG : ∀ k j : Fin n, (R * U) k j = (rp A Q b x k).1 ⬝ᵥ u A Q b x j := by
    intro k j; rw [Matrix.mul_apply]; rfl
  have htri : (R * U).IsUpperTriangular := by
    intro k j hjk
    rw [hG]
    exact (hI k k.2 j hjk).1
  have hdet : (R * U).det ≠ 0 := by
    rw [det_of_isUpperTriangular htri, Finset.prod_ne_zero_iff]
    intro k _
    rw [hG, ← rho_eq]
    exact hr k k.2
  have hU0 : U.det ≠ 0 := by
    rw [Matrix.det_mul] at hdet
    exact (mul_ne_zero_iff.mp hdet).2
  have hz : (rp A Q b x (n - 1 + 1)).1 ᵥ* U = 0 := by
    funext j
    exact hlast j (by omega)
  rw [mid_eq, eq_zero_of_vecMul_eq_zero hU0 hz, mulVec_zero]

end Verif.Solver.BiCGT
