import Verif.Props.CGTerm
import Verif.Spec.RateSpec
import Mathlib.LinearAlgebra.Span.Basic
import Mathlib.LinearAlgebra.Matrix.DotProduct

/-!
C102: in exact arithmetic CG converges at the textbook rate. This file: optimality over Krylov spaces and the
simple rate, in every ordered field. `Props/CGCheb.lean`: the rate with the square root of the condition number.
-/

set_option linter.unusedSectionVars false

namespace Verif.Solver

open Verif.Spec Matrix

variable {α K : Type} {n : Nat} [Field K] [LinearOrder K] [IsStrictOrderedRing K]

variable {A Q : Matrix (Fin n) (Fin n) K} {b x xs : Fin n → K}

theorem energy_nonneg (hA : SPD A) (xs y : Fin n → K) : 0 ≤ energy A xs y := by
  unfold energy
  by_cases h : xs - y = 0
  · rw [h, zero_dotProduct]
  · exact le_of_lt (hA.2 _ h)

theorem CG.zero_after {k : Nat} (h : (Spec.CG.at A (byMatrix Q) b x k).r = 0) :
    (Spec.CG.at A (byMatrix Q) b x (k + 1)).r = 0 ∧
      (Spec.CG.at A (byMatrix Q) b x (k + 1)).x = (Spec.CG.at A (byMatrix Q) b x k).x := by
  have hz : (Spec.CG.at A (byMatrix Q) b x k).z = 0 := by rw [CG.z_eq, h, mulVec_zero]
  have hl : (Spec.CG.at A (byMatrix Q) b x k).len A = 0 := by
    unfold Spec.CG.len
    rw [hz, zero_dotProduct, zero_div]
  constructor
  · show (Spec.CG.at A (byMatrix Q) b x k).r - (Spec.CG.at A (byMatrix Q) b x k).len A • _ = 0
    rw [hl, h, zero_smul, sub_zero]
  · show (Spec.CG.at A (byMatrix Q) b x k).x + (Spec.CG.at A (byMatrix Q) b x k).len A • _ = _
    rw [hl, zero_smul, add_zero]

theorem CG.zero_later {k l : Nat} (hkl : k ≤ l) (h : (Spec.CG.at A (byMatrix Q) b x k).r = 0) :
    (Spec.CG.at A (byMatrix Q) b x l).r = 0 := by
  induction l, hkl using Nat.le_induction with
  | base => exact h
  | succ l _ ih => exact (CG.zero_after ih).1

/-- earlier directions are orthogonal to the residual -/
theorem CG.p_orth (hA : SPD A) (hQ : SPD Q) (k : Nat) (hr : ∀ i, i < k → (Spec.CG.at A (byMatrix Q) b x i).r ≠ 0)
    (i : Nat) (hi : i < k) :
    (Spec.CG.at A (byMatrix Q) b x i).p ⬝ᵥ (Spec.CG.at A (byMatrix Q) b x k).r = 0 := by
  induction k with
  | zero => omega
  | succ k ih =>
    have hinv := CG.inv_all (b := b) (x := x) hA hQ k (fun i hi => hr i (by omega))
    have hrr : (Spec.CG.at A (byMatrix Q) b x (k + 1)).r = (Spec.CG.at A (byMatrix Q) b x k).r -
      (Spec.CG.at A (byMatrix Q) b x k).len A • (A *ᵥ (Spec.CG.at A (byMatrix Q) b x k).p) := rfl
    rw [hrr, dotProduct_sub, dotProduct_smul, smul_eq_mul]
    rcases Nat.lt_or_ge i k with h | h
    · rw [ih (fun i hi => hr i (by omega)) h, hinv.conj i k h (le_refl _), mul_zero, sub_zero]
    · have : i = k := by omega
      subst this
      rw [hinv.diag i (le_refl _)]
      have hq := hinv.pq_pos hA hQ (le_refl _) (hr i (by omega))
      have hl : (Spec.CG.at A (byMatrix Q) b x i).len A *
          ((Spec.CG.at A (byMatrix Q) b x i).p ⬝ᵥ (A *ᵥ (Spec.CG.at A (byMatrix Q) b x i).p)) =
          (Spec.CG.at A (byMatrix Q) b x i).z ⬝ᵥ (Spec.CG.at A (byMatrix Q) b x i).r :=
        div_mul_cancel₀ _ (ne_of_gt hq)
      rw [hl, sub_self]

/-- the space of the first `k` directions -/
def CG.dirs (A Q : Matrix (Fin n) (Fin n) K) (b x : Fin n → K) (k : Nat) : Submodule K (Fin n → K) :=
  Submodule.span K {v | ∃ i, i < k ∧ v = (Spec.CG.at A (byMatrix Q) b x i).p}

theorem CG.dirs_mono {k l : Nat} (h : k ≤ l) : CG.dirs A Q b x k ≤ CG.dirs A Q b x l := by
  apply Submodule.span_mono
  rintro v ⟨i, hi, rfl⟩
  exact ⟨i, by omega, rfl⟩

theorem CG.p_mem {i k : Nat} (h : i < k) : (Spec.CG.at A (byMatrix Q) b x i).p ∈ CG.dirs A Q b x k :=
  Submodule.subset_span ⟨i, h, rfl⟩

theorem CG.dirs_orth (hA : SPD A) (hQ : SPD Q) (k : Nat)
    (hr : ∀ i, i < k → (Spec.CG.at A (byMatrix Q) b x i).r ≠ 0) {d : Fin n → K} (hd : d ∈ CG.dirs A Q b x k) :
    d ⬝ᵥ (Spec.CG.at A (byMatrix Q) b x k).r = 0 := by
  unfold CG.dirs at hd
  induction hd using Submodule.span_induction with
  | mem v hv =>
    obtain ⟨i, hi, rfl⟩ := hv
    exact CG.p_orth hA hQ k hr i hi
  | zero => exact zero_dotProduct _
  | add u v _ _ hu hv => rw [add_dotProduct, hu, hv, add_zero]
  | smul c v _ hv => rw [smul_dotProduct, hv, smul_zero]

theorem CG.x_mem (k : Nat) : (Spec.CG.at A (byMatrix Q) b x k).x - x ∈ CG.dirs A Q b x k := by
  induction k with
  | zero =>
    show x - x ∈ _
    rw [sub_self]; exact Submodule.zero_mem _
  | succ k ih =>
    have : (Spec.CG.at A (byMatrix Q) b x (k + 1)).x - x = ((Spec.CG.at A (byMatrix Q) b x k).x - x) +
        (Spec.CG.at A (byMatrix Q) b x k).len A • (Spec.CG.at A (byMatrix Q) b x k).p := by
      show (Spec.CG.at A (byMatrix Q) b x k).x +
        (Spec.CG.at A (byMatrix Q) b x k).len A • (Spec.CG.at A (byMatrix Q) b x k).p - x = _
      rw [add_sub_right_comm]
    rw [this]
    exact Submodule.add_mem _ (CG.dirs_mono (Nat.le_succ k) ih) (Submodule.smul_mem _ _ (CG.p_mem (Nat.lt_succ_self k)))

theorem CG.z_mem (k : Nat) : (Spec.CG.at A (byMatrix Q) b x k).z ∈ CG.dirs A Q b x (k + 1) := by
  cases k with
  | zero => exact CG.p_mem (i := 0) (by omega)
  | succ k =>
    obtain ⟨be, h⟩ := CG.z_succ (A := A) (Q := Q) (b := b) (x := x) k
    rw [h]
    exact Submodule.sub_mem _ (CG.p_mem (by omega)) (Submodule.smul_mem _ _ (CG.p_mem (by omega)))

/-- one multiplication with the preconditioned matrix needs one more direction -/
theorem CG.dirs_mul (hA : SPD A) (hQ : SPD Q) (k : Nat)
    (hr : ∀ i, i < k → (Spec.CG.at A (byMatrix Q) b x i).r ≠ 0) {d : Fin n → K} (hd : d ∈ CG.dirs A Q b x k) :
    (Q * A) *ᵥ d ∈ CG.dirs A Q b x (k + 1) := by
  unfold CG.dirs at hd
  induction hd using Submodule.span_induction with
  | mem v hv =>
    obtain ⟨i, hi, rfl⟩ := hv
    have hinv := CG.inv_all (b := b) (x := x) hA hQ i (fun j hj => hr j (by omega))
    have hq := hinv.pq_pos hA hQ (le_refl _) (hr i hi)
    have hz := CG.zr_pos (A := A) hQ (hr i hi)
    have hl : (Spec.CG.at A (byMatrix Q) b x i).len A ≠ 0 := div_ne_zero (ne_of_gt hz) (ne_of_gt hq)
    have e : (Spec.CG.at A (byMatrix Q) b x i).len A • ((Q * A) *ᵥ (Spec.CG.at A (byMatrix Q) b x i).p) =
        (Spec.CG.at A (byMatrix Q) b x i).z - (Spec.CG.at A (byMatrix Q) b x (i + 1)).z := by
      rw [CG.z_eq, CG.z_eq, ← mulVec_sub, ← mulVec_mulVec, ← mulVec_smul]
      congr 1
      have hrr : (Spec.CG.at A (byMatrix Q) b x (i + 1)).r = (Spec.CG.at A (byMatrix Q) b x i).r -
        (Spec.CG.at A (byMatrix Q) b x i).len A • (A *ᵥ (Spec.CG.at A (byMatrix Q) b x i).p) := rfl
      rw [hrr, sub_sub_cancel]
    have e2 : (Q * A) *ᵥ (Spec.CG.at A (byMatrix Q) b x i).p = ((Spec.CG.at A (byMatrix Q) b x i).len A)⁻¹ •
        ((Spec.CG.at A (byMatrix Q) b x i).z - (Spec.CG.at A (byMatrix Q) b x (i + 1)).z) := by
      rw [← e, smul_smul, inv_mul_cancel₀ hl, one_smul]
    rw [e2]
    exact Submodule.smul_mem _ _ (Submodule.sub_mem _ (CG.dirs_mono (by omega) (CG.z_mem i))
      (CG.dirs_mono (by omega) (CG.z_mem (i + 1))))
  | zero => rw [mulVec_zero]; exact Submodule.zero_mem _
  | add u v _ _ hu hv => rw [mulVec_add]; exact Submodule.add_mem _ hu hv
  | smul c v _ hv => rw [mulVec_smul]; exact Submodule.smul_mem _ _ hv

theorem CG.krylov_mem (hA : SPD A) (hQ : SPD Q) (k : Nat)
    (hr : ∀ i, i < k → (Spec.CG.at A (byMatrix Q) b x i).r ≠ 0) (j : Nat) (hj : j < k) :
    (Q * A) ^ j *ᵥ (Q *ᵥ (b - A *ᵥ x)) ∈ CG.dirs A Q b x (j + 1) := by
  induction j with
  | zero =>
    rw [pow_zero, one_mulVec]
    exact CG.z_mem 0
  | succ j ih =>
    rw [pow_succ', ← mulVec_mulVec]
    exact CG.dirs_mul hA hQ (j + 1) (fun i hi => hr i (by omega)) (ih (by omega))

/-- the energy of the error after a change `d` orthogonal to the residual -/
theorem energy_add (hA : SPD A) {y r : Fin n → K} (hs : A *ᵥ xs = b) (hr : r = b - A *ᵥ y) (d : Fin n → K) :
    energy A xs (y + d) = energy A xs y - 2 * (d ⬝ᵥ r) + d ⬝ᵥ (A *ᵥ d) := by
  have e : A *ᵥ (xs - y) = r := by rw [mulVec_sub, hs, hr]
  unfold energy
  rw [show xs - (y + d) = (xs - y) - d by rw [sub_sub], mulVec_sub, e, sub_dotProduct, dotProduct_sub, dotProduct_sub,
    spd_symm hA (xs - y) d, e]
  ring

theorem CG.energy_zero (hs : A *ᵥ xs = b) {k : Nat} (h : (Spec.CG.at A (byMatrix Q) b x k).r = 0) :
    energy A xs (Spec.CG.at A (byMatrix Q) b x k).x = 0 := by
  unfold energy
  rw [CG.residual] at h
  rw [mulVec_sub, hs, h, dotProduct_zero]

/-- **C102, optimality**: the error of the iterate `x_k` of CG (symmetric positive definite matrix and
preconditioner) is at most that of every vector that differs from the initial guess by a combination of the first
`k` Krylov vectors. -/
theorem C102_optimal (hA : SPD A) (hQ : SPD Q) (b x xs : Fin n → K) (hs : A *ᵥ xs = b) (k : Nat) (c : Fin k → K) :
    energy A xs (Spec.CG.at A (byMatrix Q) b x k).x ≤
      energy A xs (x + ∑ j : Fin k, c j • ((Q * A) ^ (j : Nat) *ᵥ (Q *ᵥ (b - A *ᵥ x)))) := by
  by_cases hr : ∀ i, i < k → (Spec.CG.at A (byMatrix Q) b x i).r ≠ 0
  · set d := ∑ j : Fin k, c j • ((Q * A) ^ (j : Nat) *ᵥ (Q *ᵥ (b - A *ᵥ x))) with hd
    have h1 : d ∈ CG.dirs A Q b x k := by
      rw [hd]
      refine Submodule.sum_mem _ (fun j _ => Submodule.smul_mem _ _ ?_)
      exact CG.dirs_mono (by omega) (CG.krylov_mem hA hQ k hr j j.2)
    have h2 : d - ((Spec.CG.at A (byMatrix Q) b x k).x - x) ∈ CG.dirs A Q b x k :=
      Submodule.sub_mem _ h1 (CG.x_mem k)
    have h3 := CG.dirs_orth hA hQ k hr h2
    have e : x + d = (Spec.CG.at A (byMatrix Q) b x k).x + (d - ((Spec.CG.at A (byMatrix Q) b x k).x - x)) := by
      abel
    rw [e, energy_add hA hs (CG.residual ..), h3]
    have h4 : 0 ≤ (d - ((Spec.CG.at A (byMatrix Q) b x k).x - x)) ⬝ᵥ
        (A *ᵥ (d - ((Spec.CG.at A (byMatrix Q) b x k).x - x))) := by
      by_cases h : d - ((Spec.CG.at A (byMatrix Q) b x k).x - x) = 0
      · rw [h, zero_dotProduct]
      · exact le_of_lt (hA.2 _ h)
    linarith
  · push Not at hr
    obtain ⟨i, hi, h0⟩ := hr
    rw [CG.energy_zero hs (CG.zero_later (le_of_lt hi) h0)]
    exact energy_nonneg hA _ _

/-- **C102, termination**: if a combination of `v, QA v, ..., (QA)^k v` that starts with `v` vanishes for the initial
error `v` (in particular if the preconditioned matrix has `k` distinct eigenvalues), CG has the solution after `k`
iterations. -/
theorem C102_terminates (hA : SPD A) (hQ : SPD Q) (b x xs : Fin n → K) (hs : A *ᵥ xs = b) (k : Nat) (c : Fin k → K)
    (hc : (xs - x) + ∑ j : Fin k, c j • ((Q * A) ^ ((j : Nat) + 1) *ᵥ (xs - x)) = 0) :
    (Spec.CG.at A (byMatrix Q) b x k).x = xs := by
  have h := C102_optimal hA hQ b x xs hs k (fun j => - c j)
  have e : xs - (x + ∑ j : Fin k, (- c j) • ((Q * A) ^ (j : Nat) *ᵥ (Q *ᵥ (b - A *ᵥ x)))) = 0 := by
    rw [← hc, ← sub_sub, sub_eq_add_neg (xs - x), ← Finset.sum_neg_distrib]
    congr 1
    refine Finset.sum_congr rfl (fun j _ => ?_)
    rw [neg_smul, neg_neg, pow_succ, ← mulVec_mulVec, ← mulVec_mulVec _ Q A, mulVec_sub A, hs]
  have e2 : energy A xs (x + ∑ j : Fin k, (- c j) • ((Q * A) ^ (j : Nat) *ᵥ (Q *ᵥ (b - A *ᵥ x)))) = 0 := by
    unfold energy
    rw [e, zero_dotProduct]
  rw [e2] at h
  by_contra hne
  have : 0 < energy A xs (Spec.CG.at A (byMatrix Q) b x k).x := hA.2 _ (fun h0 => hne (sub_eq_zero.1 h0).symm)
  linarith

/-- the scalar product is positive definite -/
theorem dot_self_nonneg (v : Fin n → K) : 0 ≤ v ⬝ᵥ v :=
  Finset.sum_nonneg (fun i _ => mul_self_nonneg (v i))

theorem dot_self_pos {v : Fin n → K} (h : v ≠ 0) : 0 < v ⬝ᵥ v :=
  lt_of_le_of_ne (dot_self_nonneg v) (fun h0 => h (dotProduct_self_eq_zero.1 h0.symm))

/-- Cauchy-Schwarz for a symmetric form that is not negative -/
theorem form_cs {B : Matrix (Fin n) (Fin n) K} (hB : SPD B) (u v : Fin n → K) :
    (u ⬝ᵥ (B *ᵥ v)) ^ 2 ≤ (u ⬝ᵥ (B *ᵥ u)) * (v ⬝ᵥ (B *ᵥ v)) := by
  by_cases hv : v = 0
  · rw [hv, mulVec_zero, dotProduct_zero, dotProduct_zero]; simp
  have h0 := hB.2 v hv
  set a := v ⬝ᵥ (B *ᵥ v) with ha
  set t := u ⬝ᵥ (B *ᵥ v) with ht
  have h1 : 0 ≤ (a • u - t • v) ⬝ᵥ (B *ᵥ (a • u - t • v)) := by
    by_cases h : a • u - t • v = 0
    · rw [h, zero_dotProduct]
    · exact le_of_lt (hB.2 _ h)
  have h2 : (a • u - t • v) ⬝ᵥ (B *ᵥ (a • u - t • v)) = a * (a * (u ⬝ᵥ (B *ᵥ u)) - t ^ 2) := by
    rw [mulVec_sub, mulVec_smul, mulVec_smul, sub_dotProduct, dotProduct_sub, dotProduct_sub]
    simp only [smul_dotProduct, dotProduct_smul, smul_eq_mul]
    rw [spd_symm hB v u, ← ht, ← ha]
    ring
  rw [h2] at h1
  have h3 := nonneg_of_mul_nonneg_right h1 h0
  linarith

theorem SPD.one : SPD (1 : Matrix (Fin n) (Fin n) K) := by
  refine ⟨Matrix.transpose_one, fun v hv => ?_⟩
  rw [one_mulVec]
  exact dot_self_pos hv

/-- without preconditioner -/
theorem Between.precond (hA : SPD A) {m M : K} (hm : 0 < m) (h : Between A m M) : PrecondBetween A 1 m M := by
  intro v
  rw [one_mulVec]
  constructor
  · by_cases hv : v = 0
    · subst hv; simp
    have h1 := form_cs (SPD.one (K := K)) v (A *ᵥ v)
    rw [one_mulVec, one_mulVec] at h1
    have h2 := (h v).1
    have h3 := hA.2 v hv
    have h4 := dot_self_nonneg (A *ᵥ v)
    by_contra hlt
    push Not at hlt
    have h5 : (v ⬝ᵥ v) * (A *ᵥ v ⬝ᵥ A *ᵥ v) * m ≤ (v ⬝ᵥ (A *ᵥ v)) * (A *ᵥ v ⬝ᵥ A *ᵥ v) := by
      have := mul_le_mul_of_nonneg_right h2 h4
      linarith
    have h6 : (v ⬝ᵥ (A *ᵥ v)) * (A *ᵥ v ⬝ᵥ A *ᵥ v) < (v ⬝ᵥ (A *ᵥ v)) * (m * (v ⬝ᵥ (A *ᵥ v))) :=
      mul_lt_mul_of_pos_left hlt h3
    have h7 := mul_le_mul_of_nonneg_right h1 (le_of_lt hm)
    nlinarith
  · by_cases hv : A *ᵥ v = 0
    · rw [hv]; simp
    have h1 := form_cs hA v (A *ᵥ v)
    have h2 := (h (A *ᵥ v)).2
    have h4 := dot_self_pos hv
    have e : v ⬝ᵥ (A *ᵥ (A *ᵥ v)) = A *ᵥ v ⬝ᵥ A *ᵥ v := spd_symm hA v (A *ᵥ v)
    rw [e] at h1
    have h5 : 0 ≤ v ⬝ᵥ (A *ᵥ v) := by
      by_cases h : v = 0
      · rw [h, zero_dotProduct]
      · exact le_of_lt (hA.2 _ h)
    have h6 := mul_le_mul_of_nonneg_left h2 h5
    have h7 : (A *ᵥ v ⬝ᵥ A *ᵥ v) * (A *ᵥ v ⬝ᵥ A *ᵥ v) ≤ (M * (v ⬝ᵥ (A *ᵥ v))) * (A *ᵥ v ⬝ᵥ A *ᵥ v) := by
      nlinarith
    exact le_of_mul_le_mul_right h7 h4

/-- **C102, simple rate**: the error never grows, and every iteration reduces it by the factor `1 - m / M`. -/
theorem C102_rate_simple (hA : SPD A) (hQ : SPD Q) {m M : K} (hM : 0 < M) (hb : PrecondBetween A Q m M)
    (b x xs : Fin n → K) (hs : A *ᵥ xs = b) (k : Nat) :
    energy A xs (Spec.CG.at A (byMatrix Q) b x (k + 1)).x ≤ energy A xs (Spec.CG.at A (byMatrix Q) b x k).x ∧
    energy A xs (Spec.CG.at A (byMatrix Q) b x (k + 1)).x ≤
      (1 - m / M) * energy A xs (Spec.CG.at A (byMatrix Q) b x k).x := by
  by_cases h0 : (Spec.CG.at A (byMatrix Q) b x k).r = 0
  · rw [(CG.zero_after h0).2, CG.energy_zero hs h0, mul_zero]
    exact ⟨le_refl _, le_refl _⟩
  have hr : ∀ i, i < k + 1 → (Spec.CG.at A (byMatrix Q) b x i).r ≠ 0 := by
    intro i hi h
    exact h0 (CG.zero_later (by omega) h)
  -- every step `x_k + t z_k` is at most as good
  have hopt : ∀ t : K, energy A xs (Spec.CG.at A (byMatrix Q) b x (k + 1)).x ≤
      energy A xs ((Spec.CG.at A (byMatrix Q) b x k).x + t • (Spec.CG.at A (byMatrix Q) b x k).z) := by
    intro t
    have h1 : (Spec.CG.at A (byMatrix Q) b x k).x + t • (Spec.CG.at A (byMatrix Q) b x k).z -
        (Spec.CG.at A (byMatrix Q) b x (k + 1)).x ∈ CG.dirs A Q b x (k + 1) := by
      have e : (Spec.CG.at A (byMatrix Q) b x k).x + t • (Spec.CG.at A (byMatrix Q) b x k).z -
          (Spec.CG.at A (byMatrix Q) b x (k + 1)).x = ((Spec.CG.at A (byMatrix Q) b x k).x - x) +
          t • (Spec.CG.at A (byMatrix Q) b x k).z - ((Spec.CG.at A (byMatrix Q) b x (k + 1)).x - x) := by abel
      rw [e]
      exact Submodule.sub_mem _ (Submodule.add_mem _ (CG.dirs_mono (Nat.le_succ k) (CG.x_mem k))
        (Submodule.smul_mem _ _ (CG.z_mem k))) (CG.x_mem (k + 1))
    have h2 := CG.dirs_orth hA hQ (k + 1) hr h1
    set d := (Spec.CG.at A (byMatrix Q) b x k).x + t • (Spec.CG.at A (byMatrix Q) b x k).z -
        (Spec.CG.at A (byMatrix Q) b x (k + 1)).x with hd
    have e : (Spec.CG.at A (byMatrix Q) b x k).x + t • (Spec.CG.at A (byMatrix Q) b x k).z =
      (Spec.CG.at A (byMatrix Q) b x (k + 1)).x + d := by rw [hd]; abel
    rw [e, energy_add hA hs (CG.residual ..), h2]
    have h4 : 0 ≤ d ⬝ᵥ (A *ᵥ d) := by
      by_cases h : d = 0
      · rw [h, zero_dotProduct]
      · exact le_of_lt (hA.2 _ h)
    linarith
  have hn := energy_nonneg hA xs (Spec.CG.at A (byMatrix Q) b x k).x
  constructor
  · have := hopt 0
    rwa [zero_smul, add_zero] at this
  · refine le_trans (hopt (1 / M)) ?_
    rw [energy_add hA hs (CG.residual ..)]
    set e := xs - (Spec.CG.at A (byMatrix Q) b x k).x with he
    have hAe : A *ᵥ e = (Spec.CG.at A (byMatrix Q) b x k).r := by rw [he, mulVec_sub, hs, CG.residual]
    have hE : energy A xs (Spec.CG.at A (byMatrix Q) b x k).x = e ⬝ᵥ (A *ᵥ e) := rfl
    have h1 := (hb e).1
    have h2 := (hb (Spec.CG.at A (byMatrix Q) b x k).z).2
    set z := (Spec.CG.at A (byMatrix Q) b x k).z with hz
    have hzr : z = Q *ᵥ (A *ᵥ e) := by rw [hAe, hz, CG.z_eq]
    have h3 : (A *ᵥ e) ⬝ᵥ (Q *ᵥ (A *ᵥ e)) = z ⬝ᵥ (Spec.CG.at A (byMatrix Q) b x k).r := by
      rw [← hzr, hAe, dotProduct_comm]
    -- z . A z ≤ M (z . r)
    have h4 : z ⬝ᵥ (A *ᵥ z) ≤ M * (z ⬝ᵥ (Spec.CG.at A (byMatrix Q) b x k).r) := by
      have hcs := form_cs hQ (A *ᵥ e) (A *ᵥ z)
      have e1 : A *ᵥ e ⬝ᵥ Q *ᵥ (A *ᵥ z) = z ⬝ᵥ (A *ᵥ z) := by
        rw [spd_symm hQ, ← hzr, dotProduct_comm]
      rw [e1, h3] at hcs
      by_cases hz0 : z = 0
      · rw [hz0, zero_dotProduct, zero_dotProduct, mul_zero]
      have hpos := hA.2 z hz0
      have hzr0 : 0 ≤ z ⬝ᵥ (Spec.CG.at A (byMatrix Q) b x k).r := le_of_lt (CG.zr_pos hQ h0)
      have := mul_le_mul_of_nonneg_left h2 hzr0
      have h5 : (z ⬝ᵥ (A *ᵥ z)) * (z ⬝ᵥ (A *ᵥ z)) ≤
          (M * (z ⬝ᵥ (Spec.CG.at A (byMatrix Q) b x k).r)) * (z ⬝ᵥ (A *ᵥ z)) := by nlinarith
      exact le_of_mul_le_mul_right h5 hpos
    rw [h3] at h1
    rw [smul_dotProduct, mulVec_smul, smul_dotProduct, dotProduct_smul, smul_eq_mul, smul_eq_mul, smul_eq_mul, hE]
    have h5 : 1 / M * (1 / M * (z ⬝ᵥ (A *ᵥ z))) ≤ 1 / M * (z ⬝ᵥ (Spec.CG.at A (byMatrix Q) b x k).r) := by
      apply mul_le_mul_of_nonneg_left _ (le_of_lt (one_div_pos.2 hM))
      rw [one_div, inv_mul_le_iff₀ hM]
      exact h4
    have h6 : m / M * (e ⬝ᵥ (A *ᵥ e)) ≤ 1 / M * (z ⬝ᵥ (Spec.CG.at A (byMatrix Q) b x k).r) := by
      rw [div_mul_eq_mul_div, one_div, inv_mul_eq_div]
      exact div_le_div_of_nonneg_right h1 (le_of_lt hM)
    linarith

end Verif.Solver
