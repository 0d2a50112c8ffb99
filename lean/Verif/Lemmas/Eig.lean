import Verif.Spec.EigSpec
import Verif.Props.Gen
import Mathlib.Analysis.SpecialFunctions.Trigonometric.Basic
import Mathlib.LinearAlgebra.Eigenspace.Basic
import Mathlib.LinearAlgebra.Matrix.ToLin
import Mathlib.LinearAlgebra.Dimension.Constructions
import Mathlib.Tactic.Ring
import Mathlib.Tactic.Linarith
import Mathlib.Tactic.LinearCombination

namespace Verif
namespace Gen

open Spec Real

/-- an `M × M` matrix with `M` distinct known eigenvalues has no others -/
theorem eigenvalues_complete {M : Nat} {A : Nat → Nat → ℝ} {lam : Nat → ℝ}
    (h : ∀ k, k < M → IsEigenvalue M A (lam k))
    (hinj : ∀ k l, k < M → l < M → lam k = lam l → k = l) {μ : ℝ} (hμ : IsEigenvalue M A μ) :
    ∃ k, k < M ∧ μ = lam k := by
  by_contra hno
  have hno' : ∀ k, k < M → μ ≠ lam k := fun k hk e => hno ⟨k, hk, e⟩
  let T : Module.End ℝ (Fin M → ℝ) := Matrix.toLin' (Matrix.of fun i j : Fin M => A i j)
  have vec : ∀ {ν : ℝ}, IsEigenvalue M A ν → ∃ v : Fin M → ℝ, T.HasEigenvector ν v := by
    rintro ν ⟨v, ⟨i, hi, hne⟩, hv⟩
    refine ⟨fun j => v j, ?_⟩
    rw [Module.End.hasEigenvector_iff, Module.End.mem_eigenspace_iff]
    refine ⟨?_, fun h0 => hne (congrFun h0 ⟨i, hi⟩)⟩
    funext k
    have := hv k k.2
    simp only [T, Matrix.toLin'_apply, Matrix.mulVec, dotProduct, Matrix.of_apply, Pi.smul_apply,
      smul_eq_mul]
    rw [← this, Finset.sum_range]
  let ev : Fin (M + 1) → ℝ := fun k => if k.1 < M then lam k else μ
  have hev : ∀ k, IsEigenvalue M A (ev k) := by
    intro k
    simp only [ev]
    split
    · next hk => exact h k hk
    · exact hμ
  have hevinj : Function.Injective ev := by
    intro k l hkl
    simp only [ev] at hkl
    split at hkl <;> split at hkl
    · next h1 h2 => exact Fin.ext (hinj _ _ h1 h2 hkl)
    · next h1 h2 => exact absurd hkl.symm (hno' _ h1)
    · next h1 h2 => exact absurd hkl (hno' _ h2)
    · next h1 h2 => exact Fin.ext (by omega)
  choose v hv using fun k => vec (hev k)
  have li := Module.End.eigenvectors_linearIndependent' T ev hevinj v hv
  have := li.fintype_card_le_finrank
  simp at this

theorem sum_pick {M : Nat} {z : Int} (w : Int → ℝ) :
    ∑ j ∈ Finset.range M, (if (j : Int) = z then w j else 0) = if 0 ≤ z ∧ z < M then w z else 0 := by
  split
  · next h =>
    obtain ⟨k, rfl⟩ := Int.eq_ofNat_of_zero_le h.1
    rw [Finset.sum_eq_single k]
    · simp
    · intro b _ hb; rw [if_neg (by omega)]
    · intro hk; exact absurd (Finset.mem_range.2 (by omega)) hk
  · next h =>
    apply Finset.sum_eq_zero
    intro j hj
    have := Finset.mem_range.1 hj
    rw [if_neg (by omega)]

/-- `sin (k θ)` for integer `k` -/
noncomputable def sn (θ : ℝ) (k : Int) : ℝ := sin (k * θ)

theorem sn_zero (θ : ℝ) : sn θ 0 = 0 := by simp [sn]
theorem sn_neg (θ : ℝ) (k : Int) : sn θ (-k) = - sn θ k := by
  simp [sn, neg_mul]

theorem sn_rec (θ : ℝ) (k d : Int) : sn θ (k - d) + sn θ (k + d) = 2 * cos (d * θ) * sn θ k := by
  unfold sn
  push_cast
  rw [sub_mul, add_mul, sin_sub, sin_add]; ring

/-- reflection at `m` when `sin (m θ) = 0` -/
theorem sn_reflect {θ : ℝ} {m : Int} (h : sn θ m = 0) (d : Int) : sn θ (m + d) = - sn θ (m - d) := by
  have := sn_rec θ m d
  rw [h] at this
  linarith

theorem penta_row {M : Nat} (h2 : 2 ≤ M) (a0 a1 a2 : ℝ) {θ : ℝ} (hθ : sn θ (M + 1) = 0) {i : Nat}
    (hi : i < M) :
    ∑ j ∈ Finset.range M, (if InBand 2 i j then thVal M a0 a1 a2 i j else 0) * sn θ (j + 1) =
      (a0 + 2 * (a1 * cos θ + a2 * cos (2 * θ))) * sn θ (i + 1) := by
  have hsplit : ∀ j ∈ Finset.range M,
      (if InBand 2 i j then thVal M a0 a1 a2 i j else 0) * sn θ (j + 1) =
      (if (j : Int) = i then (fun z : Int => (a0 - if i = 0 ∨ i = M - 1 then a2 else 0) * sn θ (z + 1)) j
        else 0) +
      (if (j : Int) = i - 1 then (fun z : Int => a1 * sn θ (z + 1)) j else 0) +
      (if (j : Int) = i + 1 then (fun z : Int => a1 * sn θ (z + 1)) j else 0) +
      (if (j : Int) = i - 2 then (fun z : Int => a2 * sn θ (z + 1)) j else 0) +
      (if (j : Int) = i + 2 then (fun z : Int => a2 * sn θ (z + 1)) j else 0) := by
    intro j _
    by_cases c0 : i = j
    · rw [if_pos (show (j : Int) = i by omega),
        if_neg (show ¬ (j : Int) = i - 1 by omega),
        if_neg (show ¬ (j : Int) = i + 1 by omega),
        if_neg (show ¬ (j : Int) = i - 2 by omega),
        if_neg (show ¬ (j : Int) = i + 2 by omega),
        if_pos (show InBand 2 i j from ⟨by omega, by omega⟩),
        thVal,
        if_pos (show i = j by omega)]
      split <;> simp
    by_cases c1 : i = j + 1
    · rw [if_neg (show ¬ (j : Int) = i by omega),
        if_pos (show (j : Int) = i - 1 by omega),
        if_neg (show ¬ (j : Int) = i + 1 by omega),
        if_neg (show ¬ (j : Int) = i - 2 by omega),
        if_neg (show ¬ (j : Int) = i + 2 by omega),
        if_pos (show InBand 2 i j from ⟨by omega, by omega⟩),
        thVal,
        if_neg (show ¬ i = j by omega),
        if_pos (show i = j + 1 ∨ j = i + 1 by omega)]
      simp
    by_cases c2 : j = i + 1
    · rw [if_neg (show ¬ (j : Int) = i by omega),
        if_neg (show ¬ (j : Int) = i - 1 by omega),
        if_pos (show (j : Int) = i + 1 by omega),
        if_neg (show ¬ (j : Int) = i - 2 by omega),
        if_neg (show ¬ (j : Int) = i + 2 by omega),
        if_pos (show InBand 2 i j from ⟨by omega, by omega⟩),
        thVal,
        if_neg (show ¬ i = j by omega),
        if_pos (show i = j + 1 ∨ j = i + 1 by omega)]
      simp
    by_cases c3 : i = j + 2
    · rw [if_neg (show ¬ (j : Int) = i by omega),
        if_neg (show ¬ (j : Int) = i - 1 by omega),
        if_neg (show ¬ (j : Int) = i + 1 by omega),
        if_pos (show (j : Int) = i - 2 by omega),
        if_neg (show ¬ (j : Int) = i + 2 by omega),
        if_pos (show InBand 2 i j from ⟨by omega, by omega⟩),
        thVal,
        if_neg (show ¬ i = j by omega),
        if_neg (show ¬ (i = j + 1 ∨ j = i + 1) by omega)]
      simp
    by_cases c4 : j = i + 2
    · rw [if_neg (show ¬ (j : Int) = i by omega),
        if_neg (show ¬ (j : Int) = i - 1 by omega),
        if_neg (show ¬ (j : Int) = i + 1 by omega),
        if_neg (show ¬ (j : Int) = i - 2 by omega),
        if_pos (show (j : Int) = i + 2 by omega),
        if_pos (show InBand 2 i j from ⟨by omega, by omega⟩),
        thVal,
        if_neg (show ¬ i = j by omega),
        if_neg (show ¬ (i = j + 1 ∨ j = i + 1) by omega)]
      simp
    rw [if_neg (show ¬ (j : Int) = i by omega),
        if_neg (show ¬ (j : Int) = i - 1 by omega),
        if_neg (show ¬ (j : Int) = i + 1 by omega),
        if_neg (show ¬ (j : Int) = i - 2 by omega),
        if_neg (show ¬ (j : Int) = i + 2 by omega),
        if_neg (show ¬ InBand 2 i j from fun hh => by have := hh.1; have := hh.2; omega)]
    simp
  rw [Finset.sum_congr rfl hsplit]
  simp only [Finset.sum_add_distrib]
  rw [sum_pick (z := (i : Int)) (fun z : Int => (a0 - if i = 0 ∨ i = M - 1 then a2 else 0) * sn θ (z + 1)),
    sum_pick (z := (i : Int) - 1) (fun z : Int => a1 * sn θ (z + 1)),
    sum_pick (z := (i : Int) + 1) (fun z : Int => a1 * sn θ (z + 1)),
    sum_pick (z := (i : Int) - 2) (fun z : Int => a2 * sn θ (z + 1)),
    sum_pick (z := (i : Int) + 2) (fun z : Int => a2 * sn θ (z + 1))]
  have e0 : (if 0 ≤ (i : Int) ∧ (i : Int) < M then
      (a0 - if i = 0 ∨ i = M - 1 then a2 else 0) * sn θ ((i : Int) + 1) else 0) =
      (a0 - ((if i = 0 then a2 else 0) + if i = M - 1 then a2 else 0)) * sn θ (i + 1) := by
    rw [if_pos (by omega)]
    by_cases c1 : i = 0
    · simp [c1]; omega
    · simp [c1]
  have e1 : (if 0 ≤ (i : Int) - 1 ∧ (i : Int) - 1 < M then a1 * sn θ ((i : Int) - 1 + 1) else 0) =
      a1 * sn θ (i + 1 - 1) := by
    by_cases c : i = 0
    · rw [if_neg (by omega), c]; simp [sn_zero]
    · rw [if_pos (by omega)]; congr 2; omega
  have e2 : (if 0 ≤ (i : Int) + 1 ∧ (i : Int) + 1 < M then a1 * sn θ ((i : Int) + 1 + 1) else 0) =
      a1 * sn θ (i + 1 + 1) := by
    by_cases c : i + 1 = M
    · rw [if_neg (by omega), show (i : Int) + 1 + 1 = M + 1 by omega, hθ]; simp
    · rw [if_pos (by omega)]
  have e3 : (if 0 ≤ (i : Int) - 2 ∧ (i : Int) - 2 < M then a2 * sn θ ((i : Int) - 2 + 1) else 0) =
      a2 * sn θ (i + 1 - 2) + (if i = 0 then a2 else 0) * sn θ (i + 1) := by
    by_cases c : i = 0
    · rw [if_neg (by omega), c, if_pos rfl, show ((0 : Nat) : Int) + 1 - 2 = - (((0 : Nat) : Int) + 1) by omega,
        sn_neg]; ring
    · by_cases c1 : i = 1
      · rw [if_neg (by omega), if_neg c, c1, show ((1 : Nat) : Int) + 1 - 2 = 0 by omega, sn_zero]; ring
      · rw [if_pos (by omega), if_neg c, show (i : Int) - 2 + 1 = i + 1 - 2 by omega]; ring
  have e4 : (if 0 ≤ (i : Int) + 2 ∧ (i : Int) + 2 < M then a2 * sn θ ((i : Int) + 2 + 1) else 0) =
      a2 * sn θ (i + 1 + 2) + (if i = M - 1 then a2 else 0) * sn θ (i + 1) := by
    by_cases c : i = M - 1
    · have := sn_reflect hθ 1
      rw [if_neg (by omega), if_pos c, show (i : Int) + 1 + 2 = M + 1 + 1 by omega, this,
        show (i : Int) + 1 = M + 1 - 1 by omega]; ring
    · by_cases c1 : i + 2 = M
      · rw [if_neg (by omega), if_neg c, show (i : Int) + 1 + 2 = M + 1 by omega, hθ]; ring
      · rw [if_pos (by omega), if_neg c, show (i : Int) + 2 + 1 = i + 1 + 2 by omega]; ring
  simp only [e0, e1, e2, e3, e4]
  have r1 := sn_rec θ ((i : Int) + 1) 1
  have r2 := sn_rec θ ((i : Int) + 1) 2
  rw [show ((1 : Int) : ℝ) * θ = θ by simp] at r1
  rw [show ((2 : Int) : ℝ) * θ = 2 * θ by simp] at r2
  have k1 : a1 * sn θ (i + 1 - 1) + a1 * sn θ (i + 1 + 1) = 2 * (a1 * cos θ) * sn θ (i + 1) := by
    rw [← mul_add, r1]; ring
  have k2 : a2 * sn θ (i + 1 - 2) + a2 * sn θ (i + 1 + 2) = 2 * (a2 * cos (2 * θ)) * sn θ (i + 1) := by
    rw [← mul_add, r2]; ring
  linear_combination k1 + k2

end Gen
end Verif
