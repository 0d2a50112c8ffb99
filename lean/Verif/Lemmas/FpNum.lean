import Verif.Spec.Ieee
import Verif.Spec.GapSpec
import Verif.Model.Reduce
import Mathlib.Data.Real.Sqrt

/-!
The operations of a binary format as the operations of the solvers (C103).
-/

namespace Verif.Spec.Format

open Verif.Solver

variable {f : Format}

/-- rounded difference -/
noncomputable def Fp.sub : Fp f → Fp f → Fp f
  | .num x _, .num y _ => Fp.of f (x - y)
  | _, _ => .other

/-- rounded quotient; infinity or NaN if the divisor is zero -/
noncomputable def Fp.div : Fp f → Fp f → Fp f
  | .num x _, .num y _ => open Classical in if y = 0 then .other else Fp.of f (x / y)
  | _, _ => .other

theorem Rep.neg {x : ℝ} (h : f.Rep x) : f.Rep (-x) := by
  obtain ⟨m, k, hk, hm, rfl⟩ := h
  exact ⟨-m, k, hk, by rwa [abs_neg], by push_cast; ring⟩

/-- negation is exact -/
def Fp.neg : Fp f → Fp f
  | .num x h => .num (-x) h.neg
  | .other => .other

/-- rounded square root; NaN for negative numbers -/
noncomputable def Fp.sqrt : Fp f → Fp f
  | .num x _ => open Classical in if x < 0 then .other else Fp.of f (√x)
  | .other => .other

/-- comparison; false if one of the values is NaN (infinities are not compared) -/
noncomputable def Fp.lt : Fp f → Fp f → Bool
  | .num x _, .num y _ => open Classical in decide (x < y)
  | _, _ => false

/-- The operations of a binary format, sums of lists in the order `tree`: what the solvers of the library compute
with. The value `other` stands for infinities and NaN. -/
noncomputable def num (f : Format) (tree : Nat → RTree) : Num (Fp f) where
  zero := 0
  one := Fp.of f 1
  add := (· + ·)
  sub := Fp.sub
  mul := (· * ·)
  div := Fp.div
  neg := Fp.neg
  sqrt := Fp.sqrt
  lt := Fp.lt
  isNaN := fun a => match a with
    | .num _ _ => false
    | .other => true
  isZero := fun a => match a with
    | .num x _ => open Classical in decide (x = 0)
    | .other => false
  sum := fun l => match sumCore (tree l.length) l 0 with
    | .ok a => a
    | _ => .other

theorem roundedNum (f : Format) (tree : Nat → RTree) : RoundedNum f.rounding (f.num tree) where
  add _ _ := rfl
  mul _ _ := rfl
  neg_finite a := by cases a <;> rfl
  neg_val a := by
    cases a
    · rfl
    · exact (neg_zero (G := ℝ)).symm
  sub_finite a b h := by
    cases a <;> cases b <;> first | exact ⟨trivial, trivial⟩ | exact h.elim
  sub_err a b h := by
    cases a with
    | other => exact h.elim
    | num x hx =>
      cases b with
      | other => exact h.elim
      | num y hy =>
        have h' : (Fp.of f (x - y)).Finite := h
        show |(Fp.of f (x - y)).val - (x - y)| ≤ (2 : ℝ) ^ (-(f.p : ℤ)) * |x - y|
        rw [Fp.of_finite h']
        rcases f.round_rel (x - y) with h1 | ⟨_, h1⟩
        · exact h1
        · obtain ⟨m, hm⟩ := hx.mult
          obtain ⟨n, hn⟩ := hy.mult
          have : f.round (x - y) = x - y := by
            refine f.round_of_int (n := m - n) ?_
            rw [h1, Int.cast_sub, sub_mul, ← hm, ← hn]
          rw [this, sub_self, abs_zero]
          exact mul_nonneg (two_zpow_pos _).le (abs_nonneg _)

/-- the square root has a relative error of at most `u` (no underflow) -/
theorem sqrt_err (h : f.emin ≤ 2 - 2 * f.p) (a : Fp f) (hf : f.rounding.Finite (Fp.sqrt a)) :
    f.rounding.Finite a ∧ 0 ≤ f.rounding.val a ∧
      |f.rounding.val (Fp.sqrt a) - √(f.rounding.val a)| ≤ f.rounding.u * √(f.rounding.val a) := by
  cases a with
  | other => exact hf.elim
  | num x hx =>
    by_cases h0 : x < 0
    · have e : Fp.sqrt (Fp.num x hx) = .other := if_pos h0
      rw [e] at hf
      exact hf.elim
    · have e : Fp.sqrt (Fp.num x hx) = Fp.of f (√x) := if_neg h0
      rw [e] at hf ⊢
      refine ⟨trivial, not_lt.mp h0, ?_⟩
      show |(Fp.of f (√x)).val - √x| ≤ (2 : ℝ) ^ (-(f.p : ℤ)) * √x
      rw [Fp.of_finite hf]
      have hs := Real.sqrt_nonneg x
      rcases f.round_rel (√x) with h1 | ⟨h1, _⟩
      · rwa [abs_of_nonneg hs] at h1
      · rcases (not_lt.mp h0).lt_or_eq with hx0 | hx0
        · refine h1.trans ?_
          have e1 : (2 : ℝ) ^ (f.emin - 1) = (2 : ℝ) ^ (-(f.p : ℤ)) * (2 : ℝ) ^ (f.emin - 1 + f.p) := by
            rw [← zpow_add₀ (by norm_num)]
            congr 1
            ring
          rw [e1]
          refine mul_le_mul_of_nonneg_left ?_ (two_zpow_pos _).le
          apply Real.le_sqrt_of_sq_le
          obtain ⟨m, hm⟩ := hx.mult
          have hm1 : 1 ≤ m := by
            have : (0 : ℝ) < m := by
              rw [hm] at hx0
              exact (mul_pos_iff_of_pos_right (two_zpow_pos _)).mp hx0
            have : (0 : ℤ) < m := by exact_mod_cast this
            omega
          have hm1' : (1 : ℝ) ≤ m := by exact_mod_cast hm1
          have e2 : ((2 : ℝ) ^ (f.emin - 1 + f.p)) ^ 2 ≤ (2 : ℝ) ^ f.emin := by
            rw [← zpow_natCast, ← zpow_mul]
            exact zpow_le_zpow_right₀ (by norm_num) (by push_cast; omega)
          have := mul_le_mul_of_nonneg_right hm1' (two_zpow_pos f.emin).le
          rw [one_mul, ← hm] at this
          exact e2.trans this
        · rw [← hx0, Real.sqrt_zero]
          have : f.round 0 = 0 := f.round_of_int (n := 0) (by simp)
          rw [this]
          simp

theorem lt_val (a b : Fp f) (h : Fp.lt a b = true) :
    f.rounding.Finite a ∧ f.rounding.Finite b ∧ f.rounding.val a < f.rounding.val b := by
  cases a with
  | other => cases h
  | num x hx =>
    cases b with
    | other => cases h
    | num y hy => exact ⟨trivial, trivial, of_decide_eq_true h⟩

end Verif.Spec.Format
