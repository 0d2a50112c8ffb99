import Verif.Lemmas.FpNum
import Verif.Props.RoundMore

/-!
Binary floating-point numbers with infinities and NaN (the sign of zero is not represented): the operations of IEEE 754 where
a result overflows, and what they give on infinities.
-/

namespace Verif.Spec.Format

open Verif.Solver

/-- a representable number, an infinity (`neg`: the negative one), or NaN -/
inductive FpX (f : Format)
  | num (x : ℝ) (h : f.Rep x)
  | inf (neg : Bool)
  | nan

namespace FpX

variable {f : Format}

/-- the result of an operation: rounded, infinite if too large -/
noncomputable def of (f : Format) (x : ℝ) : FpX f :=
  open Classical in
  if |f.round x| ≤ f.big then .num (f.round x) (f.round_rep x) else .inf (decide (x < 0))

noncomputable instance : Zero (FpX f) := ⟨of f 0⟩
noncomputable instance : One (FpX f) := ⟨of f 1⟩

/-- sum; opposite infinities give NaN -/
noncomputable def add : FpX f → FpX f → FpX f
  | .num x _, .num y _ => of f (x + y)
  | .inf s, .num _ _ => .inf s
  | .num _ _, .inf s => .inf s
  | .inf s, .inf t => if s = t then .inf s else .nan
  | _, _ => .nan

/-- product; zero times infinity is NaN -/
noncomputable def mul : FpX f → FpX f → FpX f
  | .num x _, .num y _ => of f (x * y)
  | .inf s, .num y _ => open Classical in if y = 0 then .nan else .inf (s != decide (y < 0))
  | .num x _, .inf s => open Classical in if x = 0 then .nan else .inf (s != decide (x < 0))
  | .inf s, .inf t => .inf (s != t)
  | _, _ => .nan

noncomputable instance : Add (FpX f) := ⟨add⟩
noncomputable instance : Mul (FpX f) := ⟨mul⟩

/-- quotient; a number divided by infinity is zero; a non-zero number divided by zero is infinite -/
noncomputable def div : FpX f → FpX f → FpX f
  | .num x _, .num y _ => open Classical in
    if y = 0 then (if x = 0 then .nan else .inf (decide (x < 0))) else of f (x / y)
  | .num _ _, .inf _ => of f 0
  | .inf s, .num y _ => open Classical in .inf (s != decide (y < 0))
  | _, _ => .nan

/-- negation is exact -/
def neg : FpX f → FpX f
  | .num x h => .num (-x) h.neg
  | .inf s => .inf (!s)
  | .nan => .nan

/-- square root -/
noncomputable def sqrt : FpX f → FpX f
  | .num x _ => open Classical in if x < 0 then .nan else of f (√x)
  | .inf false => .inf false
  | _ => .nan

/-- comparison -/
noncomputable def lt : FpX f → FpX f → Bool
  | .num x _, .num y _ => open Classical in decide (x < y)
  | .inf s, .num _ _ => s
  | .num _ _, .inf s => !s
  | .inf s, .inf t => s && !t
  | _, _ => false

/-- the operations of a format with infinities, sums from left to right -/
noncomputable def numX (f : Format) : Num (FpX f) where
  zero := 0
  one := 1
  add := (· + ·)
  sub := fun a b => a + neg b
  mul := (· * ·)
  div := div
  neg := neg
  sqrt := sqrt
  lt := lt
  isNaN := fun a => match a with
    | .nan => true
    | _ => false
  isZero := fun a => match a with
    | .num x _ => open Classical in decide (x = 0)
    | _ => false
  sum := fun l => l.foldl (· + ·) 0

/-- the number can be stored exactly -/
def Good (f : Format) (x : ℝ) : Prop := f.Rep x ∧ |x| ≤ f.big

theorem of_good {x : ℝ} (h : Good f x) : ∃ r, of f x = .num x r := by
  have e := f.round_of_rep h.1
  refine ⟨h.1, ?_⟩
  unfold of
  rw [if_pos (by rw [e]; exact h.2)]
  congr 1

theorem add_good {x y : ℝ} (hx : Good f x) (hy : Good f y) : of f x + of f y = of f (x + y) := by
  obtain ⟨_, e1⟩ := of_good hx
  obtain ⟨_, e2⟩ := of_good hy
  rw [e1, e2]
  rfl

theorem mul_good {x y : ℝ} (hx : Good f x) (hy : Good f y) : of f x * of f y = of f (x * y) := by
  obtain ⟨_, e1⟩ := of_good hx
  obtain ⟨_, e2⟩ := of_good hy
  rw [e1, e2]
  rfl

theorem neg_good {x : ℝ} (hx : Good f x) : neg (of f x) = of f (-x) := by
  obtain ⟨_, e1⟩ := of_good hx
  obtain ⟨_, e2⟩ := of_good (f := f) (x := -x) ⟨hx.1.neg, by rw [abs_neg]; exact hx.2⟩
  rw [e1, e2]
  rfl

theorem div_good {x y : ℝ} (hx : Good f x) (hy : Good f y) (h0 : y ≠ 0) : div (of f x) (of f y) = of f (x / y) := by
  obtain ⟨_, e1⟩ := of_good hx
  obtain ⟨_, e2⟩ := of_good hy
  rw [e1, e2]
  exact if_neg h0

theorem sqrt_good {x : ℝ} (hx : Good f x) (h0 : 0 ≤ x) : sqrt (of f x) = of f (√x) := by
  obtain ⟨_, e1⟩ := of_good hx
  rw [e1]
  exact if_neg (not_lt.mpr h0)

theorem lt_good {x y : ℝ} (hx : Good f x) (hy : Good f y) (h : x < y) : lt (of f x) (of f y) = true := by
  obtain ⟨_, e1⟩ := of_good hx
  obtain ⟨_, e2⟩ := of_good hy
  rw [e1, e2]
  exact decide_eq_true h

/-- a power of two, or three times one, is a `double` -/
theorem good_pow {m k : ℤ} (hm : |m| ≤ 3) (h1 : -1074 ≤ k) (h2 : k ≤ 1022) : Good Round.double ((m : ℝ) * (2 : ℝ) ^ k) := by
  refine ⟨⟨m, k, h1, ?_, rfl⟩, ?_⟩
  · exact hm.trans (by unfold Round.double; norm_num)
  · rw [abs_mul, abs_of_pos (two_zpow_pos k), ← Int.cast_abs]
    have h3 : ((|m| : ℤ) : ℝ) ≤ 3 := by exact_mod_cast hm
    have h4 : (2 : ℝ) ^ k ≤ (2 : ℝ) ^ (1022 : ℤ) := zpow_le_zpow_right₀ (by norm_num) h2
    have e1 : (2 : ℝ) ^ (1022 : ℤ) = (2 : ℝ) ^ 1022 := zpow_natCast 2 1022
    have h5 : ((|m| : ℤ) : ℝ) * (2 : ℝ) ^ k ≤ 3 * (2 : ℝ) ^ 1022 := by
      rw [← e1]
      exact mul_le_mul h3 h4 (two_zpow_pos k).le (by norm_num)
    refine h5.trans ?_
    show 3 * (2 : ℝ) ^ 1022 ≤ 2 ^ 1024 - 2 ^ 971
    have e2 : (2 : ℝ) ^ 1024 = 4 * 2 ^ 1022 := by rw [show (1024 : ℕ) = 1022 + 2 from rfl, pow_add]; ring
    have h6 : (2 : ℝ) ^ 971 ≤ 2 ^ 1022 := pow_le_pow_right₀ (by norm_num) (by norm_num)
    rw [e2]
    generalize (2 : ℝ) ^ 1022 = a at *
    generalize (2 : ℝ) ^ 971 = b at *
    linarith

/-- 2^1024 overflows -/
theorem of_overflow : of Round.double ((2 : ℝ) ^ (1024 : ℤ)) = .inf false := by
  have hr : Round.double.Rep ((2 : ℝ) ^ (1024 : ℤ)) :=
    ⟨1, 1024, by unfold Round.double; norm_num, by unfold Round.double; norm_num, by rw [Int.cast_one, one_mul]⟩
  have e := Round.double.round_of_rep hr
  have p := two_zpow_pos 1024
  unfold of
  rw [if_neg]
  · congr 1
    exact decide_eq_false (not_lt.mpr p.le)
  · rw [e, abs_of_pos p, not_le]
    have e1 : (2 : ℝ) ^ (1024 : ℤ) = (2 : ℝ) ^ 1024 := zpow_natCast 2 1024
    rw [e1]
    exact sub_lt_self _ (by positivity)

end FpX
end Verif.Spec.Format
