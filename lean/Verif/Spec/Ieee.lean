import Verif.Spec.RoundSpec
import Mathlib.Data.Int.Log
import Mathlib.Data.Real.Archimedean
import Mathlib.Tactic.Linarith
import Mathlib.Tactic.Ring
import Mathlib.Tactic.Positivity
import Mathlib.Tactic.FieldSimp
import Mathlib.Tactic.NormNum

/-!
Binary floating-point numbers as IEEE 754 has them: precision `p`, least exponent `emin` (gradual underflow),
greatest number `big`, rounding to nearest with any rule for ties. Infinities and NaN are one value; the sign
of zero is not represented. It shows that `Rounding` describes the arithmetic of `float` and `double`.
-/

namespace Verif.Spec

/-- a binary format and its rounding rule; double: `p = 53`, `emin = -1074`, `big = (2^53 - 1) 2^971` -/
structure Format where
  p : ℕ
  p_pos : 1 ≤ p
  emin : ℤ
  big : ℝ
  big_nonneg : 0 ≤ big
  rnd : ℝ → ℤ
  rnd_near : ∀ x, |(rnd x : ℝ) - x| ≤ 1 / 2

namespace Format

variable (f : Format)

/-- representable numbers: integer significand of `p` bits (or the next power of two) times a power of two -/
def Rep (x : ℝ) : Prop := ∃ m k : ℤ, f.emin ≤ k ∧ |m| ≤ 2 ^ f.p ∧ x = m * (2 : ℝ) ^ k

/-- exponent of the last place of `x` -/
noncomputable def lastPlace (x : ℝ) : ℤ := max (Int.log 2 |x| - f.p + 1) f.emin

/-- `x` rounded to nearest -/
noncomputable def round (x : ℝ) : ℝ := f.rnd (x / (2 : ℝ) ^ f.lastPlace x) * (2 : ℝ) ^ f.lastPlace x

theorem rnd_int (n : ℤ) : f.rnd n = n := by
  have h := f.rnd_near n
  rw [← Int.cast_sub, ← Int.cast_abs] at h
  have : |f.rnd n - n| < 1 := by
    have h2 : ((|f.rnd n - n| : ℤ) : ℝ) < ((1 : ℤ) : ℝ) := lt_of_le_of_lt h (by norm_num)
    exact_mod_cast h2
  have := Int.abs_lt_one_iff.1 this
  omega

theorem rnd_eq {x : ℝ} {n : ℤ} (h : |x - n| < 1 / 2) : f.rnd x = n := by
  have h1 := f.rnd_near x
  have h2 : |((f.rnd x - n : ℤ) : ℝ)| < 1 := by
    push_cast
    have := abs_add_le ((f.rnd x : ℝ) - x) (x - n)
    rw [sub_add_sub_cancel] at this
    linarith
  rw [← Int.cast_abs] at h2
  have h3 : |f.rnd x - n| < 1 := by exact_mod_cast h2
  have := Int.abs_lt_one_iff.1 h3
  omega

theorem two_zpow_pos (k : ℤ) : (0 : ℝ) < 2 ^ k := zpow_pos (by norm_num) k

theorem round_of_int {x : ℝ} {n : ℤ} (h : x = n * (2 : ℝ) ^ f.lastPlace x) : f.round x = x := by
  unfold round
  have e : x / (2 : ℝ) ^ f.lastPlace x = n := by
    rw [div_eq_iff (two_zpow_pos _).ne']
    exact h
  rw [e, rnd_int]
  exact h.symm

theorem round_err (x : ℝ) : |f.round x - x| ≤ (2 : ℝ) ^ f.lastPlace x / 2 := by
  have h := f.rnd_near (x / (2 : ℝ) ^ f.lastPlace x)
  have hp := two_zpow_pos (f.lastPlace x)
  unfold round
  generalize (2 : ℝ) ^ f.lastPlace x = w at *
  have e : (f.rnd (x / w) : ℝ) * w - x = ((f.rnd (x / w) : ℝ) - x / w) * w := by
    field_simp
  rw [e, abs_mul, abs_of_pos hp]
  nlinarith

theorem round_rep (x : ℝ) : f.Rep (f.round x) := by
  refine ⟨f.rnd (x / (2 : ℝ) ^ f.lastPlace x), f.lastPlace x, le_max_right _ _, ?_, rfl⟩
  have h := f.rnd_near (x / (2 : ℝ) ^ f.lastPlace x)
  have hp := two_zpow_pos (f.lastPlace x)
  have hlog : |x| < (2 : ℝ) ^ (Int.log 2 |x| + 1) := by
    have := Int.lt_zpow_succ_log_self (b := 2) (by norm_num) |x|
    exact_mod_cast this
  have hle : (2 : ℝ) ^ (Int.log 2 |x| + 1) ≤ (2 : ℝ) ^ (f.lastPlace x + f.p) := by
    apply zpow_le_zpow_right₀ (by norm_num)
    have : Int.log 2 |x| - f.p + 1 ≤ f.lastPlace x := le_max_left _ _
    omega
  have hq : |x / (2 : ℝ) ^ f.lastPlace x| < (2 : ℝ) ^ f.p := by
    rw [abs_div, abs_of_pos hp, div_lt_iff₀ hp]
    have e : (2 : ℝ) ^ (f.lastPlace x + f.p) = 2 ^ f.p * 2 ^ f.lastPlace x := by
      rw [zpow_add₀ (by norm_num), zpow_natCast, mul_comm]
    linarith
  generalize x / (2 : ℝ) ^ f.lastPlace x = y at *
  have h3 : ((|f.rnd y| : ℤ) : ℝ) < (((2 ^ f.p + 1 : ℤ)) : ℝ) := by
    push_cast
    have := abs_add_le ((f.rnd y : ℝ) - y) y
    rw [sub_add_cancel] at this
    linarith
  have h4 : |f.rnd y| < 2 ^ f.p + 1 := by exact_mod_cast h3
  omega

theorem round_of_rep {x : ℝ} (h : f.Rep x) : f.round x = x := by
  obtain ⟨m, k, hk, hm, rfl⟩ := h
  by_cases h0 : m = 0
  · subst h0
    exact f.round_of_int (n := 0) (by simp)
  have hx : 0 < |(m : ℝ) * 2 ^ k| := by
    rw [abs_pos]
    exact mul_ne_zero (by exact_mod_cast h0) (two_zpow_pos k).ne'
  have habs : |(m : ℝ) * 2 ^ k| = ((|m| : ℤ) : ℝ) * 2 ^ k := by
    rw [abs_mul, abs_of_pos (two_zpow_pos k), Int.cast_abs]
  have key : ∀ e : ℤ, e ≤ k → ∃ n : ℤ, (m : ℝ) * 2 ^ k = n * 2 ^ e := by
    intro e he
    refine ⟨m * 2 ^ (k - e).toNat, ?_⟩
    push_cast
    rw [mul_assoc, ← zpow_natCast, ← zpow_add₀ (by norm_num)]
    congr 2
    omega
  by_cases hm2 : |m| = 2 ^ f.p
  · -- a power of two
    have hl : f.lastPlace ((m : ℝ) * 2 ^ k) = k + 1 := by
      unfold lastPlace
      rw [habs, hm2]
      have e : (((2 ^ f.p : ℤ)) : ℝ) * 2 ^ k = ((2 : ℕ) : ℝ) ^ ((f.p : ℤ) + k) := by
        push_cast
        rw [zpow_add₀ (by norm_num), zpow_natCast]
      rw [e, Int.log_zpow (by norm_num)]
      omega
    have hp := f.p_pos
    have hodd : ∃ n : ℤ, m = n * 2 := by
      obtain ⟨q, hq⟩ : ∃ q, f.p = q + 1 := ⟨f.p - 1, by omega⟩
      rw [hq, pow_succ] at hm2
      rcases abs_eq (by positivity : (0 : ℤ) ≤ 2 ^ q * 2) |>.1 hm2 with h | h
      · exact ⟨_, h⟩
      · exact ⟨-2 ^ q, by rw [h]; ring⟩
    obtain ⟨n, hn⟩ := hodd
    refine f.round_of_int (n := n) ?_
    rw [hl, hn, zpow_add₀ (by norm_num)]
    push_cast
    ring
  · have hlt : |(m : ℝ) * 2 ^ k| < ((2 : ℕ) : ℝ) ^ ((f.p : ℤ) + k) := by
      have h1 : |m| < 2 ^ f.p := lt_of_le_of_ne hm hm2
      have h2 : ((|m| : ℤ) : ℝ) < (((2 ^ f.p : ℤ)) : ℝ) := by exact_mod_cast h1
      rw [habs]
      push_cast at h2 ⊢
      rw [zpow_add₀ (by norm_num), zpow_natCast]
      exact mul_lt_mul_of_pos_right h2 (two_zpow_pos k)
    have hl := (Int.lt_zpow_iff_log_lt (by norm_num) hx).1 hlt
    obtain ⟨n, hn⟩ := key (f.lastPlace ((m : ℝ) * 2 ^ k)) (by unfold lastPlace; omega)
    exact f.round_of_int hn

/-- relative error outside the range of subnormal numbers, absolute error inside -/
theorem round_rel (x : ℝ) : |f.round x - x| ≤ (2 : ℝ) ^ (-(f.p : ℤ)) * |x| ∨
    (|f.round x - x| ≤ (2 : ℝ) ^ (f.emin - 1) ∧ f.lastPlace x = f.emin) := by
  have h := f.round_err x
  by_cases h0 : x = 0
  · left
    have : f.round x = x := f.round_of_int (n := 0) (by simp [h0])
    rw [this]
    simp [h0]
  have hx : 0 < |x| := abs_pos.2 h0
  rcases le_total (Int.log 2 |x| - f.p + 1) f.emin with hle | hle
  · right
    have e : f.lastPlace x = f.emin := max_eq_right hle
    rw [e] at h
    refine ⟨?_, e⟩
    rwa [zpow_sub_one₀ (by norm_num), ← div_eq_mul_inv]
  · left
    have e : f.lastPlace x = Int.log 2 |x| - f.p + 1 := max_eq_left hle
    rw [e] at h
    have hlog : (2 : ℝ) ^ Int.log 2 |x| ≤ |x| := by
      have := Int.zpow_log_le_self (b := 2) (by norm_num) hx
      exact_mod_cast this
    refine h.trans ?_
    rw [zpow_add_one₀ (by norm_num), sub_eq_add_neg, zpow_add₀ (by norm_num)]
    have := two_zpow_pos (-(f.p : ℤ))
    nlinarith

/-- the values of the format: a representable number, or infinity / NaN -/
inductive Fp
  | num (x : ℝ) (h : f.Rep x)
  | other

/-- the result of an operation: rounded, infinite if too large -/
noncomputable def Fp.of (x : ℝ) : Fp f :=
  open Classical in
  if |f.round x| ≤ f.big then .num (f.round x) (f.round_rep x) else .other

theorem rep_zero : f.Rep 0 := ⟨0, f.emin, le_refl _, by positivity, by simp⟩

noncomputable instance : Zero (Fp f) := ⟨.num 0 f.rep_zero⟩

noncomputable instance : Add (Fp f) :=
  ⟨fun a b => match a, b with
    | .num x _, .num y _ => Fp.of f (x + y)
    | _, _ => .other⟩

noncomputable instance : Mul (Fp f) :=
  ⟨fun a b => match a, b with
    | .num x _, .num y _ => Fp.of f (x * y)
    | _, _ => .other⟩

variable {f}

def Fp.val : Fp f → ℝ
  | .num x _ => x
  | .other => 0

def Fp.Finite : Fp f → Prop
  | .num _ _ => True
  | .other => False

theorem Fp.of_finite {x : ℝ} (h : (Fp.of f x).Finite) : (Fp.of f x).val = f.round x := by
  unfold Fp.of at h ⊢
  split
  · rfl
  · next hb => rw [if_neg hb] at h; exact h.elim

theorem Fp.add_num (x y : ℝ) (hx : f.Rep x) (hy : f.Rep y) :
    (Fp.num x hx + Fp.num y hy : Fp f) = Fp.of f (x + y) := rfl

theorem Fp.mul_num (x y : ℝ) (hx : f.Rep x) (hy : f.Rep y) :
    (Fp.num x hx * Fp.num y hy : Fp f) = Fp.of f (x * y) := rfl

theorem Rep.mult {x : ℝ} (h : f.Rep x) : ∃ n : ℤ, x = n * (2 : ℝ) ^ f.emin := by
  obtain ⟨m, k, hk, _, rfl⟩ := h
  refine ⟨m * 2 ^ (k - f.emin).toNat, ?_⟩
  push_cast
  rw [mul_assoc, ← zpow_natCast, ← zpow_add₀ (by norm_num)]
  congr 2
  omega

/-- **the arithmetic of every binary format meets the standard model** with unit roundoff `2^-p` and underflow
error `2^(emin-1)` -/
noncomputable def rounding (f : Format) : Rounding (Fp f) where
  val := Fp.val
  Finite := Fp.Finite
  u := (2 : ℝ) ^ (-(f.p : ℤ))
  η := (2 : ℝ) ^ (f.emin - 1)
  u_nonneg := (two_zpow_pos _).le
  η_nonneg := (two_zpow_pos _).le
  zero_finite := trivial
  zero_val := rfl
  add_finite := by
    intro a b h
    cases a <;> cases b <;> first | exact ⟨trivial, trivial⟩ | exact h.elim
  add_err := by
    intro a b h
    cases a with
    | other => exact h.elim
    | num x hx =>
      cases b with
      | other => exact h.elim
      | num y hy =>
        rw [Fp.add_num] at h ⊢
        rw [Fp.of_finite h]
        show |f.round (x + y) - (x + y)| ≤ _ * |x + y|
        rcases f.round_rel (x + y) with h1 | ⟨_, h1⟩
        · exact h1
        · obtain ⟨m, hm⟩ := hx.mult
          obtain ⟨n, hn⟩ := hy.mult
          have : f.round (x + y) = x + y := by
            refine f.round_of_int (n := m + n) ?_
            rw [h1, Int.cast_add, add_mul, ← hm, ← hn]
          rw [this, sub_self, abs_zero]
          exact mul_nonneg (two_zpow_pos _).le (abs_nonneg _)
  zero_add := by
    intro a b h ha
    cases a with
    | other => exact h.elim
    | num x hx =>
      cases b with
      | other => exact h.elim
      | num y hy =>
        have ha : x = 0 := ha
        rw [Fp.add_num] at h ⊢
        rw [Fp.of_finite h, ha, _root_.zero_add, f.round_of_rep hy]
        rfl
  add_zero := by
    intro a b h hb
    cases a with
    | other => exact h.elim
    | num x hx =>
      cases b with
      | other => exact h.elim
      | num y hy =>
        have hb : y = 0 := hb
        rw [Fp.add_num] at h ⊢
        rw [Fp.of_finite h, hb, _root_.add_zero, f.round_of_rep hx]
        rfl
  mul_finite := by
    intro a b h
    cases a <;> cases b <;> first | exact ⟨trivial, trivial⟩ | exact h.elim
  mul_err := by
    intro a b h
    cases a with
    | other => exact h.elim
    | num x hx =>
      cases b with
      | other => exact h.elim
      | num y hy =>
        rw [Fp.mul_num] at h ⊢
        rw [Fp.of_finite h]
        show |f.round (x * y) - x * y| ≤ _ * |x * y| + _
        have h2 := two_zpow_pos (f.emin - 1)
        have h3 := mul_nonneg (two_zpow_pos (-(f.p : ℤ))).le (abs_nonneg (x * y))
        rcases f.round_rel (x * y) with h1 | ⟨h1, _⟩ <;> linarith

end Format

end Verif.Spec
