import Verif.Lemmas.LobpcgLow
import Mathlib.Tactic.Linarith
import Mathlib.Tactic.Ring
import Mathlib.Tactic.FieldSimp
import Mathlib.Tactic.Positivity

/-!
Why one step of LOBPCG with one vector lowers the Rayleigh quotient: `x` and the residual direction `w` are orthonormal,
and the smallest quotient on their span is below that of `x` by at least `r² / 2D`, where `r` is the norm of the residual
and `D` the spread of the quotients of the matrix.
-/

namespace Verif.Ritz

open Matrix

variable {K : Type} [Field K] [LinearOrder K] [IsStrictOrderedRing K] {n k : Nat}
  {M Q : Matrix (Fin n) (Fin n) K} {U : Matrix (Fin k) (Fin n) K} {Z : Matrix (Fin k) (Fin k) K} {w : Fin k → K}

/-- the first Ritz value is a lower bound of the quotients on the span of the rows of `U` -/
theorem Solved.low (h : Solved M Q U Z w) (hk : 0 < k) (c : Fin k → K) :
    w ⟨0, hk⟩ * ((c ᵥ* U) ⬝ᵥ (Q *ᵥ (c ᵥ* U))) ≤ (c ᵥ* U) ⬝ᵥ (M *ᵥ (c ᵥ* U)) := by
  have hu : c ᵥ* U = (c ᵥ* (U * Q * Uᵀ * Z)) ᵥ* (Zᵀ * U) := by
    rw [Matrix.vecMul_vecMul, h.back]
  rw [hu, quad M (Zᵀ * U), quad Q (Zᵀ * U), h.q, h.m, Matrix.one_mulVec]
  generalize c ᵥ* (U * Q * Uᵀ * Z) = d
  unfold dotProduct
  rw [Finset.mul_sum]
  refine Finset.sum_le_sum fun t _ => ?_
  rw [Matrix.mulVec_diagonal]
  have hw := h.sorted ⟨0, hk⟩ t (by rw [Fin.le_def]; exact Nat.zero_le _)
  have := mul_le_mul_of_nonneg_right hw (mul_self_nonneg (d t))
  linarith [this, mul_left_comm (d t) (w t) (d t)]

omit [IsStrictOrderedRing K] in
/-- the first Ritz vector -/
theorem Solved.first (h : Solved M Q U Z w) (hk : 0 < k) :
    ((fun i => Z i ⟨0, hk⟩) ᵥ* U) ⬝ᵥ (Q *ᵥ ((fun i => Z i ⟨0, hk⟩) ᵥ* U)) = 1 ∧
      ((fun i => Z i ⟨0, hk⟩) ᵥ* U) ⬝ᵥ (M *ᵥ ((fun i => Z i ⟨0, hk⟩) ᵥ* U)) = w ⟨0, hk⟩ := by
  have e : ∀ (R : Matrix (Fin n) (Fin n) K), ((fun i => Z i ⟨0, hk⟩) ᵥ* U) ⬝ᵥ (R *ᵥ ((fun i => Z i ⟨0, hk⟩) ᵥ* U)) =
      (Zᵀ * U * R * (Zᵀ * U)ᵀ) ⟨0, hk⟩ ⟨0, hk⟩ := by
    intro R
    rw [Matrix.mul_assoc, Matrix.mul_apply']
    have e1 : (Zᵀ * U) ⟨0, hk⟩ = (fun i => Z i ⟨0, hk⟩) ᵥ* U := by
      funext j
      simp [Matrix.mul_apply, Matrix.vecMul, dotProduct]
    rw [e1]
    congr 1
  rw [e, e, h.q, h.m]
  simp

section

variable {x u : Fin n → K} {ρ r : K}

omit [LinearOrder K] [IsStrictOrderedRing K] in
theorem form2' (hM : Mᵀ = M) (hx : x ⬝ᵥ x = 1) (hu : u ⬝ᵥ u = 1) (hxu : x ⬝ᵥ u = 0) (hq : x ⬝ᵥ (M *ᵥ x) = ρ)
    (hr : u ⬝ᵥ (M *ᵥ x) = r) (a b : K) :
    (a • x + b • u) ⬝ᵥ (M *ᵥ (a • x + b • u)) = a * a * ρ + 2 * (a * b * r) + b * b * (u ⬝ᵥ (M *ᵥ u)) ∧
      (a • x + b • u) ⬝ᵥ (a • x + b • u) = a * a + b * b := by
  have hux : u ⬝ᵥ x = 0 := by rw [dotProduct_comm]; exact hxu
  have h1 : x ⬝ᵥ (M *ᵥ u) = r := by
    have : x ⬝ᵥ (M *ᵥ u) = u ⬝ᵥ (M *ᵥ x) := by
      rw [Matrix.dotProduct_mulVec, ← Matrix.mulVec_transpose, hM, dotProduct_comm]
    rw [this, hr]
  constructor
  · simp only [Matrix.mulVec_add, Matrix.mulVec_smul, dotProduct_add, add_dotProduct, smul_dotProduct, dotProduct_smul,
      smul_eq_mul, h1, hq, hr]
    ring
  · simp only [dotProduct_add, add_dotProduct, smul_dotProduct, dotProduct_smul, smul_eq_mul, hx, hu, hxu, hux]
    ring

omit [LinearOrder K] [IsStrictOrderedRing K] in
theorem res_quot (hx : x ⬝ᵥ x = 1) (hu : u ⬝ᵥ u = 1) (hxu : x ⬝ᵥ u = 0) (hr : M *ᵥ x - ρ • x = r • u) :
    x ⬝ᵥ (M *ᵥ x) = ρ ∧ u ⬝ᵥ (M *ᵥ x) = r := by
  have hux : u ⬝ᵥ x = 0 := by rw [dotProduct_comm]; exact hxu
  have hMx : M *ᵥ x = ρ • x + r • u := by rw [← hr]; abel
  rw [hMx]
  simp [dotProduct_add, dotProduct_smul, hx, hu, hxu, hux]

omit [LinearOrder K] [IsStrictOrderedRing K] in
theorem form2 (hM : Mᵀ = M) (hx : x ⬝ᵥ x = 1) (hu : u ⬝ᵥ u = 1) (hxu : x ⬝ᵥ u = 0)
    (hr : M *ᵥ x - ρ • x = r • u) (a b : K) :
    (a • x + b • u) ⬝ᵥ (M *ᵥ (a • x + b • u)) = a * a * ρ + 2 * (a * b * r) + b * b * (u ⬝ᵥ (M *ᵥ u)) ∧
      (a • x + b • u) ⬝ᵥ (a • x + b • u) = a * a + b * b :=
  form2' hM hx hu hxu (res_quot hx hu hxu hr).1 (res_quot hx hu hxu hr).2 a b

/-- what the smallest quotient on the span of `x` and `u` gains -/
theorem decrease' (hM : Mᵀ = M) (hx : x ⬝ᵥ x = 1) (hu : u ⬝ᵥ u = 1) (hxu : x ⬝ᵥ u = 0)
    (hq : x ⬝ᵥ (M *ᵥ x) = ρ) (hr : u ⬝ᵥ (M *ᵥ x) = r) (hr0 : 0 < r) {lo D : K}
    (hlo : ∀ v : Fin n → K, lo * (v ⬝ᵥ v) ≤ v ⬝ᵥ (M *ᵥ v))
    (hhi : ∀ v : Fin n → K, v ⬝ᵥ (M *ᵥ v) ≤ (lo + D) * (v ⬝ᵥ v)) {ω : K}
    (hω : ∀ a b : K, ω * ((a • x + b • u) ⬝ᵥ (a • x + b • u)) ≤ (a • x + b • u) ⬝ᵥ (M *ᵥ (a • x + b • u))) :
    0 < D ∧ ω ≤ ρ - r ^ 2 / (2 * D) := by
  have f := form2' hM hx hu hxu hq hr
  have h1 := hhi ((1 : K) • x + (1 : K) • u)
  have h2 := hlo ((1 : K) • x + (-1 : K) • u)
  rw [(f 1 1).1, (f 1 1).2] at h1
  rw [(f 1 (-1)).1, (f 1 (-1)).2] at h2
  have hD : 2 * r ≤ D := by linarith
  have hD0 : 0 < D := by linarith
  have h3 := hhi ((0 : K) • x + (1 : K) • u)
  have h4 := hlo ((1 : K) • x + (0 : K) • u)
  rw [(f 0 1).1, (f 0 1).2] at h3
  rw [(f 1 0).1, (f 1 0).2] at h4
  have hη : u ⬝ᵥ (M *ᵥ u) ≤ ρ + D := by linarith
  refine ⟨hD0, ?_⟩
  have h5 := hω D (-r)
  rw [(f D (-r)).1, (f D (-r)).2] at h5
  have h6 : -r * -r * (u ⬝ᵥ (M *ᵥ u)) ≤ r * r * (ρ + D) := by
    have := mul_le_mul_of_nonneg_left hη (mul_self_nonneg r)
    linarith
  have h7 : ω * (D * D + r * r) ≤ ρ * (D * D + r * r) - r * r * D := by linarith
  have hq : 0 < D * D + r * r := by positivity
  have hrD : r * r ≤ D * D := by nlinarith
  have h8 : r ^ 2 / (2 * D) * (D * D + r * r) ≤ r * r * D := by
    rw [div_mul_eq_mul_div, div_le_iff₀ (by positivity)]
    have := mul_le_mul_of_nonneg_left hrD (mul_self_nonneg r)
    nlinarith
  have h9 : ω * (D * D + r * r) ≤ (ρ - r ^ 2 / (2 * D)) * (D * D + r * r) := by
    rw [sub_mul]; linarith
  exact le_of_mul_le_mul_right h9 hq

theorem decrease (hM : Mᵀ = M) (hx : x ⬝ᵥ x = 1) (hu : u ⬝ᵥ u = 1) (hxu : x ⬝ᵥ u = 0)
    (hr : M *ᵥ x - ρ • x = r • u) (hr0 : 0 < r) {lo D : K}
    (hlo : ∀ v : Fin n → K, lo * (v ⬝ᵥ v) ≤ v ⬝ᵥ (M *ᵥ v))
    (hhi : ∀ v : Fin n → K, v ⬝ᵥ (M *ᵥ v) ≤ (lo + D) * (v ⬝ᵥ v)) {ω : K}
    (hω : ∀ a b : K, ω * ((a • x + b • u) ⬝ᵥ (a • x + b • u)) ≤ (a • x + b • u) ⬝ᵥ (M *ᵥ (a • x + b • u))) :
    0 < D ∧ ω ≤ ρ - r ^ 2 / (2 * D) :=
  decrease' hM hx hu hxu (res_quot hx hu hxu hr).1 (res_quot hx hu hxu hr).2 hr0 hlo hhi hω

end

/-- what the smallest quotient on the span of `x` and `u` gains when `u` has a component `β` along the residual -/
theorem decrease_along {sq : K → K} (hsq : ∀ a, 0 ≤ a → sq a * sq a = a) (hsq0 : ∀ a, 0 ≤ a → 0 ≤ sq a) (hM : Mᵀ = M)
    (hx : x ⬝ᵥ x = 1) (hu : u ⬝ᵥ u = 1) (hq : x ⬝ᵥ (M *ᵥ x) = ρ) {β : K} (hβ : β ≤ u ⬝ᵥ (M *ᵥ x - ρ • x)) (hβ0 : 0 < β) {lo D : K}
    (hlo : ∀ v : Fin n → K, lo * (v ⬝ᵥ v) ≤ v ⬝ᵥ (M *ᵥ v))
    (hhi : ∀ v : Fin n → K, v ⬝ᵥ (M *ᵥ v) ≤ (lo + D) * (v ⬝ᵥ v)) {ω : K}
    (hω : ∀ a b : K, ω * ((a • x + b • u) ⬝ᵥ (a • x + b • u)) ≤ (a • x + b • u) ⬝ᵥ (M *ᵥ (a • x + b • u))) :
    0 < D ∧ ω ≤ ρ - β ^ 2 / (2 * D) := by
  obtain ⟨u', hu'⟩ : ∃ u', u' = u - (x ⬝ᵥ u) • x := ⟨_, rfl⟩
  have hxu : x ⬝ᵥ u' = 0 := by
    rw [hu', dotProduct_sub, dotProduct_smul, hx, smul_eq_mul, mul_one, sub_self]
  have huu : u' ⬝ᵥ u' = 1 - (x ⬝ᵥ u) ^ 2 := by
    have : u' ⬝ᵥ u' = u ⬝ᵥ u' - (x ⬝ᵥ u) * (x ⬝ᵥ u') := by
      conv_lhs => rw [hu', sub_dotProduct, smul_dotProduct, ← hu', smul_eq_mul]
    rw [this, hxu, hu', dotProduct_sub, dotProduct_smul, hu, dotProduct_comm u x, smul_eq_mul]
    ring
  have hres : u' ⬝ᵥ (M *ᵥ x) = u ⬝ᵥ (M *ᵥ x - ρ • x) := by
    rw [hu', sub_dotProduct, dotProduct_sub, smul_dotProduct, dotProduct_smul, hq, dotProduct_comm u x, smul_eq_mul,
      smul_eq_mul, mul_comm]
  have hpos : 0 < u' ⬝ᵥ (M *ᵥ x) := by rw [hres]; linarith
  have hnn : 0 ≤ u' ⬝ᵥ u' := Finset.sum_nonneg fun k _ => mul_self_nonneg _
  have hne : u' ⬝ᵥ u' ≠ 0 := by
    intro h0
    have : u' = 0 := dotProduct_self_eq_zero.mp h0
    rw [this, zero_dotProduct] at hpos
    exact lt_irrefl _ hpos
  obtain ⟨t, ht⟩ : ∃ t, t = sq (u' ⬝ᵥ u') := ⟨_, rfl⟩
  have htt : t * t = u' ⬝ᵥ u' := by rw [ht]; exact hsq _ hnn
  have ht0 : 0 < t := by
    refine lt_of_le_of_ne (by rw [ht]; exact hsq0 _ hnn) ?_
    intro h
    rw [← h, mul_zero] at htt
    exact hne htt.symm
  have ht1 : t ≤ 1 := by nlinarith [sq_nonneg (x ⬝ᵥ u)]
  have hstep := decrease' (x := x) (u := (1 / t) • u') (ρ := ρ) (r := (1 / t) * (u' ⬝ᵥ (M *ᵥ x))) (ω := ω) hM hx
    (by
      rw [smul_dotProduct, dotProduct_smul, ← htt, smul_eq_mul, smul_eq_mul]
      field_simp)
    (by rw [dotProduct_smul, hxu, smul_zero]) hq (by rw [smul_dotProduct, smul_eq_mul]) (by positivity) hlo hhi
    (by
      intro a b
      have e : a • x + b • (1 / t) • u' = (a - b * (1 / t) * (x ⬝ᵥ u)) • x + (b * (1 / t)) • u := by
        rw [hu', smul_smul, smul_sub, smul_smul, sub_smul]
        abel
      rw [e]
      exact hω _ _)
  refine ⟨hstep.1, hstep.2.trans ?_⟩
  have h1 : β ≤ (1 / t) * (u' ⬝ᵥ (M *ᵥ x)) := by
    rw [hres]
    rw [hres] at hpos
    have : 1 ≤ 1 / t := by rw [le_div_iff₀ ht0]; linarith
    nlinarith
  have h2 : β ^ 2 ≤ ((1 / t) * (u' ⬝ᵥ (M *ᵥ x))) ^ 2 := pow_le_pow_left₀ hβ0.le h1 2
  have h3 := div_le_div_of_nonneg_right h2 (by linarith [hstep.1] : (0 : K) ≤ 2 * D)
  linarith

end Verif.Ritz
