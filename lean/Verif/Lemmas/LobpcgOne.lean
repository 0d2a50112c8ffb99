import Verif.Lemmas.LobpcgConv

/-! One pass of LOBPCG with one vector, forwards: from finite vectors to finite vectors. -/

namespace Verif.Lobpcg

open Spec Solver Lapack Matrix

variable {K : Type} [Field K] [LinearOrder K] [IsStrictOrderedRing K] {n : Nat} {M : Matrix (Fin n) (Fin n) K}

/-- The state between two passes: `x` has length 1, `u` is the direction of its residual, `r` the norm of the residual,
`ρ` the Rayleigh quotient, `p` any vector. -/
structure One (M : Matrix (Fin n) (Fin n) K) (ρ r : K) (x u p : Fin n → K) (s : St (Ext K)) : Prop where
  F : s.F = ⟨[vec Ext.fin u], [vec Ext.fin x], [vec Ext.fin p]⟩
  G : s.G = ⟨[vec Ext.fin (M *ᵥ u)], [vec Ext.fin (M *ᵥ x)], [vec Ext.fin (M *ᵥ p)]⟩
  l : 0 < s.l.length
  xx : x ⬝ᵥ x = 1
  uu : u ⬝ᵥ u = 1
  quot : x ⬝ᵥ (M *ᵥ x) = ρ
  gain : r ≤ u ⬝ᵥ (M *ᵥ x - ρ • x)
  pos : 0 < r

theorem combine_one (sq : K → K) {b : List (Ext K)} {a0 a1 a2 : K} (h0 : b[0]? = some (.fin a0))
    (h1 : b[1]? = some (.fin a1)) (h2 : b[2]? = some (.fin a2)) (w x p : Fin n → K) :
    combine (Ext.num sq) 1 b ⟨[vec Ext.fin w], [vec Ext.fin x], [vec Ext.fin p]⟩ (List.replicate n (.fin 0)) =
      .ok (vec Ext.fin (a0 • w + a2 • p), vec Ext.fin (a0 • w + a2 • p + a1 • x)) := by
  have hz : List.replicate n (Ext.fin (0 : K)) = vec Ext.fin (0 : Fin n → K) := by simp [vec, List.ofFn_const]
  unfold combine forN
  rw [forFrom_succ, hz]
  have hr : ∀ a : List (Ext K), rd [a] 0 = .ok a := fun _ => rfl
  simp only [Nat.add_zero, Nat.mul_one, rd_of_getElem? h0, rd_of_getElem? h1, rd_of_getElem? h2, Res.ok_bind, hr,
    axpy_vec (Ext.exact sq), zero_add]
  rfl

theorem coeffs_one (sq : K → K) {k : Nat} (hk : k = 2 ∨ k = 3) {z : List K} (hz : z.length = k * k) :
    ∃ b, coeffs (Ext.num sq) 1 k (z.map Ext.fin) 0 = .ok b ∧ b[0]? = some (.fin (z.getD 0 0)) ∧
      b[1]? = some (.fin (z.getD 1 0)) ∧ b[2]? = some (.fin (if k = 3 then z.getD 2 0 else 0)) := by
  rcases hk with rfl | rfl
  · match z, hz with
    | [a, b, c, d], _ => exact ⟨[.fin a, .fin b, .fin 0], rfl, rfl, rfl, rfl⟩
  · match z, hz with
    | [a, b, c, d, e, f, g, h, i], _ => exact ⟨[.fin a, .fin b, .fin c], rfl, rfl, rfl, rfl⟩

theorem dot_pos {v : Fin n → K} (h : v ≠ 0) : 0 < v ⬝ᵥ v := by
  obtain ⟨t, ht⟩ := Function.ne_iff.mp h
  unfold dotProduct
  exact Finset.sum_pos' (fun _ _ => mul_self_nonneg _) ⟨t, Finset.mem_univ _, mul_self_pos.mpr ht⟩

theorem dot_nonneg (v : Fin n → K) : 0 ≤ v ⬝ᵥ v := by
  unfold dotProduct
  exact Finset.sum_nonneg (fun i _ => mul_self_nonneg _)

theorem norm2_pos {sq : K → K} (hsq : ∀ a, 0 ≤ a → sq a * sq a = a) (hsq0 : ∀ a, 0 ≤ a → 0 ≤ sq a) {v : Fin n → K}
    (h : v ≠ 0) : 0 < norm2 sq v := by
  have h1 := hsq _ (dot_nonneg v)
  have h2 := dot_pos h
  refine lt_of_le_of_ne (hsq0 _ (dot_nonneg v)) fun h0 => ?_
  unfold norm2 at h0
  rw [← h0, mul_zero] at h1
  exact absurd h1 h2.ne

theorem norm2_one {sq : K → K} (hsq : ∀ a, 0 ≤ a → sq a * sq a = a) (hsq0 : ∀ a, 0 ≤ a → 0 ≤ sq a) {v : Fin n → K}
    (h : v ⬝ᵥ v = 1) : norm2 sq v = 1 := by
  unfold norm2
  rw [h]
  have h1 := hsq 1 zero_le_one
  have h2 := hsq0 1 zero_le_one
  nlinarith

theorem unit_smul {sq : K → K} (hsq : ∀ a, 0 ≤ a → sq a * sq a = a) {v : Fin n → K} (h : norm2 sq v ≠ 0) :
    ((1 / norm2 sq v) • v) ⬝ᵥ ((1 / norm2 sq v) • v) = 1 := by
  rw [smul_dotProduct, dotProduct_smul, smul_eq_mul, smul_eq_mul]
  have h1 := hsq _ (dot_nonneg v)
  change norm2 sq v * norm2 sq v = v ⬝ᵥ v at h1
  rw [← h1]
  field_simp

theorem column_one {sq : K → K} (hsq : ∀ a, 0 ≤ a → sq a * sq a = a) (hsq0 : ∀ a, 0 ≤ a → 0 ≤ sq a)
    {A : Mat (Ext K)} (hA : IsMat A Ext.fin M) (hmv : ∀ u, u.length = n → ∃ v, A.mv u = .ok v)
    {pc : List (Ext K) → Res (List (Ext K))} {T : (Fin n → K) → Fin n → K}
    (hpc : ∀ v : Fin n → K, pc (vec Ext.fin v) = .ok (vec Ext.fin (T v)))
    {c : K} (hc0 : 0 < c) (hcT : ∀ v : Fin n → K, c * (T v ⬝ᵥ T v) ≤ v ⬝ᵥ T v)
    {k : Nat} (hk : k = 2 ∨ k = 3) {z : List K} (hz : z.length = k * k) (iter : Nat) {s : St (Ext K)} {ρ r ω : K}
    {x u p : Fin n → K} (hs : One M ρ r x u p s) (hlam : rd s.lam 0 = .ok (.fin ω)) {p' y : Fin n → K}
    (hp' : p' = z.getD 0 0 • u + (if k = 3 then z.getD 2 0 else 0) • p) (hy : y = p' + z.getD 1 0 • x)
    (hyy : y ⬝ᵥ y = 1) (hyM : y ⬝ᵥ (M *ᵥ y) = ω) (hp0 : p' ≠ 0) :
    ∃ s', column (Ext.num sq) A pc 1 n k (z.map Ext.fin) iter s 0 s =
        .ok (.inr (s', .fin (norm2 sq (T (M *ᵥ y - ω • y))))) ∧
      (norm2 sq (T (M *ᵥ y - ω • y)) ≠ 0 → ∃ u' p'', One M ω (c * norm2 sq (T (M *ᵥ y - ω • y))) y u' p'' s') := by
  obtain ⟨b, hb, b0, b1, b2⟩ := coeffs_one sq hk hz
  have E := Ext.exact sq
  have hny : norm2 sq y = 1 := norm2_one hsq hsq0 hyy
  have hnp : norm2 sq p' ≠ 0 := (norm2_pos hsq hsq0 hp0).ne'
  have hMp : M *ᵥ p' = z.getD 0 0 • (M *ᵥ u) + (if k = 3 then z.getD 2 0 else 0) • (M *ᵥ p) := by
    rw [hp', Matrix.mulVec_add, Matrix.mulVec_smul, Matrix.mulVec_smul]
  have hMy : M *ᵥ y = M *ᵥ p' + z.getD 1 0 • (M *ᵥ x) := by
    rw [hy, Matrix.mulVec_add, Matrix.mulVec_smul]
  have hzero : (Ext.num sq).zero = .fin 0 := rfl
  have hone : (Ext.num sq).one = .fin 1 := rfl
  unfold column
  rw [hlam, Res.ok_bind, wr_ok hs.l, Res.ok_bind, hb, Res.ok_bind, hzero, hs.F, hs.G]
  dsimp only
  rw [combine_one sq b0 b1 b2, Res.ok_bind, combine_one sq b0 b1 b2, Res.ok_bind]
  rw [← hp', ← hMp, ← hy, ← hMy]
  dsimp only
  rw [nrm2_vec E, nrm2_vec E, hone, E.div _ _ hnp, hny, E.div _ _ one_ne_zero, scal_vec, scal_vec, scal_vec, scal_vec,
    div_one, one_smul, one_smul, axpyz_neg_vec E, Res.ok_bind, hpc, Res.ok_bind, nrm2_vec E, E.isNaN]
  have hrow : cassert (decide (A.row = n)) = .ok () := cassert_of (by simp [hA.row])
  simp only [Bool.false_eq_true, if_false]
  by_cases h0 : norm2 sq (T (M *ᵥ y - ω • y)) = 0
  · obtain ⟨W, hW⟩ := hmv (scal (Ext.num sq) ((Ext.num sq).div (.fin 1) (.fin (norm2 sq (T (M *ᵥ y - ω • y)))))
      (vec Ext.fin (T (M *ᵥ y - ω • y)))) (by simp [scal, vec])
    unfold mvInto
    rw [hrow, Res.ok_bind, hW, Res.ok_bind]
    exact ⟨_, rfl, fun h => absurd h0 h⟩
  · rw [E.div _ _ h0, scal_vec]
    unfold mvInto
    rw [hrow, Res.ok_bind, hA.mv, Res.ok_bind]
    refine ⟨_, rfl, fun _ => ⟨(1 / norm2 sq (T (M *ᵥ y - ω • y))) • T (M *ᵥ y - ω • y), (1 / norm2 sq p') • p', ?_⟩⟩
    have hR : 0 < norm2 sq (T (M *ᵥ y - ω • y)) := lt_of_le_of_ne (hsq0 _ (dot_nonneg _)) (Ne.symm h0)
    refine ⟨rfl, ?_, ?_, hyy, unit_smul hsq h0, hyM, ?_, mul_pos hc0 hR⟩
    · simp [Fam.put, Matrix.mulVec_smul]
    · simpa using hs.l
    · have h1 := hcT (M *ᵥ y - ω • y)
      have h2 : norm2 sq (T (M *ᵥ y - ω • y)) * norm2 sq (T (M *ᵥ y - ω • y)) = T (M *ᵥ y - ω • y) ⬝ᵥ T (M *ᵥ y - ω • y) :=
        hsq _ (dot_nonneg _)
      rw [smul_dotProduct, smul_eq_mul, dotProduct_comm, one_div, ← div_eq_inv_mul, le_div_iff₀ hR]
      rw [← h2] at h1
      linarith

end Verif.Lobpcg
