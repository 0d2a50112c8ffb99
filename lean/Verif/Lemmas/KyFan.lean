import Verif.Lemmas.LobpcgConv
import Mathlib.Algebra.BigOperators.Fin

/-!
Why one step of LOBPCG with several vectors lowers the sum of the Ritz values: the sum of the smallest Ritz values of a
space is the least sum of quotients of orthonormal vectors in it (Ky Fan).
-/

namespace Verif.Ritz

open Matrix

variable {K : Type} [Field K] [LinearOrder K] [IsStrictOrderedRing K] {n k m : Nat}
  {M Q : Matrix (Fin n) (Fin n) K} {U : Matrix (Fin k) (Fin n) K} {Z : Matrix (Fin k) (Fin k) K} {w : Fin k → K}

omit [IsStrictOrderedRing K] [LinearOrder K] in
theorem bessel_sum (d : Fin m → Fin k → K) (hd : ∀ i j, d i ⬝ᵥ d j = if i = j then 1 else 0) (a : Fin k) :
    ∑ b, ((if a = b then 1 else 0) - ∑ i, d i a * d i b) * ((if a = b then 1 else 0) - ∑ i, d i a * d i b) =
      1 - ∑ i, d i a * d i a := by
  have h1 : ∑ b, (∑ i, d i a * d i b) * (∑ j, d j a * d j b) = ∑ i, d i a * d i a := by
    have e : ∀ b, (∑ i, d i a * d i b) * (∑ j, d j a * d j b) = ∑ i, ∑ j, d i a * d j a * (d i b * d j b) := by
      intro b
      rw [Finset.sum_mul_sum]
      exact Finset.sum_congr rfl fun i _ => Finset.sum_congr rfl fun j _ => by ring
    rw [Finset.sum_congr rfl fun b _ => e b, Finset.sum_comm]
    refine Finset.sum_congr rfl fun i _ => ?_
    rw [Finset.sum_comm]
    rw [Finset.sum_eq_single i]
    · rw [← Finset.mul_sum]
      have := hd i i
      rw [if_pos rfl] at this
      rw [show ∑ b, d i b * d i b = 1 from this, mul_one]
    · intro j _ hj
      rw [← Finset.mul_sum]
      have := hd i j
      rw [if_neg (Ne.symm hj)] at this
      rw [show ∑ b, d i b * d j b = 0 from this, mul_zero]
    · intro h; exact absurd (Finset.mem_univ _) h
  have e : ∀ b, ((if a = b then (1 : K) else 0) - ∑ i, d i a * d i b) * ((if a = b then 1 else 0) - ∑ i, d i a * d i b) =
      (if a = b then 1 - 2 * ∑ i, d i a * d i b else 0) + (∑ i, d i a * d i b) * (∑ j, d j a * d j b) := by
    intro b
    split <;> ring
  rw [Finset.sum_congr rfl fun b _ => e b, Finset.sum_add_distrib, h1, Finset.sum_ite_eq, if_pos (Finset.mem_univ _)]
  ring

/-- the least sum of quotients -/
theorem Solved.kyFan (h : Solved M Q U Z w) (hmk : m ≤ k) (C : Fin m → Fin k → K)
    (hC : ∀ i j, (C i ᵥ* U) ⬝ᵥ (Q *ᵥ (C j ᵥ* U)) = if i = j then 1 else 0) :
    ∑ i : Fin m, w ⟨i, by omega⟩ ≤ ∑ i, (C i ᵥ* U) ⬝ᵥ (M *ᵥ (C i ᵥ* U)) := by
  rcases Nat.eq_zero_or_pos m with h0 | hm
  · subst h0; simp
  have hu : ∀ i, C i ᵥ* U = (C i ᵥ* (U * Q * Uᵀ * Z)) ᵥ* (Zᵀ * U) := by
    intro i
    rw [Matrix.vecMul_vecMul, h.back]
  obtain ⟨d, hd⟩ : ∃ d : Fin m → Fin k → K, ∀ i, C i ᵥ* U = d i ᵥ* (Zᵀ * U) := ⟨_, hu⟩
  have hdd : ∀ i j, d i ⬝ᵥ d j = if i = j then 1 else 0 := by
    intro i j
    rw [← hC, hd, hd, quad Q (Zᵀ * U), h.q, Matrix.one_mulVec]
  have hq : ∀ i, (C i ᵥ* U) ⬝ᵥ (M *ᵥ (C i ᵥ* U)) = ∑ a, w a * (d i a * d i a) := by
    intro i
    rw [hd, quad M (Zᵀ * U), h.m]
    unfold dotProduct
    refine Finset.sum_congr rfl fun a _ => ?_
    rw [Matrix.mulVec_diagonal]
    ring
  rw [Finset.sum_congr rfl fun i _ => hq i, Finset.sum_comm]
  have he : ∀ a, ∑ i, w a * (d i a * d i a) = w a * ∑ i, d i a * d i a := fun a => by rw [Finset.mul_sum]
  rw [Finset.sum_congr rfl fun a _ => he a]
  have hle : ∀ a, ∑ i, d i a * d i a ≤ 1 := by
    intro a
    have := bessel_sum d hdd a
    have hnn : 0 ≤ ∑ b, ((if a = b then (1 : K) else 0) - ∑ i, d i a * d i b) *
        ((if a = b then 1 else 0) - ∑ i, d i a * d i b) := Finset.sum_nonneg fun _ _ => mul_self_nonneg _
    rw [this] at hnn
    linarith
  have hnn : ∀ a, 0 ≤ ∑ i, d i a * d i a := fun a => Finset.sum_nonneg fun _ _ => mul_self_nonneg _
  have htot : ∑ a, ∑ i, d i a * d i a = (m : K) := by
    rw [Finset.sum_comm]
    have : ∀ i, ∑ a, d i a * d i a = 1 := by
      intro i
      have := hdd i i
      rw [if_pos rfl] at this
      exact this
    rw [Finset.sum_congr rfl fun i _ => this i]
    simp
  have hpick : ∀ f : Fin k → K, ∑ i : Fin m, f ⟨i, by omega⟩ = ∑ a : Fin k, if (a : Nat) < m then f a else 0 := by
    intro f
    rw [← Finset.sum_filter]
    refine Finset.sum_bij (fun (i : Fin m) _ => (⟨i, by omega⟩ : Fin k)) ?_ ?_ ?_ ?_
    · intro i _
      simp
    · intro i _ j _ hij
      have := Fin.mk.inj hij
      exact Fin.ext this
    · intro a ha
      rw [Finset.mem_filter] at ha
      exact ⟨⟨a, ha.2⟩, Finset.mem_univ _, rfl⟩
    · intro i _
      rfl
  have hcount : ∑ a : Fin k, (if (a : Nat) < m then (1 : K) else 0) = m := by
    rw [← hpick fun _ => 1]
    simp
  rw [hpick w]
  obtain ⟨τ, hτ⟩ : ∃ τ, τ = w ⟨m - 1, by omega⟩ := ⟨_, rfl⟩
  have hterm : ∀ a, τ * ((∑ i, d i a * d i a) - if (a : Nat) < m then 1 else 0) ≤
      w a * (∑ i, d i a * d i a) - if (a : Nat) < m then w a else 0 := by
    intro a
    by_cases ha : (a : Nat) < m
    · rw [if_pos ha, if_pos ha]
      have h1 : w a ≤ τ := by rw [hτ]; exact h.sorted _ _ (by rw [Fin.le_def]; simp only; omega)
      have := mul_nonneg (sub_nonneg.mpr h1) (sub_nonneg.mpr (hle a))
      linarith
    · rw [if_neg ha, if_neg ha]
      have h1 : τ ≤ w a := by rw [hτ]; exact h.sorted _ _ (by rw [Fin.le_def]; simp only; omega)
      have := mul_le_mul_of_nonneg_right h1 (hnn a)
      linarith
  have := Finset.sum_le_sum fun a (_ : a ∈ Finset.univ) => hterm a
  rw [← Finset.mul_sum, Finset.sum_sub_distrib, Finset.sum_sub_distrib, htot, hcount, sub_self, mul_zero] at this
  linarith

theorem sum_single_smul (v : Fin m → Fin n → K) (j : Fin m) (a : K) : ∑ k, (Pi.single j a : Fin m → K) k • v k = a • v j := by
  rw [Finset.sum_eq_single j]
  · rw [Pi.single_eq_same]
  · intro b _ hb
    rw [Pi.single_eq_of_ne hb, zero_smul]
  · intro h; exact absurd (Finset.mem_univ _) h

/-- the gain of a step from orthonormal Ritz vectors `v` along a vector `u` of length 1 orthogonal to them -/
theorem block_decrease' {sq : K → K} (hsq : ∀ a, 0 ≤ a → sq a * sq a = a) (hM : Mᵀ = M) {lo D : K}
    (hlo : ∀ v : Fin n → K, lo * (v ⬝ᵥ v) ≤ v ⬝ᵥ (M *ᵥ v))
    (hhi : ∀ v : Fin n → K, v ⬝ᵥ (M *ᵥ v) ≤ (lo + D) * (v ⬝ᵥ v))
    {v : Fin m → Fin n → K} {lam : Fin m → K} (hv : ∀ i j, v i ⬝ᵥ v j = if i = j then 1 else 0)
    (hq : ∀ i j, v i ⬝ᵥ (M *ᵥ v j) = if i = j then lam i else 0) {i : Fin m} {u : Fin n → K} {r : K}
    (hu : u ⬝ᵥ u = 1) (hvu : ∀ j, v j ⬝ᵥ u = 0) (hr : u ⬝ᵥ (M *ᵥ v i) = r) (hr0 : 0 < r) {S : K}
    (hS : ∀ y : Fin m → Fin n → K, (∀ j, ∃ (c : K) (d : Fin m → K), y j = c • u + ∑ k, d k • v k) →
      (∀ a b, y a ⬝ᵥ y b = if a = b then 1 else 0) → S ≤ ∑ j, y j ⬝ᵥ (M *ᵥ y j)) :
    0 < D ∧ S ≤ (∑ j, lam j) - r ^ 2 / (2 * D) := by
  have hvi : v i ⬝ᵥ v i = 1 := by rw [hv, if_pos rfl]
  have hqi : v i ⬝ᵥ (M *ᵥ v i) = lam i := by rw [hq, if_pos rfl]
  have hsum : ∀ x : Fin n → K, ∑ j, (Function.update v i x) j ⬝ᵥ (M *ᵥ (Function.update v i x) j) =
      (∑ j, lam j) - lam i + x ⬝ᵥ (M *ᵥ x) := by
    intro x
    rw [← Finset.add_sum_erase _ _ (Finset.mem_univ i), ← Finset.add_sum_erase _ lam (Finset.mem_univ i)]
    rw [Function.update_self]
    have : ∀ j ∈ Finset.univ.erase i, (Function.update v i x) j ⬝ᵥ (M *ᵥ (Function.update v i x) j) = lam j := by
      intro j hj
      rw [Function.update_of_ne (Finset.ne_of_mem_erase hj), hq, if_pos rfl]
    rw [Finset.sum_congr rfl this]
    ring
  have hunit : ∀ a b : K, a * a + b * b = 1 → S ≤ (∑ j, lam j) - lam i +
      (a • v i + b • u) ⬝ᵥ (M *ᵥ (a • v i + b • u)) := by
    intro a b hab
    rw [← hsum]
    refine hS _ ?_ ?_
    · intro j
      by_cases h : j = i
      · subst h
        rw [Function.update_self]
        exact ⟨b, Pi.single j a, by rw [sum_single_smul, add_comm]⟩
      · rw [Function.update_of_ne h]
        exact ⟨0, Pi.single j 1, by rw [sum_single_smul]; simp⟩
    · intro p q
      by_cases hp : p = i
      · by_cases hq' : q = i
        · subst hp; subst hq'
          rw [Function.update_self, if_pos rfl, (form2' hM hvi hu (hvu _) hqi hr a b).2, hab]
        · subst hp
          rw [Function.update_self, Function.update_of_ne hq', if_neg (Ne.symm hq'), add_dotProduct, smul_dotProduct,
            smul_dotProduct, hv, if_neg (Ne.symm hq'), dotProduct_comm u, hvu]
          simp
      · by_cases hq' : q = i
        · subst hq'
          rw [Function.update_self, Function.update_of_ne hp, if_neg hp, dotProduct_add, dotProduct_smul,
            dotProduct_smul, hv, if_neg hp, hvu]
          simp
        · rw [Function.update_of_ne hp, Function.update_of_ne hq', hv]
  have hω : ∀ a b : K, (S - ((∑ j, lam j) - lam i)) * ((a • v i + b • u) ⬝ᵥ (a • v i + b • u)) ≤
      (a • v i + b • u) ⬝ᵥ (M *ᵥ (a • v i + b • u)) := by
    intro a b
    rw [(form2' hM hvi hu (hvu _) hqi hr a b).1, (form2' hM hvi hu (hvu _) hqi hr a b).2]
    by_cases h0 : a * a + b * b = 0
    · have ha : a = 0 := by
        have := mul_self_nonneg a; have := mul_self_nonneg b
        exact mul_self_eq_zero.mp (by linarith)
      have hb : b = 0 := by
        have := mul_self_nonneg a; have := mul_self_nonneg b
        exact mul_self_eq_zero.mp (by linarith)
      subst ha; subst hb; simp
    · have hp : 0 < a * a + b * b :=
        lt_of_le_of_ne (add_nonneg (mul_self_nonneg a) (mul_self_nonneg b)) (Ne.symm h0)
      obtain ⟨t, ht⟩ : ∃ t, t = sq (a * a + b * b) := ⟨_, rfl⟩
      have htt : t * t = a * a + b * b := by rw [ht]; exact hsq _ hp.le
      have ht0 : t ≠ 0 := by
        intro h; rw [h, mul_zero] at htt; exact h0 htt.symm
      have h1 := hunit (a / t) (b / t) (by
        field_simp
        linarith [htt, pow_two t, pow_two a, pow_two b])
      rw [(form2' hM hvi hu (hvu _) hqi hr (a / t) (b / t)).1] at h1
      have h2 : (a / t * (a / t) * lam i + 2 * (a / t * (b / t) * r) + b / t * (b / t) * (u ⬝ᵥ (M *ᵥ u))) * (t * t) =
          a * a * lam i + 2 * (a * b * r) + b * b * (u ⬝ᵥ (M *ᵥ u)) := by
        field_simp
      rw [← h2, ← htt]
      refine mul_le_mul_of_nonneg_right ?_ (mul_self_nonneg t)
      linarith
  obtain ⟨h1, h2⟩ := decrease' hM hvi hu (hvu _) hqi hr hr0 hlo hhi hω
  exact ⟨h1, by linarith⟩


/-- the gain of a step from orthonormal Ritz vectors `v` along any direction `u` that has a component `β` along the residual
of one of them -/
theorem block_decrease {sq : K → K} (hsq : ∀ a, 0 ≤ a → sq a * sq a = a) (hsq0 : ∀ a, 0 ≤ a → 0 ≤ sq a) (hM : Mᵀ = M) {lo D : K}
    (hlo : ∀ v : Fin n → K, lo * (v ⬝ᵥ v) ≤ v ⬝ᵥ (M *ᵥ v))
    (hhi : ∀ v : Fin n → K, v ⬝ᵥ (M *ᵥ v) ≤ (lo + D) * (v ⬝ᵥ v))
    {v : Fin m → Fin n → K} {lam : Fin m → K} (hv : ∀ i j, v i ⬝ᵥ v j = if i = j then 1 else 0)
    (hq : ∀ i j, v i ⬝ᵥ (M *ᵥ v j) = if i = j then lam i else 0) {i : Fin m} {u : Fin n → K} {β : K}
    (hu : u ⬝ᵥ u = 1) (hβ : β ≤ u ⬝ᵥ (M *ᵥ v i - lam i • v i)) (hβ0 : 0 < β) {S : K}
    (hS : ∀ y : Fin m → Fin n → K, (∀ j, ∃ (c : K) (d : Fin m → K), y j = c • u + ∑ k, d k • v k) →
      (∀ a b, y a ⬝ᵥ y b = if a = b then 1 else 0) → S ≤ ∑ j, y j ⬝ᵥ (M *ᵥ y j)) :
    0 < D ∧ S ≤ (∑ j, lam j) - β ^ 2 / (2 * D) := by
  -- the part of `u` orthogonal to the vectors
  obtain ⟨u', hu'⟩ : ∃ u', u' = u - ∑ k, (v k ⬝ᵥ u) • v k := ⟨_, rfl⟩
  have hvk : ∀ (j : Fin m) (e : Fin m → K), v j ⬝ᵥ ∑ k, e k • v k = e j := by
    intro j e
    rw [dotProduct_sum, Finset.sum_eq_single j]
    · rw [dotProduct_smul, hv, if_pos rfl, smul_eq_mul, mul_one]
    · intro b _ hb
      rw [dotProduct_smul, hv, if_neg (Ne.symm hb), smul_zero]
    · intro h; exact absurd (Finset.mem_univ _) h
  have hvu : ∀ j, v j ⬝ᵥ u' = 0 := by
    intro j
    rw [hu', dotProduct_sub, hvk, sub_self]
  have hsumu : ∀ e : Fin m → K, (∑ k, e k • v k) ⬝ᵥ u' = 0 := by
    intro e
    rw [sum_dotProduct]
    refine Finset.sum_eq_zero fun k _ => ?_
    rw [smul_dotProduct, hvu, smul_zero]
  have huu : u' ⬝ᵥ u' ≤ 1 := by
    have e1 : u = u' + ∑ k, (v k ⬝ᵥ u) • v k := by rw [hu', sub_add_cancel]
    have e2 : u ⬝ᵥ u = u' ⬝ᵥ u' + (∑ k, (v k ⬝ᵥ u) • v k) ⬝ᵥ (∑ k, (v k ⬝ᵥ u) • v k) := by
      conv_lhs => rw [e1]
      rw [add_dotProduct, dotProduct_add, dotProduct_add, hsumu, dotProduct_comm u' (∑ k, _), hsumu]
      ring
    have e3 : 0 ≤ (∑ k, (v k ⬝ᵥ u) • v k) ⬝ᵥ (∑ k, (v k ⬝ᵥ u) • v k) :=
      Finset.sum_nonneg fun k _ => mul_self_nonneg _
    linarith
  have hres : u' ⬝ᵥ (M *ᵥ v i) = u ⬝ᵥ (M *ᵥ v i - lam i • v i) := by
    rw [hu', sub_dotProduct, dotProduct_sub, sum_dotProduct, Finset.sum_eq_single i]
    · rw [smul_dotProduct, hq, if_pos rfl, dotProduct_smul, dotProduct_comm u (v i), smul_eq_mul, smul_eq_mul, mul_comm]
    · intro b _ hb
      rw [smul_dotProduct, hq, if_neg hb, smul_zero]
    · intro h; exact absurd (Finset.mem_univ _) h
  have hpos : 0 < u' ⬝ᵥ (M *ᵥ v i) := by rw [hres]; linarith
  have hne : u' ⬝ᵥ u' ≠ 0 := by
    intro h0
    have : u' = 0 := dotProduct_self_eq_zero.mp h0
    rw [this, zero_dotProduct] at hpos
    exact lt_irrefl _ hpos
  have hnn : 0 ≤ u' ⬝ᵥ u' := Finset.sum_nonneg fun k _ => mul_self_nonneg _
  obtain ⟨t, ht⟩ : ∃ t, t = sq (u' ⬝ᵥ u') := ⟨_, rfl⟩
  have htt : t * t = u' ⬝ᵥ u' := by rw [ht]; exact hsq _ hnn
  have ht0 : 0 < t := by
    refine lt_of_le_of_ne (by rw [ht]; exact hsq0 _ hnn) ?_
    intro h
    rw [← h, mul_zero] at htt
    exact hne htt.symm
  have ht1 : t ≤ 1 := by nlinarith
  have hstep := block_decrease' (m := m) hsq hM hlo hhi hv hq (i := i) (u := (1 / t) • u') (r := (1 / t) * (u' ⬝ᵥ (M *ᵥ v i))) (S := S)
    (by
      rw [smul_dotProduct, dotProduct_smul, ← htt, smul_eq_mul, smul_eq_mul]
      field_simp)
    (by intro j; rw [dotProduct_smul, hvu, smul_zero])
    (by rw [smul_dotProduct, smul_eq_mul])
    (by positivity)
    (by
      intro y hy ho
      refine hS y ?_ ho
      intro j
      obtain ⟨c, d, hcd⟩ := hy j
      refine ⟨c * (1 / t), fun k => d k - c * (1 / t) * (v k ⬝ᵥ u), ?_⟩
      rw [hcd, hu', smul_smul, smul_sub, Finset.smul_sum]
      simp only [sub_smul, Finset.sum_sub_distrib, smul_smul]
      abel)
  refine ⟨hstep.1, hstep.2.trans ?_⟩
  have h1 : β ≤ (1 / t) * (u' ⬝ᵥ (M *ᵥ v i)) := by
    rw [hres]
    rw [hres] at hpos
    have : 1 ≤ 1 / t := by rw [le_div_iff₀ ht0]; linarith
    nlinarith
  have h2 : β ^ 2 ≤ ((1 / t) * (u' ⬝ᵥ (M *ᵥ v i))) ^ 2 := pow_le_pow_left₀ hβ0.le h1 2
  have h3 := div_le_div_of_nonneg_right h2 (by linarith [hstep.1] : (0 : K) ≤ 2 * D)
  linarith

end Verif.Ritz
