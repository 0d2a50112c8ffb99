import Verif.Props.EndToEnd
import Verif.Props.CgJacobiRate

/-! C82: how many iterations CG needs for the generated matrices. -/

namespace Verif.Prog

open Spec Solver Matrix

theorem sum_unique_le {n : Nat} (p : Fin n → Prop) [DecidablePred p] (h : ∀ i j, p i → p j → i = j) {c : ℝ} (hc : 0 ≤ c) :
    ∑ j, (if p j then c else 0) ≤ c := by
  by_cases h0 : ∃ i, p i
  · obtain ⟨i, hi⟩ := h0
    have : ∀ j, (if p j then c else 0) = if j = i then c else 0 := by
      intro j
      by_cases hj : p j
      · rw [if_pos hj, if_pos (h j i hj hi)]
      · rw [if_neg hj, if_neg (by rintro rfl; exact hj hi)]
    simp only [this]
    rw [Finset.sum_ite_eq' Finset.univ i, if_pos (Finset.mem_univ i)]
  · push Not at h0
    simp [h0, hc]

theorem tri_dominant (n : Nat) {a b δ : ℝ} (hb : 2 * |b| ≤ δ * a) (i : Fin n) :
    ∑ j, (if j = i then 0 else |triMatrix n a b i j|) ≤ δ * triMatrix n a b i i := by
  have h1 : ∀ j, (if j = i then 0 else |triMatrix n a b i j|) ≤
      (if (i : Nat) + 1 = j then |b| else 0) + (if (j : Nat) + 1 = i then |b| else 0) := by
    intro j
    unfold triMatrix
    simp only [Matrix.of_apply]
    by_cases h : j = i
    · subst h; simp
    · rw [if_neg h, if_neg (fun e => h e.symm)]
      by_cases h2 : (i : Nat) + 1 = j
      · rw [if_pos (Or.inl h2), if_pos h2]
        have : (0 : ℝ) ≤ if (j : Nat) + 1 = i then |b| else 0 := by split_ifs <;> simp
        linarith
      · by_cases h3 : (j : Nat) + 1 = i
        · rw [if_pos (Or.inr h3), if_neg h2, if_pos h3, zero_add]
        · rw [if_neg (by tauto), if_neg h2, if_neg h3]; simp
  have h2 := Finset.sum_le_sum (s := Finset.univ) fun j _ => h1 j
  rw [Finset.sum_add_distrib] at h2
  have h3 := sum_unique_le (fun j : Fin n => (i : Nat) + 1 = j) (fun x y hx hy => Fin.ext (by omega)) (abs_nonneg b)
  have h4 := sum_unique_le (fun j : Fin n => (j : Nat) + 1 = i) (fun x y hx hy => Fin.ext (by omega)) (abs_nonneg b)
  have h5 : triMatrix n a b i i = a := by simp [triMatrix]
  rw [h5]
  linarith

/-- **C82, iterations (tridiagonal).** For a generated tridiagonal matrix with `a > 0` and `2 |b| ≤ δ a`, `δ < 1`, any size `n`
and any number `k ≤ n` for which `2 ((√(1+δ) - √(1-δ)) / (√(1+δ) + √(1-δ)))^k √((1+δ) a E)` is below the tolerance, `E` the
initial error in the energy norm, squared: SUCCESS after at most `k` iterations. Exact real arithmetic. -/
theorem C82_tridiagonal_rate (tol omega resid0 : ℝ) (order zo : Nat → List Nat) (ho : ∀ n, Order (order n) n)
    (hz : ∀ n, Order (zo n) n) (n : Nat) (h2 : 2 ≤ n) (hn : n < 2147483648) {a b δ : ℝ} (ha : 0 < a) (hδ0 : 0 ≤ δ)
    (hδ1 : δ < 1) (hb : 2 * |b| ≤ δ * a) (x y0 : Nat → ℝ) (xs : Fin n → ℝ) (hs : triMatrix n a b *ᵥ xs = firstN n y0)
    (hx : triMatrix n a b *ᵥ firstN n x ≠ firstN n y0) (k : Nat) (hk1 : 1 ≤ k) (hkn : k ≤ n)
    (hk : 2 * ((√(1 + δ) - √(1 - δ)) / (√(1 + δ) + √(1 - δ))) ^ k *
      √((1 + δ) * a * energy (triMatrix n a b) xs (firstN n x)) < tol) :
    ∃ j, ∃ y : Fin n → ℝ, 1 ≤ j ∧ j ≤ k ∧
      √((firstN n y0 - triMatrix n a b *ᵥ y) ⬝ᵥ (firstN n y0 - triMatrix n a b *ᵥ y)) < tol ∧
      cgGenerated (fieldNum Real.sqrt) (Gen.tridiagonal n a b) tol omega resid0 order zo x y0 =
        .ok { status := SUCCESS
              x := List.ofFn y
              finalIter := j
              finalResid := √((firstN n y0 - triMatrix n a b *ᵥ y) ⬝ᵥ (firstN n y0 - triMatrix n a b *ᵥ y)) } := by
  obtain ⟨coo, hg, hI⟩ := Gen.C26_tridiagonal n a b h2 hn
  have hm : matrixOf n coo.entries = triMatrix n a b := tri_matrix hI
  have hin : Within coo.rowN coo.colN coo.entries := fun e he => by
    have := (hI.stored e.1 e.2.1 e.2.2).mp he
    rw [hI.rows, hI.cols]
    exact ⟨this.1, this.2.1⟩
  obtain ⟨A, hA, hAr, hAc, -, ht, -, he⟩ := C06_convert_rows coo hI.wf hin (hI.order.imp fun {a b} h => by omega)
  have e1 : A.rowN = n := hAr.trans hI.rows
  have e2 : A.colN = n := hAc.trans hI.cols
  have hmat : Matrix.of (fun i j : Fin n => crsAt A i j) = triMatrix n a b := by
    rw [← hm]
    unfold crsAt matrixOf; rw [he]
  have hat : ∀ i j : Fin n, crsAt A i j = triMatrix n a b i j := fun i j => congrFun (congrFun hmat i) j
  have hd : DistinctPos A.entries := by rw [he]; exact hI.order.imp fun {a b} h => by omega
  have hdiag : ∀ i : Fin n, triMatrix n a b i i = a := fun i => by simp [triMatrix]
  obtain ⟨j, y, h3, h4, h5, h6⟩ := C102_dominant (n := n) { tol := tol, maxiter := n, omega := omega, prevResid := resid0 } rfl
    rfl rfl A ht.toSafe hd e1 e2 (order A.rowN) (zo A.rowN) (by rw [← e1]; exact ho _) (by rw [← e1]; exact hz _)
    (fun i j => by
      rw [hat, hat]
      unfold triMatrix
      simp only [Matrix.of_apply]
      by_cases h : i = j
      · subst h; rfl
      · rw [if_neg h, if_neg (Ne.symm h)]
        simp only [Or.comm]) (δ := δ) (κ := a) hδ0 hδ1 (fun i => by rw [hat, hdiag]; exact ha)
    (fun i => by rw [hat, hdiag]) (fun i => by
      simp only [hat]
      exact tri_dominant n hb i) (firstN n x) (firstN n y0) xs (by rw [hmat]; exact hs) (by rw [hmat]; exact hx) k hk1 hkn
    (by rw [hmat]; exact hk)
  rw [hmat] at h5 h6
  refine ⟨j, y, h3, h4, h5, ?_⟩
  rw [hg]
  unfold cgGenerated
  show ((Crs.ofCoo coo).bind _) = _
  rw [hA]
  subst e1
  exact h6

/-- the hypotheses are met: size 3, diagonal 4, off-diagonal -1, tolerance 2 (the initial residual is above 4): at most
two iterations -/
example (omega resid0 : ℝ) : ∃ j, ∃ y : Fin 3 → ℝ, 1 ≤ j ∧ j ≤ 2 ∧
    √((firstN 3 (fun i => if i = 1 then 2 else 3) - triMatrix 3 4 (-1) *ᵥ y) ⬝ᵥ
      (firstN 3 (fun i => if i = 1 then 2 else 3) - triMatrix 3 4 (-1) *ᵥ y)) < 2 ∧
    cgGenerated (fieldNum Real.sqrt) (Gen.tridiagonal 3 4 (-1)) 2 omega resid0 List.range List.range (fun _ => 0)
        (fun i => if i = 1 then 2 else 3) =
      .ok { status := SUCCESS
            x := List.ofFn y
            finalIter := j
            finalResid := √((firstN 3 (fun i => if i = 1 then 2 else 3) - triMatrix 3 4 (-1) *ᵥ y) ⬝ᵥ
              (firstN 3 (fun i => if i = 1 then 2 else 3) - triMatrix 3 4 (-1) *ᵥ y)) } := by
  have hs : triMatrix 3 4 (-1) *ᵥ (fun _ => (1 : ℝ)) = firstN 3 (fun i => if i = 1 then 2 else 3) := by
    funext i
    fin_cases i <;> simp [Matrix.mulVec, dotProduct, triMatrix, firstN, Fin.sum_univ_three] <;> norm_num
  have hx : triMatrix 3 4 (-1) *ᵥ firstN 3 (fun _ => (0 : ℝ)) = 0 := by
    funext i
    simp [Matrix.mulVec, dotProduct, firstN]
  have he : energy (triMatrix 3 4 (-1)) (fun _ => (1 : ℝ)) (firstN 3 (fun _ => (0 : ℝ))) = 8 := by
    simp [energy, Matrix.mulVec, dotProduct, triMatrix, firstN, Fin.sum_univ_three]
    norm_num
  refine C82_tridiagonal_rate 2 omega resid0 _ _ (fun n => Order.range n) (fun n => Order.range n) 3 (by omega) (by omega)
    (δ := 1 / 2) (by norm_num) (by norm_num) (by norm_num) (by norm_num) _ _ _ hs ?_ 2 (by omega) (by omega) ?_
  · rw [hx]
    intro h
    have := congrFun h 0
    simp [firstN] at this
  · rw [he]
    have h1 : (0 : ℝ) < √(1 - 1 / 2) := Real.sqrt_pos.mpr (by norm_num)
    have h2 : √(1 + 1 / 2) ≤ 2 * √(1 - 1 / 2 : ℝ) := by
      apply Real.sqrt_le_iff.mpr
      constructor
      · positivity
      · rw [mul_pow, Real.sq_sqrt (by norm_num)]; norm_num
    have h2' : √(1 - 1 / 2) ≤ √(1 + 1 / 2 : ℝ) := Real.sqrt_le_sqrt (by norm_num)
    have h3 : (√(1 + 1 / 2) - √(1 - 1 / 2 : ℝ)) / (√(1 + 1 / 2) + √(1 - 1 / 2)) ≤ 1 / 3 := by
      rw [div_le_iff₀ (by linarith)]
      linarith
    have h4 : 0 ≤ (√(1 + 1 / 2) - √(1 - 1 / 2 : ℝ)) / (√(1 + 1 / 2) + √(1 - 1 / 2)) :=
      div_nonneg (by linarith) (by linarith)
    have h5 : √((1 + 1 / 2) * 4 * 8 : ℝ) ≤ 7 := Real.sqrt_le_iff.mpr (by norm_num)
    have h6 := pow_le_pow_left₀ h4 h3 2
    have h7 := mul_le_mul h6 h5 (Real.sqrt_nonneg _) (by positivity)
    linarith

end Verif.Prog
