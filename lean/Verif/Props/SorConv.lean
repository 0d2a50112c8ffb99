import Verif.Props.Sor

/-!
C57: the SOR solver converges for symmetric positive definite matrices and `0 < omega < 2`
(Ostrowski-Reich), and for strictly diagonally dominant matrices and `0 < omega ≤ 1`.
-/

set_option linter.unusedSectionVars false

namespace Verif.Solver

open Verif.Spec Matrix

variable {α K : Type} {n : Nat} [Field K] [LinearOrder K] [IsStrictOrderedRing K]

/-- `A = L + D + U` -/
theorem split_matrix (A : Matrix (Fin n) (Fin n) K) :
    A = strictLower A + Matrix.diagonal (fun i => A i i) + strictUpper A := by
  ext i j
  simp only [Matrix.add_apply, strictLower, strictUpper, Matrix.of_apply]
  rcases lt_trichotomy i j with h | h | h
  · rw [if_neg (not_lt.2 (le_of_lt h)), if_pos h, Matrix.diagonal_apply_ne _ (ne_of_lt h)]; ring
  · subst h; simp
  · rw [if_pos h, if_neg (not_lt.2 (le_of_lt h)), Matrix.diagonal_apply_ne _ (ne_of_gt h)]; ring

theorem upper_eq_transpose {A : Matrix (Fin n) (Fin n) K} (hA : A.transpose = A) :
    strictUpper A = (strictLower A).transpose := by
  ext i j
  simp only [strictUpper, strictLower, Matrix.of_apply, Matrix.transpose_apply]
  have : A j i = A i j := congrFun (congrFun hA i) j
  rw [this]

/-- **Energy identity.** One SOR sweep with correction `t` lowers the energy norm of the error by
exactly `(2/w - 1) tᵀ D t`. -/
theorem sor_energy {A : Matrix (Fin n) (Fin n) K} (hA : A.transpose = A) {w : K}
    {b s x x' : Fin n → K} (hs : A *ᵥ s = b) (hstep : SorStep A w (b - A *ᵥ x) x x') :
    (x' - s) ⬝ᵥ (A *ᵥ (x' - s)) = (x - s) ⬝ᵥ (A *ᵥ (x - s)) -
      (2 / w - 1) * ∑ i, A i i * ((x' - x) i * (x' - x) i) := by
  set t := x' - x with ht
  set e := x - s with he
  have hx' : x' - s = e + t := by rw [ht, he]; abel
  have hAe : A *ᵥ e = - (b - A *ᵥ x) := by rw [he, Matrix.mulVec_sub, hs]; abel
  unfold SorStep at hstep
  rw [← ht] at hstep
  have hsymm : e ⬝ᵥ (A *ᵥ t) = t ⬝ᵥ (A *ᵥ e) := by
    rw [Matrix.dotProduct_mulVec, ← Matrix.mulVec_transpose, hA, dotProduct_comm]
  have hdiag : ∀ c : Fin n → K, t ⬝ᵥ (Matrix.diagonal c *ᵥ t) = ∑ i, c i * (t i * t i) := by
    intro c
    simp only [dotProduct, Matrix.mulVec_diagonal]
    exact Finset.sum_congr rfl (fun i _ => by ring)
  have hU : t ⬝ᵥ (strictUpper A *ᵥ t) = t ⬝ᵥ (strictLower A *ᵥ t) := by
    rw [upper_eq_transpose hA, Matrix.mulVec_transpose, dotProduct_comm, ← Matrix.dotProduct_mulVec]
  have h1 : t ⬝ᵥ (A *ᵥ e) = -(∑ i, A i i / w * (t i * t i)) - t ⬝ᵥ (strictLower A *ᵥ t) := by
    rw [hAe, ← hstep, dotProduct_neg, Matrix.add_mulVec, dotProduct_add, hdiag]
    ring
  have h2 : t ⬝ᵥ (A *ᵥ t) = 2 * (t ⬝ᵥ (strictLower A *ᵥ t)) + ∑ i, A i i * (t i * t i) := by
    conv_lhs => rw [split_matrix A]
    rw [Matrix.add_mulVec, Matrix.add_mulVec, dotProduct_add, dotProduct_add, hU, hdiag]
    ring
  have h3 : ∑ i, A i i / w * (t i * t i) = 1 / w * ∑ i, A i i * (t i * t i) := by
    rw [Finset.mul_sum]
    exact Finset.sum_congr rfl (fun i _ => by ring)
  rw [hx', Matrix.mulVec_add, dotProduct_add, add_dotProduct, add_dotProduct, hsymm, h1, h2, h3]
  ring

theorem spd_diag_pos {A : Matrix (Fin n) (Fin n) K} (hA : SPD A) (i : Fin n) : 0 < A i i := by
  have := hA.2 (Pi.single i 1) (by
    intro h
    have := congrFun h i
    simp at this)
  simpa using this

theorem spd_nonneg {A : Matrix (Fin n) (Fin n) K} (hA : SPD A) (v : Fin n → K) :
    0 ≤ v ⬝ᵥ (A *ᵥ v) := by
  by_cases h : v = 0
  · subst h; simp
  · exact le_of_lt (hA.2 v h)

/-- the residual is bounded by the size of the correction -/
theorem sor_residual_le {A : Matrix (Fin n) (Fin n) K} (hA : ∀ i, 0 < A i i) (w : K) :
    ∃ C : K, 0 ≤ C ∧ ∀ r x x' : Fin n → K, SorStep A w r x x' →
      r ⬝ᵥ r ≤ C * ∑ i, A i i * ((x' - x) i * (x' - x) i) := by
  set B := Matrix.diagonal (fun i => A i i / w) + strictLower A with hB
  refine ⟨∑ i, ∑ j, B i j ^ 2 / A j j, ?_, ?_⟩
  · exact Finset.sum_nonneg (fun i _ => Finset.sum_nonneg (fun j _ =>
      div_nonneg (sq_nonneg _) (le_of_lt (hA j))))
  · intro r x x' h
    unfold SorStep at h
    rw [← hB] at h
    rw [Finset.sum_mul]
    unfold dotProduct
    apply Finset.sum_le_sum
    intro i _
    have hri : r i = ∑ j, B i j * (x' - x) j := by rw [← h]; rfl
    have := Finset.sum_sq_le_sum_mul_sum_of_sq_eq_mul Finset.univ
      (r := fun j => B i j * (x' - x) j) (f := fun j => B i j ^ 2 / A j j)
      (g := fun j => A j j * ((x' - x) j * (x' - x) j))
      (fun j _ => div_nonneg (sq_nonneg _) (le_of_lt (hA j)))
      (fun j _ => mul_nonneg (le_of_lt (hA j)) (mul_self_nonneg _))
      (fun j _ => by have := ne_of_gt (hA j); field_simp)
    rw [← hri] at this
    calc r i * r i = r i ^ 2 := by ring
      _ ≤ _ := this

/-- Among the first `m` sweeps one has a correction of size at most `E / m`. -/
theorem sor_some_small {A : Matrix (Fin n) (Fin n) K} (hA : SPD A) {w : K} (hw0 : 0 < w)
    (hw2 : w < 2) {b s x : Fin n → K} (hs : A *ᵥ s = b) {xs : Nat → Fin n → K}
    (hxs : SorSeq A w id b x xs) (m : Nat) (hm : 0 < m) :
    ∃ k, k < m ∧ (2 / w - 1) * (m * ∑ i, A i i * ((xs (k + 1) - xs k) i * (xs (k + 1) - xs k) i)) ≤
      (x - s) ⬝ᵥ (A *ᵥ (x - s)) := by
  set D : Nat → K := fun k => ∑ i, A i i * ((xs (k + 1) - xs k) i * (xs (k + 1) - xs k) i) with hD
  have hsum : ∀ m, (2 / w - 1) * ∑ k ∈ Finset.range m, D k =
      (x - s) ⬝ᵥ (A *ᵥ (x - s)) - (xs m - s) ⬝ᵥ (A *ᵥ (xs m - s)) := by
    intro m
    induction m with
    | zero => simp [hxs.1]
    | succ m ih =>
      have := sor_energy (x := xs m) hA.1 hs (hxs.2 m)
      rw [Finset.sum_range_succ, mul_add, ih, this]
      simp only [hD]
      ring
  have hc : 0 < 2 / w - 1 := by
    rw [sub_pos, lt_div_iff₀ hw0]; linarith
  obtain ⟨k, hk, hmin⟩ := Finset.exists_min_image (Finset.range m) D ⟨0, by simpa using hm⟩
  refine ⟨k, by simpa using hk, ?_⟩
  have h1 : (m : K) * D k ≤ ∑ k ∈ Finset.range m, D k := by
    have := Finset.card_nsmul_le_sum (Finset.range m) D (D k) hmin
    simpa [nsmul_eq_mul] using this
  have h2 := hsum m
  have h3 := spd_nonneg hA (xs m - s)
  have h4 : (2 / w - 1) * (m * D k) ≤ (2 / w - 1) * ∑ k ∈ Finset.range m, D k :=
    mul_le_mul_of_nonneg_left h1 (le_of_lt hc)
  linarith

/-- if some iterate's relative residual is below the tolerance, the solver succeeds -/
theorem sor_succeeds {N : Num α} {ι : K → α} {sq : K → K} (h : Exact N ι sq)
    (tol w : K) (hw : w ≠ 0) (A : Mat α) (M : Matrix (Fin n) (Fin n) K) (hA : IsMat A ι M)
    (hd : ∀ i, M i i ≠ 0) (lower : List α → List α → List α → Res (List α))
    (hlow : IsLower lower ι M) (create : Res (List α → Res (List α)))
    (hpc : IsPrecond (n := n) create ι id) (x b : Fin n → K) (hb : norm2 sq b ≠ 0)
    (xs : Nat → Fin n → K) (hxs : SorSeq M w id b x xs) (k0 : Nat)
    (hk0 : norm2 sq (b - M *ᵥ xs k0) * (1 / norm2 sq b) < tol) :
    ∀ cfg : Cfg α, cfg.tol = ι tol → cfg.lib = 0 → cfg.residMethod = 0 → cfg.miniter = 0 →
      cfg.omega = ι w → k0 + 1 ≤ cfg.maxiter →
      ∃ out, SOR.solve N cfg A lower create (vec ι x) (vec ι b) = .ok out ∧
        out.status = SUCCESS ∧ out.finalIter ≤ k0 + 1 := by
  intro cfg ht hlib hm hmin hom hmax
  obtain ⟨k, status, hk, heq, hfirst, hcase⟩ :=
    C32_exact_partial h cfg tol w ht hlib hm hom hw A M hA hd lower hlow create id hpc x b hb xs hxs
  have hkk : k ≤ k0 + 1 := by
    by_contra hcon
    exact hfirst (k0 + 1) (by omega) (by omega) ⟨hk0, by omega⟩
  rcases hcase with ⟨hst, _⟩ | ⟨_, hkm, hno⟩
  · exact ⟨_, heq, hst, hkk⟩
  · have : k = k0 + 1 := by omega
    subst this
    exact absurd ⟨hk0, by omega⟩ (hno (by omega))

/-- C57 (symmetric positive definite): for every symmetric positive definite matrix of any size, every
`omega` strictly between 0 and 2 (the default 1.9 included), `b ≠ 0`, positive tolerance and initial
guess there is an iteration limit from which on the SOR solver always returns SUCCESS (default
`miniter`, no preconditioner; exact arithmetic over an Archimedean ordered field such as the reals). -/
theorem C57_spd [Archimedean K] {N : Num α} {ι : K → α} {sq : K → K}
    (h : Exact N ι sq) (hsq : ∀ eps, 0 < eps → ∃ d, 0 < d ∧ ∀ a, 0 ≤ a → a ≤ d → sq a < eps)
    (hsq0 : ∀ a, 0 ≤ a → 0 ≤ sq a)
    (tol : K) (htol : 0 < tol) (A : Mat α) (M : Matrix (Fin n) (Fin n) K) (hA : IsMat A ι M)
    (hM : SPD M) (w : K) (hw0 : 0 < w) (hw2 : w < 2)
    (lower : List α → List α → List α → Res (List α)) (hlow : IsLower lower ι M)
    (create : Res (List α → Res (List α))) (hpc : IsPrecond (n := n) create ι id)
    (x b s : Fin n → K) (hs : M *ᵥ s = b) (hb : norm2 sq b ≠ 0) :
    ∃ K0, ∀ cfg : Cfg α, cfg.tol = ι tol → cfg.lib = 0 → cfg.residMethod = 0 → cfg.miniter = 0 →
      cfg.omega = ι w → K0 ≤ cfg.maxiter →
      ∃ out, SOR.solve N cfg A lower create (vec ι x) (vec ι b) = .ok out ∧
        out.status = SUCCESS ∧ out.finalIter ≤ K0 := by
  have hw : w ≠ 0 := ne_of_gt hw0
  have hdpos := spd_diag_pos hM
  have hd : ∀ i, M i i ≠ 0 := fun i => ne_of_gt (hdpos i)
  obtain ⟨xs, hxs, _⟩ := C32_iterates M hd w hw id b x
  have hbpos : 0 < norm2 sq b :=
    lt_of_le_of_ne (hsq0 _ (Finset.sum_nonneg (fun i _ => mul_self_nonneg _))) (Ne.symm hb)
  obtain ⟨C, hC0, hC⟩ := sor_residual_le hdpos w
  obtain ⟨d, hd0, hdd⟩ := hsq (tol * norm2 sq b) (mul_pos htol hbpos)
  have hc : 0 < 2 / w - 1 := by
    rw [sub_pos, lt_div_iff₀ hw0]; linarith
  set E := (x - s) ⬝ᵥ (M *ᵥ (x - s)) with hE
  have hE0 : 0 ≤ E := spd_nonneg hM _
  -- choose m with C E / ((2/w - 1) m) ≤ d
  obtain ⟨m, hm⟩ := exists_nat_gt (C * E / ((2 / w - 1) * d))
  have hmm : C * E < (m + 1 : Nat) * ((2 / w - 1) * d) := by
    rw [div_lt_iff₀ (mul_pos hc hd0)] at hm
    have : (m : K) * ((2 / w - 1) * d) ≤ ((m + 1 : Nat) : K) * ((2 / w - 1) * d) := by
      apply mul_le_mul_of_nonneg_right _ (le_of_lt (mul_pos hc hd0))
      push_cast; linarith
    linarith
  obtain ⟨k, hk, hsmall⟩ := sor_some_small hM hw0 hw2 hs hxs (m + 1) (by omega)
  have hrk := hC _ _ _ (hxs.2 k)
  set Dk := ∑ i, M i i * ((xs (k + 1) - xs k) i * (xs (k + 1) - xs k) i) with hDk
  have hmpos : (0 : K) < (m + 1 : Nat) := by exact_mod_cast Nat.succ_pos m
  have hle : C * Dk ≤ d := by
    have h1 : C * ((2 / w - 1) * ((m + 1 : Nat) * Dk)) ≤ C * E := mul_le_mul_of_nonneg_left hsmall hC0
    have h2 : ((2 / w - 1) * (m + 1 : Nat)) * (C * Dk) ≤ ((2 / w - 1) * (m + 1 : Nat)) * d := by
      have h3 : ((2 / w - 1) * ((m + 1 : Nat) : K)) * (C * Dk) =
        C * ((2 / w - 1) * ((m + 1 : Nat) * Dk)) := by ring
      have h4 : ((2 / w - 1) * ((m + 1 : Nat) : K)) * d = (m + 1 : Nat) * ((2 / w - 1) * d) := by ring
      rw [h3, h4]
      linarith
    exact le_of_mul_le_mul_left h2 (mul_pos hc hmpos)
  have hlt := hdd _ (Finset.sum_nonneg (fun i _ => mul_self_nonneg _)) (le_trans hrk hle)
  refine ⟨k + 1, sor_succeeds h tol w hw A M hA hd lower hlow create hpc x b hb xs hxs k ?_⟩
  rw [mul_one_div, div_lt_iff₀ hbpos]
  exact hlt

/-- one SOR sweep does not enlarge the error, for a diagonally dominant matrix and `0 < w ≤ 1` -/
theorem sor_contract {A : Matrix (Fin n) (Fin n) K} {q : K} (hA : Dominant A q) (hq : q ≤ 1)
    {w : K} (hw0 : 0 < w) (hw1 : w ≤ 1) {b s x x' : Fin n → K} (hs : A *ᵥ s = b)
    (hstep : SorStep A w (b - A *ᵥ x) x x') {e : K} (he : ∀ j, |x j - s j| ≤ e) :
    ∀ i, |x' i - s i| ≤ (1 - w + w * q) * e := by
  have hii : ∀ i, A i i ≠ 0 := fun i => abs_pos.1 (hA i).1
  have hw : w ≠ 0 := ne_of_gt hw0
  -- the update formula of the error
  have key : ∀ i, A i i * (x' i - s i) = (1 - w) * (A i i * (x i - s i)) -
      w * ∑ j ∈ Finset.univ.erase i, A i j * (if j < i then x' j - s j else x j - s j) := by
    intro i
    have h1 := congrFun hstep i
    rw [Matrix.add_mulVec, Pi.add_apply, Matrix.mulVec_diagonal, strictLower_mulVec] at h1
    have hbi : b i = ∑ j, A i j * s j := by rw [← hs]; rfl
    have h2 : (b - A *ᵥ x) i = - ∑ j, A i j * (x j - s j) := by
      rw [Pi.sub_apply, hbi]
      simp only [Matrix.mulVec, dotProduct, mul_sub, Finset.sum_sub_distrib]
      ring
    rw [h2] at h1
    have h3 : ∑ j, A i j * (x j - s j) + ∑ j, strictLower A i j * (x' - x) j =
        A i i * (x i - s i) +
        ∑ j ∈ Finset.univ.erase i, A i j * (if j < i then x' j - s j else x j - s j) := by
      rw [← Finset.sum_add_distrib, ← Finset.add_sum_erase _ _ (Finset.mem_univ i)]
      congr 1
      · simp [strictLower]
      · apply Finset.sum_congr rfl
        intro j _
        simp only [strictLower, Matrix.of_apply, Pi.sub_apply]
        split <;> ring
    have h4 : A i i * (x' - x) i = - w * (∑ j, A i j * (x j - s j) + ∑ j, strictLower A i j * (x' - x) j) := by
      have h5 : A i i / w * (x' - x) i =
        -(∑ j, A i j * (x j - s j) + ∑ j, strictLower A i j * (x' - x) j) := by
        linear_combination h1
      have h6 : A i i * (x' - x) i = w * (A i i / w * (x' - x) i) := by field_simp
      rw [h6, h5]; ring
    rw [h3] at h4
    rw [Pi.sub_apply] at h4
    linear_combination h4
  have main : ∀ m, ∀ i : Fin n, (i : Nat) < m → |x' i - s i| ≤ (1 - w + w * q) * e := by
    intro m
    induction m with
    | zero => intro i hi; omega
    | succ m ih =>
      intro i hi
      obtain ⟨h0, h1⟩ := hA i
      have he0 : 0 ≤ e := le_trans (abs_nonneg _) (he i)
      have hq0 : 0 ≤ q := by
        by_contra hneg
        have h2 : (0 : K) ≤ ∑ j ∈ Finset.univ.erase i, |A i j| :=
          Finset.sum_nonneg (fun j _ => abs_nonneg _)
        have h3 := mul_neg_of_neg_of_pos (not_le.1 hneg) h0
        linarith
      have hf : (1 - w + w * q) * e ≤ e := by
        have : 1 - w + w * q ≤ 1 := by nlinarith
        nlinarith
      have hterm : ∀ j, |(if j < i then x' j - s j else x j - s j)| ≤ e := by
        intro j
        split
        · rename_i hji
          exact le_trans (ih j (by have := Fin.lt_def.1 hji; omega)) hf
        · exact he j
      have hsumle : |∑ j ∈ Finset.univ.erase i, A i j * (if j < i then x' j - s j else x j - s j)| ≤
          q * |A i i| * e := by
        calc _ ≤ ∑ j ∈ Finset.univ.erase i, |A i j * (if j < i then x' j - s j else x j - s j)| :=
              Finset.abs_sum_le_sum_abs _ _
          _ ≤ ∑ j ∈ Finset.univ.erase i, |A i j| * e := by
              apply Finset.sum_le_sum
              intro j _
              rw [abs_mul]
              exact mul_le_mul_of_nonneg_left (hterm j) (abs_nonneg _)
          _ = (∑ j ∈ Finset.univ.erase i, |A i j|) * e := by rw [Finset.sum_mul]
          _ ≤ q * |A i i| * e := mul_le_mul_of_nonneg_right h1 he0
      have habs : |A i i| * |x' i - s i| ≤ |A i i| * ((1 - w + w * q) * e) := by
        rw [← abs_mul, key i]
        calc _ ≤ |(1 - w) * (A i i * (x i - s i))| +
              |w * ∑ j ∈ Finset.univ.erase i, A i j * (if j < i then x' j - s j else x j - s j)| :=
              abs_sub _ _
          _ ≤ (1 - w) * (|A i i| * e) + w * (q * |A i i| * e) := by
              rw [abs_mul, abs_mul, abs_mul, abs_of_nonneg (by linarith : (0 : K) ≤ 1 - w),
                abs_of_pos hw0]
              exact add_le_add
                (mul_le_mul_of_nonneg_left (mul_le_mul_of_nonneg_left (he i) (abs_nonneg _))
                  (by linarith))
                (mul_le_mul_of_nonneg_left hsumle (le_of_lt hw0))
          _ = |A i i| * ((1 - w + w * q) * e) := by ring
      exact le_of_mul_le_mul_left habs h0
  exact fun i => main n i i.2

theorem sor_error {A : Matrix (Fin n) (Fin n) K} {q : K} (hA : Dominant A q) (hq : q ≤ 1)
    {w : K} (hw0 : 0 < w) (hw1 : w ≤ 1) {b s x : Fin n → K} (hs : A *ᵥ s = b)
    {xs : Nat → Fin n → K} (hxs : SorSeq A w id b x xs) {e : K} (he : ∀ j, |x j - s j| ≤ e) (k : Nat) :
    ∀ i, |xs k i - s i| ≤ (1 - w + w * q) ^ k * e := by
  induction k with
  | zero => intro i; rw [hxs.1]; simpa using he i
  | succ k ih =>
    intro i
    have := sor_contract hA hq hw0 hw1 hs (hxs.2 k) ih i
    rw [pow_succ', mul_assoc]
    exact this

/-- an error that shrinks geometrically brings the relative residual below every tolerance -/
theorem rel_small [Archimedean K] {sq : K → K} {M : Matrix (Fin n) (Fin n) K}
    (hsq : ∀ eps, 0 < eps → ∃ d, 0 < d ∧ ∀ a, 0 ≤ a → a ≤ d → sq a < eps)
    {b s : Fin n → K} (hs : M *ᵥ s = b) (hbpos : 0 < norm2 sq b) {tol : K} (htol : 0 < tol)
    {q e : K} (hq0 : 0 ≤ q) (hq : q < 1) (he0 : 0 ≤ e) {ys : Nat → Fin n → K}
    (he : ∀ k i, |ys k i - s i| ≤ q ^ k * e) :
    ∃ k, norm2 sq (b - M *ᵥ ys k) * (1 / norm2 sq b) < tol := by
  obtain ⟨c, hc, hc0⟩ : ∃ c : K, (∀ i, ∑ j, |M i j| ≤ c) ∧ 0 ≤ c :=
    ⟨∑ i, ∑ j, |M i j|, fun i => Finset.single_le_sum (f := fun i => ∑ j, |M i j|)
      (fun i _ => Finset.sum_nonneg (fun j _ => abs_nonneg _)) (Finset.mem_univ i),
      Finset.sum_nonneg (fun i _ => Finset.sum_nonneg (fun j _ => abs_nonneg _))⟩
  obtain ⟨d, hd0, hdd⟩ := hsq (tol * norm2 sq b) (mul_pos htol hbpos)
  have hC : 0 ≤ (n : K) * (c * e) * (c * e) := by positivity
  obtain ⟨k, hk⟩ : ∃ k : Nat, q ^ k * ((n : K) * (c * e) * (c * e) + 1) < d := by
    obtain ⟨k, hk⟩ := exists_pow_lt_of_lt_one
      (show 0 < d / ((n : K) * (c * e) * (c * e) + 1) by positivity) hq
    exact ⟨k, by rwa [lt_div_iff₀ (by positivity)] at hk⟩
  refine ⟨k, ?_⟩
  have hr : ∀ i, |(b - M *ᵥ ys k) i| ≤ c * (q ^ k * e) := by
    intro i
    refine le_trans (residual_le hs _ (he k) i) ?_
    exact mul_le_mul_of_nonneg_right (hc i) (mul_nonneg (pow_nonneg hq0 _) he0)
  have hpk : q ^ k ≤ 1 := pow_le_one₀ hq0 (le_of_lt hq)
  have hpk0 : 0 ≤ q ^ k := pow_nonneg hq0 _
  have hdot : (b - M *ᵥ ys k) ⬝ᵥ (b - M *ᵥ ys k) ≤ d := by
    have h1 : (b - M *ᵥ ys k) ⬝ᵥ (b - M *ᵥ ys k) ≤
        ∑ _i : Fin n, (c * (q ^ k * e)) * (c * (q ^ k * e)) := by
      apply Finset.sum_le_sum
      intro i _
      rw [← abs_mul_abs_self]
      exact mul_self_le_mul_self (abs_nonneg _) (hr i)
    rw [Finset.sum_const, Finset.card_univ, Fintype.card_fin, nsmul_eq_mul] at h1
    have h2 : (n : K) * (c * (q ^ k * e) * (c * (q ^ k * e))) ≤
        q ^ k * ((n : K) * (c * e) * (c * e) + 1) := by
      have h3 : (n : K) * (c * (q ^ k * e) * (c * (q ^ k * e))) =
        q ^ k * (q ^ k * ((n : K) * (c * e) * (c * e))) := by ring
      rw [h3]
      apply mul_le_mul_of_nonneg_left _ hpk0
      have h4 : q ^ k * ((n : K) * (c * e) * (c * e)) ≤ 1 * ((n : K) * (c * e) * (c * e)) :=
        mul_le_mul_of_nonneg_right hpk hC
      linarith
    linarith
  have hlt := hdd _ (Finset.sum_nonneg (fun i _ => mul_self_nonneg _)) hdot
  rw [mul_one_div, div_lt_iff₀ hbpos]
  exact hlt

/-- C57 (diagonally dominant): strictly diagonally dominant matrix, `0 < omega ≤ 1`: the SOR solver
returns SUCCESS for every sufficiently large iteration limit. -/
theorem C57_dominant [Archimedean K] {N : Num α} {ι : K → α} {sq : K → K}
    (h : Exact N ι sq) (hsq : ∀ eps, 0 < eps → ∃ d, 0 < d ∧ ∀ a, 0 ≤ a → a ≤ d → sq a < eps)
    (hsq0 : ∀ a, 0 ≤ a → 0 ≤ sq a)
    (tol : K) (htol : 0 < tol) (A : Mat α) (M : Matrix (Fin n) (Fin n) K) (hA : IsMat A ι M)
    (q : K) (hq : q < 1) (hdom : Dominant M q) (w : K) (hw0 : 0 < w) (hw1 : w ≤ 1)
    (lower : List α → List α → List α → Res (List α)) (hlow : IsLower lower ι M)
    (create : Res (List α → Res (List α))) (hpc : IsPrecond (n := n) create ι id)
    (x b s : Fin n → K) (hs : M *ᵥ s = b) (hb : norm2 sq b ≠ 0) :
    ∃ K0, ∀ cfg : Cfg α, cfg.tol = ι tol → cfg.lib = 0 → cfg.residMethod = 0 → cfg.miniter = 0 →
      cfg.omega = ι w → K0 ≤ cfg.maxiter →
      ∃ out, SOR.solve N cfg A lower create (vec ι x) (vec ι b) = .ok out ∧
        out.status = SUCCESS ∧ out.finalIter ≤ K0 := by
  have hw : w ≠ 0 := ne_of_gt hw0
  have hd : ∀ i, M i i ≠ 0 := fun i => abs_pos.1 (hdom i).1
  obtain ⟨xs, hxs, _⟩ := C32_iterates M hd w hw id b x
  have hbpos : 0 < norm2 sq b :=
    lt_of_le_of_ne (hsq0 _ (Finset.sum_nonneg (fun i _ => mul_self_nonneg _))) (Ne.symm hb)
  rcases Nat.eq_zero_or_pos n with hn | hn
  · subst hn
    obtain ⟨d, hd0, hdd⟩ := hsq (norm2 sq b) hbpos
    have := hdd (b ⬝ᵥ b) (by simp [dotProduct]) (by simp [dotProduct]; exact le_of_lt hd0)
    exact absurd this (lt_irrefl _)
  have hq0 : 0 ≤ q := by
    by_contra hneg
    have h1 := (hdom ⟨0, hn⟩).2
    have h2 : (0 : K) ≤ ∑ j ∈ Finset.univ.erase (⟨0, hn⟩ : Fin n), |M ⟨0, hn⟩ j| :=
      Finset.sum_nonneg (fun j _ => abs_nonneg _)
    have h3 := mul_neg_of_neg_of_pos (not_le.1 hneg) (hdom ⟨0, hn⟩).1
    linarith
  have he : ∀ j, |x j - s j| ≤ ∑ j, |x j - s j| := fun j =>
    Finset.single_le_sum (f := fun j => |x j - s j|) (fun i _ => abs_nonneg _) (Finset.mem_univ j)
  obtain ⟨k, hk⟩ := rel_small hsq hs hbpos htol (q := 1 - w + w * q)
    (by have := mul_nonneg (le_of_lt hw0) hq0; linarith)
    (by have := mul_lt_mul_of_pos_left hq hw0; linarith)
    (Finset.sum_nonneg (fun i _ => abs_nonneg _))
    (fun k => sor_error hdom (le_of_lt hq) hw0 hw1 hs hxs he k)
  exact ⟨k + 1, sor_succeeds h tol w hw A M hA hd lower hlow create hpc x b hb xs hxs k hk⟩

/-! ### A concrete instance: `[[4, 1], [1, 4]]` in CRS format, `omega = 19/10` -/

/-- the matrix -/
def sorA : Crs ℚ := ⟨2, 2, [0, 2, 4], [0, 1, 0, 1], [4, 1, 1, 4], 4, 4, true⟩

theorem sorA_safe : sorA.Safe where
  created := rfl
  lenV := rfl
  nnz_le := by decide
  lenP := rfl
  ptr_le := by
    intro i hi
    have hi : i ≤ 2 := hi
    obtain rfl | rfl | rfl : i = 0 ∨ i = 1 ∨ i = 2 := by omega
    all_goals decide
  lenC := by decide
  col_lt := by decide

theorem sorA_eq : Matrix.of (fun i j : Fin 2 => crsAt sorA i j) = !![4, 1; 1, 4] := by
  decide +kernel

theorem sorA_spd : SPD (Matrix.of (fun i j : Fin 2 => crsAt sorA i j)) := by
  rw [sorA_eq]
  refine ⟨by decide +kernel, fun v hv => ?_⟩
  have h1 : v ⬝ᵥ ((!![4, 1; 1, 4] : Matrix (Fin 2) (Fin 2) ℚ) *ᵥ v) =
      3 * (v 0 * v 0) + 3 * (v 1 * v 1) + (v 0 + v 1) * (v 0 + v 1) := by
    simp [dotProduct, Matrix.mulVec, Fin.sum_univ_two]
    ring
  rw [h1]
  by_contra hneg
  have h0 := mul_self_nonneg (v 0)
  have h2 := mul_self_nonneg (v 1)
  have h3 := mul_self_nonneg (v 0 + v 1)
  have e0 : v 0 * v 0 = 0 := by linarith
  have e1 : v 1 * v 1 = 0 := by linarith
  apply hv
  funext i
  fin_cases i
  · exact mul_self_eq_zero.1 e0
  · exact mul_self_eq_zero.1 e1

/-- all hypotheses of `C57_spd` hold together (`sq = id`, that is, the tolerance is on the squared
residual, which is what exact rational arithmetic can express) -/
example : ∃ K0, ∀ cfg : Cfg ℚ, cfg.tol = 1 / 100 → cfg.lib = 0 → cfg.residMethod = 0 →
    cfg.miniter = 0 → cfg.omega = 19 / 10 → K0 ≤ cfg.maxiter →
    ∃ out, SOR.solve (fieldNum id) cfg (ofCrs [1, 0] [0, 1] sorA) (crsLower (fieldNum id) (crsMap id sorA))
      noPrecond (vec id ![(0 : ℚ), 0]) (vec id ![(5 : ℚ), 5]) = .ok out ∧
      out.status = SUCCESS ∧ out.finalIter ≤ K0 := by
  have hM : IsMat (ofCrs [1, 0] [0, 1] sorA) id (Matrix.of (fun i j : Fin 2 => crsAt sorA i j)) :=
    isMat_crs sorA sorA_safe (by decide +kernel) rfl rfl [1, 0] [0, 1]
      (by unfold Order; decide) (by unfold Order; decide)
  refine C57_spd (fieldNum_exact id) (fun eps he => ⟨eps / 2, by linarith, fun a _ ha => by
      show a < eps; linarith⟩)
    (fun a ha => ha) (1 / 100) (by norm_num) _ _ hM sorA_spd (19 / 10) (by norm_num) (by norm_num) _
    (C32_lower_crs (fieldNum_exact id) sorA sorA_safe rfl rfl (by decide +kernel))
    _ ⟨_, rfl, fun v => rfl⟩ _ _ ![1, 1] ?_ ?_
  · rw [sorA_eq]; decide +kernel
  · decide +kernel

/-- and those of `C57_dominant` -/
example : Dominant (Matrix.of (fun i j : Fin 2 => crsAt sorA i j)) (1 / 4) := by
  rw [sorA_eq]
  unfold Dominant
  decide +kernel

end Verif.Solver
