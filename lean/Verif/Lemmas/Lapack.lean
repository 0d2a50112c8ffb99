import Verif.Spec.LapackSpec
import Mathlib.LinearAlgebra.Matrix.Block
import Mathlib.LinearAlgebra.Matrix.NonsingularInverse
import Mathlib.Tactic.Ring
import Mathlib.Tactic.ByContra

/-! Facts about the LAPACK contract: pivoted LU factorisations exist, determine the determinant, and a
library that meets the contract exists. -/

namespace Verif.Lapack

variable {α : Type} [Field α]

/-- the interchanges stay among the first `n` rows and only exchange downwards -/
def PivotsIn (k n : Nat) (ipiv : List Nat) : Prop :=
  ∀ i p, ipiv[i]? = some p → k + i < p ∧ p ≤ n

theorem PivotsIn.tail {k n p : Nat} {ps : List Nat} (h : PivotsIn k n (p :: ps)) :
    PivotsIn (k + 1) n ps := by
  intro i q hq
  have := h (i + 1) q (by simpa using hq)
  omega

theorem rowPerm_lt {n : Nat} : ∀ {k : Nat} {ipiv : List Nat}, PivotsIn k n ipiv →
    ∀ i, i < n → rowPerm k ipiv i < n
  | _, [], _, i, hi => by simpa [rowPerm] using hi
  | k, p :: ps, h, i, hi => by
    have h0 := h 0 p (by simp)
    have hr := rowPerm_lt h.tail i hi
    simp only [rowPerm, Equiv.Perm.coe_mul, Function.comp]
    generalize rowPerm (k + 1) ps i = x at hr
    by_cases h1 : x = k
    · subst h1; rw [Equiv.swap_apply_left]; omega
    · by_cases h2 : x = p - 1
      · subst h2; rw [Equiv.swap_apply_right]; omega
      · rw [Equiv.swap_apply_of_ne_of_ne h1 h2]; exact hr

theorem rowPerm_append : ∀ (k : Nat) (ipiv : List Nat) (p : Nat),
    rowPerm k (ipiv ++ [p]) = rowPerm k ipiv * Equiv.swap (k + ipiv.length) (p - 1)
  | k, [], p => by simp [rowPerm]
  | k, q :: ps, p => by
    simp only [List.cons_append, rowPerm, rowPerm_append (k + 1) ps p, List.length_cons]
    rw [mul_assoc]
    congr 3
    omega

theorem rowPerm_inv_lt {n k : Nat} {ipiv : List Nat} (h : PivotsIn k n ipiv) (i : Nat)
    (hi : i < n) : (rowPerm k ipiv)⁻¹ i < n := by
  let f : Fin n → Fin n := fun x => ⟨rowPerm k ipiv x, rowPerm_lt h x x.2⟩
  have hinj : Function.Injective f := by
    intro x y hxy
    have : rowPerm k ipiv x = rowPerm k ipiv y := congrArg Fin.val hxy
    exact Fin.ext ((rowPerm k ipiv).injective this)
  obtain ⟨x, hx⟩ := Finite.injective_iff_surjective.mp hinj ⟨i, hi⟩
  have : rowPerm k ipiv x = i := congrArg Fin.val hx
  rw [← this]
  show (rowPerm k ipiv).symm _ < n
  rw [Equiv.symm_apply_apply]
  exact x.2

/-- A pivoted LU factorisation shows whether the matrix is singular. -/
theorem det_ne_zero_iff {n : Nat} {A lu : Nat → Nat → α} {ipiv : List Nat}
    (hp : PivotsIn 0 n ipiv) (h : IsLU n n A lu ipiv) :
    det n A ≠ 0 ↔ ∀ k, k < n → lu k k ≠ 0 := by
  let f : Fin n → Fin n := fun x => ⟨rowPerm 0 ipiv x, rowPerm_lt hp x x.2⟩
  have hinj : Function.Injective f := by
    intro x y hxy
    have : rowPerm 0 ipiv x = rowPerm 0 ipiv y := congrArg Fin.val hxy
    exact Fin.ext ((rowPerm 0 ipiv).injective this)
  let τ : Equiv.Perm (Fin n) := Equiv.ofBijective f (Finite.injective_iff_bijective.mp hinj)
  let Lm : Matrix (Fin n) (Fin n) α := Matrix.of fun i t => lower lu i t
  let Um : Matrix (Fin n) (Fin n) α := Matrix.of fun t j => upper lu t j
  let Am : Matrix (Fin n) (Fin n) α := Matrix.of fun i j => A i j
  have hmul : Am.submatrix τ id = Lm * Um := by
    ext i j
    rw [Matrix.mul_apply]
    have := h i j i.2 j.2
    rw [Nat.min_self] at this
    show A (rowPerm 0 ipiv i) j = _
    rw [this, Finset.sum_range]
    rfl
  have hL : Lm.det = 1 := by
    rw [Matrix.det_of_isLowerTriangular]
    · apply Finset.prod_eq_one
      intro i _
      simp [Lm, lower]
    · intro i j hij
      have hij : i < j := hij
      have h1 : ¬ (i : Nat) = j := by have := Fin.lt_def.mp hij; omega
      have h2 : ¬ (j : Nat) < i := by have := Fin.lt_def.mp hij; omega
      show lower lu i j = 0
      rw [lower, if_neg h1, if_neg h2]
  have hU : Um.det = ∏ i : Fin n, lu i i := by
    rw [Matrix.det_of_isUpperTriangular]
    · apply Finset.prod_congr rfl
      intro i _
      simp [Um, upper]
    · intro i j hij
      have hij : j < i := hij
      have h2 : ¬ (i : Nat) ≤ j := by have := Fin.lt_def.mp hij; omega
      show upper lu i j = 0
      rw [upper, if_neg h2]
  have hd := Matrix.det_permute τ Am
  rw [hmul, Matrix.det_mul, hL, hU, one_mul] at hd
  have hs : ((Equiv.Perm.sign τ : ℤ) : α) ≠ 0 := by
    rcases Int.units_eq_one_or (Equiv.Perm.sign τ) with h | h <;> rw [h] <;> simp
  show Am.det ≠ 0 ↔ _
  rw [show (Am.det ≠ 0) ↔ (∏ i : Fin n, lu i i) ≠ 0 by
    rw [hd]; exact ⟨fun h => mul_ne_zero hs h, fun h => right_ne_zero_of_mul h⟩]
  rw [Finset.prod_ne_zero_iff]
  constructor
  · intro h k hk
    exact h ⟨k, hk⟩ (Finset.mem_univ _)
  · intro h k _
    exact h k k.2

/-- one state of Gaussian elimination -/
def Elim (m n k : Nat) (A M : Nat → Nat → α) (ipiv : List Nat) : Prop :=
  ∀ i j, i < m → j < n → A (rowPerm 0 ipiv i) j =
    (∑ t ∈ Finset.range k, lower M i t * upper M t j) + (if i < k ∨ j < k then 0 else M i j)

theorem elim_step {m n k : Nat} {A M : Nat → Nat → α} {ipiv : List Nat}
    (hlen : ipiv.length = k) (hp : PivotsIn 0 m ipiv) (hk : k < min m n) (h : Elim m n k A M ipiv) :
    ∃ M' ipiv', ipiv'.length = k + 1 ∧ PivotsIn 0 m ipiv' ∧ Elim m n (k + 1) A M' ipiv' := by
  classical
  -- the pivot row
  obtain ⟨p, hkp, hpm, hpiv⟩ : ∃ p, k ≤ p ∧ p < m ∧
      (M p k = 0 → ∀ i, k ≤ i → i < m → M i k = 0) := by
    by_cases hex : ∃ p, k ≤ p ∧ p < m ∧ M p k ≠ 0
    · obtain ⟨p, h1, h2, h3⟩ := hex
      exact ⟨p, h1, h2, fun h => absurd h h3⟩
    · refine ⟨k, Nat.le_refl _, by omega, fun _ i h1 h2 => ?_⟩
      by_contra h3
      exact hex ⟨i, h1, h2, h3⟩
  let s := Equiv.swap k p
  have hs_lt : ∀ i, (s i < k ↔ i < k) := by
    intro i
    by_cases h1 : i = k
    · subst h1; simp only [s, Equiv.swap_apply_left]; omega
    · by_cases h2 : i = p
      · subst h2; simp only [s, Equiv.swap_apply_right]; omega
      · simp only [s, Equiv.swap_apply_of_ne_of_ne h1 h2]
  have hs_fix : ∀ i, i < k → s i = i := by
    intro i hi
    exact Equiv.swap_apply_of_ne_of_ne (by omega) (by omega)
  have hs_ge : ∀ i, k ≤ i → k ≤ s i := by
    intro i hi
    by_contra hc
    have := (hs_lt i).mp (by omega)
    omega
  have hs_m : ∀ i, i < m → s i < m := by
    intro i hi
    by_cases h1 : i = k
    · subst h1; simp only [s, Equiv.swap_apply_left]; exact hpm
    · by_cases h2 : i = p
      · subst h2; simp only [s, Equiv.swap_apply_right]; omega
      · simp only [s, Equiv.swap_apply_of_ne_of_ne h1 h2]; exact hi
  let M1 : Nat → Nat → α := fun i j => M (s i) j
  have hM1 : ∀ i, k ≤ i → i < m → M1 i k / M1 k k * M1 k k = M1 i k := by
    intro i h1 h2
    have hkk : M1 k k = M p k := by simp only [M1, s, Equiv.swap_apply_left]
    by_cases h0 : M1 k k = 0
    · rw [h0, mul_zero]
      exact (hpiv (by rw [← hkk]; exact h0) (s i) (hs_ge i h1) (hs_m i h2)).symm
    · rw [div_mul_cancel₀ _ h0]
  have e1 : ∀ i j, i < m → j < n → A (rowPerm 0 (ipiv ++ [p + 1]) i) j =
      (∑ t ∈ Finset.range k, lower M1 i t * upper M1 t j) +
        (if i < k ∨ j < k then 0 else M1 i j) := by
    intro i j hi hj
    rw [rowPerm_append, hlen, Nat.zero_add, Nat.add_sub_cancel, Equiv.Perm.coe_mul,
      Function.comp, h (s i) j (hs_m i hi) hj]
    congr 1
    · apply Finset.sum_congr rfl
      intro t ht
      rw [Finset.mem_range] at ht
      congr 1
      · simp only [lower, M1]
        have a1 : (s i = t) = (i = t) := by
          by_cases hik : i < k
          · rw [hs_fix i hik]
          · have := hs_ge i (by omega)
            simp only [eq_iff_iff]; omega
        have a2 : (t < s i) = (t < i) := by
          by_cases hik : i < k
          · rw [hs_fix i hik]
          · have := hs_ge i (by omega)
            simp only [eq_iff_iff]; omega
        simp only [a1, a2]
      · simp only [upper, M1, hs_fix t ht]
    · simp only [hs_lt, M1]
  let M2 : Nat → Nat → α := fun i j =>
    if k < i then
      (if j = k then M1 i k / M1 k k else if k < j then M1 i j - M1 i k / M1 k k * M1 k j
        else M1 i j)
    else M1 i j
  refine ⟨M2, ipiv ++ [p + 1], by simp [hlen], ?_, ?_⟩
  · intro i q hq
    by_cases hi : i < ipiv.length
    · rw [List.getElem?_append_left hi] at hq
      exact hp i q hq
    · rw [List.getElem?_append_right (by omega)] at hq
      have h0 : i - ipiv.length = 0 := by
        by_contra hc
        rw [List.getElem?_eq_none (by simp only [List.length_cons, List.length_nil]; omega)] at hq
        cases hq
      rw [h0] at hq
      simp only [List.getElem?_cons_zero, Option.some.injEq] at hq
      omega
  · intro i j hi hj
    rw [e1 i j hi hj, Finset.sum_range_succ, add_assoc]
    congr 1
    · apply Finset.sum_congr rfl
      intro t ht
      rw [Finset.mem_range] at ht
      have q1 : M2 i t = M1 i t := by
        have a : ¬ t = k := by omega
        have b : ¬ k < t := by omega
        simp only [M2, a, b, if_false, ite_self]
      have q2 : M2 t j = M1 t j := by
        have a : ¬ k < t := by omega
        simp only [M2, a, if_false]
      simp only [lower, upper, q1, q2]
    · have q2 : M2 k j = M1 k j := by simp only [M2, Nat.lt_irrefl, if_false]
      simp only [lower, upper, q2]
      by_cases hik : i < k
      · have a : ¬ i = k := by omega
        have b : ¬ k < i := by omega
        have c : i < k + 1 := by omega
        simp [hik, a, b, c]
      · by_cases hjk : j < k
        · have a : ¬ k ≤ j := by omega
          have c : j < k + 1 := by omega
          simp [hjk, a, c]
        · have b : k ≤ j := by omega
          by_cases hie : i = k
          · subst hie
            simp [hjk, b]
          · have c : k < i := by omega
            have d : ¬ i < k + 1 := by omega
            by_cases hje : j = k
            · subst hje
              have hj1 : M2 i j = M1 i j / M1 j j := by simp only [M2, c, if_true]
              simp only [hjk, hik, hie, c, d, hj1, hM1 i (by omega) hi, or_self, if_false, if_true,
                Nat.le_refl, Nat.lt_succ_self, or_true, add_zero]
            · have e : k < j := by omega
              have f : ¬ j < k + 1 := by omega
              have g : M2 i k = M1 i k / M1 k k := by simp only [M2, c, if_true]
              have g' : M2 i j = M1 i j - M1 i k / M1 k k * M1 k j := by
                simp only [M2, c, if_true, hje, if_false, e]
              simp only [hik, hjk, or_self, if_false, hie, c, if_true, g, b, d, f, g']
              ring

/-- Every matrix has a pivoted LU factorisation. -/
theorem exists_lu (m n : Nat) (A : Nat → Nat → α) :
    ∃ lu ipiv, ipiv.length = min m n ∧ PivotsIn 0 m ipiv ∧ IsLU m n A lu ipiv := by
  have key : ∀ k, k ≤ min m n → ∃ M ipiv, ipiv.length = k ∧ PivotsIn 0 m ipiv ∧
      Elim m n k A M ipiv := by
    intro k
    induction k with
    | zero =>
      intro _
      exact ⟨A, [], rfl, fun i p h => by simp at h, fun i j _ _ => by simp [rowPerm]⟩
    | succ k ih =>
      intro hk
      obtain ⟨M, ipiv, h1, h2, h3⟩ := ih (by omega)
      exact elim_step h1 h2 (by omega) h3
  obtain ⟨M, ipiv, h1, h2, h3⟩ := key (min m n) (Nat.le_refl _)
  refine ⟨M, ipiv, h1, h2, ?_⟩
  intro i j hi hj
  rw [h3 i j hi hj]
  have : i < min m n ∨ j < min m n := by omega
  rw [if_pos this, add_zero]

theorem pos_lt_extent {m n lda i j : Nat} (hi : i < m) (hj : j < n) :
    i + lda * j < extent m n lda := by
  unfold extent
  rw [if_neg (by omega)]
  have : lda * j ≤ lda * (n - 1) := Nat.mul_le_mul_left _ (by omega)
  rw [Nat.mul_comm (n - 1)]
  omega

/-- a column-major array overwritten with a matrix -/
def store (m n lda : Nat) (f : Nat → Nat → α) (a : List α) : List α :=
  a.mapIdx (fun p v => if p % lda < m ∧ p / lda < n then f (p % lda) (p / lda) else v)

@[simp] theorem store_length (m n lda : Nat) (f : Nat → Nat → α) (a : List α) :
    (store m n lda f a).length = a.length := by simp [store]

theorem cm_store {m n lda : Nat} (f : Nat → Nat → α) {a : List α} (hm : m ≤ lda)
    (ha : extent m n lda ≤ a.length) {i j : Nat} (hi : i < m) (hj : j < n) :
    cm (store m n lda f a) lda i j = f i j := by
  have hp := Nat.lt_of_lt_of_le (pos_lt_extent (lda := lda) hi hj) ha
  have h1 : (i + lda * j) % lda = i := by
    rw [Nat.add_mul_mod_self_left, Nat.mod_eq_of_lt (by omega)]
  have h2 : (i + lda * j) / lda = j := by
    rw [Nat.add_mul_div_left _ _ (by omega), Nat.div_eq_of_lt (by omega), Nat.zero_add]
  simp [cm, store, List.getD, List.getElem?_mapIdx, List.getElem?_eq_getElem hp, h1, h2, hi, hj]

/-- a nonsingular system has a solution -/
theorem exists_solution {n : Nat} {A : Nat → Nat → α} (h : det n A ≠ 0) (b : Nat → α) :
    ∃ x : Nat → α, ∀ i, i < n → Spec.mulVec n A x i = b i := by
  let Am : Matrix (Fin n) (Fin n) α := Matrix.of fun i j => A i j
  let y : Fin n → α := Matrix.mulVec Am⁻¹ (fun i => b i)
  refine ⟨fun j => if hj : j < n then y ⟨j, hj⟩ else 0, ?_⟩
  intro i hi
  have : Matrix.mulVec Am y ⟨i, hi⟩ = b i := by
    simp only [y, Matrix.mulVec_mulVec]
    rw [Matrix.mul_nonsing_inv _ (isUnit_iff_ne_zero.mpr h), Matrix.one_mulVec]
  rw [← this, Spec.mulVec, Finset.sum_range]
  simp [Matrix.mulVec, dotProduct, Am]

theorem det_transpose (n : Nat) (A : Nat → Nat → α) : det n (fun i j => A j i) = det n A := by
  unfold det
  rw [← Matrix.det_transpose]
  rfl

theorem det_op (trans : Bool) (n : Nat) (A : Nat → Nat → α) : det n (op trans A) = det n A := by
  cases trans
  · rfl
  · exact det_transpose n A

/-- the matrix with a given pivoted LU factorisation -/
def unLU (n : Nat) (lu : Nat → Nat → α) (ipiv : List Nat) (i j : Nat) : α :=
  ∑ t ∈ Finset.range n, lower lu ((rowPerm 0 ipiv)⁻¹ i) t * upper lu t j

theorem isLU_unLU (n : Nat) (lu : Nat → Nat → α) (ipiv : List Nat) :
    IsLU n n (unLU n lu ipiv) lu ipiv := by
  intro i j _ _
  simp [unLU]

theorem IsLU.eq_unLU {n : Nat} {A lu : Nat → Nat → α} {ipiv : List Nat} (hp : PivotsIn 0 n ipiv)
    (h : IsLU n n A lu ipiv) {i j : Nat} (hi : i < n) (hj : j < n) : A i j = unLU n lu ipiv i j := by
  have := h ((rowPerm 0 ipiv)⁻¹ i) j (rowPerm_inv_lt hp i hi) hj
  simpa [unLU] using this

theorem mulVec_congr {n : Nat} {A B : Nat → Nat → α} {x y : Nat → α} {i : Nat}
    (hA : ∀ j, j < n → A i j = B i j) (hx : ∀ j, j < n → x j = y j) :
    Spec.mulVec n A x i = Spec.mulVec n B y i := by
  apply Finset.sum_congr rfl
  intro j hj
  rw [Finset.mem_range] at hj
  rw [hA j hj, hx j hj]

theorem exists_getrf (m n : Nat) (a : List α) (lda : Nat) (ha : extent m n lda ≤ a.length) :
    ∃ r, GetrfOk m n a lda r := by
  classical
  by_cases hl : max 1 m ≤ lda
  · obtain ⟨lu, ipiv, h1, h2, h3⟩ := exists_lu m n (cm a lda)
    have hcm : ∀ i j, i < m → j < n → cm (store m n lda lu a) lda i j = lu i j :=
      fun i j hi hj => cm_store lu (by omega) ha hi hj
    refine ⟨(store m n lda lu a, ipiv,
      if (∀ k, k < min m n → cm (store m n lda lu a) lda k k ≠ 0) then 0 else 1), ?_⟩
    refine ⟨fun h => by omega, by simp, fun _ => ⟨h1, fun k p hk => ?_⟩, fun _ => ?_, fun _ => ?_⟩
    · have := h2 k p hk; omega
    · intro i j hi hj
      rw [h3 i j hi hj]
      apply Finset.sum_congr rfl
      intro t ht
      rw [Finset.mem_range] at ht
      simp only [lower, upper]
      rw [hcm i t hi (by omega), hcm t j (by omega) hj]
    · simp only
      split
      · rename_i h; exact ⟨by omega, fun _ => h, fun _ => rfl⟩
      · rename_i h; exact ⟨by omega, fun h' => absurd h' (by omega), fun h' => absurd h' h⟩
  · exact ⟨(a, [], -4), fun _ => ⟨show (-4 : Int) < 0 by decide, rfl⟩, rfl, fun h => absurd h hl,
      fun h => absurd h hl, fun h => absurd h hl⟩

theorem exists_getrs (trans : Bool) (n nrhs : Nat) (a : List α) (lda : Nat) (ipiv : List Nat)
    (b : List α) (ldb : Nat) (hb : extent n nrhs ldb ≤ b.length) :
    ∃ r, GetrsOk trans n nrhs a lda ipiv b ldb r := by
  classical
  by_cases hl : lda < max 1 n ∨ ldb < max 1 n
  · exact ⟨(b, -5), fun _ => ⟨show (-5 : Int) < 0 by decide, rfl⟩, rfl, fun h h' => by omega, fun h h' => by omega,
      fun _ _ => rfl⟩
  · by_cases hg : (∀ k, k < n → cm a lda k k ≠ 0) ∧ ipiv.length = n ∧
      (∀ k p, ipiv[k]? = some p → k < p ∧ p ≤ n)
    · obtain ⟨hd, hlen, hpv⟩ := hg
      have hp : PivotsIn 0 n ipiv := fun k p h => by have := hpv k p h; omega
      have hdet : det n (op trans (unLU n (cm a lda) ipiv)) ≠ 0 := by
        rw [det_op]
        exact (det_ne_zero_iff hp (isLU_unLU n (cm a lda) ipiv)).mpr hd
      have hx : ∀ c, ∃ x : Nat → α, ∀ i, i < n →
          Spec.mulVec n (op trans (unLU n (cm a lda) ipiv)) x i = cm b ldb i c :=
        fun c => exists_solution hdet (fun i => cm b ldb i c)
      choose x hx using hx
      refine ⟨(store n nrhs ldb (fun i c => x c i) b, 0), fun h => absurd h hl, by simp,
        fun _ _ => rfl, ?_, ?_⟩
      · intro _ _ _ _ _ A hA c hc i hi
        rw [← hx c i hi]
        refine mulVec_congr (fun j hj => ?_) (fun j hj => ?_)
        · unfold op
          split
          · exact hA.eq_unLU hp hj hi
          · exact hA.eq_unLU hp hi hj
        · exact cm_store (fun i c => x c i) (by omega) hb hj hc
      · intro p hp'
        simp only [store, List.getElem?_mapIdx]
        by_cases hc : p % ldb < n ∧ p / ldb < nrhs
        · exact absurd (Nat.mod_add_div p ldb).symm (hp' (p / ldb) (p % ldb) hc.2 hc.1)
        · simp [hc]
    · refine ⟨(b, 0), fun h => absurd h hl, rfl, fun _ _ => rfl, ?_, fun _ _ => rfl⟩
      intro _ _ h1 h2 h3
      exact absurd ⟨h1, h2, h3⟩ hg

theorem exists_sytrs (upper : Bool) (n nrhs : Nat) (a : List α) (lda : Nat) (b : List α)
    (ldb : Nat) : ∃ r : List α × Int, r.1.length = b.length ∧ r.2 = 0 ∧
      (det n (sym upper a lda) ≠ 0 → max 1 n ≤ ldb → extent n nrhs ldb ≤ b.length →
        ∀ c, c < nrhs → ∀ i, i < n →
          Spec.mulVec n (sym upper a lda) (fun j => cm r.1 ldb j c) i = cm b ldb i c) := by
  classical
  by_cases hd : det n (sym upper a lda) ≠ 0
  · have hx : ∀ c, ∃ x : Nat → α, ∀ i, i < n →
        Spec.mulVec n (sym upper a lda) x i = cm b ldb i c :=
      fun c => exists_solution hd (fun i => cm b ldb i c)
    choose x hx using hx
    refine ⟨(store n nrhs ldb (fun i c => x c i) b, 0), by simp, rfl, ?_⟩
    intro _ hl he c hc i hi
    rw [← hx c i hi]
    exact mulVec_congr (fun _ _ => rfl)
      (fun j hj => cm_store (fun i c => x c i) (by omega) he hj hc)
  · exact ⟨(b, 0), rfl, rfl, fun h => absurd h hd⟩

/-- Libraries that meet the contract exist. -/
theorem exists_lib : ∃ L : Lib α, L.LUOk ∧ L.SyOk := by
  classical
  refine ⟨{
    getrf := fun m n a lda =>
      if h : extent m n lda ≤ a.length then (exists_getrf m n a lda h).choose else (a, [], 0)
    getrs := fun trans n nrhs a lda ipiv b ldb =>
      if h : extent n nrhs ldb ≤ b.length
      then (exists_getrs trans n nrhs a lda ipiv b ldb h).choose else (b, 0)
    sytrf := fun upper n a lda lwork => (a, List.replicate n 0,
      if lda < max 1 n ∨ lwork < 1 then -4 else if det n (sym upper a lda) ≠ 0 then 0 else 1)
    sytrs := fun upper n nrhs a lda _ b ldb => (exists_sytrs upper n nrhs a lda b ldb).choose
    syevd := fun _ _ _ a _ => (a, [], 0)
    sygvd := fun _ _ _ _ a _ b _ => (a, b, [], 0) }, ⟨?_, ?_⟩, ?_⟩
  · intro m n a lda h
    simp only [h, dif_pos]
    exact (exists_getrf m n a lda h).choose_spec
  · intro trans n nrhs a lda ipiv b ldb _ h _
    simp only [h, dif_pos]
    exact (exists_getrs trans n nrhs a lda ipiv b ldb h).choose_spec
  · intro upper n a lda lwork h
    have hinfo : max 1 n ≤ lda → 1 ≤ lwork → ¬ (lda < max 1 n ∨ lwork < 1) := by omega
    refine ⟨?_, rfl, ?_, ?_, ?_, ?_, ?_⟩
    · intro h'
      simp only [h', if_true]
      exact ⟨by decide, trivial⟩
    · intro _ _; simp
    · intro h1 h2
      simp only [hinfo h1 h2, if_false]
      split
      · rename_i hd; exact ⟨by omega, fun _ => hd, fun _ => rfl⟩
      · rename_i hd; exact ⟨by omega, fun h' => absurd h' (by omega), fun h' => absurd h' hd⟩
    · intro nrhs b ldb
      exact (exists_sytrs upper n nrhs a lda b ldb).choose_spec.1
    · intro nrhs b ldb _ _
      exact (exists_sytrs upper n nrhs a lda b ldb).choose_spec.2.1
    · intro h1 h2 h3 nrhs b ldb hb he
      simp only [hinfo h1 h2, if_false] at h3
      have hd : det n (sym upper a lda) ≠ 0 := by
        by_contra hc
        simp [hc] at h3
      exact (exists_sytrs upper n nrhs a lda b ldb).choose_spec.2.2 hd hb he

end Verif.Lapack
