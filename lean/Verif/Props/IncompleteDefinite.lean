import Verif.Props.IncompleteMore
import Verif.Props.Reduce
import Mathlib.Algebra.BigOperators.Field

/-!
C113, continued: for positive definite matrices without fill-in (tridiagonal matrices for example) the factorisations
exist, so `ILU::solve` and `IC::solve` return SUCCESS and the solution, with no alternative.
-/

namespace Verif.Incomplete

open Matrix Spec Solver

section

variable {K : Type} [Field K] [LinearOrder K] [IsStrictOrderedRing K]

/-- elimination of the first unknown -/
def schur {n : Nat} (A : Matrix (Fin (n + 1)) (Fin (n + 1)) K) : Matrix (Fin n) (Fin n) K :=
  Matrix.of fun i j => A i.succ j.succ - A i.succ 0 * A 0 j.succ / A 0 0

theorem pos_first {n : Nat} {A : Matrix (Fin (n + 1)) (Fin (n + 1)) K} (h : ∀ v, v ≠ 0 → 0 < v ⬝ᵥ (A *ᵥ v)) :
    0 < A 0 0 := by
  have := h (Pi.single 0 1) (by intro e; have := congrFun e 0; simp at this)
  simpa using this

theorem schur_pos {n : Nat} {A : Matrix (Fin (n + 1)) (Fin (n + 1)) K} (h : ∀ v, v ≠ 0 → 0 < v ⬝ᵥ (A *ᵥ v)) :
    ∀ v, v ≠ 0 → 0 < v ⬝ᵥ (schur A *ᵥ v) := by
  intro v hv
  have ha := (pos_first h).ne'
  let y : Fin (n + 1) → K := Fin.cons (-(∑ j, A 0 j.succ * v j) / A 0 0) v
  have hy : y ≠ 0 := by
    intro e
    apply hv
    funext i
    have := congrFun e i.succ
    simpa [y] using this
  have h0 : (A *ᵥ y) 0 = 0 := by
    simp only [Matrix.mulVec, dotProduct, Fin.sum_univ_succ, y, Fin.cons_zero, Fin.cons_succ]
    field_simp
    ring
  have hs : ∀ i : Fin n, (A *ᵥ y) i.succ = (schur A *ᵥ v) i := by
    intro i
    simp only [Matrix.mulVec, dotProduct, Fin.sum_univ_succ, y, Fin.cons_zero, Fin.cons_succ, schur, Matrix.of_apply]
    simp only [sub_mul, Finset.sum_sub_distrib]
    have : ∑ x, A i.succ 0 * A 0 x.succ / A 0 0 * v x = A i.succ 0 * (∑ x, A 0 x.succ * v x) / A 0 0 := by
      rw [Finset.mul_sum, Finset.sum_div]
      exact Finset.sum_congr rfl fun x _ => by ring
    rw [this]
    ring
  have := h y hy
  rw [dotProduct, Fin.sum_univ_succ, h0, mul_zero, zero_add] at this
  simp only [hs] at this
  exact this

/-- the first row and column of the factors, then the factors of the rest -/
def bordered {n : Nat} (a : K) (u l : Fin n → K) (F : Matrix (Fin n) (Fin n) K) :
    Matrix (Fin (n + 1)) (Fin (n + 1)) K :=
  Matrix.of (Fin.cons (Fin.cons a u) fun i => Fin.cons (l i) (F i))

/-- LU factorisation without pivoting exists for a positive definite matrix, and stays inside a pattern without
fill-in -/
theorem lu_exists : ∀ (n : Nat) (A : Matrix (Fin n) (Fin n) K) (S : Fin n → Fin n → Prop),
    (∀ v, v ≠ 0 → 0 < v ⬝ᵥ (A *ᵥ v)) → (∀ i j, ¬ S i j → A i j = 0) →
    (∀ i j k, k < i → k < j → S i k → S k j → S i j) →
    ∃ F : Matrix (Fin n) (Fin n) K, (∀ i, F i i ≠ 0) ∧ (∀ i j, ¬ S i j → F i j = 0) ∧
      unitLower F * upperPart F = A
  | 0, A, S, _, _, _ => ⟨A, fun i => i.elim0, fun i => i.elim0, by ext i; exact i.elim0⟩
  | n + 1, A, S, hp, hS, hN => by
    have ha := (pos_first hp).ne'
    obtain ⟨F, f1, f2, f3⟩ := lu_exists n (schur A) (fun i j => S i.succ j.succ) (schur_pos hp)
      (by
        intro i j h
        simp only [schur, Matrix.of_apply]
        rw [hS _ _ h]
        by_cases h1 : S i.succ 0
        · have : ¬ S 0 j.succ := fun h2 => h (hN _ _ 0 (Fin.succ_pos i) (Fin.succ_pos j) h1 h2)
          rw [hS _ _ this]; simp
        · rw [hS _ _ h1]; simp)
      (fun i j k h1 h2 h3 h4 => hN _ _ k.succ (Fin.succ_lt_succ_iff.2 h1) (Fin.succ_lt_succ_iff.2 h2) h3 h4)
    refine ⟨bordered (A 0 0) (fun j => A 0 j.succ) (fun i => A i.succ 0 / A 0 0) F, ?_, ?_, ?_⟩
    · intro i
      refine Fin.cases ?_ (fun i => ?_) i
      · simpa [bordered] using ha
      · simpa [bordered] using f1 i
    · intro i j
      refine Fin.cases ?_ (fun i => ?_) i <;> refine Fin.cases ?_ (fun j => ?_) j <;> intro h
      · exact absurd (hS _ _ h) ha
      · simpa [bordered] using hS _ _ h
      · simp [bordered, hS _ _ h]
      · simpa [bordered] using f2 i j h
    · ext i j
      rw [Matrix.mul_apply, Fin.sum_univ_succ]
      refine Fin.cases ?_ (fun i => ?_) i <;> refine Fin.cases ?_ (fun j => ?_) j
      · simp [unitLower, upperPart, bordered, Fin.succ_ne_zero]
      · simp [unitLower, upperPart, bordered, (Fin.succ_ne_zero _).symm]
      · simp [unitLower, upperPart, bordered, ha]
      · have := congrFun (congrFun f3 i) j
        rw [Matrix.mul_apply] at this
        simp only [unitLower, upperPart, Matrix.of_apply, schur] at this
        simp only [unitLower, upperPart, bordered, Matrix.of_apply, Fin.cons_zero, Fin.cons_succ, Fin.succ_pos,
          if_true, Fin.zero_le, Fin.succ_lt_succ_iff, Fin.succ_le_succ_iff, Fin.succ_inj]
        rw [this]
        field_simp
        ring

/-- Cholesky factorisation exists for a symmetric positive definite matrix when positive numbers have square roots, and
stays inside a pattern without fill-in -/
theorem cholesky_exists (sq : K → K) (hsq : ∀ x, 0 < x → sq x * sq x = x) : ∀ (n : Nat) (A : Matrix (Fin n) (Fin n) K)
    (S : Fin n → Fin n → Prop), Aᵀ = A → (∀ v, v ≠ 0 → 0 < v ⬝ᵥ (A *ᵥ v)) → (∀ i j, ¬ S i j → A i j = 0) →
    (∀ i j k, k < i → k < j → S i k → S k j → S i j) →
    ∃ F : Matrix (Fin n) (Fin n) K, (∀ i, F i i ≠ 0) ∧ (∀ i j, ¬ S i j → F i j = 0) ∧
      lowerPart F * (lowerPart F)ᵀ = A
  | 0, A, S, _, _, _, _ => ⟨A, fun i => i.elim0, fun i => i.elim0, by ext i; exact i.elim0⟩
  | n + 1, A, S, hT, hp, hS, hN => by
    have hpos := pos_first hp
    have ha := hpos.ne'
    have hs := hsq _ hpos
    have hs0 : sq (A 0 0) ≠ 0 := by intro h; rw [h, mul_zero] at hs; exact ha hs.symm
    have hsym : ∀ i j, A i j = A j i := fun i j => by
      have := congrFun (congrFun hT j) i
      rw [Matrix.transpose_apply] at this
      exact this
    obtain ⟨F, f1, f2, f3⟩ := cholesky_exists sq hsq n (schur A) (fun i j => S i.succ j.succ) (by
        ext i j
        simp only [schur, Matrix.transpose_apply, Matrix.of_apply]
        rw [hsym j.succ i.succ, hsym j.succ 0, hsym i.succ 0, mul_comm]) (schur_pos hp)
      (by
        intro i j h
        simp only [schur, Matrix.of_apply]
        rw [hS _ _ h]
        by_cases h1 : S i.succ 0
        · have : ¬ S 0 j.succ := fun h2 => h (hN _ _ 0 (Fin.succ_pos i) (Fin.succ_pos j) h1 h2)
          rw [hS _ _ this]; simp
        · rw [hS _ _ h1]; simp)
      (fun i j k h1 h2 h3 h4 => hN _ _ k.succ (Fin.succ_lt_succ_iff.2 h1) (Fin.succ_lt_succ_iff.2 h2) h3 h4)
    refine ⟨bordered (sq (A 0 0)) (fun _ => 0) (fun i => A i.succ 0 / sq (A 0 0)) F, ?_, ?_, ?_⟩
    · intro i
      refine Fin.cases ?_ (fun i => ?_) i
      · simpa [bordered] using hs0
      · simpa [bordered] using f1 i
    · intro i j
      refine Fin.cases ?_ (fun i => ?_) i <;> refine Fin.cases ?_ (fun j => ?_) j <;> intro h
      · exact absurd (hS _ _ h) ha
      · simp [bordered]
      · simp [bordered, hS _ _ h]
      · simpa [bordered] using f2 i j h
    · ext i j
      rw [Matrix.mul_apply, Fin.sum_univ_succ]
      refine Fin.cases ?_ (fun i => ?_) i <;> refine Fin.cases ?_ (fun j => ?_) j
      · simp [lowerPart, bordered, hs]
      · simp only [lowerPart, bordered, Matrix.of_apply, Matrix.transpose_apply, Fin.cons_zero, Fin.cons_succ, le_refl,
          if_true, Fin.zero_le]
        rw [hsym 0 j.succ]
        have : ∀ x : Fin n, ¬ x.succ ≤ (0 : Fin (n + 1)) := fun x h => absurd (Fin.le_zero_iff.1 h) (Fin.succ_ne_zero x)
        simp only [this, if_false, zero_mul, Finset.sum_const_zero, add_zero]
        field_simp
      · simp only [lowerPart, bordered, Matrix.of_apply, Matrix.transpose_apply, Fin.cons_zero, Fin.cons_succ, le_refl,
          if_true, Fin.zero_le]
        have : ∀ x : Fin n, ¬ x.succ ≤ (0 : Fin (n + 1)) := fun x h => absurd (Fin.le_zero_iff.1 h) (Fin.succ_ne_zero x)
        simp only [this, if_false, mul_zero, Finset.sum_const_zero, add_zero]
        field_simp
      · have := congrFun (congrFun f3 i) j
        rw [Matrix.mul_apply] at this
        simp only [lowerPart, Matrix.of_apply, Matrix.transpose_apply, schur] at this
        simp only [lowerPart, bordered, Matrix.of_apply, Matrix.transpose_apply, Fin.cons_zero, Fin.cons_succ,
          Fin.zero_le, if_true, Fin.succ_le_succ_iff]
        rw [this, hsym 0 j.succ]
        have e : A i.succ 0 / sq (A 0 0) * (A j.succ 0 / sq (A 0 0)) = A i.succ 0 * A j.succ 0 / A 0 0 := by
          rw [div_mul_div_comm, hs]
        rw [e]
        ring

/-! ### Storing given elements at the stored positions -/

/-- in a well-formed CRS matrix any elements can be put at the stored positions -/
theorem values_exist {A : Crs K} (hA : A.WF) (hd : DistinctPos A.entries) (n : Nat) (hr : A.rowN = n)
    (F : Matrix (Fin n) (Fin n) K) (hF : ∀ i j : Fin n, ¬ Stored A i j → F i j = 0) :
    ∃ v : List K, v.length = A.val.length ∧ crsMat n { A with val := v } = F := by
  classical
  let G : Nat → Nat → K := fun i j => if h : i < n ∧ j < n then F ⟨i, h.1⟩ ⟨j, h.2⟩ else 0
  let own : Nat → Nat → Prop := fun k i => i < A.rowN ∧ A.ptr i ≤ k ∧ k < A.ptr (i + 1)
  let v : List K := (List.range A.val.length).map fun k =>
    if h : ∃ i, own k i then G h.choose (A.colInd.getD k 0) else 0
  have hmono : ∀ i j, i ≤ j → j ≤ A.rowN → A.ptr i ≤ A.ptr j := by
    intro i j hij
    induction j, hij using Nat.le_induction with
    | base => intro _; exact le_refl _
    | succ j hij ih => intro hj; exact (ih (by omega)).trans (hA.ptr_mono j (by omega))
  have huniq : ∀ k i j, own k i → own k j → i = j := by
    intro k i j hi hj
    by_contra hne
    rcases Nat.lt_or_gt_of_ne hne with h | h
    · have := hmono (i + 1) j h (by have := hj.1; omega)
      have := hi.2.2; have := hj.2.1; omega
    · have := hmono (j + 1) i h (by have := hi.1; omega)
      have := hj.2.2; have := hi.2.1; omega
  have hlen : v.length = A.val.length := by simp [v]
  have hent : ∀ e ∈ Crs.entries { A with val := v }, e.2.2 = G e.1 e.2.1 := by
    intro e he
    obtain ⟨i, hi, he⟩ := List.mem_flatMap.1 he
    obtain ⟨p, hp, rfl⟩ := List.mem_map.1 he
    rw [List.mem_range] at hi
    obtain ⟨m, hm, hpm⟩ := List.mem_iff_getElem.1 hp
    rw [List.getElem_drop, List.getElem_take, List.getElem_zip] at hpm
    simp only [List.length_drop, List.length_take, List.length_zip] at hm
    have hk : own (A.ptr i + m) i := ⟨hi, by omega, by
      have : (A.ptr i + m) < A.ptr (i + 1) := by
        have h1 : m < min (A.ptr (i + 1)) (min A.colInd.length v.length) - A.ptr i := hm
        omega
      exact this⟩
    have hex : ∃ i, own (A.ptr i + m) i := ⟨i, hk⟩
    subst hpm
    dsimp only
    have hc : A.ptr i + m < A.colInd.length := by
      have h1 : m < min (A.ptr (i + 1)) (min A.colInd.length v.length) - A.ptr i := hm
      omega
    have hv : A.ptr i + m < A.val.length := by
      have h1 : m < min (A.ptr (i + 1)) (min A.colInd.length v.length) - A.ptr i := hm
      omega
    have e1 : v[A.ptr i + m]'(by omega) = G i (A.colInd[A.ptr i + m]) := by
      have hex' : ∃ j, own (A.ptr i + m) j := ⟨i, hk⟩
      simp only [v, List.getElem_map, List.getElem_range]
      rw [dif_pos hex', huniq _ _ _ hex'.choose_spec hk]
      simp [List.getD, hc]
    exact e1
  have hpos : (Crs.entries { A with val := v }).map (fun e => (e.1, e.2.1)) = A.entries.map fun e => (e.1, e.2.1) := by
    unfold Crs.entries
    simp only [List.map_flatMap, rowEntries_pos A v hlen]
  have hd' : DistinctPos (Crs.entries { A with val := v }) := by
    have h1 : (A.entries.map fun e => (e.1, e.2.1)).Nodup := by
      rw [List.Nodup, List.pairwise_map]
      exact hd.imp fun {a b} hab h => hab ⟨(Prod.mk.inj h).1, (Prod.mk.inj h).2⟩
    rw [← hpos, List.Nodup, List.pairwise_map] at h1
    exact h1.imp fun {a b} hab h => hab (Prod.ext h.1 h.2)
  refine ⟨v, hlen, ?_⟩
  ext i j
  by_cases hs : Stored A i j
  · obtain ⟨x, hx⟩ := (stored_of A v hlen).mpr hs
    have h1 := sumAt_distinct hd' hx
    have h2 := hent _ hx
    show sumAt (Crs.entries { A with val := v }) i j = F i j
    rw [h1, h2]
    simp [G]
  · rw [hF i j hs]
    exact crsMat_absent _ (fun h => hs ((stored_of A v hlen).mp h))

/-! ### The property for positive definite matrices -/

omit [Field K] [LinearOrder K] [IsStrictOrderedRing K] in
/-- what cuSPARSE is given is well formed -/
theorem given_wf {A : DCrs K} (hA : A.mat.WF) :
    Crs.WF { A.mat with val := A.mat.val.take A.mat.nnz, alloc := A.mat.nnz } := by
  have h1 := hA.nnz_le
  have h2 := hA.lenV
  exact { created := hA.created, lenV := by simp only [List.length_take]; omega, nnz_le := le_refl _,
          lenP := hA.lenP, ptr_le := hA.ptr_le, lenC := hA.lenC, col_lt := hA.col_lt, ptr_zero := hA.ptr_zero,
          ptr_last := hA.ptr_last, ptr_mono := hA.ptr_mono }

/-- no zero pivot is met for a positive definite matrix without fill-in -/
theorem ilu_pivots_definite {n : Nat} (cu : CuSparse K) (hcu : CuSparseOk cu) (A : DCrs K) (hA : Ready n A)
    (hw : A.mat.WF) (hd : DistinctPos A.mat.entries) (hN : NoFill n (Stored A.mat))
    (hp : ∀ v, v ≠ 0 → 0 < v ⬝ᵥ (crsMat n A.mat *ᵥ v)) : IluPivots cu A := by
  obtain ⟨-, hR, hM, hS⟩ := given (n := n) hw.toSafe
  obtain ⟨F, f1, f2, f3⟩ := lu_exists n (crsMat n A.mat) (fun i j => Stored A.mat i j) hp
    (fun i j h => crsMat_absent _ h)
    (fun i j k h1 h2 h3 h4 => hN i j k i.2 j.2 h1 h2 h3 h4)
  obtain ⟨v, v1, v2⟩ := values_exist (given_wf hw) (by
      have e : Crs.entries { A.mat with val := A.mat.val.take A.mat.nnz, alloc := A.mat.nnz } = A.mat.entries :=
        entries_take hw.toSafe
      rw [e]; exact hd)
    n hA.row F (fun i j h => f2 i j (fun h' => h ((hS i j).mpr h')))
  have hrow := hA.row
  subst hrow
  refine hcu.iluFinds _ hR ⟨v, v1, ?_, ?_⟩
  · intro i
    show crsMat A.mat.rowN { A.mat with val := v } i i ≠ 0
    have : crsMat A.mat.rowN { A.mat with val := v } = F := v2
    rw [this]; exact f1 i
  · intro i j _
    show (unitLower (crsMat A.mat.rowN { A.mat with val := v }) * upperPart (crsMat A.mat.rowN { A.mat with val := v })) i j = _
    have : crsMat A.mat.rowN { A.mat with val := v } = F := v2
    rw [this, f3]
    exact (congrFun (congrFun hM i) j).symm

/-- the same for the Cholesky factorisation of a symmetric matrix -/
theorem ic_pivots_definite {n : Nat} (cu : CuSparse K) (hcu : CuSparseOk cu) (sq : K → K)
    (hsq : ∀ x, 0 < x → sq x * sq x = x) (A : DCrs K) (hA : Ready n A)
    (hw : A.mat.WF) (hd : DistinctPos A.mat.entries) (hN : NoFill n (Stored A.mat))
    (hp : SPD (crsMat n A.mat)) : IcPivots cu A := by
  obtain ⟨-, hR, hM, hS⟩ := given (n := n) hw.toSafe
  obtain ⟨F, f1, f2, f3⟩ := cholesky_exists sq hsq n (crsMat n A.mat) (fun i j => Stored A.mat i j) hp.1 hp.2
    (fun i j h => crsMat_absent _ h)
    (fun i j k h1 h2 h3 h4 => hN i j k i.2 j.2 h1 h2 h3 h4)
  obtain ⟨v, v1, v2⟩ := values_exist (given_wf hw) (by
      have e : Crs.entries { A.mat with val := A.mat.val.take A.mat.nnz, alloc := A.mat.nnz } = A.mat.entries :=
        entries_take hw.toSafe
      rw [e]; exact hd)
    n hA.row F (fun i j h => f2 i j (fun h' => h ((hS i j).mpr h')))
  have hrow := hA.row
  subst hrow
  refine hcu.icFinds _ hR ⟨v, v1, ?_, ?_⟩
  · intro i
    show crsMat A.mat.rowN { A.mat with val := v } i i ≠ 0
    have : crsMat A.mat.rowN { A.mat with val := v } = F := v2
    rw [this]; exact f1 i
  · intro i j _ _
    show (lowerPart (crsMat A.mat.rowN { A.mat with val := v }) * (lowerPart (crsMat A.mat.rowN { A.mat with val := v }))ᵀ) i j = _
    have : crsMat A.mat.rowN { A.mat with val := v } = F := v2
    rw [this, f3]
    exact (congrFun (congrFun hM i) j).symm

/-- **C113 (positive definite matrices).** For a positive definite matrix (symmetric or not) without fill-in,
`ILU::solve` returns SUCCESS and the solution of `A x = b`, in both precisions, for every cuSPARSE. -/
theorem C113_ilu_definite_partial {n : Nat} (cu : CuSparse K) (hcu : CuSparseOk cu) (dbl : Bool) (A : DCrs K)
    (hA : Ready n A) (hw : A.mat.WF) (hd : DistinctPos A.mat.entries) (hN : NoFill n (Stored A.mat))
    (hp : ∀ v, v ≠ 0 → 0 < v ⬝ᵥ (crsMat n A.mat *ᵥ v)) (x b : DVec K) (hx : x.on = true) (hb : b.on = true)
    (hxl : x.dev.length = n) (bv : Fin n → K) (hbv : b.dev = List.ofFn bv) :
    ∃ y, iluSolve true dbl cu 0 A x b = .ok (SUCCESS, { x with dev := List.ofFn y }) ∧ crsMat n A.mat *ᵥ y = bv := by
  have hpv := ilu_pivots_definite cu hcu A hA hw hd hN hp
  rcases C113_ilu_solve_partial cu hcu dbl A hA (fun _ => hpv) x b hx hb hxl bv hbv with h | ⟨y, F, h1, -, -, h4⟩
  · exact absurd hpv h.1
  · rw [hA.onDevice] at h4
    exact ⟨y, h1, h4 hN⟩

/-- The same for `IC::solve` and symmetric positive definite matrices, over any field with square roots. -/
theorem C113_ic_definite_partial {n : Nat} (cu : CuSparse K) (hcu : CuSparseOk cu) (sq : K → K)
    (hsq : ∀ x, 0 < x → sq x * sq x = x) (dbl : Bool) (A : DCrs K)
    (hA : Ready n A) (hw : A.mat.WF) (hd : DistinctPos A.mat.entries) (hN : NoFill n (Stored A.mat))
    (hsym : ∀ i j, Stored A.mat i j → Stored A.mat j i)
    (hp : SPD (crsMat n A.mat)) (x b : DVec K) (hx : x.on = true) (hb : b.on = true)
    (hxl : x.dev.length = n) (bv : Fin n → K) (hbv : b.dev = List.ofFn bv) :
    ∃ y, icSolve true dbl cu 0 A x b = .ok (SUCCESS, { x with dev := List.ofFn y }) ∧ crsMat n A.mat *ᵥ y = bv := by
  have hpv := ic_pivots_definite cu hcu sq hsq A hA hw hd hN hp
  rcases C113_ic_solve_partial cu hcu dbl A hA (fun _ => hpv) x b hx hb hxl bv hbv with h | ⟨y, F, h1, -, -, h4⟩
  · exact absurd hpv h.1
  · rw [hA.onDevice] at h4
    exact ⟨y, h1, h4 hN hsym hp.1⟩

end

/-! ### An instance: the tridiagonal matrix with diagonal 2 and -1 beside it -/

/-- `[[2, -1, 0], [-1, 2, -1], [0, -1, 2]]` -/
def tri3 : DCrs ℚ :=
  ⟨⟨3, 3, [0, 2, 5, 7], [0, 1, 0, 1, 2, 1, 2], [2, -1, -1, 2, -1, -1, 2], 7, 7, true⟩, [2, -1, -1, 2, -1, -1, 2], true⟩

theorem tri3_wf : tri3.mat.WF :=
  { created := rfl, lenV := rfl, nnz_le := by decide, lenP := rfl, ptr_le := by decide,
    lenC := by decide, col_lt := by decide, ptr_zero := rfl, ptr_last := rfl, ptr_mono := by decide }

theorem tri3_nofill : NoFill 3 (Stored tri3.mat) := by
  have key : ∀ i j : Nat, Stored tri3.mat i j ↔ (i, j) ∈ tri3.mat.entries.map (fun e => (e.1, e.2.1)) := by
    intro i j
    unfold Stored
    rw [List.mem_map]
    constructor
    · rintro ⟨v, hv⟩; exact ⟨_, hv, rfl⟩
    · rintro ⟨⟨a, b, c⟩, he, e⟩
      cases e
      exact ⟨c, he⟩
  have list : tri3.mat.entries.map (fun e => (e.1, e.2.1)) =
      [(0, 0), (0, 1), (1, 0), (1, 1), (1, 2), (2, 1), (2, 2)] := by decide +kernel
  intro i j k hi hj hk1 hk2
  rw [key, key, key, list]
  have : ∀ i j k : Fin 3, k < i → k < j →
      ((i : Nat), (k : Nat)) ∈ [(0, 0), (0, 1), (1, 0), (1, 1), (1, 2), (2, 1), (2, 2)] →
      ((k : Nat), (j : Nat)) ∈ [(0, 0), (0, 1), (1, 0), (1, 1), (1, 2), (2, 1), (2, 2)] →
      ((i : Nat), (j : Nat)) ∈ [(0, 0), (0, 1), (1, 0), (1, 1), (1, 2), (2, 1), (2, 2)] := by decide +kernel
  exact this ⟨i, hi⟩ ⟨j, hj⟩ ⟨k, by omega⟩ hk1 hk2

theorem tri3_pos : ∀ v : Fin 3 → ℚ, v ≠ 0 → 0 < v ⬝ᵥ (crsMat 3 tri3.mat *ᵥ v) := by
  intro v hv
  have h : v ⬝ᵥ (crsMat 3 tri3.mat *ᵥ v) = v 0 ^ 2 + (v 0 - v 1) ^ 2 + (v 1 - v 2) ^ 2 + v 2 ^ 2 := by
    simp only [dotProduct, Matrix.mulVec, Fin.sum_univ_three]
    have e : ∀ i j : Fin 3, crsMat 3 tri3.mat i j = (![![2, -1, 0], ![-1, 2, -1], ![0, -1, 2]] : Fin 3 → Fin 3 → ℚ) i j := by
      intro i j
      fin_cases i <;> fin_cases j <;> decide +kernel
    simp only [e]
    simp
    ring
  rw [h]
  by_contra hc
  have h0 : v 0 = 0 := by nlinarith [sq_nonneg (v 0), sq_nonneg (v 0 - v 1), sq_nonneg (v 1 - v 2), sq_nonneg (v 2)]
  have h2 : v 2 = 0 := by nlinarith [sq_nonneg (v 0), sq_nonneg (v 0 - v 1), sq_nonneg (v 1 - v 2), sq_nonneg (v 2)]
  have h1 : v 1 = 0 := by
    rw [h0, h2] at hc
    nlinarith [sq_nonneg (v 1)]
  apply hv
  funext i
  fin_cases i
  · exact h0
  · exact h1
  · exact h2

example (cu : CuSparse ℚ) (hcu : CuSparseOk cu) (dbl : Bool) :
    ∃ y : Fin 3 → ℚ, iluSolve true dbl cu 0 tri3 ⟨[], [0, 0, 0], true⟩ ⟨[], [1, 0, 1], true⟩ =
      .ok (SUCCESS, ⟨[], List.ofFn y, true⟩) ∧ crsMat 3 tri3.mat *ᵥ y = ![1, 0, 1] :=
  C113_ilu_definite_partial cu hcu dbl tri3 ⟨tri3_wf.toSafe, rfl, rfl, rfl, rfl⟩ tri3_wf (by decide) tri3_nofill tri3_pos
    ⟨[], [0, 0, 0], true⟩ ⟨[], [1, 0, 1], true⟩ rfl rfl rfl ![1, 0, 1] rfl

end Verif.Incomplete
