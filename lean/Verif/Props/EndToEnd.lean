import Verif.Model.Prog
import Verif.Lemmas.Dominance
import Verif.Props.Mm
import Verif.Props.CooSort
import Verif.Props.CooCrs
import Verif.Props.Reduce
import Verif.Props.SolverMat
import Verif.Props.SorConv
import Mathlib.Algebra.Order.Field.Rat
import Mathlib.Tactic.NormNum

/-!
C81: the example program (read a Matrix Market file, convert to CRS, solve with CG and the Jacobi
preconditioner).
C82: generate a matrix, convert it, solve.
-/

namespace Verif.Prog

open Verif.Spec Verif.Solver Matrix

variable {K : Type} [Field K] [LinearOrder K] [IsStrictOrderedRing K]

/-- a COO object holding a list of entries -/
def cooOf {α : Type} (M N : Nat) (L : List (Entry α)) : Coo α :=
  { rowN := M
    colN := N
    rowIdx := L.map (·.1)
    colIdx := L.map (·.2.1)
    val := L.map (·.2.2)
    nnz := L.length
    alloc := L.length
    created := true }

theorem cooOf_wf {α : Type} (M N : Nat) (L : List (Entry α)) : (cooOf M N L).WF :=
  ⟨rfl, by simp [cooOf], by simp [cooOf], by simp [cooOf], le_refl _⟩

theorem cooOf_entries {α : Type} (M N : Nat) (L : List (Entry α)) : (cooOf M N L).entries = L := by
  unfold cooOf Coo.entries
  simp only
  rw [List.take_of_length_le (by simp)]
  induction L with
  | nil => rfl
  | cons e L ih => simpa using ih

/-- reading a file gives its entries -/
theorem read_mmText {α : Type} [Zero α] (C : Mm.Codec α) (hC : C.Ok) (r c : Nat) (cs : List (List Char))
    (hcs : ∀ l ∈ cs, IsComment l) (M N : Nat) (hN : 0 < N) (L : List (Entry α))
    (hv : ∀ e ∈ L, C.parse (C.fmt e.2.2) = some e.2.2) :
    ∃ A, Mm.input C (blank r c) (mmText C cs M N L) = .ok A ∧ A.WF ∧ A.rowN = M ∧ A.colN = N ∧
      A.entries = L := by
  obtain ⟨text, A, h1, h2, h3, h4, h5, h6⟩ := Mm.C28_roundtrip C hC (cooOf M N L)
    ({ blank r c with created := true }) (cooOf_wf M N L) ⟨rfl, rfl, rfl, rfl, le_refl _⟩ hN
    (by rw [cooOf_entries]; exact hv)
  refine ⟨A, ?_, h3, h4, h5, by rw [h6, cooOf_entries]⟩
  rw [Mm.C28_output (cooOf_wf M N L), cooOf_entries] at h1
  cases h1
  have hin : ∀ t, Mm.input C ({ blank r c with created := true }) t = Mm.input C (blank r c) t :=
    fun t => rfl
  rw [hin] at h2
  have hcom := Mm.C28_comments C (blank r c) cs
    (Mm.showNat M ++ ' ' :: (Mm.showNat N ++ ' ' :: (Mm.showNat L.length ++ '\n' :: Mm.linesOf C L)))
    hcs (by
      rw [show Mm.showNat M ++ ' ' :: (Mm.showNat N ++ ' ' :: (Mm.showNat L.length ++ '\n' :: Mm.linesOf C L)) =
        (Mm.showNat M ++ ' ' :: (Mm.showNat N ++ ' ' :: Mm.showNat L.length)) ++ '\n' :: Mm.linesOf C L by simp]
      rw [Mm.getline_line (by
        intro x hx
        simp only [List.mem_append, List.mem_cons] at hx
        rcases hx with h | h | h | h | h
        · exact Mm.show_ne_nl h
        · subst h; decide
        · exact Mm.show_ne_nl h
        · subst h; decide
        · exact Mm.show_ne_nl h)]
      intro h
      have hne := Mm.showNat_ne_nil M
      cases hs : Mm.showNat M with
      | nil => exact hne hs
      | cons d ds =>
        rw [hs] at h
        simp at h
        have := Mm.showNat_digit (n := M) (c := d) (by rw [hs]; simp)
        rw [h] at this
        revert this; decide)
  rw [← h2]
  refine Eq.trans ?_ hcom
  congr 1

/-- converting a row-sorted COO matrix and solving -/
theorem convert_solve (sq : K → K) (hsq : sq 0 = 0) (tol omega resid0 : K) (htol : 0 < tol)
    (order zo : Nat → List Nat) (ho : ∀ n, Order (order n) n) (hz : ∀ n, Order (zo n) n) (n : Nat)
    (coo : Coo K) (hwf : coo.WF) (hr : coo.rowN = n) (hc : coo.colN = n)
    (hin : Within n n coo.entries) (hd : DistinctPos coo.entries) (hs : SortedRows coo.entries)
    (hM : SPD (matrixOf n coo.entries)) (x b : Nat → K)
    (hx : matrixOf n coo.entries *ᵥ firstN n x ≠ firstN n b) :
    ∃ k, ∃ y : Fin n → K, 1 ≤ k ∧ k ≤ n ∧
      norm2 sq (firstN n b - matrixOf n coo.entries *ᵥ y) < tol ∧
      ((Crs.ofCoo coo).bind fun A => cgJacobi (fieldNum sq) tol omega resid0 order zo A x b) =
        .ok { status := SUCCESS
              x := List.ofFn y
              finalIter := k
              finalResid := norm2 sq (firstN n b - matrixOf n coo.entries *ᵥ y) } := by
  obtain ⟨A, hA, hAr, hAc, -, ht, -, he⟩ := C06_convert_rows coo hwf (by rw [hr, hc]; exact hin) hs
  have e1 : A.rowN = n := by omega
  have e2 : A.colN = n := by omega
  have hmat : Matrix.of (fun i j : Fin n => crsAt A i j) = matrixOf n coo.entries := by
    unfold crsAt matrixOf; rw [he]
  subst e1
  obtain ⟨k, y, h1, h2, h3, h4⟩ := C34_crs sq hsq
    { tol := tol
      maxiter := A.rowN
      omega := omega
      prevResid := resid0 } htol rfl rfl rfl (le_refl _) A
    ht.toSafe (by rw [he]; exact hd) rfl e2 (order A.rowN) (zo A.rowN) (ho _) (hz _) (by rw [hmat]; exact hM)
    _ (Or.inr rfl) (firstN _ x) (firstN _ b) (by rw [hmat]; exact hx)
  rw [hmat] at h3 h4
  refine ⟨k, y, h1, h2, h3, ?_⟩
  rw [hA]
  exact h4

/-- **C81.** The example program, on any Matrix Market file (any number of comment lines) whose entries are
listed row by row and describe a symmetric positive definite matrix, started from any vector that is not
already the solution, with any positive tolerance, reads the file, converts the matrix and returns SUCCESS
after at most as many iterations as there are rows, with a residual below the tolerance (exact arithmetic;
any schedule of the parallel loops). -/
theorem C81_example_partial (sq : K → K) (hsq : sq 0 = 0) (tol omega resid0 : K) (htol : 0 < tol)
    (C : Mm.Codec K) (hC : C.Ok) (order zo : Nat → List Nat) (ho : ∀ n, Order (order n) n)
    (hz : ∀ n, Order (zo n) n) (r c n : Nat) (cs : List (List Char)) (hcs : ∀ l ∈ cs, IsComment l)
    (L : List (Entry K)) (hv : ∀ e ∈ L, C.parse (C.fmt e.2.2) = some e.2.2) (hin : Within n n L)
    (hd : DistinctPos L) (hs : SortedRows L) (hM : SPD (matrixOf n L)) (x b : Nat → K)
    (hx : matrixOf n L *ᵥ firstN n x ≠ firstN n b) :
    ∃ k, ∃ y : Fin n → K, 1 ≤ k ∧ k ≤ n ∧ norm2 sq (firstN n b - matrixOf n L *ᵥ y) < tol ∧
      cgExample (fieldNum sq) C r c tol omega resid0 order zo (mmText C cs n n L) x b =
        .ok { status := SUCCESS
              x := List.ofFn y
              finalIter := k
              finalResid := norm2 sq (firstN n b - matrixOf n L *ᵥ y) } := by
  have hn : 0 < n := by
    rcases Nat.eq_zero_or_pos n with h | h
    · subst h; exact absurd (funext fun i => Fin.elim0 i) hx
    · exact h
  obtain ⟨A, hA, hwf, hr, hc, he⟩ := read_mmText C hC r c cs hcs n n hn L hv
  subst he
  obtain ⟨k, y, h1, h2, h3, h4⟩ := convert_solve sq hsq tol omega resid0 htol order zo ho hz n A hwf hr hc hin
    hd hs hM x b hx
  refine ⟨k, y, h1, h2, h3, ?_⟩
  unfold cgExample
  rw [hA]
  exact h4

theorem sumAt_perm {α : Type} [AddCommMonoid α] {L L' : List (Entry α)} (h : L.Perm L') (i j : Nat) :
    sumAt L i j = sumAt L' i j := by
  unfold sumAt
  exact ((h.filter _).map _).foldr_eq _

/-- **C81 (with sort).** With `sort(false)` after reading, the order of the entries in the file does not
matter. -/
theorem C81_example_sorted (sq : K → K) (hsq : sq 0 = 0) (tol omega resid0 : K) (htol : 0 < tol)
    (C : Mm.Codec K) (hC : C.Ok) (order zo : Nat → List Nat) (ho : ∀ n, Order (order n) n)
    (hz : ∀ n, Order (zo n) n) (r c n : Nat) (cs : List (List Char)) (hcs : ∀ l ∈ cs, IsComment l)
    (L : List (Entry K)) (hv : ∀ e ∈ L, C.parse (C.fmt e.2.2) = some e.2.2) (hin : Within n n L)
    (hd : DistinctPos L) (hM : SPD (matrixOf n L)) (x b : Nat → K)
    (hx : matrixOf n L *ᵥ firstN n x ≠ firstN n b) :
    ∃ k, ∃ y : Fin n → K, 1 ≤ k ∧ k ≤ n ∧ norm2 sq (firstN n b - matrixOf n L *ᵥ y) < tol ∧
      cgExampleSorted (fieldNum sq) C r c tol omega resid0 order zo (mmText C cs n n L) x b =
        .ok { status := SUCCESS
              x := List.ofFn y
              finalIter := k
              finalResid := norm2 sq (firstN n b - matrixOf n L *ᵥ y) } := by
  have hn : 0 < n := by
    rcases Nat.eq_zero_or_pos n with h | h
    · subst h; exact absurd (funext fun i => Fin.elim0 i) hx
    · exact h
  obtain ⟨A, hA, hwf, hr, hc, he⟩ := read_mmText C hC r c cs hcs n n hn L hv
  obtain ⟨A', hA', hwf', -, hr', hc', hp, hs, -⟩ := C02_sort_permutes A hwf
  rw [he] at hp
  have hmat : matrixOf n A'.entries = matrixOf n L := by
    unfold matrixOf
    congr 1
    funext i j
    exact sumAt_perm hp i j
  obtain ⟨k, y, h1, h2, h3, h4⟩ := convert_solve sq hsq tol omega resid0 htol order zo ho hz n A' hwf'
    (by omega) (by omega) (fun e he => hin e (hp.mem_iff.mp he))
    (hp.symm.pairwise hd (fun {a b} h h' => h ⟨h'.1.symm, h'.2.symm⟩))
    (hs.imp fun {a b} h => by omega) (by rw [hmat]; exact hM) x b (by rw [hmat]; exact hx)
  rw [hmat] at h3 h4
  refine ⟨k, y, h1, h2, h3, ?_⟩
  unfold cgExampleSorted
  rw [hA]
  show (A.sort false).bind _ = _
  rw [hA']
  exact h4

/-- integers as rational values, written in decimal -/
def ratCodec : Mm.Codec ℚ where
  fmt q := Mm.intCodec.fmt q.num
  parse t := (Mm.intCodec.parse t).map (fun z => (z : ℚ))

theorem ratCodec_ok : ratCodec.Ok := fun q => Mm.intCodec_ok q.num

/-- the matrix `[[2, 1], [1, 2]]`, listed column by column, as Matrix Market files usually are -/
def colOrder : List (Entry ℚ) := [(0, 0, 2), (1, 0, 1), (0, 1, 1), (1, 1, 2)]

/-- the same matrix, listed row by row -/
def rowOrder : List (Entry ℚ) := [(0, 0, 2), (0, 1, 1), (1, 0, 1), (1, 1, 2)]

theorem colOrder_matrix : matrixOf 2 colOrder = !![2, 1; 1, 2] := by
  unfold matrixOf colOrder
  decide +kernel

theorem rowOrder_matrix : matrixOf 2 rowOrder = !![2, 1; 1, 2] := by
  unfold matrixOf rowOrder
  decide +kernel

theorem two_one_spd : SPD (!![2, 1; 1, 2] : Matrix (Fin 2) (Fin 2) ℚ) := by
  have : (!![2, 1; 1, 2] : Matrix (Fin 2) (Fin 2) ℚ) = triMatrix 2 2 1 := by
    unfold triMatrix; decide +kernel
  rw [this]
  exact spd_tri 2 1 (by norm_num) (by norm_num)

/-- **C81 is violated for files that are not listed row by row**: nothing in the program checks or restores
the order, and the conversion to CRS silently builds another matrix. With the symmetric positive definite
matrix `[[2, 1], [1, 2]]` listed column by column, start `(0, 0)`, right-hand side `(3, 0)` and tolerance
1/100, the example program reports SUCCESS with residual 0 and the "solution" `(1, 0)`; the matrix in the file
maps it to `(2, 1)`. -/
theorem C81_column_order_violated :
    SPD (matrixOf 2 colOrder) ∧
    cgExample (fieldNum id) ratCodec 0 0 (1 / 100) 1 0 List.range List.range (mmText ratCodec [] 2 2 colOrder)
        (fun _ => 0) (fun i => if i = 0 then 3 else 0) =
      .ok { status := SUCCESS
            x := [1, 0]
            finalIter := 1
            finalResid := 0 } ∧
    matrixOf 2 colOrder *ᵥ ![1, 0] = ![2, 1] := by
  refine ⟨by rw [colOrder_matrix]; exact two_one_spd, by decide +kernel, ?_⟩
  rw [colOrder_matrix]
  decide +kernel

/-- the hypotheses of `C81_example_partial` and `C81_example_sorted` hold together: the same matrix listed row
by row, one comment line -/
example : ∃ k, ∃ y : Fin 2 → ℚ, 1 ≤ k ∧ k ≤ 2 ∧
    norm2 id (firstN 2 (fun i => if i = 0 then 3 else 0) - matrixOf 2 rowOrder *ᵥ y) < 1 / 100 ∧
    cgExample (fieldNum id) ratCodec 0 0 (1 / 100) 1 0 List.range List.range
        (mmText ratCodec ["% a comment".toList] 2 2 rowOrder) (fun _ => 0) (fun i => if i = 0 then 3 else 0) =
      .ok { status := SUCCESS
            x := List.ofFn y
            finalIter := k
            finalResid := norm2 id (firstN 2 (fun i => if i = 0 then 3 else 0) - matrixOf 2 rowOrder *ᵥ y) } :=
  C81_example_partial id rfl _ _ _ (by norm_num) ratCodec ratCodec_ok _ _ (fun n => Order.range n)
    (fun n => Order.range n) 0 0 2 _ (by unfold IsComment; decide) rowOrder (by decide +kernel)
    (by unfold Within; decide +kernel) (by unfold DistinctPos; decide +kernel)
    (by unfold SortedRows; decide +kernel) (by rw [rowOrder_matrix]; exact two_one_spd) _ _
    (by rw [rowOrder_matrix]; decide +kernel)

/-! ### Generated matrices -/

theorem matrixOf_isMatrix {A : Coo K} {n : Nat} {S : Nat → Nat → Prop}
    {f : Nat → Nat → K} (h : IsMatrix A n n S f) (i j : Fin n) [Decidable (S i j)] :
    matrixOf n A.entries i j = if S i j then f i j else 0 := by
  have hd : DistinctPos A.entries := h.order.imp fun {a b} h => by omega
  show sumAt A.entries i j = _
  split
  · rename_i hS
    have : ((i : Nat), (j : Nat), f i j) ∈ A.entries := (h.stored _ _ _).mpr ⟨i.isLt, j.isLt, hS, rfl⟩
    exact sumAt_distinct hd this
  · rename_i hS
    refine sumAt_absent fun e he hc => ?_
    have := (h.stored e.1 e.2.1 e.2.2).mp he
    rw [hc.1, hc.2] at this
    exact hS this.2.2.1

/-- generate, convert, solve with CG -/
theorem generate_solve (sq : K → K) (hsq : sq 0 = 0) (tol omega resid0 : K) (htol : 0 < tol)
    (order zo : Nat → List Nat) (ho : ∀ n, Order (order n) n) (hz : ∀ n, Order (zo n) n) (n : Nat)
    (gen : Res (Coo K)) {coo : Coo K} (hg : gen = .ok coo) {S : Nat → Nat → Prop} {f : Nat → Nat → K}
    (hI : IsMatrix coo n n S f) (M : Matrix (Fin n) (Fin n) K) (hm : matrixOf n coo.entries = M)
    (hM : SPD M) (x b : Nat → K) (hx : M *ᵥ firstN n x ≠ firstN n b) :
    ∃ k, ∃ y : Fin n → K, 1 ≤ k ∧ k ≤ n ∧ norm2 sq (firstN n b - M *ᵥ y) < tol ∧
      cgGenerated (fieldNum sq) gen tol omega resid0 order zo x b =
        .ok { status := SUCCESS
              x := List.ofFn y
              finalIter := k
              finalResid := norm2 sq (firstN n b - M *ᵥ y) } := by
  subst hm hg
  exact convert_solve sq hsq tol omega resid0 htol order zo ho hz n coo hI.wf hI.rows hI.cols
    (fun e he => by
      have := (hI.stored e.1 e.2.1 e.2.2).mp he
      exact ⟨this.1, this.2.1⟩)
    (hI.order.imp fun {a b} h => by omega) (hI.order.imp fun {a b} h => by omega) hM x b hx

theorem tri_matrix {coo : Coo K} {n : Nat} {a b : K}
    (hI : IsMatrix coo n n (InBand 1) (fun i j => if i = j then a else b)) :
    matrixOf n coo.entries = triMatrix n a b := by
  funext i j
  rw [matrixOf_isMatrix hI]
  unfold triMatrix InBand
  simp only [Matrix.of_apply, Fin.ext_iff]
  by_cases h : (i : Nat) = j
  · have hb : (i : Nat) ≤ j + 1 ∧ (j : Nat) ≤ i + 1 := by omega
    simp only [if_pos h, if_pos hb]
  · simp only [if_neg h]
    by_cases h' : (i : Nat) + 1 = j ∨ (j : Nat) + 1 = i
    · have hb : (i : Nat) ≤ j + 1 ∧ (j : Nat) ≤ i + 1 := by omega
      simp only [if_pos h', if_pos hb]
    · have hb : ¬ ((i : Nat) ≤ j + 1 ∧ (j : Nat) ≤ i + 1) := by omega
      simp only [if_neg h', if_neg hb]

/-- **C82 (tridiagonal).** For every size and every diagonal value `a > 0` and off-diagonal value `b` with
`2|b| ≤ a`: generate, convert, solve; SUCCESS after at most `n` iterations, residual below the tolerance. -/
theorem C82_tridiagonal (sq : K → K) (hsq : sq 0 = 0) (tol omega resid0 : K) (htol : 0 < tol)
    (order zo : Nat → List Nat) (ho : ∀ n, Order (order n) n) (hz : ∀ n, Order (zo n) n) (n : Nat)
    (h2 : 2 ≤ n) (hn : n < 2147483648) (a b : K) (ha : 0 < a) (hb : 2 * |b| ≤ a) (x y0 : Nat → K)
    (hx : triMatrix n a b *ᵥ firstN n x ≠ firstN n y0) :
    ∃ k, ∃ y : Fin n → K, 1 ≤ k ∧ k ≤ n ∧ norm2 sq (firstN n y0 - triMatrix n a b *ᵥ y) < tol ∧
      cgGenerated (fieldNum sq) (Gen.tridiagonal n a b) tol omega resid0 order zo x y0 =
        .ok { status := SUCCESS
              x := List.ofFn y
              finalIter := k
              finalResid := norm2 sq (firstN n y0 - triMatrix n a b *ᵥ y) } := by
  obtain ⟨coo, hg, hI⟩ := Gen.C26_tridiagonal n a b h2 hn
  exact generate_solve sq hsq tol omega resid0 htol order zo ho hz n _ hg hI _ (tri_matrix hI)
    (spd_tri a b ha hb) x y0 hx

/-- **C82 (1-D Laplacian).** -/
theorem C82_laplacian_1D (sq : K → K) (hsq : sq 0 = 0) (tol omega resid0 : K) (htol : 0 < tol)
    (order zo : Nat → List Nat) (ho : ∀ n, Order (order n) n) (hz : ∀ n, Order (zo n) n) (n : Nat)
    (h2 : 2 ≤ n) (hn : n < 2147483648) (x b : Nat → K)
    (hx : triMatrix n 2 (-1) *ᵥ firstN n x ≠ firstN n b) :
    ∃ k, ∃ y : Fin n → K, 1 ≤ k ∧ k ≤ n ∧ norm2 sq (firstN n b - triMatrix n 2 (-1) *ᵥ y) < tol ∧
      cgGenerated (fieldNum sq) (Gen.laplacian1D n) tol omega resid0 order zo x b =
        .ok { status := SUCCESS
              x := List.ofFn y
              finalIter := k
              finalResid := norm2 sq (firstN n b - triMatrix n 2 (-1) *ᵥ y) } := by
  obtain ⟨coo, hg, hI⟩ := Gen.C26_laplacian_1D (α := K) n h2 hn
  exact generate_solve sq hsq tol omega resid0 htol order zo ho hz n _ hg hI _ (tri_matrix hI)
    (spd_tri 2 (-1) (by norm_num) (by norm_num)) x b hx

theorem grid_matrix {coo : Coo K} {m N : Nat}
    (hI : IsMatrix coo N N (fun p q => p = q ∨ GridNeighbours m p q) (fun p q => if p = q then 4 else -1)) :
    matrixOf N coo.entries = gridMatrix m N := by
  funext i j
  rw [matrixOf_isMatrix hI]
  unfold gridMatrix
  simp only [Matrix.of_apply, Fin.ext_iff]
  by_cases h : (i : Nat) = j
  · simp [h]
  · simp [h]

/-- **C82 (2-D Laplacian)**, the benchmark programs' matrix, for every grid. -/
theorem C82_laplacian_2D (sq : K → K) (hsq : sq 0 = 0) (tol omega resid0 : K) (htol : 0 < tol)
    (order zo : Nat → List Nat) (ho : ∀ n, Order (order n) n) (hz : ∀ n, Order (zo n) n) (m n : Nat)
    (hn : m * n < 2147483648) (x b : Nat → K)
    (hx : gridMatrix m (m * n) *ᵥ firstN (m * n) x ≠ firstN (m * n) b) :
    ∃ k, ∃ y : Fin (m * n) → K, 1 ≤ k ∧ k ≤ m * n ∧
      norm2 sq (firstN (m * n) b - gridMatrix m (m * n) *ᵥ y) < tol ∧
      cgGenerated (fieldNum sq) (Gen.laplacian2D m n) tol omega resid0 order zo x b =
        .ok { status := SUCCESS
              x := List.ofFn y
              finalIter := k
              finalResid := norm2 sq (firstN (m * n) b - gridMatrix m (m * n) *ᵥ y) } := by
  have hm : 0 < m := by
    rcases Nat.eq_zero_or_pos m with h | h
    · subst h
      refine absurd (funext fun i => ?_) hx
      exact absurd i.isLt (by simp)
    · exact h
  obtain ⟨coo, hg, hI⟩ := Gen.C26_laplacian_2D (α := K) m n hn
  exact generate_solve sq hsq tol omega resid0 htol order zo ho hz _ _ hg hI _ (grid_matrix hI)
    (spd_grid hm) x b hx

theorem crsMap_id (A : Crs K) : crsMap (id : K → K) A = A := by
  unfold crsMap; simp

theorem vec_firstN {α : Type} (n : Nat) (g : Nat → α) : vec id (firstN n g) = fill n g := rfl

/-- generate, convert, solve with SOR -/
theorem generate_sor [Archimedean K] (sq : K → K)
    (hsq : ∀ eps, 0 < eps → ∃ d, 0 < d ∧ ∀ a, 0 ≤ a → a ≤ d → sq a < eps) (hsq0 : ∀ a, 0 ≤ a → 0 ≤ sq a)
    (tol omega resid0 : K) (htol : 0 < tol) (hw0 : 0 < omega) (hw2 : omega < 2)
    (order zo : Nat → List Nat) (ho : ∀ n, Order (order n) n) (hz : ∀ n, Order (zo n) n) (n : Nat)
    (gen : Res (Coo K)) {coo : Coo K} (hg : gen = .ok coo) {S : Nat → Nat → Prop} {f : Nat → Nat → K}
    (hI : IsMatrix coo n n S f) (M : Matrix (Fin n) (Fin n) K) (hm : matrixOf n coo.entries = M)
    (hM : SPD M) (x b : Nat → K) (hb : norm2 sq (firstN n b) ≠ 0) :
    ∃ K0, ∀ maxiter, K0 ≤ maxiter → ∃ out,
      sorGenerated (fieldNum sq) gen tol omega resid0 maxiter order zo x b = .ok out ∧
        out.status = SUCCESS ∧ out.finalIter ≤ K0 := by
  subst hm hg
  have hin : Within coo.rowN coo.colN coo.entries := fun e he => by
    have := (hI.stored e.1 e.2.1 e.2.2).mp he
    rw [hI.rows, hI.cols]
    exact ⟨this.1, this.2.1⟩
  obtain ⟨A, hA, hAr, hAc, -, ht, hrows, he⟩ := C06_convert_rows coo hI.wf hin
    (hI.order.imp fun {a b} h => by omega)
  have e1 : A.rowN = n := hAr.trans hI.rows
  have e2 : A.colN = n := hAc.trans hI.cols
  have hmat : Matrix.of (fun i j : Fin n => crsAt A i j) = matrixOf n coo.entries := by
    unfold crsAt matrixOf; rw [he]
  have hd : DistinctPos A.entries := by rw [he]; exact hI.order.imp fun {a b} h => by omega
  subst e1
  have hmat' := isMat_crs A ht.toSafe hd rfl e2 (order A.rowN) (zo A.rowN) (ho _) (hz _)
  rw [hmat] at hmat'
  have hlow := C32_lower_crs (fieldNum_exact sq) A ht.toSafe rfl e2 (by
    intro i hi
    rw [hrows i hi, List.pairwise_map]
    refine List.Pairwise.imp_of_mem ?_ (List.Pairwise.filter _ hI.order)
    intro a b ha hb h
    simp only [List.mem_filter, beq_iff_eq] at ha hb
    omega)
  rw [hmat, crsMap_id] at hlow
  obtain ⟨k, -, hsol, -⟩ := C34_residual_vanishes hM (spd_one (K := K)) (firstN A.rowN b) (firstN A.rowN x)
  obtain ⟨K0, h⟩ := C57_spd (fieldNum_exact sq) hsq hsq0 tol htol _ _ hmat' hM omega hw0 hw2 _ hlow _
    ⟨_, rfl, fun v => rfl⟩ (firstN A.rowN x) (firstN A.rowN b) _ hsol hb
  refine ⟨K0, fun maxiter hmax => ?_⟩
  obtain ⟨out, h1, h2, h3⟩ := h
    { tol := tol
      maxiter := maxiter
      omega := omega
      prevResid := resid0 } rfl rfl rfl rfl rfl hmax
  refine ⟨out, ?_, h2, h3⟩
  unfold sorGenerated
  show ((Crs.ofCoo coo).bind _) = _
  rw [hA]
  exact h1

/-- **C82 (SOR, tridiagonal).** -/
theorem C82_sor_tridiagonal [Archimedean K] (sq : K → K)
    (hsq : ∀ eps, 0 < eps → ∃ d, 0 < d ∧ ∀ a, 0 ≤ a → a ≤ d → sq a < eps) (hsq0 : ∀ a, 0 ≤ a → 0 ≤ sq a)
    (tol omega resid0 : K) (htol : 0 < tol) (hw0 : 0 < omega) (hw2 : omega < 2)
    (order zo : Nat → List Nat) (ho : ∀ n, Order (order n) n) (hz : ∀ n, Order (zo n) n) (n : Nat)
    (h2 : 2 ≤ n) (hn : n < 2147483648) (a b : K) (ha : 0 < a) (hb : 2 * |b| ≤ a) (x y : Nat → K)
    (hy : norm2 sq (firstN n y) ≠ 0) :
    ∃ K0, ∀ maxiter, K0 ≤ maxiter → ∃ out,
      sorGenerated (fieldNum sq) (Gen.tridiagonal n a b) tol omega resid0 maxiter order zo x y = .ok out ∧
        out.status = SUCCESS ∧ out.finalIter ≤ K0 := by
  obtain ⟨coo, hg, hI⟩ := Gen.C26_tridiagonal n a b h2 hn
  exact generate_sor sq hsq hsq0 tol omega resid0 htol hw0 hw2 order zo ho hz n _ hg hI _ (tri_matrix hI)
    (spd_tri a b ha hb) x y hy

/-- **C82 (SOR, 2-D Laplacian)**, the matrix of benchmark/equation/SOR.cpp, for every grid. -/
theorem C82_sor_laplacian_2D [Archimedean K] (sq : K → K)
    (hsq : ∀ eps, 0 < eps → ∃ d, 0 < d ∧ ∀ a, 0 ≤ a → a ≤ d → sq a < eps) (hsq0 : ∀ a, 0 ≤ a → 0 ≤ sq a)
    (tol omega resid0 : K) (htol : 0 < tol) (hw0 : 0 < omega) (hw2 : omega < 2)
    (order zo : Nat → List Nat) (ho : ∀ n, Order (order n) n) (hz : ∀ n, Order (zo n) n) (m n : Nat)
    (hm : 0 < m) (hn : m * n < 2147483648) (x b : Nat → K) (hb : norm2 sq (firstN (m * n) b) ≠ 0) :
    ∃ K0, ∀ maxiter, K0 ≤ maxiter → ∃ out,
      sorGenerated (fieldNum sq) (Gen.laplacian2D m n) tol omega resid0 maxiter order zo x b = .ok out ∧
        out.status = SUCCESS ∧ out.finalIter ≤ K0 := by
  obtain ⟨coo, hg, hI⟩ := Gen.C26_laplacian_2D (α := K) m n hn
  exact generate_sor sq hsq hsq0 tol omega resid0 htol hw0 hw2 order zo ho hz _ _ hg hI _ (grid_matrix hI)
    (spd_grid hm) x b hb

/-- the hypotheses hold: a 3 × 2 grid, omega = 1.9 (the default), right-hand side (1, ..., 1), start
(123, ..., 123) as in the benchmark -/
example : ∃ K0, ∀ maxiter, K0 ≤ maxiter → ∃ out,
    sorGenerated (fieldNum id) (Gen.laplacian2D 3 2) (1 / 1000 : ℚ) (19 / 10) 0 maxiter List.range List.range
      (fun _ => 123) (fun _ => 1) = .ok out ∧ out.status = SUCCESS ∧ out.finalIter ≤ K0 :=
  C82_sor_laplacian_2D id (fun eps he => ⟨eps / 2, by linarith, fun a _ ha => by show a < eps; linarith⟩)
    (fun a ha => ha) _ _ _ (by norm_num) (by norm_num) (by norm_num) _ _ (fun n => Order.range n)
    (fun n => Order.range n) 3 2 (by omega) (by omega) _ _ (by decide +kernel)

/-- and those of `C82_laplacian_2D` -/
example : gridMatrix 3 (3 * 2) *ᵥ firstN (3 * 2) (fun _ => (123 : ℚ)) ≠ firstN (3 * 2) (fun _ => 1) := by
  decide +kernel

end Verif.Prog
