import Verif.Model.ProgLobpcg
import Verif.Props.LobpcgEig
import Verif.Props.EndToEnd
import Verif.Props.GenEig
import Verif.Props.Print
import Verif.Props.SolverMisc

/-!
C104 for the example program `examples/eigen/lobpcg/lobpcg.cpp`.
-/

namespace Verif.Prog

open Verif.Spec Verif.Solver Verif.Lobpcg Matrix

variable {K : Type} [Field K] [LinearOrder K] [IsStrictOrderedRing K]

/-! ### Printing -/

theorem flatten_get {α : Type} {n : Nat} : ∀ {xs : List (List α)}, (∀ x ∈ xs, x.length = n) →
    ∀ {i j : Nat}, j < n → xs.flatten[i * n + j]? = (xs[i]?).bind (fun x => x[j]?)
  | [], _, i, j, _ => by simp
  | x :: xs, h, 0, j, hj => by
    have hx := h x (by simp)
    rw [List.flatten_cons, Nat.zero_mul, Nat.zero_add, List.getElem?_append_left (by omega)]
    simp
  | x :: xs, h, i + 1, j, hj => by
    have hx := h x (by simp)
    rw [List.flatten_cons, List.getElem?_append_right (by rw [hx, Nat.succ_mul]; omega), hx,
      show (i + 1) * n + j - n = i * n + j by rw [Nat.succ_mul]; omega,
      flatten_get (fun y hy => h y (by simp [hy])) hj]
    simp

theorem flatten_len {α : Type} {n : Nat} : ∀ {xs : List (List α)}, (∀ x ∈ xs, x.length = n) →
    xs.flatten.length = xs.length * n
  | [], _ => by simp
  | x :: xs, h => by
    rw [List.flatten_cons, List.length_append, flatten_len (fun y hy => h y (by simp [hy])), h x (by simp),
      List.length_cons, Nat.succ_mul, Nat.add_comm]

/-- printing the part of an array that starts at `first` -/
theorem print_ofTarget {α : Type} (b : List α) (first size : Nat) (f : Fin size → α)
    (h : ∀ j : Fin size, b[first + j]? = some (f j)) :
    (View1D.ofTarget first size).print b = .ok (List.ofFn fun j => ([], f j)) := by
  have hlen : first + size ≤ b.length ∨ size = 0 := by
    rcases Nat.eq_zero_or_pos size with h0 | h0
    · exact Or.inr h0
    · have := h ⟨size - 1, by omega⟩
      have := (List.getElem?_eq_some_iff.mp this).1
      simp only at this
      omega
  rcases hlen with hlen | h0
  · obtain ⟨out, e1, e2, e3⟩ := C90_view1D (View1D.ofTarget first size) b rfl hlen
    rw [e1]
    congr 1
    refine List.ext_getElem? (fun j => ?_)
    by_cases hj : j < size
    · obtain ⟨x, hx, e⟩ := e3 j hj
      rw [e, List.getElem?_ofFn, dif_pos hj]
      have h1 := h ⟨j, hj⟩
      unfold View1D.get at hx
      rw [rd_eq_ok, Nat.add_comm] at hx
      rw [show (View1D.ofTarget first size).first = first from rfl, h1] at hx
      cases hx
      rfl
    · rw [List.getElem?_eq_none (by rw [e2]; show size ≤ j; omega), List.getElem?_eq_none (by simp; omega)]
  · subst h0
    unfold View1D.print View1D.ofTarget forRange
    simp [forFrom]

theorem forFrom_ub {σ : Type} {body : Nat → σ → Res σ} :
    ∀ {k lo : Nat} {s : σ}, (∀ i s, lo ≤ i → i < lo + k → (∃ s', body i s = .ok s') ∨ ∃ e, body i s = .ub e) →
      (∃ i, lo ≤ i ∧ i < lo + k ∧ ∀ s, ∃ e, body i s = .ub e) → ∃ e, forFrom lo k body s = .ub e
  | 0, lo, s, _, ⟨i, h1, h2, _⟩ => by omega
  | k + 1, lo, s, h, ⟨i, h1, h2, h3⟩ => by
    unfold forFrom
    rcases h lo s (Nat.le_refl _) (by omega) with ⟨s', e⟩ | ⟨e, e'⟩
    · rw [e, Res.ok_bind]
      refine forFrom_ub (fun i s a b => h i s (by omega) (by omega)) ⟨i, ?_, by omega, h3⟩
      rcases Nat.eq_or_lt_of_le h1 with h4 | h4
      · subst h4
        obtain ⟨e1, h5⟩ := h3 s
        rw [e] at h5
        cases h5
      · omega
    · rw [e']
      exact ⟨e, rfl⟩

/-- reading past the end of the array is undefined behaviour; printing does nothing else that can fail -/
theorem print_cases {α : Type} (b : List α) (first size : Nat) :
    ((∃ out, (View1D.ofTarget first size).print b = .ok out) ∨
      ∃ e, (View1D.ofTarget first size).print b = .ub e) ∧
    (b.length < first + size → 0 < size → ∃ e, (View1D.ofTarget first size).print b = .ub e) := by
  have key : b.length < first + size → 0 < size → ∃ e, (View1D.ofTarget first size).print b = .ub e := by
    intro h h0
    unfold View1D.print forRange
    refine forFrom_ub (fun i s h1 h2 => ?_) ⟨first + size - 1, ?_, ?_, fun s => ?_⟩
    · rcases Nat.lt_or_ge i b.length with h3 | h3
      · rw [rd_ok h3]; exact Or.inl ⟨_, rfl⟩
      · rw [rd_ub h3]; exact Or.inr ⟨_, rfl⟩
    · show first ≤ _; omega
    · show _ < first + (first + size - first); omega
    · rw [rd_ub (by omega)]; exact ⟨_, rfl⟩
  refine ⟨?_, key⟩
  by_cases h : b.length < first + size
  · rcases Nat.eq_zero_or_pos size with h0 | h0
    · left
      subst h0
      unfold View1D.print View1D.ofTarget forRange
      simp [forFrom]
    · exact Or.inr (key h h0)
  · left
    obtain ⟨out, e1, -⟩ := C90_view1D (View1D.ofTarget first size) b rfl (by show first + size ≤ _; omega)
    exact ⟨out, e1⟩

theorem vecOf_print {α : Type} (l : List α) : (vecOf l).print = .ok (l.map fun x => ([], x)) := by
  obtain ⟨out, e1, e2, e3⟩ := C90_vector (vecOf l)
    { created := rfl, lenV := rfl, nnz_le := Nat.le_refl _, first0 := rfl }
  rw [e1]
  congr 1
  refine List.ext_getElem? (fun j => ?_)
  by_cases hj : j < l.length
  · obtain ⟨x, hx, e⟩ := e3 j hj
    unfold Vec.get vecOf at hx
    simp only [Nat.zero_add] at hx
    rw [rd_eq_ok] at hx
    rw [e, List.getElem?_map, hx]
    rfl
  · rw [List.getElem?_eq_none (by rw [e2]; show l.length ≤ j; omega), List.getElem?_eq_none (by simp; omega)]

/-- the views of the right size show the rows -/
theorem showPairs_ok {α : Type} {n m : Nat} (l : Fin m → α) (v : Fin m → Fin n → α) :
    showPairs (fun _ => n) n (vecOf (List.ofFn l)) (List.ofFn fun i => List.ofFn (v i)).flatten =
      .ok { code := 0
            values := List.ofFn fun i => ([], l i)
            vectors := List.ofFn fun i => List.ofFn fun j => ([], v i j) } := by
  have hrow : ∀ x ∈ (List.ofFn fun i => List.ofFn (v i)), x.length = n := by
    intro x hx
    obtain ⟨i, rfl⟩ := List.mem_ofFn.mp hx
    simp
  unfold showPairs
  rw [vecOf_print, Res.ok_bind]
  obtain ⟨ys, f1, f2, f3⟩ := forN_lines (n := (vecOf (List.ofFn l)).nnz)
    (body := fun i out => do
      let l ← (View1D.ofTarget (i * n) n).print (List.ofFn fun i => List.ofFn (v i)).flatten
      .ok (out ++ [l]))
    (fun i y => ∃ h : i < m, y = List.ofFn fun j => ([], v ⟨i, h⟩ j))
    (by
      intro i hi
      have hi' : i < m := by simpa [vecOf] using hi
      refine ⟨_, ⟨hi', rfl⟩, fun out => ?_⟩
      rw [print_ofTarget _ _ _ (v ⟨i, hi'⟩) (fun j => by
        rw [flatten_get hrow j.2, List.getElem?_ofFn, dif_pos hi']
        simp)]
      rfl) []
  rw [f1, Res.ok_bind]
  congr 2
  · rw [List.map_ofFn]; rfl
  · rw [List.nil_append]
    have hl : (vecOf (List.ofFn l)).nnz = m := by simp [vecOf]
    rw [hl] at f2 f3
    refine List.ext_getElem? (fun i => ?_)
    by_cases hi : i < m
    · obtain ⟨y, ⟨h, rfl⟩, e⟩ := f3 i hi
      rw [e, List.getElem?_ofFn, dif_pos hi]
    · rw [List.getElem?_eq_none (by omega), List.getElem?_eq_none (by simp; omega)]

/-- with the sizes the program passes, printing two or more eigenvectors reads past the array -/
theorem showPairs_ub {α : Type} {n m : Nat} (hn : 0 < n) (hm : 2 ≤ m) (l : List α) (hl : l.length = m)
    (xs : List α) (hx : xs.length = m * n) :
    ∃ e, showPairs (fun i => (i + 1) * n) n (vecOf l) xs = .ub e := by
  unfold showPairs
  rw [vecOf_print, Res.ok_bind]
  have : ∃ e, forN (vecOf l).nnz (fun i out => do
      let r ← (View1D.ofTarget (i * n) ((i + 1) * n)).print xs
      .ok (out ++ [r])) [] = .ub e := by
    unfold forN
    refine forFrom_ub (fun i s _ _ => ?_) ⟨m - 1, by omega, by simp [vecOf]; omega, fun s => ?_⟩
    · rcases (print_cases xs (i * n) ((i + 1) * n)).1 with ⟨o, e⟩ | ⟨e, h⟩
      · rw [e]; exact Or.inl ⟨_, rfl⟩
      · rw [h]; exact Or.inr ⟨_, rfl⟩
    · obtain ⟨e, h⟩ := (print_cases xs ((m - 1) * n) ((m - 1 + 1) * n)).2
        (by
          rw [hx]
          obtain ⟨k, rfl⟩ : ∃ k, m = k + 2 := ⟨m - 2, by omega⟩
          rw [show k + 2 - 1 = k + 1 by omega]
          nlinarith)
        (by positivity)
      rw [h]
      exact ⟨_, rfl⟩
  obtain ⟨e, h⟩ := this
  rw [h]
  exact ⟨e, rfl⟩

/-! ### The solver call -/

/-- the eigenvalues of the tridiagonal matrix are those given by the library -/
theorem tri_eig {n : Nat} (a b : ℝ) (h2 : 2 ≤ n) (hn : n < 2147483648) {mu : ℝ} {w : Fin n → ℝ} (hw : w ≠ 0)
    (h : triMatrix n a b *ᵥ w = mu • w) : ∃ N : Nat, N < n ∧ mu = Gen.tridiagonalEig n N a b := by
  obtain ⟨A, hA, h1, -, -⟩ := Gen.C60_tridiagonal n a b h2 hn
  obtain ⟨A', hA', hI⟩ := Gen.C26_tridiagonal n a b h2 hn
  rw [hA] at hA'
  cases hA'
  refine (h1 mu).1 ⟨fun i => if h : i < n then w ⟨i, h⟩ else 0, ?_, ?_⟩
  · by_contra hc
    push Not at hc
    refine hw (funext fun i => ?_)
    have := hc i i.2
    simpa using this
  · intro i hi
    have h3 := congrFun h ⟨i, hi⟩
    rw [Finset.sum_range]
    simp only [Matrix.mulVec, dotProduct, Pi.smul_apply, smul_eq_mul] at h3
    simp only [hi, dif_pos, Fin.is_lt]
    rw [← h3]
    refine Finset.sum_congr rfl (fun j _ => ?_)
    rw [Gen.elem_of hI hi j.2]
    congr 1
    rw [← tri_matrix hI, matrixOf_isMatrix hI]

/-- what the solver call of the example returns with success -/
theorem solve_pairs {sq : K → K} {ε : K} (hsq : NearSqrt sq ε) (h0 : 0 ≤ ε) (h1 : ε < 1)
    (φ : K →+* ℝ) (hφ : StrictMono φ) (L : Lapack.Lib (Ext K)) {n m : Nat} (h2 : 2 ≤ n) (hn : n < 2147483648)
    {a b : K} (ha : a ≠ 0) {tol : K} {omega resid0 : Ext K} {order zo : Nat → List Nat}
    (ho : ∀ n, Order (order n) n) (hz : ∀ n, Order (zo n) n) {eigs : Nat → Ext K} {rs : List (List (Ext K))}
    (hrs : m ≤ rs.length) {fuel : Nat} {o : Lobpcg.Out (Ext K)}
    (h : lobpcgSolve (Ext.num sq) Ext.fin L n m a b (.fin tol) omega resid0 order zo eigs rs fuel = some (.ok o))
    (hs : o.status = SUCCESS) :
    ∃ (lam : Fin m → K) (v : Fin m → Fin n → K),
      o.l = List.ofFn (fun i => Ext.fin (lam i)) ∧ o.x = List.ofFn (fun i => List.ofFn fun j => Ext.fin (v i j)) ∧
      ∀ i, Normalised sq (v i) ∧
        norm2 sq (a⁻¹ • (triMatrix n a b *ᵥ v i - lam i • v i)) < tol ∧
        ∃ N : Nat, N < n ∧
          |φ (lam i) - Gen.tridiagonalEig n N (φ a) (φ b)| ≤ φ (|a| * tol * ((1 + ε) / (1 - ε))) := by
  obtain ⟨coo, hg, hI⟩ := Gen.C26_tridiagonal n a b h2 hn
  obtain ⟨A, hA, hAr, hAc, -, ht, -, he⟩ := C06_convert_rows coo hI.wf
    (by
      rw [hI.rows, hI.cols]
      intro e he
      have := (hI.stored e.1 e.2.1 e.2.2).mp he
      exact ⟨this.1, this.2.1⟩) (hI.order.imp fun {a b} h => by omega)
  have e1 : A.rowN = n := by rw [hAr, hI.rows]
  have e2 : A.colN = n := by rw [hAc, hI.cols]
  have hd : DistinctPos coo.entries := hI.order.imp fun {a b} h => by omega
  have hmat : Matrix.of (fun i j : Fin n => crsAt A i j) = triMatrix n a b := by
    rw [← tri_matrix hI]
    unfold crsAt matrixOf
    rw [he]
  unfold lobpcgSolve at h
  rw [hg, Res.ok_bind, hA] at h
  dsimp only at h
  have hM := isMat_crsExt (n := n) A ht.toSafe (by rw [he]; exact hd) e1 e2 (order A.rowN) (zo A.rowN)
    (by rw [e1]; exact ho n) (by rw [e1]; exact hz n)
  rw [hmat] at hM
  have hdiag : ∀ i, triMatrix n a b i i = a := fun i => by simp [triMatrix]
  obtain ⟨pc, p1, p2⟩ := jacobi_strict sq hM (fun i => by rw [hdiag]; exact ha)
  change standard (Ext.num sq) L _ (ofCrs (order A.rowN) (zo A.rowN) (crsMap Ext.fin A))
    (jacobiPrecond (Ext.num sq) (ofCrs (order A.rowN) (zo A.rowN) (crsMap Ext.fin A))) _ _ _ _ _ = _ at h
  rw [p1] at h
  have hfl : (fill m eigs).length = m := by simp [fill]
  obtain ⟨lam, v, f1, f2, f3⟩ := C70_lobpcg_standard_success (by omega) rfl hM p2
    (by intro r hr; cases hr; rw [hfl]; exact hrs) h hs
  have hsymm : (triMatrix n a b).IsSymm := by
    ext i j
    simp only [Matrix.transpose_apply, triMatrix, Matrix.of_apply]
    by_cases hij : i = j
    · simp [hij]
    · rw [if_neg hij, if_neg (fun h => hij h.symm)]
      exact if_congr or_comm rfl rfl
  have hmap : (triMatrix n a b).map φ = triMatrix n (φ a) (φ b) := by
    ext i j
    simp only [Matrix.map_apply, triMatrix, Matrix.of_apply]
    split
    · rfl
    · split
      · rfl
      · exact map_zero φ
  have hPeq : ∀ u, byMatrix (Matrix.diagonal (fun i => 1 / triMatrix n a b i i)) u = a⁻¹ • u := by
    intro u
    funext i
    simp [byMatrix, mulVec_diagonal, hdiag]
  refine ⟨fun i => lam (Fin.cast hfl.symm i), fun i => v (Fin.cast hfl.symm i), ?_, ?_, fun i => ?_⟩
  · rw [f1]
    exact List.ofFn_congr hfl _
  · rw [f2]
    exact List.ofFn_congr hfl _
  · obtain ⟨g1, g2⟩ := f3 (Fin.cast hfl.symm i)
    dsimp only at g1
    rw [hPeq] at g1
    refine ⟨g2, g1, ?_⟩
    obtain ⟨mu, w, k1, k2, k3⟩ := pairs_near hsq h0 h1 φ hφ hsymm (κ := |a|) (abs_nonneg a)
      (jacobi_notBelow (M := triMatrix n a b) (fun i => by rw [hdiag]; exact ha) (fun i => by rw [hdiag]))
      (by rw [hPeq]; exact g1) g2
    rw [hmap] at k2
    obtain ⟨N, hN, rfl⟩ := tri_eig _ _ h2 hn k1 k2
    exact ⟨N, hN, k3⟩

/-! ### The program -/

/-- **C104** for the example program with the views of the right size: if the solver succeeds, the program prints `m`
numbers, each within `|a| · tol` of an eigenvalue of the matrix it generated (the `N`-th one by the formula of
`tridiagonal_toeplitz_matrix_eigenvalue`), and the `m` vectors `v` with `‖A v - λ v‖ / |a| < tol`, all of them
divided by their Euclidean norm; it exits with code 0. -/
theorem C104_example_repaired {sq : K → K} {ε : K} (hsq : NearSqrt sq ε) (h0 : 0 ≤ ε) (h1 : ε < 1)
    (φ : K →+* ℝ) (hφ : StrictMono φ) (L : Lapack.Lib (Ext K)) {n m : Nat} (h2 : 2 ≤ n) (hn : n < 2147483648)
    {a b : K} (ha : a ≠ 0) {tol : K} {omega resid0 : Ext K} {order zo : Nat → List Nat}
    (ho : ∀ n, Order (order n) n) (hz : ∀ n, Order (zo n) n) {eigs : Nat → Ext K} {rs : List (List (Ext K))}
    (hrs : m ≤ rs.length) {fuel : Nat} {o : Lobpcg.Out (Ext K)}
    (h : lobpcgSolve (Ext.num sq) Ext.fin L n m a b (.fin tol) omega resid0 order zo eigs rs fuel = some (.ok o))
    (hs : o.status = SUCCESS) :
    ∃ (lam : Fin m → K) (v : Fin m → Fin n → K),
      lobpcgRepaired (Ext.num sq) Ext.fin L n m a b (.fin tol) omega resid0 order zo eigs rs fuel =
        some (.ok { code := 0
                    values := List.ofFn fun i => ([], Ext.fin (lam i))
                    vectors := List.ofFn fun i => List.ofFn fun j => ([], Ext.fin (v i j)) }) ∧
      ∀ i, Normalised sq (v i) ∧
        norm2 sq (a⁻¹ • (triMatrix n a b *ᵥ v i - lam i • v i)) < tol ∧
        ∃ N : Nat, N < n ∧
          |φ (lam i) - Gen.tridiagonalEig n N (φ a) (φ b)| ≤ φ (|a| * tol * ((1 + ε) / (1 - ε))) := by
  obtain ⟨lam, v, e1, e2, e3⟩ := solve_pairs hsq h0 h1 φ hφ L h2 hn ha ho hz hrs h hs
  refine ⟨lam, v, ?_, e3⟩
  unfold lobpcgRepaired
  rw [h]
  simp only [lobpcgWith, C42_constant, Bool.false_eq_true, if_false]
  rw [e1, e2, showPairs_ok (fun i => Ext.fin (lam i)) (fun i j => Ext.fin (v i j))]

/-- **C104 is violated by the example program as it is written**: the third argument of the constructor of `view1D` is
the size of the view, but the program passes the end, `(i + 1) * A.get_col()`. With two or more eigenpairs (the
program asks for two) printing the last eigenvector reads past the end of `eigvecs`, although the solver succeeded. -/
theorem C104_example_violated {sq : K → K} {ε : K} (hsq : NearSqrt sq ε) (h0 : 0 ≤ ε) (h1 : ε < 1)
    (φ : K →+* ℝ) (hφ : StrictMono φ) (L : Lapack.Lib (Ext K)) {n m : Nat} (h2 : 2 ≤ n) (hn : n < 2147483648)
    {a b : K} (ha : a ≠ 0) {tol : K} {omega resid0 : Ext K} {order zo : Nat → List Nat}
    (ho : ∀ n, Order (order n) n) (hz : ∀ n, Order (zo n) n) {eigs : Nat → Ext K} {rs : List (List (Ext K))}
    (hrs : m ≤ rs.length) {fuel : Nat} {o : Lobpcg.Out (Ext K)}
    (h : lobpcgSolve (Ext.num sq) Ext.fin L n m a b (.fin tol) omega resid0 order zo eigs rs fuel = some (.ok o))
    (hs : o.status = SUCCESS) (hm : 2 ≤ m) :
    ∃ e, lobpcgExample (Ext.num sq) Ext.fin L n m a b (.fin tol) omega resid0 order zo eigs rs fuel =
      some (.ub e) := by
  obtain ⟨lam, v, e1, e2, -⟩ := solve_pairs hsq h0 h1 φ hφ L h2 hn ha ho hz hrs h hs
  obtain ⟨e, he⟩ := showPairs_ub (n := n) (m := m) (by omega) hm o.l (by rw [e1, List.length_ofFn]) o.x.flatten (by
    rw [e2, flatten_len (n := n)]
    · rw [List.length_ofFn]
    · intro x hx
      obtain ⟨i, rfl⟩ := List.mem_ofFn.mp hx
      simp)
  refine ⟨e, ?_⟩
  unfold lobpcgExample
  rw [h]
  simp only [lobpcgWith, C42_constant, Bool.false_eq_true, if_false]
  rw [he]

/-- **C104** for the example program as it is written, when it asks for one eigenpair only. -/
theorem C104_example_partial {sq : K → K} {ε : K} (hsq : NearSqrt sq ε) (h0 : 0 ≤ ε) (h1 : ε < 1)
    (φ : K →+* ℝ) (hφ : StrictMono φ) (L : Lapack.Lib (Ext K)) {n : Nat} (h2 : 2 ≤ n) (hn : n < 2147483648)
    {a b : K} (ha : a ≠ 0) {tol : K} {omega resid0 : Ext K} {order zo : Nat → List Nat}
    (ho : ∀ n, Order (order n) n) (hz : ∀ n, Order (zo n) n) {eigs : Nat → Ext K} {rs : List (List (Ext K))}
    (hrs : 1 ≤ rs.length) {fuel : Nat} {o : Lobpcg.Out (Ext K)}
    (h : lobpcgSolve (Ext.num sq) Ext.fin L n 1 a b (.fin tol) omega resid0 order zo eigs rs fuel = some (.ok o))
    (hs : o.status = SUCCESS) :
    ∃ (lam : K) (v : Fin n → K),
      lobpcgExample (Ext.num sq) Ext.fin L n 1 a b (.fin tol) omega resid0 order zo eigs rs fuel =
        some (.ok { code := 0
                    values := [([], Ext.fin lam)]
                    vectors := [List.ofFn fun j => ([], Ext.fin (v j))] }) ∧
      Normalised sq v ∧ norm2 sq (a⁻¹ • (triMatrix n a b *ᵥ v - lam • v)) < tol ∧
      ∃ N : Nat, N < n ∧
        |φ lam - Gen.tridiagonalEig n N (φ a) (φ b)| ≤ φ (|a| * tol * ((1 + ε) / (1 - ε))) := by
  obtain ⟨lam, v, e1, e2, e3⟩ := solve_pairs hsq h0 h1 φ hφ L h2 hn ha ho hz hrs h hs
  refine ⟨lam 0, v 0, ?_, e3 0⟩
  unfold lobpcgExample
  rw [h]
  simp only [lobpcgWith, C42_constant, Bool.false_eq_true, if_false]
  have h3 := showPairs_ok (fun i => Ext.fin (lam i)) (fun i j => Ext.fin (v i j))
  rw [e1, e2]
  have h4 : showPairs (fun i => (i + 1) * n) n (vecOf (List.ofFn fun i => Ext.fin (lam i)))
      (List.ofFn fun i => List.ofFn fun j => Ext.fin (v i j)).flatten =
    showPairs (fun _ => n) n (vecOf (List.ofFn fun i => Ext.fin (lam i)))
      (List.ofFn fun i => List.ofFn fun j => Ext.fin (v i j)).flatten := by
    unfold showPairs
    simp [vecOf, forN, forFrom]
  rw [h4, h3]
  simp [List.ofFn_succ]

end Verif.Prog
