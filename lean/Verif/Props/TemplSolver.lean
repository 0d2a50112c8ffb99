import Verif.Model.ProgEig
import Verif.Props.DCExample
import Verif.Props.EndToEnd
import Verif.Props.Direct
import Verif.Props.SolverMisc

/-!
C92: the dense instances of the example program `examples/cpu_only/templated_solver/solver.cpp`: read a Matrix Market
file whose entries come in any order, convert to Dense, solve with LU, print the solution.
-/

namespace Verif.Prog

open Spec Lapack Solver

variable {K : Type} [Field K]

omit [Field K] in
theorem vecOf_wf (l : List K) : (vecOf l).WF := ⟨rfl, rfl, Nat.le_refl _, rfl⟩

omit [Field K] in
theorem vecOf_reads (n : Nat) (g : Nat → K) : VReads (vecOf (fill n g)) n g := by
  refine ⟨by simp [vecOf, fill], fun i hi => ?_⟩
  unfold Vec.get vecOf fill
  rw [rd_eq_ok]
  simp [hi]

theorem print_of_reads {v : Vec K} {n : Nat} {w : Nat → K} (h : VReads v n w) (h0 : v.first = 0) :
    ∃ out, v.print = .ok out ∧ out.length = n ∧ ∀ k, k < n → out[k]? = some ([], w k) := by
  obtain ⟨hn, hg⟩ := h
  obtain ⟨ys, e1, e2, e3⟩ := forN_lines (n := v.nnz) (body := fun i out => do
      let x ← rd v.val i
      .ok (out ++ [(([] : List Nat), x)])) (fun i y => y = ([], w i))
    (by
      intro i hi
      refine ⟨_, rfl, fun out => ?_⟩
      have := hg i (by omega)
      unfold Vec.get at this
      rw [h0, Nat.zero_add] at this
      rw [this, Res.ok_bind]) []
  refine ⟨ys, e1, by omega, fun k hk => ?_⟩
  obtain ⟨_, rfl, hy⟩ := e3 k (by omega)
  exact hy

/-- what `LU::solve` leaves of the vector: its frame, and the buffer at its old length -/
theorem lu_frame {L : Lib K} (hL : L.LUOk) {A A' : Dense K} {x b x' : Vec K} (hx : x.WF) (hb : b.WF) {ret : Int}
    (h : LU.solve L A x b = .ok (ret, A', x')) :
    x'.first = x.first ∧ x'.nnz = x.nnz ∧ x'.val.length = x.val.length := by
  unfold LU.solve at h
  obtain ⟨x1, h1, h⟩ := Res.bind_eq_ok.mp h
  have e1 : x1.first = x.first ∧ x1.nnz = x.nnz ∧ x1.val.length = x.val.length := by
    by_cases hn : b.nnz = x.nnz
    · obtain ⟨V, hV, hl, -⟩ := copyVec_ok hb hx hn rfl
      rw [hV] at h1
      cases h1
      exact ⟨rfl, rfl, hl⟩
    · unfold copyVec at h1
      rw [show decide (b.nnz = x.nnz) = false from decide_eq_false hn] at h1
      cases h1
  obtain ⟨⟨A2, p2, i2⟩, h2, h⟩ := Res.bind_eq_ok.mp h
  obtain ⟨⟨x3, i3⟩, h3, h⟩ := Res.bind_eq_ok.mp h
  cases h
  unfold getrs at h3
  obtain ⟨u, h4, h3⟩ := Res.bind_eq_ok.mp h3
  obtain ⟨u', h5, h3⟩ := Res.bind_eq_ok.mp h3
  obtain ⟨u'', h6, h3⟩ := Res.bind_eq_ok.mp h3
  cases h3
  unfold touch at h4 h5 h6
  split at h4
  · split at h5
    · split at h6
      · next a1 a2 a3 =>
        have ha : extent A'.rowN A'.rowN A'.colN ≤ A'.val.length := a1
        have := (hL.getrs true A'.rowN 1 A'.val A'.colN p2 x1.val A'.rowN ha a3 a2).length
        exact ⟨e1.1, e1.2.1, by rw [← e1.2.2]; exact this⟩
      · cases h6
    · cases h5
  · cases h4

/-- reading a file into a dense matrix: any order of the entries, the last entry at a position counts -/
theorem read_dense (C : Mm.Codec K) (hC : C.Ok) (r c : Nat) (cs : List (List Char)) (hcs : ∀ l ∈ cs, IsComment l)
    (n : Nat) (hn : 0 < n) (L : List (Entry K)) (hv : ∀ e ∈ L, C.parse (C.fmt e.2.2) = some e.2.2)
    (hin : Within n n L) :
    ∃ coo D, Mm.input C (blank r c) (mmText C cs n n L) = .ok coo ∧ Dense.convertCoo Dense.empty coo = .ok D ∧
      D.WF ∧ D.first = 0 ∧ D.rowN = n ∧ D.colN = n ∧ D.Reads (lastAt L) := by
  obtain ⟨coo, hA, hwf, hr, hc, he⟩ := read_mmText C hC r c cs hcs n n hn L hv
  obtain ⟨D, hD, hW, hf, hr', hcl, hat⟩ := Dense.convertCoo_ok (Dense.empty_own (α := K)) hwf
    (by rw [hr, hc, he]; exact hin)
  rw [hr] at hr' hat
  rw [hc] at hcl hat
  rw [he] at hat
  exact ⟨coo, D, hA, hD, hW, hf, hr', hcl, fun i j hi hj => hat i j (by omega) (by omega)⟩

/-- **C92 (LU).** For every Matrix Market file of a nonsingular matrix, its entries in any order, with any comment
lines, and every right-hand side, the program prints the solution of `A x = b`, one line per unknown. -/
theorem C92_lu {L : Lib K} (hL : L.LUOk) (C : Mm.Codec K) (hC : C.Ok) (r c : Nat) (cs : List (List Char))
    (hcs : ∀ l ∈ cs, IsComment l) (n : Nat) (hn : 0 < n) (E : List (Entry K))
    (hv : ∀ e ∈ E, C.parse (C.fmt e.2.2) = some e.2.2) (hin : Within n n E) (hdet : det n (lastAt E) ≠ 0)
    (x b : Nat → K) :
    ∃ out y, luExample L C r c (mmText C cs n n E) x b = .ok out ∧ out.length = n ∧
      (∀ k, k < n → out[k]? = some ([], y k)) ∧ ∀ i, i < n → Spec.mulVec n (lastAt E) y i = b i := by
  obtain ⟨coo, D, h1, h2, hW, hf, hr, hcl, hR⟩ := read_dense C hC r c cs hcs n hn E hv hin
  have hxr : (vecOf (fill n x)).nnz = n := (vecOf_reads n x).1
  obtain ⟨ret, A', x', hs, hok, -⟩ := C67_lu_solve hL hW hf hn hr hcl hR (vecOf_wf (fill n x)) hxr
    (vecOf_wf (fill n b)) (vecOf_reads n b)
  obtain ⟨hret, y, hy, hsol⟩ := hok hdet
  obtain ⟨f1, -, -⟩ := lu_frame hL (vecOf_wf _) (vecOf_wf _) hs
  obtain ⟨out, ho1, ho2, ho3⟩ := print_of_reads hy (by rw [f1]; rfl)
  refine ⟨out, y, ?_, ho2, ho3, hsol⟩
  unfold luExample
  rw [h1, Res.ok_bind, h2, Res.ok_bind, hr, hs, Res.ok_bind]
  simp only [C42_constant]
  exact ho1

/-- **C92 (violated).** When the matrix is singular `LU::solve` returns `BREAKDOWN`, but the program's error branch is
not taken: it prints `n` numbers as if they were a solution. -/
theorem C92_singular_violated {L : Lib K} (hL : L.LUOk) (C : Mm.Codec K) (hC : C.Ok) (r c : Nat)
    (cs : List (List Char)) (hcs : ∀ l ∈ cs, IsComment l) (n : Nat) (hn : 0 < n) (E : List (Entry K))
    (hv : ∀ e ∈ E, C.parse (C.fmt e.2.2) = some e.2.2) (hin : Within n n E) (hdet : det n (lastAt E) = 0)
    (x b : Nat → K) :
    ∃ out, luExample L C r c (mmText C cs n n E) x b = .ok out ∧ out.length = n := by
  obtain ⟨coo, D, h1, h2, hW, hf, hr, hcl, hR⟩ := read_dense C hC r c cs hcs n hn E hv hin
  have hxr : (vecOf (fill n x)).nnz = n := (vecOf_reads n x).1
  obtain ⟨ret, A', x', hs, -, -⟩ := C67_lu_solve hL hW hf hn hr hcl hR (vecOf_wf (fill n x)) hxr
    (vecOf_wf (fill n b)) (vecOf_reads n b)
  obtain ⟨f1, f2, f3⟩ := lu_frame hL (vecOf_wf _) (vecOf_wf _) hs
  have f3' : x'.val.length = n := by rw [f3]; exact hxr
  have hy : VReads x' n (fun i => x'.val.getD i 0) := by
    refine ⟨by rw [f2, hxr], fun i hi => ?_⟩
    unfold Vec.get
    rw [f1, rd_eq_ok]
    show x'.val[0 + i]? = _
    dsimp only
    rw [Nat.zero_add, List.getD_eq_getElem?_getD, List.getElem?_eq_getElem (by omega)]
    rfl
  obtain ⟨out, ho1, ho2, -⟩ := print_of_reads hy (by rw [f1]; rfl)
  refine ⟨out, ?_, ho2⟩
  unfold luExample
  rw [h1, Res.ok_bind, h2, Res.ok_bind, hr, hs, Res.ok_bind]
  simp only [C42_constant]
  exact ho1

/-- the column-ordered file on which the CG instance returns a wrong answer (C81) is solved correctly -/
example : ∃ L : Lib ℚ, L.LUOk ∧ ∃ out y, luExample L ratCodec 0 0 (mmText ratCodec ["% a comment".toList] 2 2 colOrder)
      (fun _ => 0) (fun i => if i = 0 then 3 else 0) = .ok out ∧ out.length = 2 ∧
    (∀ k, k < 2 → out[k]? = some ([], y k)) ∧
      ∀ i, i < 2 → Spec.mulVec 2 (lastAt colOrder) y i = if i = 0 then 3 else 0 := by
  obtain ⟨L, hL, -⟩ := exists_lib (α := ℚ)
  exact ⟨L, hL, C92_lu hL ratCodec ratCodec_ok 0 0 _ (by unfold IsComment; decide) 2 (by omega) colOrder
    (by decide +kernel) (by unfold Within; decide +kernel) (by unfold det; decide +kernel) _ _⟩

section bicg

open Matrix

variable [LinearOrder K] [IsStrictOrderedRing K]

/-- the matrix of the file -/
def fileMat (n : Nat) (E : List (Entry K)) : Matrix (Fin n) (Fin n) K := Matrix.of fun i j => lastAt E i j

/-- **C92 (BiCGSTAB).** The BiCGSTAB instance without preconditioner, in exact arithmetic, for runs that divide by no
zero before they stop: the text printed is an iterate of the textbook method for the matrix in the file. It is one that
passes the residual test, or the run ended with `MAXITER` or `BREAKDOWN`, which the program does not tell apart (its
error branch is dead). -/
theorem C92_bicg_partial (C : Mm.Codec K) (hC : C.Ok) (r c : Nat) (cs : List (List Char))
    (hcs : ∀ l ∈ cs, IsComment l) (n : Nat) (hn : 0 < n) (E : List (Entry K))
    (hv : ∀ e ∈ E, C.parse (C.fmt e.2.2) = some e.2.2) (hin : Within n n E) (sq : K → K) (tol omega resid0 : K)
    (order : Nat → List Nat) (ho : ∀ n, Order (order n) n) (x b : Nat → K)
    (hreg : ∀ j, j < n →
      (∀ i, 1 ≤ i → i ≤ j →
        ¬ Accept sq (fileMat n E) (firstN n b) tol 0 i (Spec.BiCG.at' (fileMat n E) (byMatrix 1) (firstN n b) (firstN n x) i).x) →
      (∀ i, i < j → ¬ (Spec.BiCG.at' (fileMat n E) (byMatrix 1) (firstN n b) (firstN n x) i).Breaks (fileMat n E)
        (byMatrix 1) (firstN n b - fileMat n E *ᵥ firstN n x) i) →
      (Spec.BiCG.at' (fileMat n E) (byMatrix 1) (firstN n b) (firstN n x) j).r ⬝ᵥ
        (firstN n b - fileMat n E *ᵥ firstN n x) ≠ 0 →
      (Spec.BiCG.at' (fileMat n E) (byMatrix 1) (firstN n b) (firstN n x) j).Regular (fileMat n E) (byMatrix 1)
        (firstN n b - fileMat n E *ᵥ firstN n x) j) :
    ∃ out k, k ≤ n ∧ bicgExample (fieldNum sq) C r c tol omega resid0 order (mmText C cs n n E) x b = .ok out ∧
      out.length = n ∧
      (∀ i : Fin n, out[i.val]? =
        some ([], (Spec.BiCG.at' (fileMat n E) (byMatrix 1) (firstN n b) (firstN n x) k).x i)) ∧
      (Accept sq (fileMat n E) (firstN n b) tol 0 k
          (Spec.BiCG.at' (fileMat n E) (byMatrix 1) (firstN n b) (firstN n x) k).x ∨ k = n ∨
        (Spec.BiCG.at' (fileMat n E) (byMatrix 1) (firstN n b) (firstN n x) k).Breaks (fileMat n E) (byMatrix 1)
          (firstN n b - fileMat n E *ᵥ firstN n x) k) := by
  obtain ⟨coo, D, h1, h2, hW, hf, hr, hcl, hR⟩ := read_dense C hC r c cs hcs n hn E hv hin
  have hI := isMat_dense D hW hf (lastAt E) hR hr hcl (order n) (ho n)
  obtain ⟨k, status, iters, hk, hs, -, -, hcase⟩ := C30_exact (fieldNum_exact sq)
    { tol := tol, maxiter := n, omega := omega, prevResid := resid0 } tol rfl rfl rfl _ (fileMat n E) hI noPrecond
    (byMatrix 1) (noPrecond_is id) (firstN n x) (firstN n b) hreg
  set y := (Spec.BiCG.at' (fileMat n E) (byMatrix 1) (firstN n b) (firstN n x) k).x with hy
  have hfill : vec id y = fill n (fun i => if h : i < n then y ⟨i, h⟩ else 0) := by
    unfold vec fill
    congr 1
    funext i
    simp
  obtain ⟨out, ho1, ho2, ho3⟩ := print_of_reads (vecOf_reads n (fun i => if h : i < n then y ⟨i, h⟩ else 0)) rfl
  refine ⟨out, k, hk, ?_, ho2, fun i => ?_, ?_⟩
  · unfold bicgExample
    rw [h1, Res.ok_bind, h2, Res.ok_bind, hr]
    rw [vec_firstN, vec_firstN] at hs
    rw [hs, Res.ok_bind]
    simp only [C42_constant]
    rw [hfill]
    exact ho1
  · rw [ho3 i i.2]
    simp [hy]
  · rcases hcase with h | h | h
    · exact .inl h.2.2.2
    · exact .inr (.inl h.2.2.1)
    · exact .inr (.inr h.2.2.2.1)

/-- the file of `[2 1; 0 3]`, ordered by columns, with the zero stored -/
def bicgFile : List (Entry ℚ) := [(0, 0, 2), (1, 0, 0), (0, 1, 1), (1, 1, 3)]

/-- the hypothesis of `C92_bicg_partial` holds for this file with `b = (1, 2)`, `x = 0`, tolerance 1/100 -/
example : ∀ j, j < 2 →
    (∀ i, 1 ≤ i → i ≤ j → ¬ Accept (id : ℚ → ℚ) (fileMat 2 bicgFile) (firstN 2 fun i => (i : ℚ) + 1) (1 / 100) 0 i
      (Spec.BiCG.at' (fileMat 2 bicgFile) (byMatrix 1) (firstN 2 fun i => (i : ℚ) + 1) (firstN 2 fun _ => 0) i).x) →
    (Spec.BiCG.at' (fileMat 2 bicgFile) (byMatrix 1) (firstN 2 fun i => (i : ℚ) + 1) (firstN 2 fun _ => 0) j).Regular
      (fileMat 2 bicgFile) (byMatrix 1)
      (firstN 2 (fun i => (i : ℚ) + 1) - fileMat 2 bicgFile *ᵥ firstN 2 fun _ => 0) j := by
  intro j hj hna
  by_cases h0 : j = 0
  · subst h0
    unfold Spec.BiCG.Regular
    decide +kernel
  · obtain rfl : j = 1 := by omega
    exact absurd (by unfold Accept; decide +kernel) (hna 1 (by omega) (by omega))

/-- and the program prints the accepted iterate (3/16, 11/16) -/
example : bicgExample (fieldNum (id : ℚ → ℚ)) ratCodec 0 0 (1 / 100) 1 0 (fun n => List.range n)
    (mmText ratCodec ["% a comment".toList] 2 2 bicgFile) (fun _ => 0) (fun i => (i : ℚ) + 1) =
    .ok [([], 3 / 16), ([], 11 / 16)] := by
  decide +kernel

end bicg

end Verif.Prog
