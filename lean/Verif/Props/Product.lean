import Verif.Lemmas.ProductTab
import Verif.Lemmas.Mask

/-!
C87: every public overload of the product functions computes the product its name promises, for operands of every
storage class and both precisions.
-/

namespace Verif.Product

open Spec Dispatch

variable {α : Type}

section
variable [Semiring α]

/-- the value of a flag argument -/
def flagVal : Arg → Val α
  | .tt => .flag true
  | _ => .flag false

theorem sig_flags {s : Sig} (h : s ∈ sigs ++ sigsT) :
    s.flags = [] ∨ s.flags = [.ff] ∨ s.flags = [.ff, .ff] ∨ s.flags = [.tt] := by
  have : ∀ s ∈ sigs ++ sigsT, s.flags = [] ∨ s.flags = [.ff] ∨ s.flags = [.ff, .ff] ∨ s.flags = [.tt] := by
    decide
  exact this s h

theorem kinds_of_fits {ps : List Par} {vs : List (Val α)} (h : List.Forall₂ Fits ps vs) :
    vs.map Val.kind = ps.map (fun q => some (parKind q)) := by
  induction h with
  | nil => rfl
  | cons h _ ih => rw [List.map_cons, List.map_cons, ih, kind_of_fits h]

theorem run3 (B : Build) {s : Sig} (hs : s ∈ sigs ++ sigsT) {o : Overload} (hm : s.matches o = true) {A X C : Val α}
    (hf : List.Forall₂ Fits o.pars [A, X, C]) :
    o.run B [A, X, C] = s.core.exec B o.prec ([.scal 1, A, X, .scal 0, C] ++ s.flags.map flagVal) ∧
      A.kind = some s.left ∧ X.kind = some s.right ∧ C.kind = some s.res := by
  have hk := kinds_of_fits hf
  unfold Sig.matches at hm
  simp only [Bool.and_eq_true, Bool.or_eq_true, decide_eq_true_eq] at hm
  obtain ⟨⟨⟨h1, h2⟩, h3⟩, h4⟩ := hm
  have hk' : ([A, X, C] : List (Val α)).map Val.kind = (o.pars.map parKind).map some := by
    rw [hk, List.map_map]; rfl
  rcases h4 with ⟨h4, h5⟩ | ⟨h4, h5⟩
  · rw [h4] at hk'
    simp only [List.map_cons, List.map_nil, List.cons.injEq, and_true] at hk'
    refine ⟨?_, hk'⟩
    unfold Overload.run
    rw [if_pos h3, h5, h2]
    rcases sig_flags hs with h | h | h | h <;> rw [h] <;> rfl
  · rw [h4] at hk'
    simp at hk'

theorem run5 (B : Build) {s : Sig} (hs : s ∈ sigs ++ sigsT) {o : Overload} (hm : s.matches o = true) {a b : α}
    {A X C : Val α} (hf : List.Forall₂ Fits o.pars [.scal a, A, X, .scal b, C]) :
    o.run B [.scal a, A, X, .scal b, C] =
        s.core.exec B o.prec ([.scal a, A, X, .scal b, C] ++ s.flags.map flagVal) ∧
      A.kind = some s.left ∧ X.kind = some s.right ∧ C.kind = some s.res := by
  have hk := kinds_of_fits hf
  unfold Sig.matches at hm
  simp only [Bool.and_eq_true, Bool.or_eq_true, decide_eq_true_eq] at hm
  obtain ⟨⟨⟨h1, h2⟩, h3⟩, h4⟩ := hm
  have hk' : ([.scal a, A, X, .scal b, C] : List (Val α)).map Val.kind = (o.pars.map parKind).map some := by
    rw [hk, List.map_map]; rfl
  rcases h4 with ⟨h4, h5⟩ | ⟨h4, h5⟩
  · rw [h4] at hk'
    simp at hk'
  · rw [h4] at hk'
    simp only [List.map_cons, List.map_nil, List.cons.injEq, and_true] at hk'
    refine ⟨?_, hk'.2.1, hk'.2.2.1, hk'.2.2.2.2⟩
    unfold Overload.run
    rw [if_pos h3, h5, h2]
    rcases sig_flags hs with h | h | h | h <;> rw [h] <;> rfl

variable {e f c : List Nat → α} {p q : List Nat} {n : Nat}

/-- a sparse left operand times a vector: the kernels that drop the scalars -/
def dropsScalars (A X : Val α) : Prop := A.Sparse ∧ X.IsVec

theorem exec_sig (B : Build) (hB : ∀ n, Order (B.sched n) n) (pr : Prec) {s : Sig} (hs : s ∈ sigs) {A X C : Val α}
    (kA : A.kind = some s.left) (kX : X.kind = some s.right) (kC : C.kind = some s.res) (a b : α)
    (hA : Holds A (p ++ [n]) e) (hX : Holds X (n :: q) f) (hC : Holds C (p ++ q) c) (hn : 0 < n) :
    (¬ dropsScalars A X →
      Multiplies (s.core.exec B pr ([.scal a, A, X, .scal b, C] ++ s.flags.map flagVal)) a b p n q e f c C) ∧
    (dropsScalars A X →
      Multiplies (s.core.exec B pr ([.scal a, A, X, .scal b, C] ++ s.flags.map flagVal)) 1 0 p n q e f c C) := by
  simp only [sigs, List.mem_cons, List.not_mem_nil, or_false] at hs
  rcases hs with rfl | rfl | rfl | rfl | rfl | rfl | rfl | rfl | rfl | rfl | rfl | rfl | rfl | rfl <;>
    cases A <;> first | (cases kA; done) | skip <;> cases X <;> first | (cases kX; done) | skip <;>
    cases C <;> first | (cases kC; done) | skip
  · exact ⟨fun _ => matvec_mat B pr a b hA hX hC, fun h => h.1.elim⟩
  · exact ⟨fun h => (h ⟨trivial, trivial⟩).elim, fun _ => matvec_crs B hB pr a b hA hX hC⟩
  · exact ⟨fun _ => matvec_mat B pr a b hA hX hC, fun h => h.1.elim⟩
  · exact ⟨fun h => (h ⟨trivial, trivial⟩).elim, fun _ => matvec_crs B hB pr a b hA hX hC⟩
  · exact ⟨fun _ => matmul_mat B pr a b hA hX hC, fun h => h.1.elim⟩
  · exact ⟨fun _ => matmul_crs B hB pr a b hA hX hC, fun h => h.2.elim⟩
  · exact ⟨fun _ => tensvec_ten B pr a b hn hA hX hC, fun h => h.1.elim⟩
  · exact ⟨fun h => (h ⟨trivial, trivial⟩).elim, fun _ => tensvec_tcrs B hB pr a b hA hX hC⟩
  · exact ⟨fun _ => tensmat_ten B pr a b hn hA hX hC, fun h => h.1.elim⟩
  · exact ⟨fun _ => tensmat_tcrs B hB pr a b hA hX hC, fun h => h.2.elim⟩
  · exact ⟨fun _ => mattens_mat B pr a b hn hA hX hC, fun h => h.1.elim⟩
  · exact ⟨fun _ => mattens_crs B hB pr a b hn hA hX hC, fun h => h.2.elim⟩
  · exact ⟨fun _ => tensmul_ten B pr a b hn hA hX hC, fun h => h.1.elim⟩
  · exact ⟨fun _ => tensmul_tcrs B hB pr a b hn hA hX hC, fun h => h.2.elim⟩

theorem sig_plain {o : Overload} (ho : o ∈ products) (hT : o.fn ≠ .matvec_T) :
    ∃ s ∈ sigs, s.matches o = true := by
  obtain ⟨s, h1, h2⟩ := sig_of_mem ho
  rcases List.mem_append.mp h1 with h | h
  · exact ⟨s, h, h2⟩
  · exfalso
    have hf : s.fn = .matvec_T := by
      simp only [sigsT, List.mem_cons, List.not_mem_nil, or_false] at h
      rcases h with rfl | rfl <;> rfl
    unfold Sig.matches at h2
    simp only [Bool.and_eq_true, decide_eq_true_eq] at h2
    exact hT (h2.1.1.1.trans hf)

/-- **C87.** Every overload `f(A, X, C)` of `matvec`, `matvec_N`, `matmul`, `tensvec`, `tensmat`, `mattens` and
`tensmul`, whatever storage classes it takes, makes `C` the product of `A` and `X` over the last axis of `A` and
the first axis of `X`, whatever `C` held before, and touches no other memory; with and without AVX and for every
schedule of the parallel loops. -/
theorem C87_product (B : Build) (hB : ∀ n, Order (B.sched n) n) {o : Overload} (ho : o ∈ products)
    (hT : o.fn ≠ .matvec_T) {A X C : Val α} (hf : List.Forall₂ Fits o.pars [A, X, C])
    (hA : Holds A (p ++ [n]) e) (hX : Holds X (n :: q) f) (hC : Holds C (p ++ q) c) (hn : 0 < n) :
    ∃ C', o.run B [A, X, C] = .ok C' ∧ Kept C C' ∧ Holds C' (p ++ q) (contraction p.length n e f) := by
  obtain ⟨s, hs, hm⟩ := sig_plain ho hT
  obtain ⟨h1, h2, h3, h4⟩ := run3 B (List.mem_append_left _ hs) hm hf
  have h := exec_sig B hB o.prec hs h2 h3 h4 1 0 hA hX hC hn
  have : Multiplies (o.run B [A, X, C]) 1 0 p n q e f c C := by
    rw [h1]
    by_cases hd : dropsScalars A X
    · exact h.2 hd
    · exact h.1 hd
  obtain ⟨C', g1, g2, g3⟩ := this
  simp only [one_mul, zero_mul, add_zero] at g3
  exact ⟨C', g1, g2, g3⟩

/-- **C87 (with scalars).** `f(a, A, X, b, C)` computes `C := a * A X + b * C`, for all storage classes but those
of `C87_scalars_dropped_partial`. -/
theorem C87_scaled (B : Build) (hB : ∀ n, Order (B.sched n) n) {o : Overload} (ho : o ∈ products)
    (hT : o.fn ≠ .matvec_T) (a b : α) {A X C : Val α} (hf : List.Forall₂ Fits o.pars [.scal a, A, X, .scal b, C])
    (hA : Holds A (p ++ [n]) e) (hX : Holds X (n :: q) f) (hC : Holds C (p ++ q) c) (hn : 0 < n)
    (hd : ¬ (A.Sparse ∧ X.IsVec)) :
    ∃ C', o.run B [.scal a, A, X, .scal b, C] = .ok C' ∧ Kept C C' ∧
      Holds C' (p ++ q) (fun pos => a * contraction p.length n e f pos + b * c pos) := by
  obtain ⟨s, hs, hm⟩ := sig_plain ho hT
  obtain ⟨h1, h2, h3, h4⟩ := run5 B (List.mem_append_left _ hs) hm hf
  rw [h1]
  exact (exec_sig B hB o.prec hs h2 h3 h4 a b hA hX hC hn).1 hd

/-- **C87 (scalars of sparse matrix-vector products are dropped).** The overloads `matvec(a, A, x, b, y)` and
`tensvec(a, A, x, b, y)` with a compressed-row `A` compute `y := A x` whatever `a` and `b` are: the result
promised only for `a = 1`, `b = 0`. -/
theorem C87_scalars_dropped_partial (B : Build) (hB : ∀ n, Order (B.sched n) n) {o : Overload} (ho : o ∈ products)
    (hT : o.fn ≠ .matvec_T) (a b : α) {A X C : Val α} (hf : List.Forall₂ Fits o.pars [.scal a, A, X, .scal b, C])
    (hA : Holds A (p ++ [n]) e) (hX : Holds X (n :: q) f) (hC : Holds C (p ++ q) c) (hn : 0 < n)
    (hd : A.Sparse ∧ X.IsVec) :
    ∃ C', o.run B [.scal a, A, X, .scal b, C] = .ok C' ∧ Kept C C' ∧
      Holds C' (p ++ q) (contraction p.length n e f) := by
  obtain ⟨s, hs, hm⟩ := sig_plain ho hT
  obtain ⟨h1, h2, h3, h4⟩ := run5 B (List.mem_append_left _ hs) hm hf
  obtain ⟨C', g1, g2, g3⟩ := (exec_sig B hB o.prec hs h2 h3 h4 a b hA hX hC hn).2 hd
  simp only [one_mul, zero_mul, add_zero] at g3
  exact ⟨C', by rw [h1]; exact g1, g2, g3⟩

theorem sig_T {o : Overload} (ho : o ∈ products) (hT : o.fn = .matvec_T) :
    ∃ s ∈ sigsT, s.matches o = true := by
  obtain ⟨s, h1, h2⟩ := sig_of_mem ho
  rcases List.mem_append.mp h1 with h | h
  · exfalso
    unfold Sig.matches at h2
    simp only [Bool.and_eq_true, decide_eq_true_eq] at h2
    have hs : s.fn ≠ .matvec_T := by
      have : ∀ s ∈ sigs, s.fn ≠ .matvec_T := by decide
      exact this s h
    exact hs (h2.1.1.1.symm.trans hT)
  · exact ⟨s, h, h2⟩

theorem exec_T (B : Build) (hB : ∀ n, Order (B.sched n) n) (pr : Prec) {s : Sig} (hs : s ∈ sigsT) {A X C : Val α}
    (kA : A.kind = some s.left) (kX : X.kind = some s.right) (kC : C.kind = some s.res) (a b : α) {m : Nat}
    (hA : Holds A [m, n] e) (hX : Holds X [m] f) (hC : Holds C [n] c) :
    ∃ C', s.core.exec B pr ([.scal a, A, X, .scal b, C] ++ s.flags.map flagVal) = .ok C' ∧ Kept C C' ∧
      (¬ A.Sparse → Holds C' [n] (fun pos => a * contraction 1 m (fun kj => e kj.reverse) f pos + b * c pos)) ∧
      (A.Sparse → Holds C' [n] (contraction 1 m (fun kj => e kj.reverse) f)) := by
  simp only [sigsT, List.mem_cons, List.not_mem_nil, or_false] at hs
  rcases hs with rfl | rfl <;>
    cases A <;> first | (cases kA; done) | skip <;> cases X <;> first | (cases kX; done) | skip <;>
    cases C <;> first | (cases kC; done) | skip
  · rename_i A x y
    obtain ⟨a1, a2, a3⟩ := hA
    obtain ⟨x1, x2, x3⟩ := hX
    obtain ⟨y1, y2, y3⟩ := hC
    simp only [List.cons.injEq, and_true] at a1 x1 y1
    obtain ⟨rfl, rfl⟩ := a1
    obtain ⟨y', h1, h2, h3⟩ := (C17_dense A a2 x y a b (fun i j => e [i, j]) a3 y2 (fun j => f [j]) x3).2
      x1.symm y1.symm
    obtain ⟨k1, k2⟩ := holds_vec y2 h2
      (g := fun pos => a * contraction 1 A.rowN (fun kj => e kj.reverse) f pos + b * c pos) (by
      intro i hi
      rw [h3 i (c [i]) (by omega) (y3 i hi)]
      rw [show ([i] : List Nat) = [i] ++ [] from rfl, contraction_app (is := [i]) (js := []) (r := 1) rfl]
      rfl)
    refine ⟨.vec y', ?_, k1, fun _ => by rw [y1]; exact k2, fun h => h.elim⟩
    show (Dense.matvecCore a A x b y true >>= fun y => Res.ok (Val.vec y)) = _
    rw [h1]; rfl
  · rename_i A x y
    obtain ⟨a1, a2, a3⟩ := hA
    obtain ⟨x1, x2, x3⟩ := hX
    obtain ⟨y1, y2, y3⟩ := hC
    simp only [List.cons.injEq, and_true] at a1 x1 y1
    obtain ⟨rfl, rfl⟩ := a1
    obtain ⟨y', h1, h2, h3⟩ := C16_matvec_T A a2 x y x1.symm y1.symm y2 (fun j => f [j]) x3 (B.sched A.colN) (hB _)
    obtain ⟨k1, k2⟩ := holds_vec y2 h2 (g := contraction 1 A.rowN (fun kj => e kj.reverse) f) (by
      intro i hi
      rw [h3 i (by omega)]
      rw [show ([i] : List Nat) = [i] ++ [] from rfl, contraction_app (is := [i]) (js := []) (r := 1) rfl]
      congr 1
      refine Finset.sum_congr rfl fun k hk => ?_
      dsimp only
      rw [← a3 k i (Finset.mem_range.mp hk) (by omega)]
      rfl)
    refine ⟨.vec y', ?_, k1, fun h => (h trivial).elim, fun _ => by rw [y1]; exact k2⟩
    show (Crs.matvecCore (B.sched A.rowN) (B.sched y.size) a A x b y true >>= fun y => Res.ok (Val.vec y)) = _
    have : Crs.matvecCore (B.sched A.rowN) (B.sched y.size) a A x b y true = .ok y' := by
      rw [← y1]; exact h1
    rw [this]; rfl

/-- **C87 (matvec_T).** Every overload `matvec_T(A, x, y)` makes `y` the product of the transpose of `A` with `x`. -/
theorem C87_transposed (B : Build) (hB : ∀ n, Order (B.sched n) n) {o : Overload} (ho : o ∈ products)
    (hT : o.fn = .matvec_T) {A X C : Val α} (hf : List.Forall₂ Fits o.pars [A, X, C]) {m : Nat}
    (hA : Holds A [m, n] e) (hX : Holds X [m] f) (hC : Holds C [n] c) :
    ∃ C', o.run B [A, X, C] = .ok C' ∧ Kept C C' ∧
      Holds C' [n] (fun pos => ∑ k ∈ Finset.range m, e (k :: pos) * f [k]) := by
  obtain ⟨s, hs, hm⟩ := sig_T ho hT
  obtain ⟨h1, h2, h3, h4⟩ := run3 B (List.mem_append_right _ hs) hm hf
  obtain ⟨C', g1, g2, g3, g4⟩ := exec_T B hB o.prec hs h2 h3 h4 1 0 hA hX hC
  refine ⟨C', by rw [h1]; exact g1, g2, ?_⟩
  have key : Holds C' [n] (contraction 1 m (fun kj => e kj.reverse) f) := by
    by_cases hd : A.Sparse
    · exact g4 hd
    · have := g3 hd
      simp only [one_mul, zero_mul, add_zero] at this
      exact this
  have hk : C.kind = some .vec := by
    rw [h4]
    simp only [sigsT, List.mem_cons, List.not_mem_nil, or_false] at hs
    rcases hs with rfl | rfl <;> rfl
  cases C <;> first | (cases hk; done) | skip
  cases C' <;> first | exact g2.elim | skip
  obtain ⟨k1, k2, k3⟩ := key
  refine ⟨k1, k2, fun i hi => ?_⟩
  rw [k3 i hi]
  dsimp only
  rw [show ([i] : List Nat) = [i] ++ [] from rfl, contraction_app (is := [i]) (js := []) (r := 1) rfl]
  rfl

/-- **C87 (matvec_T with scalars).** For a dense `A`, `matvec_T(a, A, x, b, y)` computes `y := a * Aᵀ x + b * y`. -/
theorem C87_transposed_scaled (B : Build) (hB : ∀ n, Order (B.sched n) n) {o : Overload} (ho : o ∈ products)
    (hT : o.fn = .matvec_T) (a b : α) {A X C : Val α} (hf : List.Forall₂ Fits o.pars [.scal a, A, X, .scal b, C])
    {m : Nat} (hA : Holds A [m, n] e) (hX : Holds X [m] f) (hC : Holds C [n] c) (hd : ¬ A.Sparse) :
    ∃ C', o.run B [.scal a, A, X, .scal b, C] = .ok C' ∧ Kept C C' ∧
      Holds C' [n] (fun pos => a * (∑ k ∈ Finset.range m, e (k :: pos) * f [k]) + b * c pos) := by
  obtain ⟨s, hs, hm⟩ := sig_T ho hT
  obtain ⟨h1, h2, h3, h4⟩ := run5 B (List.mem_append_right _ hs) hm hf
  obtain ⟨C', g1, g2, g3, g4⟩ := exec_T B hB o.prec hs h2 h3 h4 a b hA hX hC
  refine ⟨C', by rw [h1]; exact g1, g2, ?_⟩
  have key := g3 hd
  have hk : C.kind = some .vec := by
    rw [h4]
    simp only [sigsT, List.mem_cons, List.not_mem_nil, or_false] at hs
    rcases hs with rfl | rfl <;> rfl
  cases C <;> first | (cases hk; done) | skip
  cases C' <;> first | exact g2.elim | skip
  obtain ⟨k1, k2, k3⟩ := key
  refine ⟨k1, k2, fun i hi => ?_⟩
  rw [k3 i hi]
  dsimp only
  rw [show ([i] : List Nat) = [i] ++ [] from rfl, contraction_app (is := [i]) (js := []) (r := 1) rfl]
  rfl

end

/-! Completeness: every combination of storage classes is accepted. -/

/-- dense classes of one, two and more axes -/
def vecTys : List Ty := [.vector, .view1D .vec, .view1D .mat, .view1D .ten]
def matTys : List Ty := [.dense, .viewDense .vec, .viewDense .mat, .viewDense .ten]
def tenTys : List Ty := [.tdense, .viewTDense .vec, .viewTDense .mat, .viewTDense .ten]

/-- the classes of the left operand, right operand and result of a product function -/
def Fn.classes : Fn → List Ty × List Ty × List Ty
  | .matvec => (.crs :: matTys, vecTys, vecTys)
  | .matvec_N => (.crs :: matTys, vecTys, vecTys)
  | .matvec_T => (.crs :: matTys, vecTys, vecTys)
  | .matmul => (.crs :: matTys, matTys, matTys)
  | .tensvec => (.tcrs :: tenTys, vecTys, tenTys)
  | .tensmat => (.tcrs :: tenTys, matTys, tenTys)
  | .mattens => (.crs :: matTys, tenTys, tenTys)
  | .tensmul => (.tcrs :: tenTys, tenTys, tenTys)

def fns : List Fn := [.matvec, .matvec_N, .matvec_T, .matmul, .tensvec, .tensmat, .mattens, .tensmul]

/-- `f(A, X, C)` and `f(a, A, X, b, C)` -/
def plainSig (p : Prec) (a x c : Ty) : List Par := [.obj a p true, .obj x p true, .obj c p false]
def scaledSig (p : Prec) (a x c : Ty) : List Par :=
  [.scal p, .obj a p true, .obj x p true, .scal p, .obj c p false]

def Fn.table : Fn → List (List Overload)
  | .matvec => tMatvec
  | .matvec_N => tMatvec
  | .matvec_T => tMatvec
  | .matmul => tMatmul
  | .tensvec => tTensvec
  | .tensmat => tTensmat
  | .mattens => tMattens
  | .tensmul => tTensmul

/-- `(p, a, x, c)` if the parameters are those of `f(A, X, C)` -/
def asPlain : List Par → Option (Prec × Ty × Ty × Ty)
  | [.obj a p true, .obj x q true, .obj c r false] => if p = q ∧ p = r then some (p, a, x, c) else none
  | _ => none

/-- `(p, a, x, c)` if the parameters are those of `f(a, A, X, b, C)` -/
def asScaled : List Par → Option (Prec × Ty × Ty × Ty)
  | .scal p :: .obj a q true :: .obj x r true :: .scal s :: [.obj c t false] =>
    if p = q ∧ p = r ∧ p = s ∧ p = t then some (p, a, x, c) else none
  | _ => none

theorem of_asPlain {ps : List Par} {p : Prec} {a x c : Ty} (h : asPlain ps = some (p, a, x, c)) :
    ps = plainSig p a x c := by
  unfold asPlain at h
  split at h
  · split at h
    · rename_i e
      obtain ⟨e1, e2⟩ := e
      subst e1 e2
      cases h
      rfl
    · cases h
  · cases h

theorem of_asScaled {ps : List Par} {p : Prec} {a x c : Ty} (h : asScaled ps = some (p, a, x, c)) :
    ps = scaledSig p a x c := by
  unfold asScaled at h
  split at h
  · split at h
    · rename_i e
      obtain ⟨e1, e2, e3, e4⟩ := e
      subst e1 e2 e3 e4
      cases h
      rfl
    · cases h
  · cases h

/-- the codes of the signatures of one function in a table -/
def codes (as : List Par → Option (Prec × Ty × Ty × Ty)) (t : List (List Overload)) (f : Fn) : List Nat :=
  t.flatMap fun l => l.filterMap fun o => if o.fn = f then (as o.pars).map sigCode else none

/-- the codes of all combinations -/
def Fn.wanted (f : Fn) : List Nat :=
  [Prec.d, Prec.s].flatMap fun p => f.classes.1.flatMap fun a => f.classes.2.1.flatMap fun x =>
    f.classes.2.2.map fun c => sigCode (p, a, x, c)

def complete (as : List Par → Option (Prec × Ty × Ty × Ty)) (f : Fn) : Bool :=
  Nat.beq (mask f.wanted ||| mask (codes as f.table f)) (mask (codes as f.table f))

theorem complete_plain : fns.all (complete asPlain) = true := by decide +kernel
theorem complete_scaled : fns.all (complete asScaled) = true := by decide +kernel

theorem table_sub (f : Fn) {l : List Overload} (hl : l ∈ f.table) {o : Overload} (ho : o ∈ l) : o ∈ products := by
  unfold products
  refine List.mem_flatten.mpr ⟨l, ?_, ho⟩
  simp only [List.mem_append]
  cases f <;> simp [Fn.table] at hl <;> tauto

theorem of_complete {as : List Par → Option (Prec × Ty × Ty × Ty)} {f : Fn} (h : complete as f = true) {p : Prec}
    {a x c : Ty} (ha : a ∈ f.classes.1) (hx : x ∈ f.classes.2.1) (hc : c ∈ f.classes.2.2) :
    ∃ o ∈ products, o.fn = f ∧ as o.pars = some (p, a, x, c) := by
  have hw : sigCode (p, a, x, c) ∈ f.wanted := by
    unfold Fn.wanted
    simp only [List.mem_flatMap, List.mem_map]
    exact ⟨p, by cases p <;> decide, a, ha, x, hx, c, hc, rfl⟩
  have h2 := subset_of_mask (Nat.eq_of_beq_eq_true h) hw
  simp only [codes, List.mem_flatMap, List.mem_filterMap] at h2
  obtain ⟨l, hl, o, ho, h5⟩ := h2
  split at h5
  · rename_i h6
    obtain ⟨s, h7, h8⟩ := Option.map_eq_some_iff.mp h5
    rw [sigCode_inj h8] at h7
    exact ⟨o, table_sub f hl ho, h6, h7⟩
  · cases h5

/-- **C87 (completeness).** Every product function accepts every combination of storage classes of its operands
and its result, in both precisions, with and without scalars. -/
theorem C87_complete (f : Fn) (p : Prec) {a x c : Ty} (ha : a ∈ f.classes.1) (hx : x ∈ f.classes.2.1)
    (hc : c ∈ f.classes.2.2) :
    (∃ o ∈ products, o.fn = f ∧ o.pars = plainSig p a x c) ∧
      ∃ o ∈ products, o.fn = f ∧ o.pars = scaledSig p a x c := by
  have hf : f ∈ fns := by cases f <;> decide
  obtain ⟨o, h1, h2, h3⟩ := of_complete (p := p) (List.all_eq_true.mp complete_plain f hf) ha hx hc
  obtain ⟨o', h1', h2', h3'⟩ := of_complete (p := p) (List.all_eq_true.mp complete_scaled f hf) ha hx hc
  exact ⟨⟨o, h1, h2, of_asPlain h3⟩, ⟨o', h1', h2', of_asScaled h3'⟩⟩

/-- a case of C87: the double overload `matmul(CRS, view_Dense of a vector, Dense)` on `[[2, 0], [0, 3]]` and the
matrix `[[1, 2], [3, 4]]` seen at offset 1 of a vector -/
example : ∃ o ∈ products, o.fn = .matmul ∧ ∃ A X C : Val Int,
    List.Forall₂ Fits o.pars [A, X, C] ∧
    Holds A ([2] ++ [2]) (fun pos => if pos = [0, 0] then 2 else if pos = [1, 1] then 3 else 0) ∧
    Holds X (2 :: [2]) (fun pos => if pos = [0, 0] then 1 else if pos = [0, 1] then 2 else if pos = [1, 0] then 3 else 4) ∧
    Holds C ([2] ++ [2]) (fun _ => 7) := by
  obtain ⟨o, h1, h2, h3⟩ := (C87_complete .matmul .d (a := .crs) (x := .viewDense .vec) (c := .dense)
    (by decide) (by decide) (by decide)).1
  refine ⟨o, h1, h2, .crs ⟨2, 2, [0, 1, 2], [0, 1], [2, 3], 2, 2, true⟩,
    .mat ⟨2, 2, [9, 1, 2, 3, 4], 4, 5, 1, false⟩, .mat ⟨2, 2, [7, 7, 7, 7], 4, 4, 0, true⟩, ?_, ?_, ?_, ?_⟩
  · rw [h3]
    exact .cons trivial (.cons trivial (.cons trivial .nil))
  · have hS : (⟨2, 2, [0, 1, 2], [0, 1], [2, 3], 2, 2, true⟩ : Crs Int).Safe :=
      { created := rfl
        lenV := rfl
        nnz_le := by decide
        lenP := rfl
        ptr_le := by decide
        lenC := by decide
        col_lt := by decide }
    refine ⟨rfl, hS, ?_⟩
    intro i j hi hj
    change i < 2 at hi; change j < 2 at hj
    have : (i = 0 ∨ i = 1) ∧ (j = 0 ∨ j = 1) := by omega
    rcases this with ⟨rfl | rfl, rfl | rfl⟩ <;> decide
  · refine ⟨rfl, ⟨rfl, rfl, by decide⟩, ?_⟩
    intro i j hi hj
    change i < 2 at hi; change j < 2 at hj
    have : (i = 0 ∨ i = 1) ∧ (j = 0 ∨ j = 1) := by omega
    rcases this with ⟨rfl | rfl, rfl | rfl⟩ <;> rfl
  · refine ⟨rfl, ⟨rfl, rfl, by decide⟩, ?_⟩
    intro i j hi hj
    change i < 2 at hi; change j < 2 at hj
    have : (i = 0 ∨ i = 1) ∧ (j = 0 ∨ j = 1) := by omega
    rcases this with ⟨rfl | rfl, rfl | rfl⟩ <;> rfl

end Verif.Product
