import Verif.Spec.DiagSpec
import Verif.Model.DiagSrc
import Verif.Spec.ProductSpec
import Verif.Props.DiagOp
import Verif.Props.Tensor

/-!
C96: every member `diag_add`, `diag_sub`, `diag_mul`, `diag_div` of every class does its operation.
-/

namespace Verif.Diag

open Dispatch (Ty Par Prec)
open Product (Val Fits)
open Spec

variable {α : Type} [Add α] [Sub α] [Mul α] [Div α]

/-- the argument as a function of the place on the diagonal: a scalar is the same everywhere; a vector or view must
have `n` elements -/
def Operand (n : Nat) (y : Nat → α) : Val α → Prop
  | .scal a => ∀ i, y i = a
  | .vec d => d.Ok ∧ d.size = n ∧ ∀ i, i < n → d.get i = .ok (y i)
  | _ => False

/-- the kernel family of a class -/
def coreOf : Ty → Option Core
  | .dense | .viewDense _ => some .dense
  | .crs => some .crs
  | .tdense | .viewTDense _ => some .tdense
  | _ => none

/-- the form of the kernel for an argument -/
def formOf : Par → Option Form
  | .scal _ => some .scal
  | .obj .vector _ _ => some .vec
  | .obj (.view1D _) _ _ => some .vec
  | _ => none

/-- the member calls the kernel for its class, its operation and its argument, and the kernel has the operator -/
def Overload.good (o : Overload) : Bool :=
  decide (coreOf o.cls = some o.core ∧ o.coreOp = o.op ∧ formOf o.arg = some o.form ∧
    Product.parPrec o.arg = o.prec ∧
    (kernels.find? (fun k => decide (k.1 = o.core ∧ k.2.1 = o.coreOp ∧ k.2.2.1 = o.form))).map (·.2.2.2) = some o.op)

theorem members_good : members.all Overload.good = true := by decide +kernel

theorem run_eq {o : Overload} (ho : o ∈ members) (S : Nat → List Nat) (self v : Val α) :
    ∃ c f, coreOf o.cls = some c ∧ formOf o.arg = some f ∧ o.run kernels S self v = c.exec S o.op.fn f self v := by
  have h := List.all_eq_true.mp members_good o ho
  unfold Overload.good at h
  obtain ⟨h1, h2, h3, h4, h5⟩ := of_decide_eq_true h
  refine ⟨o.core, o.form, h1, h3, ?_⟩
  obtain ⟨k, hk, hk2⟩ := Option.map_eq_some_iff.mp h5
  unfold Overload.run
  rw [hk]
  dsimp only
  rw [if_pos h4, hk2]

theorem fn_eq (op : Op) : op.fn = diagResult (α := α) op := by
  cases op <;> rfl

/-- **C96 (dense matrices).** Every one of the four operations on a Dense or view_Dense stored from offset 0, with
every argument type: the diagonal elements become `A(i, i) op y(i)`, the others and the memory outside stay. For a view
with another offset see `C20_dense_violated`. -/
theorem C96_dense_partial {o : Overload} (ho : o ∈ members) {A : Dense α} {v : Val α}
    (hA : Fits (.obj o.cls o.prec false) (.mat A)) (hv : Fits o.arg v) (h : A.WF) (hfirst : A.first = 0)
    {f : Nat → Nat → α} (hf : A.Reads f) {y : Nat → α} (hy : Operand (min A.rowN A.colN) y v) {S : Nat → List Nat}
    (hS : ∀ n, Order (S n) n) :
    ∃ A', o.run kernels S (.mat A) v = .ok (.mat A') ∧ A'.WF ∧ A'.rowN = A.rowN ∧ A'.colN = A.colN ∧
      A'.Reads (fun i j => if i = j then diagResult o.op (f i j) (y i) else f i j) ∧
      ∀ k, A.nnz ≤ k → A'.val[k]? = A.val[k]? := by
  rw [← fn_eq]
  obtain ⟨c, fm, hc, hfm, hrun⟩ := run_eq ho S (.mat A) v
  have hmin : A.diagLen = min A.rowN A.colN := by unfold Dense.diagLen; split <;> omega
  have hO : Order (S A.diagLen) (min A.rowN A.colN) := by rw [← hmin]; exact hS _
  obtain ⟨hs, hvv⟩ := C20_dense_partial h hfirst hf hO (o.op.fn (α := α))
  have hcd : c = .dense := by
    revert hA hc
    cases o.cls <;> simp [Fits, coreOf] <;> exact fun h => h.symm
  subst hcd
  cases v with
  | scal a =>
    have hfs : fm = .scal := by
      revert hv hfm
      rcases o.arg with ⟨t, p, b⟩ | p
      · cases t <;> simp [Fits]
      · simp [formOf]; exact fun h _ => h.symm
    subst hfs
    obtain ⟨w, e, h1, h2, h3⟩ := hs a
    refine ⟨_, ?_, h1, rfl, rfl, ?_, h3⟩
    · rw [hrun]
      show ((A.diagOpS _ _ a).bind _ : Res _) = _
      rw [e]; rfl
    · have : ∀ i, y i = a := hy
      simpa only [this] using h2
  | vec d =>
    have hfs : fm = .vec := by
      revert hv hfm
      rcases o.arg with ⟨t, p, b⟩ | p
      · cases t <;> simp [Fits, formOf] <;> exact fun h => h.symm
      · simp [Fits]
    subst hfs
    obtain ⟨hd, hsz, hget⟩ : d.Ok ∧ d.size = min A.rowN A.colN ∧ ∀ i, i < min A.rowN A.colN → d.get i = .ok (y i) := hy
    obtain ⟨w, e, h1, h2, h3⟩ := hvv d hd hsz y (fun i hi => hget i (by omega))
    refine ⟨_, ?_, h1, rfl, rfl, h2, h3⟩
    rw [hrun]
    show ((A.diagOpV _ _ d).bind _ : Res _) = _
    rw [e]; rfl
  | _ => exact absurd hy (by simp [Operand])

/-- **C96 (CRS).** Every one of the four operations on a CRS matrix with every argument type: the stored diagonal
elements become `A(i, i) op y(i)`; the structure and the other elements stay. -/
theorem C96_crs {o : Overload} (ho : o ∈ members) {A : Crs α} {v : Val α}
    (hA : Fits (.obj o.cls o.prec false) (.crs A)) (hv : Fits o.arg v) (h : A.Tiled) {y : Nat → α}
    (hy : Operand (min A.rowN A.colN) y v) {S : Nat → List Nat} (hS : ∀ n, Order (S n) n) :
    ∃ A', o.run kernels S (.crs A) v = .ok (.crs A') ∧ A'.Tiled ∧ A'.rowPtr = A.rowPtr ∧ A'.colInd = A.colInd ∧
      A'.entries = A.entries.map (fun e => if e.1 = e.2.1 then (e.1, e.2.1, diagResult o.op e.2.2 (y e.1)) else e) ∧
      ∀ k, A.nnz ≤ k → A'.val[k]? = A.val[k]? := by
  rw [← fn_eq]
  obtain ⟨c, fm, hc, hfm, hrun⟩ := run_eq ho S (.crs A) v
  obtain ⟨hs, hvv⟩ := C20_crs h (o.op.fn (α := α))
  have hcd : c = .crs := by
    revert hA hc
    cases o.cls <;> simp [Fits, coreOf] <;> exact fun h => h.symm
  subst hcd
  cases v with
  | scal a =>
    have hfs : fm = .scal := by
      revert hv hfm
      rcases o.arg with ⟨t, p, b⟩ | p
      · cases t <;> simp [Fits]
      · simp [formOf]; exact fun h _ => h.symm
    subst hfs
    obtain ⟨A', e, h1, h2, h3, h4, h5⟩ := hs _ (hS _) a
    refine ⟨A', ?_, h1, h2, h3, ?_, h5⟩
    · rw [hrun]
      show ((A.diagOpS _ _ a).bind _ : Res _) = _
      rw [e]; rfl
    · have : ∀ i, y i = a := hy
      simpa only [this] using h4
  | vec d =>
    have hfs : fm = .vec := by
      revert hv hfm
      rcases o.arg with ⟨t, p, b⟩ | p
      · cases t <;> simp [Fits, formOf] <;> exact fun h => h.symm
      · simp [Fits]
    subst hfs
    obtain ⟨hd, hsz, hget⟩ : d.Ok ∧ d.size = min A.rowN A.colN ∧ ∀ i, i < min A.rowN A.colN → d.get i = .ok (y i) := hy
    have hmin : (if A.rowN < A.colN then A.rowN else A.colN) = min A.rowN A.colN := by split <;> omega
    obtain ⟨A', e, h1⟩ := hvv _ (hS _) d hd hsz y (fun i hi => hget i (by omega))
    refine ⟨A', ?_, h1⟩
    rw [hrun]
    show ((A.diagOpV _ (S (if A.rowN < A.colN then A.rowN else A.colN)) d).bind _ : Res _) = _
    rw [hmin, e]; rfl
  | _ => exact absurd hy (by simp [Operand])

/-- **C96 (dense tensors), partial.** Every one of the four operations on a tensor_Dense or view_tensor_Dense whose
shape reads the same backwards, with every argument type: the elements whose indices are all equal become
`T(i, .., i) op y(i)`, the others stay. For other shapes the wrong elements are changed (`C21_violated`). -/
theorem C96_tensor_partial {o : Overload} (ho : o ∈ members) {T : TDense α} {v : Val α}
    (hT : Fits (.obj o.cls o.prec false) (.ten T)) (hv : Fits o.arg v) (h : T.WF) (hr : T.shape ≠ [])
    (hpal : T.shape.reverse = T.shape) {n : Nat} (hn : ∀ i, i < n ↔ ∀ s ∈ T.shape, i < s) {f : List Nat → α}
    (hf : T.Reads f) {y : Nat → α} (hy : Operand n y v) {S : Nat → List Nat} (hS : ∀ n, Order (S n) n) :
    ∃ T', o.run kernels S (.ten T) v = .ok (.ten T') ∧ T'.WF ∧ T'.shape = T.shape ∧
      T'.Reads (fun pos => if OnDiagonal pos then diagResult o.op (f pos) (y (pos.headD 0)) else f pos) := by
  rw [← fn_eq]
  obtain ⟨c, fm, hc, hfm, hrun⟩ := run_eq ho S (.ten T) v
  have hlen : T.diagLen = n := by
    have h1 : ∀ i, i < T.diagLen ↔ i < n := fun i => (diagLen_iff h hr i).trans (hn i).symm
    have := h1 n
    have := h1 T.diagLen
    omega
  have hO : Order (S T.diagLen) n := by rw [← hlen]; exact hS _
  obtain ⟨hs, hvv⟩ := C21_partial h hr hpal hn hO hf (o.op.fn (α := α))
  have hcd : c = .tdense := by
    revert hT hc
    cases o.cls <;> simp [Fits, coreOf] <;> exact fun h => h.symm
  subst hcd
  cases v with
  | scal a =>
    have hfs : fm = .scal := by
      revert hv hfm
      rcases o.arg with ⟨t, p, b⟩ | p
      · cases t <;> simp [Fits]
      · simp [formOf]; exact fun h _ => h.symm
    subst hfs
    obtain ⟨T', e, h1, h2, h3⟩ := hs a
    refine ⟨T', ?_, h1, h2, ?_⟩
    · rw [hrun]
      show ((T.diagOpS _ _ a).bind _ : Res _) = _
      rw [e]; rfl
    · have : ∀ i, y i = a := hy
      simpa only [this] using h3
  | vec d =>
    have hfs : fm = .vec := by
      revert hv hfm
      rcases o.arg with ⟨t, p, b⟩ | p
      · cases t <;> simp [Fits, formOf] <;> exact fun h => h.symm
      · simp [Fits]
    subst hfs
    obtain ⟨hd, hsz, hget⟩ : d.Ok ∧ d.size = n ∧ ∀ i, i < n → d.get i = .ok (y i) := hy
    obtain ⟨T', e, h1⟩ := hvv d hsz y hget
    refine ⟨T', ?_, h1⟩
    rw [hrun]
    show ((T.diagOpV _ _ d).bind _ : Res _) = _
    rw [e]; rfl
  | _ => exact absurd hy (by simp [Operand])

/-- the classes with diagonal operations -/
def classes : List Ty :=
  [.dense, .viewDense .vec, .viewDense .mat, .viewDense .ten, .crs, .tdense, .viewTDense .vec, .viewTDense .mat,
    .viewTDense .ten]

/-- the arguments: a scalar, or any of the vector classes -/
def args (p : Prec) : List Par :=
  [.scal p, .obj .vector p true, .obj (.view1D .vec) p true, .obj (.view1D .mat) p true, .obj (.view1D .ten) p true]

/-- **C96 (completeness).** Every class has each of the four operations with each argument type, in both precisions,
exactly once. -/
theorem C96_complete (op : Op) (p : Prec) {c : Ty} (hc : c ∈ classes) {a : Par} (ha : a ∈ args p) :
    ∃ o, members.filter (fun o => decide (o.op = op ∧ o.cls = c ∧ o.prec = p ∧ o.arg = a)) = [o] := by
  have h : ([Op.add, .sub, .mul, .div].all fun op => [Prec.d, .s].all fun p => classes.all fun c => (args p).all fun a =>
      decide ((members.filter (fun o => decide (o.op = op ∧ o.cls = c ∧ o.prec = p ∧ o.arg = a))).length = 1)) =
      true := by decide +kernel
  have h := List.all_eq_true.mp h op (by cases op <;> decide)
  have h := List.all_eq_true.mp h p (by cases p <;> decide)
  have h := List.all_eq_true.mp h c hc
  have h := List.all_eq_true.mp h a ha
  exact List.length_eq_one_iff.mp (of_decide_eq_true h)

/-- a case of C96: `diag_div` of the double matrix view `[[6, 1, 2], [3, 8, 5]]` by the view `(2, 4)` of a tensor -/
example : ∃ o ∈ members, o.op = .div ∧ o.cls = .viewDense .vec ∧ ∃ (A : Dense Int) (d : Win Int),
    Fits (.obj o.cls o.prec false) (.mat A) ∧ Fits o.arg (.vec d) ∧ A.first = 0 ∧
      Operand (min A.rowN A.colN) (fun i => if i = 0 then 2 else 4) (.vec d) ∧
      ∃ A', o.run kernels (fun n => (List.range n).reverse) (.mat A) (.vec d) = .ok (.mat A') ∧
        A'.val = [3, 1, 2, 3, 2, 5, 7] := by
  refine ⟨⟨.div, .viewDense .vec, .d, .obj (.view1D .ten) .d true, .dense, .div, .vec⟩, by decide +kernel, rfl, rfl,
    { rowN := 2, colN := 3, val := [6, 1, 2, 3, 8, 5, 7], nnz := 6, alloc := 7, first := 0, created := false },
    { buf := [9, 2, 4], off := 1, size := 2 }, trivial, trivial, rfl, ?_, _, rfl, rfl⟩
  refine ⟨by decide, rfl, ?_⟩
  intro i hi
  have : i = 0 ∨ i = 1 := by simp at hi; omega
  rcases this with rfl | rfl <;> rfl

end Verif.Diag
