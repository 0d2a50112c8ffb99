import Verif.Lemmas.Product

/-! The table of product overloads, checked row by row by evaluation in the kernel. -/

namespace Verif.Product

open Spec Dispatch

/-- what a row of the table is expected to look like: the kinds of the three operands, the kernel and the
transposition flags it passes -/
structure Sig where
  fn : Fn
  left : Kind
  right : Kind
  res : Kind
  core : Core
  flags : List Arg
  deriving DecidableEq

def sigs : List Sig := [
  ⟨.matvec, .mat, .vec, .vec, .matvec, [.ff]⟩, ⟨.matvec, .crs, .vec, .vec, .matvec, [.ff]⟩,
  ⟨.matvec_N, .mat, .vec, .vec, .matvec, [.ff]⟩, ⟨.matvec_N, .crs, .vec, .vec, .matvec, [.ff]⟩,
  ⟨.matmul, .mat, .mat, .mat, .matmul_dense, [.ff, .ff]⟩, ⟨.matmul, .crs, .mat, .mat, .matmul_crs, []⟩,
  ⟨.tensvec, .ten, .vec, .ten, .tensvec, [.ff]⟩, ⟨.tensvec, .tcrs, .vec, .ten, .tensvec, [.ff]⟩,
  ⟨.tensmat, .ten, .mat, .ten, .tensmat_dense, [.ff, .ff]⟩, ⟨.tensmat, .tcrs, .mat, .ten, .tensmat_crs, []⟩,
  ⟨.mattens, .mat, .ten, .ten, .mattens_dense, [.ff, .ff]⟩, ⟨.mattens, .crs, .ten, .ten, .mattens_crs, []⟩,
  ⟨.tensmul, .ten, .ten, .ten, .tensmul_dense, [.ff, .ff]⟩, ⟨.tensmul, .tcrs, .ten, .ten, .tensmul_crs, []⟩]

def sigsT : List Sig := [
  ⟨.matvec_T, .mat, .vec, .vec, .matvec, [.tt]⟩, ⟨.matvec_T, .crs, .vec, .vec, .matvec, [.tt]⟩]

/-- row `o` is `s`, as `f(A, X, C)` or as `f(a, A, X, b, C)` -/
def Sig.matches (s : Sig) (o : Overload) : Bool :=
  decide (o.fn = s.fn) && decide (o.core = s.core) &&
    o.pars.all (fun q => decide (parPrec q = o.prec)) &&
    ((decide (o.pars.map parKind = [s.left, s.right, s.res]) &&
        decide (o.args = [.one, .par 0, .par 1, .zero, .par 2] ++ s.flags)) ||
      (decide (o.pars.map parKind = [.scal, s.left, s.right, .scal, s.res]) &&
        decide (o.args = [.par 0, .par 1, .par 2, .par 3, .par 4] ++ s.flags)))

def rowOk (o : Overload) : Bool := (sigs ++ sigsT).any (fun s => s.matches o)

theorem rowOk_all : products.all rowOk = true := by decide +kernel

theorem sig_of_mem {o : Overload} (h : o ∈ products) : ∃ s ∈ sigs ++ sigsT, s.matches o = true :=
  List.any_eq_true.mp (List.all_eq_true.mp rowOk_all o h)

end Verif.Product
