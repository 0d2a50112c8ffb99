import Verif.Spec.CrsSpec
import Verif.Spec.DenseSpec
import Mathlib.Algebra.BigOperators.Group.Finset.Basic
import Mathlib.Algebra.BigOperators.Ring.Finset

/-! Mathematical products of matrices and vectors. -/

namespace Verif

/-- A vector argument of a kernel: `size` elements starting at offset `off` of a buffer (a
`monolish::vector`, or a `view1D` of some target). -/
structure Win (α : Type) where
  buf : List α
  off : Nat
  size : Nat
  deriving Repr, DecidableEq

namespace Win

variable {α : Type}

/-- all elements lie inside the buffer -/
def Ok (w : Win α) : Prop := w.off + w.size ≤ w.buf.length

instance (w : Win α) : Decidable w.Ok := inferInstanceAs (Decidable (_ ≤ _))

/-- element `i` -/
def get (w : Win α) (i : Nat) : Res α := rd w.buf (w.off + i)

/-- `w'` is `w` after elements of the window were overwritten: same place, nothing outside the window
changed -/
structure Updated (w w' : Win α) : Prop where
  off : w'.off = w.off
  size : w'.size = w.size
  len : w'.buf.length = w.buf.length
  frame : ∀ k, k < w.off ∨ w.off + w.size ≤ k → w'.buf[k]? = w.buf[k]?

end Win

namespace Spec

variable {α : Type}

/-- element `(i, j)` of the matrix that a CRS object represents: the sum of what is stored there -/
def crsAt [Zero α] [Add α] (A : Crs α) (i j : Nat) : α := sumAt A.entries i j

/-- `(A x)_i = ∑_{j < n} A(i,j) x_j` -/
def mulVec [NonUnitalNonAssocSemiring α] (n : Nat) (A : Nat → Nat → α) (x : Nat → α) (i : Nat) : α :=
  ∑ j ∈ Finset.range n, A i j * x j

/-- `(A B)_{ij} = ∑_{l < n} A(i,l) B(l,j)` -/
def mulMat [NonUnitalNonAssocSemiring α] (n : Nat) (A B : Nat → Nat → α) (i j : Nat) : α :=
  ∑ l ∈ Finset.range n, A i l * B l j

end Spec
end Verif
