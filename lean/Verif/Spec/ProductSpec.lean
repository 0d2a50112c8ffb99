import Verif.Model.ProductSrc
import Verif.Spec.TensorCrsSpec
import Verif.Spec.LinAlg
import Verif.Spec.VecSpec
import Verif.Spec.DenseSpec
import Mathlib.Algebra.BigOperators.Group.Finset.Basic
import Mathlib.Algebra.Ring.Defs

/-! What the product functions must compute, for operands of every storage class. -/

namespace Verif.Product

open Spec Dispatch

variable {α : Type}

/-- the value is an object of the class of the parameter -/
def Fits : Par → Val α → Prop
  | .obj .vector _ _, .vec _ => True
  | .obj (.view1D _) _ _, .vec _ => True
  | .obj .dense _ _, .mat _ => True
  | .obj (.viewDense _) _ _, .mat _ => True
  | .obj .crs _ _, .crs _ => True
  | .obj .tdense _ _, .ten _ => True
  | .obj (.viewTDense _) _ _, .ten _ => True
  | .obj .tcrs _ _, .tcrs _ => True
  | .scal _, .scal _ => True
  | _, _ => False

/-- `v` is a valid object with extents `s` whose element at position `pos` is `f pos` (a vector has one axis,
a matrix two; elements a sparse object does not store are 0, elements stored more than once add up) -/
def Holds [AddCommMonoid α] (v : Val α) (s : List Nat) (f : List Nat → α) : Prop :=
  match v with
  | .vec w => s = [w.size] ∧ w.Ok ∧ ∀ i, i < w.size → w.get i = .ok (f [i])
  | .mat D => s = [D.rowN, D.colN] ∧ D.WF ∧ ∀ i j, i < D.rowN → j < D.colN → D.at_ i j = .ok (f [i, j])
  | .crs A => s = [A.rowN, A.colN] ∧ A.Safe ∧ ∀ i j, i < A.rowN → j < A.colN → f [i, j] = crsAt A i j
  | .ten T => s = T.shape ∧ T.WF ∧ ∀ pos, InShape T.shape pos → T.at_ pos = .ok (f pos)
  | .tcrs T => ∃ us R N, s = us ++ [R, N] ∧ T.Tiled us R N ∧
      ∀ ps i k, InShape us ps → i < R → k < N → f (ps ++ [i, k]) = crsAt (T.slice R N (rowMajor us ps)) i k
  | _ => False

/-- the result is the same object: same class, extents and place, and memory outside of it untouched -/
def Kept (v v' : Val α) : Prop :=
  match v, v' with
  | .vec w, .vec w' => w.Updated w'
  | .mat D, .mat D' => D'.rowN = D.rowN ∧ D'.colN = D.colN ∧ D'.first = D.first ∧
      ∀ k, k < D.first ∨ D.first + D.nnz ≤ k → D'.val[k]? = D.val[k]?
  | .ten T, .ten T' => T'.shape = T.shape ∧ T'.first = T.first ∧ T'.nnz = T.nnz ∧
      ∀ k, k < T.first ∨ T.first + T.nnz ≤ k → T'.val[k]? = T.val[k]?
  | _, _ => False

/-- the value is stored in a compressed-row class -/
def Val.Sparse : Val α → Prop
  | .crs _ => True
  | .tcrs _ => True
  | _ => False

/-- the value is a vector -/
def Val.IsVec : Val α → Prop
  | .vec _ => True
  | _ => False

/-- The product over the last axis of the left operand, which has `r` axes before it, and the first axis of the
right one: `∑ k < n, e(is, k) * f(k, js)` at the position `is ++ js`. -/
def contraction [Semiring α] (r n : Nat) (e f : List Nat → α) (pos : List Nat) : α :=
  ∑ k ∈ Finset.range n, e (pos.take r ++ [k]) * f (k :: pos.drop r)

end Verif.Product
