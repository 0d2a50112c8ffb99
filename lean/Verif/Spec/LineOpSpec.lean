import Verif.Model.LineOpSrc
import Verif.Spec.TensorCrsSpec
import Verif.Spec.LinAlg
import Verif.Spec.VecSpec
import Verif.Spec.DenseSpec
import Mathlib.Algebra.Ring.Defs

/-! What the row and column operations must compute, for operands of every storage class. -/

namespace Verif.LineOp

open Spec Dispatch

variable {α : Type}

/-- the value is an object of the class of the parameter -/
def Fits : Par → Val α → Prop
  | .obj .vector _ _, .vec _ => True
  | .obj (.view1D _) _ _, .vec _ => True
  | .obj .dense _ _, .mat _ => True
  | .obj (.viewDense _) _ _, .mat _ => True
  | .obj .crs _ _, .crs _ => True
  | .obj .tdense _ _, .ten _ => True
  | .obj (.viewTDense _) _ _, .ten _ => True
  | .obj .tcrs _ _, .tcrs _ _ => True
  | .num, .num _ => True
  | _, _ => False

/-- `v` is a valid object with extents `s` whose element at position `pos` is `f pos` (a vector has one axis,
a matrix two; elements a sparse object does not store are 0, elements stored more than once add up) -/
def Holds [AddCommMonoid α] (v : Val α) (s : List Nat) (f : List Nat → α) : Prop :=
  match v with
  | .vec w => s = [w.size] ∧ w.Ok ∧ ∀ i, i < w.size → w.get i = .ok (f [i])
  | .mat D => s = [D.rowN, D.colN] ∧ D.WF ∧ ∀ i j, i < D.rowN → j < D.colN → D.at_ i j = .ok (f [i, j])
  | .crs A => s = [A.mat.rowN, A.mat.colN] ∧ A.mat.Tiled ∧
      ∀ i j, i < A.mat.rowN → j < A.mat.colN → f [i, j] = crsAt A.mat i j
  | .ten T => s = T.shape ∧ T.WF ∧ ∀ pos, InShape T.shape pos → T.at_ pos = .ok (f pos)
  | .tcrs T _ => ∃ us R N, s = us ++ [R, N] ∧ T.Tiled us R N ∧
      ∀ ps i k, InShape us ps → i < R → k < N → f (ps ++ [i, k]) = crsAt (T.slice R N (rowMajor us ps)) i k
  | _ => False

/-- two sparse operands store the same positions in the same order, and their structure hashes agree (as they do when
one was copied from the other); nothing is asked of dense operands -/
def Alike (A C : Val α) : Prop :=
  match A, C with
  | .crs A, .crs C => C.mat.rowPtr = A.mat.rowPtr ∧ C.mat.nnz = A.mat.nnz ∧
      C.mat.colInd.take A.mat.nnz = A.mat.colInd.take A.mat.nnz ∧ A.hash = C.hash
  | .tcrs A h, .tcrs C h' => C.rowPtrs = A.rowPtrs ∧ C.colInds = A.colInds ∧ C.nnz = A.nnz ∧ h = h'
  | _, _ => True

/-- the result is the same object: same class, extents, place and stored positions, and memory outside of it
untouched -/
def Kept (v v' : Val α) : Prop :=
  match v, v' with
  | .mat D, .mat D' => D'.rowN = D.rowN ∧ D'.colN = D.colN ∧ D'.first = D.first ∧
      ∀ k, k < D.first ∨ D.first + D.nnz ≤ k → D'.val[k]? = D.val[k]?
  | .crs A, .crs A' => A'.mat.rowN = A.mat.rowN ∧ A'.mat.colN = A.mat.colN ∧ A'.mat.rowPtr = A.mat.rowPtr ∧
      A'.mat.colInd = A.mat.colInd ∧ A'.hash = A.hash ∧ ∀ k, A.mat.nnz ≤ k → A'.mat.val[k]? = A.mat.val[k]?
  | .ten T, .ten T' => T'.shape = T.shape ∧ T'.first = T.first ∧ T'.nnz = T.nnz ∧
      ∀ k, k < T.first ∨ T.first + T.nnz ≤ k → T'.val[k]? = T.val[k]?
  | .tcrs T h, .tcrs T' h' => T'.shape = T.shape ∧ T'.rowPtrs = T.rowPtrs ∧ T'.colInds = T.colInds ∧ h' = h ∧
      ∀ k, k < T.first ∨ T.first + T.nnz ≤ k → T'.val[k]? = T.val[k]?
  | _, _ => False

/-- `times` multiplies, `adds` adds -/
def combine [Add α] [Mul α] (f : Fn) (u v : α) : α :=
  if f = .times_row ∨ f = .times_col then u * v else u + v

end Verif.LineOp
