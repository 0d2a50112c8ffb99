import Verif.Model.TensorCrs
import Verif.Spec.TensorCooSpec
import Verif.Spec.CrsSpec

/-! How a user observes a `tensor_CRS`: a stack of CRS matrices over the last two axes. -/

namespace Verif

namespace Spec

/-- the slice a position belongs to: row-major place of all indices but the last two; `us` are the
extents of the leading axes -/
def sliceNo (us pos : List Nat) : Nat := rowMajor us (pos.take us.length)

/-- the last-but-one index of a position -/
def rowIx (us pos : List Nat) : Nat := pos.getD us.length 0

/-- the last index of a position -/
def colIx (us pos : List Nat) : Nat := pos.getD (us.length + 1) 0

variable {α : Type}

/-- the elements of `L` in slice `d`, as elements of a matrix, in the order of `L` -/
def sliceOf (us : List Nat) (L : List (TEntry α)) (d : Nat) : List (Entry α) :=
  (L.filter (fun e => sliceNo us e.1 == d)).map (fun e => (rowIx us e.1, colIx us e.1, e.2))

end Spec

namespace TCrs

variable {α : Type}

/-- where the values of slice `d` begin: after those of the slices before it -/
def offset (T : TCrs α) (d : Nat) : Nat := ((T.colInds.take d).map List.length).sum

/-- slice `d` as a CRS matrix with `R` rows and `C` columns -/
def slice (T : TCrs α) (R C d : Nat) : Crs α :=
  { rowN := R, colN := C, rowPtr := T.rowPtrs.getD d [], colInd := T.colInds.getD d [],
    val := (T.val.drop (T.first + T.offset d)).take (T.colInds.getD d []).length,
    nnz := (T.colInds.getD d []).length, alloc := (T.colInds.getD d []).length, created := true }

/-- A well-formed tensor of shape `us ++ [R, C]`: one memory-safe CRS matrix per slice, the values of
all slices one after the other. -/
structure Tiled (us : List Nat) (R C : Nat) (T : TCrs α) : Prop where
  shape : T.shape = us ++ [R, C]
  lenP : T.rowPtrs.length = Spec.volume us
  lenC : T.colInds.length = Spec.volume us
  total : T.offset (Spec.volume us) = T.nnz
  lenV : T.val.length = T.alloc
  window : T.first + T.nnz ≤ T.alloc
  tiled : ∀ d, d < Spec.volume us → (T.slice R C d).Tiled

end TCrs
end Verif
