import Verif.Model.Vec

/-! What a user sees of a `monolish::vector`, and the list a sequence of calls should produce. -/

namespace Verif.Vec

variable {α : Type}

/-- the elements `v[0], ..., v[size()-1]` -/
def contents (v : Vec α) : List α := (v.val.drop v.first).take v.nnz

/-- storage invariant of a vector that owns its buffer -/
structure WF (v : Vec α) : Prop where
  created : v.created = true
  lenV : v.val.length = v.alloc
  nnz_le : v.nnz ≤ v.alloc
  first0 : v.first = 0

end Verif.Vec

namespace Verif.Spec

/-- one call on a mathematical list: `push_back` appends, `resize` truncates or pads -/
def listOp {α : Type} (l : List α) : Vec.Op α → List α
  | .push x => l ++ [x]
  | .resize N x => if N ≤ l.length then l.take N else l ++ List.replicate (N - l.length) x

/-- a program of calls on a mathematical list -/
def listRun {α : Type} (ops : List (Vec.Op α)) (l : List α) : List α := ops.foldl listOp l

end Verif.Spec
