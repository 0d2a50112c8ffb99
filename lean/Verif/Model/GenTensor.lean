import Verif.Model.TensorCoo

/-!
# `random_structure_tensor`

src/utils/create_tensor/random_tensor.cpp: three overloads (shapes of two, three and four extents). The random engine is
an arbitrary stream of draws, as in Model/Gen.lean.
-/

namespace Verif
namespace Gen

variable {α : Type}

/-- The innermost loop, random_tensor.cpp:25-30, 65-70, 107-112 (`pre` is `{i}`, `{i, j}`, `{t, i, j}`):
`for (k = 0; k < nnzrow; k++) { c = dist_pos(rng); if (tens.at({pre, c}) != 0) k--; tens.insert({pre, c}, val); }`
`left` is `nnzrow - k`; `k` is unsigned, and `k--` at 0 followed by `k++` gives 0 again. `none`: the draws are used up
and the loop has not finished. -/
def lineT [Zero α] [DecidableEq α] (pre : List Nat) (val : α) :
    List Nat → (left : Nat) → TCoo α → Res (Option (List Nat × TCoo α))
  | ds, 0, T => .ok (some (ds, T))
  | [], _ + 1, _ => .ok none
  | c :: ds, left + 1, T => do
    let x ← T.at_ (pre ++ [c])
    let T ← T.insert (pre ++ [c]) val
    if x ≠ 0 then lineT pre val ds (left + 1) T else lineT pre val ds left T

/-- the values the outer loop variables take, in order: random_tensor.cpp:23, 62-63, 103-105 -/
def loopIndices : List Nat → List (List Nat)
  | [] => [[]]
  | m :: ms => (List.range m).flatMap fun i => (loopIndices ms).map (i :: ·)

/-- the nested outer loops as one loop over their index values -/
def linesT [Zero α] [DecidableEq α] (nnzrow : Nat) (val : α) :
    (lines : List (List Nat)) → List Nat → TCoo α → Res (Option (List Nat × TCoo α))
  | [], ds, T => .ok (some (ds, T))
  | pre :: ls, ds, T => do
    match ← lineT pre val ds nnzrow T with
    | none => .ok none
    | some (ds, T) => linesT nnzrow val ls ds T

/-- the common body of the three overloads; `outer` holds all extents but the last (`L`) -/
def randomTensor [Zero α] [DecidableEq α] (outer : List Nat) (L nnzrow : Nat) (val : α) (draws : List Nat) :
    Res (Option (TCoo α)) :=
  if L ≤ nnzrow then .throw "error nnzrow <= tensor size"
  else do
    match ← linesT nnzrow val (loopIndices outer) draws (TCoo.new (outer ++ [L])) with
    | none => .ok none
    | some (_, T) => do
      let T ← T.sort true
      .ok (some T)

/-- `random_structure_tensor(M, N, nnzrow, val)`: random_tensor.cpp:7-38 -/
def randomTensor2 [Zero α] [DecidableEq α] (M N nnzrow : Nat) (val : α) (draws : List Nat) : Res (Option (TCoo α)) :=
  randomTensor [M] N nnzrow val draws

/-- `random_structure_tensor(M, N, L, nnzrow, val)`: random_tensor.cpp:46-79 -/
def randomTensor3 [Zero α] [DecidableEq α] (M N L nnzrow : Nat) (val : α) (draws : List Nat) : Res (Option (TCoo α)) :=
  randomTensor [M, N] L nnzrow val draws

/-- `random_structure_tensor(K, M, N, L, nnzrow, val)`: random_tensor.cpp:87-122 -/
def randomTensor4 [Zero α] [DecidableEq α] (K M N L nnzrow : Nat) (val : α) (draws : List Nat) :
    Res (Option (TCoo α)) :=
  randomTensor [K, M, N] L nnzrow val draws

end Gen
end Verif
