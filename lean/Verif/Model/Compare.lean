import Verif.Model.Vec

/-!
Model of the comparison operators, CPU side.

The element type is compared with decidable equality (`!=` of C++ on numbers other than NaN).
-/

namespace Verif

variable {α : Type}

/-- `internal::vequal(N, a, y)`: src/internal/arithmetic/integer_arithmetic.cpp:111-140,
double_arithmetic.cpp:277-305. The loop only ever clears the flag, so its result does not depend on
the order of iterations. -/
def vequal {β : Type} [DecidableEq β] (N : Nat) (a y : List β) : Res Bool :=
  forN N (fun i ans => do
    let u ← rd y i
    let w ← rd a i
    .ok (if u ≠ w then false else ans)) true

/-- `if (!vequal(...)) return false;` followed by `k` -/
def andThen (r k : Res Bool) : Res Bool := do
  let b ← r
  if b then k else .ok false

/-- `COO::equal` / `operator==`: src/utils/compare/compare_coo.cpp:9-64 -/
def Coo.equal [DecidableEq α] (A B : Coo α) : Res Bool :=
  if A.rowN ≠ B.rowN then .ok false
  else if A.colN ≠ B.colN then .ok false
  else andThen (vequal A.nnz A.val B.val)
    (andThen (vequal A.nnz A.colIdx B.colIdx)
      (andThen (vequal A.nnz A.rowIdx B.rowIdx) (.ok true)))

/-- `CRS::equal` / `operator==`: src/utils/compare/compare_crs.cpp:8-62 -/
def Crs.equal [DecidableEq α] (A B : Crs α) : Res Bool :=
  if A.rowN ≠ B.rowN then .ok false
  else if A.colN ≠ B.colN then .ok false
  else andThen (vequal A.nnz A.val B.val)
    (andThen (vequal A.nnz A.colInd B.colInd)
      (andThen (vequal A.nnz A.rowPtr B.rowPtr) (.ok true)))

/-- `Dense::equal` / `operator==`: src/utils/compare/compare_dense.cpp:9-43 -/
def Dense.equal [DecidableEq α] (A B : Dense α) : Res Bool :=
  if A.rowN ≠ B.rowN then .ok false
  else if A.colN ≠ B.colN then .ok false
  else if A.first ≠ B.first then .ok false
  else andThen (vequal A.nnz A.val B.val) (.ok true)

/-- `equal_core` for vectors: src/utils/compare/compare_vector.cpp:10-38 -/
def Vec.equal [DecidableEq α] (a b : Vec α) : Res Bool :=
  if a.nnz ≠ b.nnz then .ok false
  else andThen (vequal a.nnz (a.val.drop a.first) (b.val.drop b.first)) (.ok true)

/-- `util::is_same_size` for matrices: compare_coo.cpp:131-145, compare_crs.cpp:125-139 -/
def isSameSize (r c r' c' : Nat) : Bool := if r ≠ r' ∨ c ≠ c' then false else true

/-- `util::is_same_structure(COO, COO)`: compare_coo.cpp:98-122 -/
def Coo.isSameStructure (A B : Coo α) : Res Bool :=
  let ans := if A.rowN ≠ B.rowN ∨ A.colN ≠ B.colN then false else true
  andThen (vequal A.nnz A.colIdx B.colIdx)
    (andThen (vequal A.nnz A.rowIdx B.rowIdx) (.ok ans))

end Verif
