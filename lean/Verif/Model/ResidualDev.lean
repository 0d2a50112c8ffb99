import Verif.Model.SolverDev

/-!
`util::get_residual_l2` for data that may be on the device: src/utils/equation_utils.cpp:32-70 (the three versions, for Dense,
CRS and LinearOperator, are the same text).
-/

namespace Verif.Solver.Dev

open Verif.Solver

variable {α : Type}

/-- `get_residual_l2_core(A, x, y)`: equation_utils.cpp:32-43. The scratch vector (here `V.t`) has `x.size()` elements
(`zeros`) and is sent to the device at once (line 37), wherever the arguments are; the sizes are asserted by `matvec`. -/
def residualL2 (N : Num α) (gpu : Bool) (A : MatD α) (zeros : List α) (s : St α) : Res α := do
  let s := (s.new .t zeros).send gpu .t
  cassert (decide (A.row = (s.get .t).length)) "A.get_row() == y.size()"
  cassert (decide (A.col = (s.get .x).length)) "A.get_col() == x.size()"
  let s ← matvec A .x .t s
  let s ← sub N .b .t .t s
  .ok (N.nrm2 (s.get .t))

end Verif.Solver.Dev
