import Verif.Model.Prog

/-!
The example `examples/cpu_only/cg_impl/cg.cpp`: conjugate gradients written by a user with the public functions of
`blas` and `vml`, and its `main`.
-/

namespace Verif.MyCg

open Verif.Solver

variable {α : Type}

/-- the vectors kept between iterations -/
structure St (α : Type) where
  x : List α
  r : List α
  p : List α

/-- what the function leaves behind: `x`, the printed lines (`iter + 1`, `resid`), and whether the logger's
`solver_out` was called -/
structure Out (α : Type) where
  x : List α
  printed : List (Nat × α)
  closed : Bool
  deriving DecidableEq, Repr

/-- the body of the loop up to the new direction: cg_impl/cg.cpp:34-47 -/
def step (N : Num α) (A : Mat α) (s : St α) : Res (St α) := do
  let q ← A.mv s.p
  let tmp ← N.dot s.r s.r
  let pq ← N.dot s.p q
  let alpha := N.div tmp pq
  let x ← N.axpy alpha s.p s.x
  let r ← N.axpy (N.neg alpha) q s.r
  let rr ← N.dot r r
  let beta := N.div rr tmp
  let p ← N.xpay beta r s.p
  .ok { x := x, r := r, p := p }

/-- the loop: cg_impl/cg.cpp:33-62; the first argument counts the remaining iterations. The branch for NaN
(57-59) returns without `solver_out`. -/
def loop (N : Num α) (tol : α) (A : Mat α) : Nat → Nat → St α → List (Nat × α) → Res (Out α)
  | 0, _, s, out => .ok { x := s.x, printed := out, closed := true }
  | n + 1, iter, s, out => do
    let s ← step N A s
    let resid := N.nrm2 s.r
    let out := out ++ [(iter + 1, resid)]
    if N.lt resid tol then .ok { x := s.x, printed := out, closed := true }
    else if N.isNaN resid then .ok { x := s.x, printed := out, closed := false }
    else loop N tol A n (iter + 1) s out

/-- `my_cg(A, x, b)`: cg_impl/cg.cpp:12-63 -/
def myCg (N : Num α) (tol : α) (A : Mat α) (x b : List α) : Res (Out α) := do
  let q ← A.mv x
  let r ← N.vsub b q A.row
  let p ← Num.copyV r A.row
  loop N tol A A.row 0 { x := x, r := r, p := p } []

/-- `main`: cg_impl/cg.cpp:65-106 with the size, the matrix generator, the start vector and right-hand side as
parameters -/
def main [Zero α] [One α] [Add α] [Mul α] (N : Num α) (tol : α) (gen : Res (Coo α))
    (order zo : Nat → List Nat) (x b : Nat → α) : Res (Out α) := do
  let coo ← gen
  let A ← Crs.ofCoo coo
  myCg N tol (ofCrs (order A.rowN) (zo A.rowN) A) (Prog.fill A.rowN x) (Prog.fill A.rowN b)

end Verif.MyCg
