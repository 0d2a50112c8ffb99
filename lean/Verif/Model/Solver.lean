import Verif.Core.Res

/-!
Model of the iterative solvers `equation::CG`, `equation::BiCGSTAB`, `equation::Jacobi` (host side).

Scalars are any type with the operations in `Num`, so that the same program can be run on real
numbers, on real numbers extended by IEEE special values, or on anything else. Vectors are plain
lists (a `vector` that owns its storage). The matrix is given by its `matvec`, the preconditioner by
its `apply_precond`. Not modelled: device memory, the residual history stream, the logger (C35).
-/

namespace Verif.Solver

/-- The scalar operations the solvers use. `sum` is the accumulation done by `dot`/`nrm2` on the list
of products: one arbitrary summation function (any fixed order and grouping).
src/blas/vector/dot.hpp, nrm2.hpp; C++ built-in operators; std::isnan; std::sqrt -/
structure Num (α : Type) where
  zero : α
  one : α
  add : α → α → α
  sub : α → α → α
  mul : α → α → α
  div : α → α → α
  neg : α → α
  sqrt : α → α
  lt : α → α → Bool
  isNaN : α → Bool
  isZero : α → Bool
  sum : List α → α

namespace Num

variable {α : Type} (N : Num α)

/-- `blas::dot(x, y)`: src/blas/vector/dot.hpp:6-37 (size check, then the sum of products) -/
def dot (x y : List α) : Res α := do
  cassert (decide (x.length = y.length))
  .ok (N.sum (List.zipWith N.mul x y))

/-- `blas::nrm2(x)`: src/blas/vector/nrm2.hpp:6-32 -/
def nrm2 (x : List α) : α := N.sqrt (N.sum (List.zipWith N.mul x x))

/-- `blas::axpy(a, x, y)`: `y := a x + y`; src/blas/vector/axpy.hpp:7-34 -/
def axpy (a : α) (x y : List α) : Res (List α) := do
  cassert (decide (x.length = y.length))
  .ok (List.zipWith (fun u v => N.add (N.mul a u) v) x y)

/-- `blas::xpay(a, x, y)`: `y := x + a y`; src/blas/vector/xpay.hpp:7-36 -/
def xpay (a : α) (x y : List α) : Res (List α) := do
  cassert (decide (x.length = y.length))
  .ok (List.zipWith (fun u v => N.add u (N.mul a v)) x y)

/-- `blas::axpyz(a, x, y, z)`: `z := a x + y`, `z` of size `nz`; src/blas/vector/axpyz.hpp:7-37 -/
def axpyz (a : α) (x y : List α) (nz : Nat) : Res (List α) := do
  cassert (decide (x.length = y.length ∧ x.length = nz))
  .ok (List.zipWith (fun u v => N.add (N.mul a u) v) x y)

/-- `blas::copy(x, y)`, `y` of size `ny`: src/blas/vector/copy.hpp:5-16 -/
def copyV (x : List α) (ny : Nat) : Res (List α) := do
  cassert (decide (x.length = ny))
  .ok x

/-- `vml::sub(x, y, z)`, `z` of size `nz`: src/vml/vector/arithmetic/vecsub.hpp:6-36 -/
def vsub (x y : List α) (nz : Nat) : Res (List α) := do
  cassert (decide (x.length = y.length ∧ x.length = nz))
  .ok (List.zipWith N.sub x y)

/-- `vml::add(x, y, z)`, `z` of size `nz`: src/vml/vector/arithmetic/vecadd.hpp:6-36 -/
def vadd (x y : List α) (nz : Nat) : Res (List α) := do
  cassert (decide (x.length = y.length ∧ x.length = nz))
  .ok (List.zipWith N.add x y)

/-- `vml::mul(x, y, z)`, `z` of size `nz`: src/vml/vector/arithmetic/vecmul.hpp:6-36 -/
def vmul (x y : List α) (nz : Nat) : Res (List α) := do
  cassert (decide (x.length = y.length ∧ x.length = nz))
  .ok (List.zipWith N.mul x y)

/-- `vml::reciprocal(d, d)`: src/internal/arithmetic/double_arithmetic.cpp:308-331 -/
def reciprocal (d : List α) : List α := d.map (fun u => N.div N.one u)

end Num

variable {α : Type}

/-- The matrix argument of a solver: its sizes, `blas::matvec(A, x, y)` as a function of `x` (the
result vector has been allocated with `row` elements), and `A.diag(d)`. -/
structure Mat (α : Type) where
  row : Nat
  col : Nat
  mv : List α → Res (List α)
  diag : Res (List α)

/-- The settings and the result fields of `solver::solver`: include/monolish_solver.hpp:29-68.
`prevIter`, `prevResid` are the values of `final_iter`, `final_resid` before the call. -/
structure Cfg (α : Type) where
  lib : Nat := 0
  tol : α
  miniter : Nat := 0
  maxiter : Nat
  residMethod : Nat := 0
  omega : α
  prevIter : Nat := 0
  prevResid : α

/-- What a call leaves behind: the return code, the vector `x`, `get_final_iter()`,
`get_final_residual()`. -/
structure Out (α : Type) where
  status : Int
  x : List α
  finalIter : Nat
  finalResid : α
  deriving DecidableEq, Repr

/-- include/monolish/common/monolish_common.hpp:16-21 -/
def SUCCESS : Int := 0
def SIZE_ERROR : Int := -1
def MAXITER : Int := -2
def BREAKDOWN : Int := -3
def RESIDUAL_NAN : Int := -4
def NOT_IMPL : Int := -10

/-- `util::solver_check`: src/utils/equation_utils.cpp:7-29. The `std::runtime_error(...)` statements
only build and drop a temporary object; every branch returns 0 or `false`. -/
def solverCheck (err : Int) : Bool :=
  if err = SUCCESS then false
  else if err = MAXITER then false
  else if err = BREAKDOWN then false
  else if err = SIZE_ERROR then false
  else if err = RESIDUAL_NAN then false
  else if err = NOT_IMPL then false
  else false

/-- `solver::get_residual(r)`: src/equation/equation.cpp:7-17 -/
def getResidual (N : Num α) (cfg : Cfg α) (r : List α) : Res α :=
  match cfg.residMethod with
  | 0 => .ok (N.nrm2 r)
  | _ => .throw "error vector size is not same"

/-- The checks at the end of an iteration, shared by CG and BiCGSTAB (cg.cpp:63-81,
bicgstab.cpp:106-125) and, with another `resid`, by Jacobi and SOR (jacobi.cpp:125-140, sor.cpp).
`none`: go on. -/
def stopCheck (N : Num α) (cfg : Cfg α) (iter : Nat) (resid : α) (x r : List α) :
    Res (Option (Out α)) :=
  if N.lt resid cfg.tol && decide (cfg.miniter ≤ iter + 1) then do
    let fr ← getResidual N cfg r
    .ok (some { status := SUCCESS, x := x, finalIter := iter + 1, finalResid := fr })
  else if N.isNaN resid then do
    let fr ← getResidual N cfg r
    .ok (some { status := RESIDUAL_NAN, x := x, finalIter := iter + 1, finalResid := fr })
  else .ok none

/-- After the loop: cg.cpp:84-87, bicgstab.cpp:129-132, jacobi.cpp:143-146 -/
def atMaxiter (N : Num α) (cfg : Cfg α) (x r : List α) : Res (Out α) := do
  let fr ← getResidual N cfg r
  .ok { status := MAXITER, x := x, finalIter := cfg.maxiter, finalResid := fr }

/-! ### CG -/

/-- the vectors kept between iterations of CG (`q` is recomputed) -/
structure CG.St (α : Type) where
  x : List α
  r : List α
  z : List α
  p : List α

/-- Body of the loop up to the new direction: cg.cpp:47-60 -/
def CG.step (N : Num α) (A : Mat α) (pc : List α → Res (List α)) (s : CG.St α) : Res (CG.St α) := do
  let q ← A.mv s.p
  let tmp ← N.dot s.z s.r
  let pq ← N.dot s.p q
  let alpha := N.div tmp pq
  let x ← N.axpy alpha s.p s.x
  let r ← N.axpy (N.neg alpha) q s.r
  let z ← pc r
  let zr ← N.dot z r
  let beta := N.div zr tmp
  let p ← N.xpay beta z s.p
  .ok { x := x, r := r, z := z, p := p }

/-- The loop: cg.cpp:46-87; the first argument counts the remaining iterations -/
def CG.loop (N : Num α) (cfg : Cfg α) (A : Mat α) (pc : List α → Res (List α)) :
    Nat → Nat → CG.St α → Res (Out α)
  | 0, _, s => atMaxiter N cfg s.x s.r
  | n + 1, iter, s => do
    let s ← CG.step N A pc s
    let resid ← getResidual N cfg s.r
    let o ← stopCheck N cfg iter resid s.x s.r
    match o with
    | some out => .ok out
    | none => CG.loop N cfg A pc n (iter + 1) s

/-- `r = b - A x`, `z = M r`, `p = z`: cg.cpp:27-44 -/
def CG.init (N : Num α) (A : Mat α) (pc : List α → Res (List α)) (x b : List α) : Res (CG.St α) := do
  let q ← A.mv x
  let r ← N.vsub b q A.row
  let z ← pc r
  let p ← Num.copyV z A.row
  .ok { x := x, r := r, z := z, p := p }

/-- `monolish_CG`: cg.cpp:12-88. `create` is `create_precond(A)`. -/
def CG.monolish (N : Num α) (cfg : Cfg α) (A : Mat α) (create : Res (List α → Res (List α)))
    (x b : List α) : Res (Out α) :=
  if A.row ≠ A.col then .throw "error, A.row != A.col"
  else do
    let pc ← create
    let s ← CG.init N A pc x b
    CG.loop N cfg A pc cfg.maxiter 0 s

/-- `CG::solve`: cg.cpp:106-117 -/
def CG.solve (N : Num α) (cfg : Cfg α) (A : Mat α) (create : Res (List α → Res (List α)))
    (x b : List α) : Res (Out α) :=
  if cfg.lib = 0 then CG.monolish N cfg A create x b
  else .ok { status := 0, x := x, finalIter := cfg.prevIter, finalResid := cfg.prevResid }

/-! ### BiCGSTAB -/

/-- the vectors and scalars kept between iterations of BiCGSTAB -/
structure BiCG.St (α : Type) where
  x : List α
  r : List α
  p : List α
  v : List α
  rhoOld : α
  alpha : α
  omega : α

/-- The new direction: bicgstab.cpp:61-71 -/
def BiCG.direction (N : Num α) (row iter : Nat) (s : BiCG.St α) (rho : α) : Res (List α) :=
  if iter = 0 then Num.copyV s.r row
  else do
    let beta := N.mul (N.div rho s.rhoOld) (N.div s.alpha s.omega)
    let p ← N.axpy (N.neg s.omega) s.v s.p
    N.xpay beta s.r p

/-- The loop: bicgstab.cpp:49-132; the first argument counts the remaining iterations -/
def BiCG.loop (N : Num α) (cfg : Cfg α) (A : Mat α) (pc : List α → Res (List α)) (r0 : List α) :
    Nat → Nat → BiCG.St α → Res (Out α)
  | 0, _, s => atMaxiter N cfg s.x s.r
  | n + 1, iter, s => do
    let rho ← N.dot s.r r0
    if N.isZero rho then
      let fr ← getResidual N cfg s.r
      .ok { status := BREAKDOWN, x := s.x, finalIter := iter + 1, finalResid := fr }
    else
      let p ← BiCG.direction N A.row iter s rho
      let phat ← pc p
      let v ← A.mv phat
      let vr0 ← N.dot v r0
      let alpha := N.div rho vr0
      let sv ← N.axpyz (N.neg alpha) v s.r A.row
      let shat ← pc sv
      let t ← A.mv shat
      let ts ← N.dot t sv
      let tt ← N.dot t t
      let omega := N.div ts tt
      if N.isZero omega then
        let fr ← getResidual N cfg s.r
        .ok { status := BREAKDOWN, x := s.x, finalIter := iter + 1, finalResid := fr }
      else
        let x ← N.axpy alpha phat s.x
        let x ← N.axpy omega shat x
        let r ← N.axpyz (N.neg omega) t sv A.row
        let resid ← getResidual N cfg r
        let o ← stopCheck N cfg iter resid x r
        match o with
        | some out => .ok out
        | none =>
          BiCG.loop N cfg A pc r0 n (iter + 1)
            { x := x, r := r, p := p, v := v, rhoOld := rho, alpha := alpha, omega := omega }

/-- `monolish_BiCGSTAB`: bicgstab.cpp:12-133 -/
def BiCG.monolish (N : Num α) (cfg : Cfg α) (A : Mat α) (create : Res (List α → Res (List α)))
    (x b : List α) : Res (Out α) :=
  if A.row ≠ A.col then .throw "error A.row != A.col"
  else do
    let pc ← create
    let q ← A.mv x
    let r ← N.vsub b q A.row
    BiCG.loop N cfg A pc r cfg.maxiter 0
      { x := x, r := r, p := List.replicate A.row N.zero, v := List.replicate A.row N.zero,
        rhoOld := N.one, alpha := N.one, omega := N.one }

/-- `BiCGSTAB::solve`: bicgstab.cpp:154-168 -/
def BiCG.solve (N : Num α) (cfg : Cfg α) (A : Mat α) (create : Res (List α → Res (List α)))
    (x b : List α) : Res (Out α) :=
  if cfg.lib = 0 then BiCG.monolish N cfg A create x b
  else .ok { status := 0, x := x, finalIter := cfg.prevIter, finalResid := cfg.prevResid }

/-! ### Jacobi -/

/-- The loop of `monolish_Jacobi`: jacobi.cpp:115-146. `binv` is `1 / nrm2(b)`, `d` the reciprocal
diagonal; `r` is only carried for the report after the loop. The result of `apply_precond(x, s)` is
overwritten by the following `copy(x, s)`; the call itself is kept. -/
def Jacobi.loop (N : Num α) (cfg : Cfg α) (A : Mat α) (pc : List α → Res (List α)) (b d : List α)
    (binv : α) : Nat → Nat → (x r : List α) → Res (Out α)
  | 0, _, x, r => atMaxiter N cfg x r
  | n + 1, iter, x, _ => do
    let _ ← pc x
    let s ← Num.copyV x A.row
    let t ← A.mv s
    let r ← N.axpyz (N.neg N.one) t b A.row
    let nrm := N.nrm2 r
    let r ← N.vmul r d A.row
    let x ← N.vadd x r x.length
    let nrm := N.mul nrm binv
    let o ← stopCheck N cfg iter nrm x r
    match o with
    | some out => .ok out
    | none => Jacobi.loop N cfg A pc b d binv n (iter + 1) x r

/-- `monolish_Jacobi`: jacobi.cpp:83-147 -/
def Jacobi.monolish (N : Num α) (cfg : Cfg α) (A : Mat α) (create : Res (List α → Res (List α)))
    (x b : List α) : Res (Out α) :=
  if A.row ≠ A.col then .throw "error, A.row != A.col"
  else do
    let d ← A.diag
    let pc ← create
    Jacobi.loop N cfg A pc b (N.reciprocal d) (N.div N.one (N.nrm2 b)) cfg.maxiter 0 x
      (List.replicate A.row N.zero)

/-- `Jacobi::solve`: jacobi.cpp:171-182 -/
def Jacobi.solve (N : Num α) (cfg : Cfg α) (A : Mat α) (create : Res (List α → Res (List α)))
    (x b : List α) : Res (Out α) :=
  if cfg.lib = 0 then Jacobi.monolish N cfg A create x b
  else .ok { status := 0, x := x, finalIter := cfg.prevIter, finalResid := cfg.prevResid }

/-! ### Preconditioners -/

/-- `none`: the default of `precondition` (`z = r`, include/monolish_solver.hpp) and
`equation::none` (src/equation/none.cpp) -/
def noPrecond : Res (List α → Res (List α)) := .ok (fun r => .ok r)

/-- `Jacobi::create_precond` and `apply_precond`: jacobi.cpp:12-31, 52-62 -/
def jacobiPrecond (N : Num α) (A : Mat α) : Res (List α → Res (List α)) :=
  if A.row ≠ A.col then .throw "error A.row != A.col"
  else do
    let d ← A.diag
    .ok (fun r => N.vmul (N.reciprocal d) r r.length)

/-- `util::get_residual_l2`: src/utils/equation_utils.cpp:30-110. The scratch vector has `x.size()`
elements, and `blas::matvec` asserts `A.get_row() == tmp.size()`, `A.get_col() == x.size()`. -/
def residualL2 (N : Num α) (A : Mat α) (x y : List α) : Res α := do
  cassert (decide (A.row = x.length)) "A.get_row() == y.size()"
  cassert (decide (A.col = x.length)) "A.get_col() == x.size()"
  let t ← A.mv x
  let t ← N.vsub y t x.length
  .ok (N.nrm2 t)

end Verif.Solver
