import Verif.Model.Sor

/-!
# The iterative solvers in an MPI build

In an MPI build `blas::dot` and `blas::nrm2` end with `Allreduce` over all processes (`src/blas/vector/dot.hpp:34-37,
71-74`, `nrm2.hpp:29-32, 61-64`, `src/mpi/allreduce.hpp:8-20`); everything else is local. So a solver called by every
process with its own matrix and vectors is a program that communicates.

Simplifications: `MPI_Allreduce` hands the same value to all processes (`comb` of the contributed values), it accepts equal
send and receive buffers (see C63); a process that has left the solver contributes to no further reduction.
-/

namespace Verif.MpiSolver

open Verif.Solver

variable {α β γ : Type}

/-- A process: it has finished with a result, or it waits in `Allreduce` with its contribution and goes on with the
result. -/
inductive Proc (α β : Type)
  | ret (r : Res β)
  | red (v : α) (k : α → Proc α β)

namespace Proc

/-- sequencing; an error ends the process -/
def bind : Proc α β → (β → Proc α γ) → Proc α γ
  | .ret (.ok b), f => f b
  | .ret (.throw e), _ => .ret (.throw e)
  | .ret (.abort e), _ => .ret (.abort e)
  | .ret (.ub e), _ => .ret (.ub e)
  | .red v k, f => .red v (fun c => (k c).bind f)

instance : Monad (Proc α) where
  pure b := .ret (.ok b)
  bind := Proc.bind

end Proc

/-- a local computation -/
def loc (r : Res β) : Proc α β := .ret r

/-- `comm.Allreduce(v)`: `src/mpi/allreduce.hpp:8-20` -/
def allreduce (v : α) : Proc α α := .red v (fun c => .ret (.ok c))

/-- All processes together. `comb` is what `MPI_Allreduce` computes from the contributions. They complete if they arrive at
each `Allreduce` together, and at the end together. -/
inductive Completes {ι : Type} (comb : (ι → α) → α) : (ι → Proc α β) → (ι → Res β) → Prop
  | done (r : ι → Res β) : Completes comb (fun i => .ret (r i)) r
  | step (v : ι → α) (k : ι → α → Proc α β) (r : ι → Res β) :
      Completes comb (fun i => k i (comb v)) r → Completes comb (fun i => .red (v i) (k i)) r

variable (N : Num α)

/-- `blas::dot(x, y)`: `dot.hpp:4-41` -/
def dot (x y : List α) : Proc α α := do
  loc (cassert (decide (x.length = y.length)))
  allreduce (N.sum (List.zipWith N.mul x y))

/-- `blas::nrm2(x)`: `nrm2.hpp:6-36` -/
def nrm2 (x : List α) : Proc α α := do
  let s ← allreduce (N.sum (List.zipWith N.mul x x))
  pure (N.sqrt s)

/-- `solver::get_residual` (`include/monolish_solver.hpp:57-68`) -/
def getResidual (cfg : Cfg α) (r : List α) : Proc α α :=
  match cfg.residMethod with
  | 0 => nrm2 N r
  | _ => loc (.throw "error vector size is not same")

/-- `Solver.stopCheck` -/
def stopCheck (cfg : Cfg α) (iter : Nat) (resid : α) (x r : List α) : Proc α (Option (Out α)) :=
  if N.lt resid cfg.tol && decide (cfg.miniter ≤ iter + 1) then do
    let fr ← getResidual N cfg r
    pure (some { status := SUCCESS, x := x, finalIter := iter + 1, finalResid := fr })
  else if N.isNaN resid then do
    let fr ← getResidual N cfg r
    pure (some { status := RESIDUAL_NAN, x := x, finalIter := iter + 1, finalResid := fr })
  else pure none

/-- `Solver.atMaxiter` -/
def atMaxiter (cfg : Cfg α) (x r : List α) : Proc α (Out α) := do
  let fr ← getResidual N cfg r
  pure { status := MAXITER, x := x, finalIter := cfg.maxiter, finalResid := fr }

/-- loop of `monolish_CG`: cg.cpp:46-87 -/
def cgLoop (cfg : Cfg α) (A : Mat α) (pc : List α → Res (List α)) : Nat → Nat → CG.St α → Proc α (Out α)
  | 0, _, s => atMaxiter N cfg s.x s.r
  | n + 1, iter, s => do
    let q ← loc (A.mv s.p)
    let tmp ← dot N s.z s.r
    let pq ← dot N s.p q
    let alpha := N.div tmp pq
    let x ← loc (N.axpy alpha s.p s.x)
    let r ← loc (N.axpy (N.neg alpha) q s.r)
    let z ← loc (pc r)
    let zr ← dot N z r
    let beta := N.div zr tmp
    let p ← loc (N.xpay beta z s.p)
    let resid ← getResidual N cfg r
    let o ← stopCheck N cfg iter resid x r
    match o with
    | some out => pure out
    | none => cgLoop cfg A pc n (iter + 1) { x := x, r := r, z := z, p := p }

/-- `CG::solve`, `monolish_CG`: cg.cpp:12-88, 106-117 -/
def cg (cfg : Cfg α) (A : Mat α) (create : Res (List α → Res (List α))) (x b : List α) : Proc α (Out α) :=
  if cfg.lib = 0 then
    if A.row ≠ A.col then loc (.throw "error, A.row != A.col")
    else do
      let pc ← loc create
      let q ← loc (A.mv x)
      let r ← loc (N.vsub b q A.row)
      let z ← loc (pc r)
      let p ← loc (Num.copyV z A.row)
      cgLoop N cfg A pc cfg.maxiter 0 { x := x, r := r, z := z, p := p }
  else loc (.ok { status := 0, x := x, finalIter := cfg.prevIter, finalResid := cfg.prevResid })

/-- loop of `monolish_BiCGSTAB`: bicgstab.cpp:49-132 -/
def bicgLoop (cfg : Cfg α) (A : Mat α) (pc : List α → Res (List α)) (r0 : List α) :
    Nat → Nat → BiCG.St α → Proc α (Out α)
  | 0, _, s => atMaxiter N cfg s.x s.r
  | n + 1, iter, s => do
    let rho ← dot N s.r r0
    if N.isZero rho then do
      let fr ← getResidual N cfg s.r
      pure { status := BREAKDOWN, x := s.x, finalIter := iter + 1, finalResid := fr }
    else do
      let p ← loc (BiCG.direction N A.row iter s rho)
      let phat ← loc (pc p)
      let v ← loc (A.mv phat)
      let vr0 ← dot N v r0
      let alpha := N.div rho vr0
      let sv ← loc (N.axpyz (N.neg alpha) v s.r A.row)
      let shat ← loc (pc sv)
      let t ← loc (A.mv shat)
      let ts ← dot N t sv
      let tt ← dot N t t
      let omega := N.div ts tt
      if N.isZero omega then do
        let fr ← getResidual N cfg s.r
        pure { status := BREAKDOWN, x := s.x, finalIter := iter + 1, finalResid := fr }
      else do
        let x ← loc (N.axpy alpha phat s.x)
        let x ← loc (N.axpy omega shat x)
        let r ← loc (N.axpyz (N.neg omega) t sv A.row)
        let resid ← getResidual N cfg r
        let o ← stopCheck N cfg iter resid x r
        match o with
        | some out => pure out
        | none =>
          bicgLoop cfg A pc r0 n (iter + 1)
            { x := x, r := r, p := p, v := v, rhoOld := rho, alpha := alpha, omega := omega }

/-- `BiCGSTAB::solve`, `monolish_BiCGSTAB`: bicgstab.cpp:12-133, 154-168 -/
def bicg (cfg : Cfg α) (A : Mat α) (create : Res (List α → Res (List α))) (x b : List α) : Proc α (Out α) :=
  if cfg.lib = 0 then
    if A.row ≠ A.col then loc (.throw "error A.row != A.col")
    else do
      let pc ← loc create
      let q ← loc (A.mv x)
      let r ← loc (N.vsub b q A.row)
      bicgLoop N cfg A pc r cfg.maxiter 0
        { x := x, r := r, p := List.replicate A.row N.zero, v := List.replicate A.row N.zero,
          rhoOld := N.one, alpha := N.one, omega := N.one }
  else loc (.ok { status := 0, x := x, finalIter := cfg.prevIter, finalResid := cfg.prevResid })

/-- loop of `monolish_Jacobi`: jacobi.cpp:115-146 -/
def jacobiLoop (cfg : Cfg α) (A : Mat α) (pc : List α → Res (List α)) (b d : List α) (binv : α) :
    Nat → Nat → (x r : List α) → Proc α (Out α)
  | 0, _, x, r => atMaxiter N cfg x r
  | n + 1, iter, x, _ => do
    let _ ← loc (pc x)
    let s ← loc (Num.copyV x A.row)
    let t ← loc (A.mv s)
    let r ← loc (N.axpyz (N.neg N.one) t b A.row)
    let nrm ← nrm2 N r
    let r ← loc (N.vmul r d A.row)
    let x ← loc (N.vadd x r x.length)
    let nrm := N.mul nrm binv
    let o ← stopCheck N cfg iter nrm x r
    match o with
    | some out => pure out
    | none => jacobiLoop cfg A pc b d binv n (iter + 1) x r

/-- `Jacobi::solve`, `monolish_Jacobi`: jacobi.cpp:83-147, 171-182 (`nrm2(b)`: :104) -/
def jacobi (cfg : Cfg α) (A : Mat α) (create : Res (List α → Res (List α))) (x b : List α) : Proc α (Out α) :=
  if cfg.lib = 0 then
    if A.row ≠ A.col then loc (.throw "error, A.row != A.col")
    else do
      let bnrm2 ← nrm2 N b
      let d ← loc A.diag
      let pc ← loc create
      jacobiLoop N cfg A pc b (N.reciprocal d) (N.div N.one bnrm2) cfg.maxiter 0 x (List.replicate A.row N.zero)
  else loc (.ok { status := 0, x := x, finalIter := cfg.prevIter, finalResid := cfg.prevResid })

/-- loop of `monolish_SOR`: sor.cpp:122-157 -/
def sorLoop (cfg : Cfg α) (A : Mat α) (lower : List α → List α → List α → Res (List α))
    (pc : List α → Res (List α)) (b d : List α) (binv : α) : Nat → Nat → (x r : List α) → Proc α (Out α)
  | 0, _, x, r => atMaxiter N cfg x r
  | n + 1, iter, x, _ => do
    let s ← loc (pc x)
    let t ← loc (A.mv s)
    let r ← loc (N.axpyz (N.neg N.one) t b A.row)
    let nrm ← nrm2 N r
    let t ← loc (lower d t r)
    let x ← loc (N.axpy N.one t x)
    let nrm := N.mul nrm binv
    let o ← stopCheck N cfg iter nrm x r
    match o with
    | some out => pure out
    | none => sorLoop cfg A lower pc b d binv n (iter + 1) x r

/-- `SOR::solve`, `monolish_SOR`: sor.cpp:91-163, 184-196 -/
def sor (cfg : Cfg α) (A : Mat α) (lower : List α → List α → List α → Res (List α))
    (create : Res (List α → Res (List α))) (x b : List α) : Proc α (Out α) :=
  if cfg.lib = 0 then
    if A.row ≠ A.col then loc (.throw "error, A.row != A.col")
    else do
      let d ← loc A.diag
      let d := N.reciprocal (d.map (N.mul (N.div N.one cfg.omega)))
      let bnrm2 ← nrm2 N b
      let pc ← loc create
      sorLoop N cfg A lower pc b d (N.div N.one bnrm2) cfg.maxiter 0 x (List.replicate A.row N.zero)
  else loc (.ok { status := 0, x := x, finalIter := cfg.prevIter, finalResid := cfg.prevResid })

end Verif.MpiSolver
