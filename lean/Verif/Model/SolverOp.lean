import Verif.Model.LinOp
import Verif.Model.LinDiag

/-! A `LinearOperator` as the matrix argument of a solver. -/

namespace Verif.Solver

variable {α : Type} [Field α]

/-- The LinearOperator at address `a` as solver argument (instances `LinearOperator<double>`, `<float>` in cg.cpp:97-103,
bicgstab.cpp:147-152, jacobi.cpp:46-49): `blas::matvec(A, x, q)` into a vector of `A.get_row()` elements
(linearoperator_matvec.hpp), and `A.diag(d)` into a vector of `A.get_row()` elements (jacobi.cpp:20-24, 100-107;
linearoperator_getvec.cpp:9-54). `depth` bounds the nesting of callbacks, `ord` are the schedules of the kernels the
callbacks call, `work` and `sched` the distribution and the schedule of the loop of `diag`. -/
def ofOp (ord : Nat → List Nat) (depth : Nat) (σ : LinOp.Store α) (a : Nat) (L : LinOp.Op α)
    (work : Nat → List Nat) (sched : List Nat) : Mat α where
  row := L.rowN
  col := L.colN
  mv := fun x => LinOp.matvec ord depth σ false a x L.rowN
  diag := do
    let s ← LinDiag.diagVector L.rowN L.colN (fun x => LinOp.matvec ord depth σ false a x L.rowN)
      (List.replicate L.rowN 0) L.rowN work sched
    .ok s.mem

/-- A client program: `LinearOperator A1(B), A2(C), A3(n, n), A4(n, n); vml::mul(A2, s, A3); blas::matadd(A1, A3, A4);
solver.solve(A4, x, b)` with CG and no preconditioner, that is, a solve with `B + s C` that never forms this matrix. The
objects live at the addresses 0-3 (operators), 4, 5 (matrices) and 6 (scalar). -/
def sumCg (N : Num α) (cfg : Cfg α) (ord : Nat → List Nat) (depth : Nat) (work : Nat → List Nat) (sched : List Nat)
    (n : Nat) (B C : Crs α) (s : α) (x b : List α) : Res (Out α) := do
  let blank : LinOp.Op α := ⟨n, n, none, none, none, none⟩
  let σ : LinOp.Store α := fun
    | 0 => .op blank
    | 1 => .op blank
    | 2 => .op blank
    | 3 => .op blank
    | 4 => .crs B
    | 5 => .crs C
    | 6 => .scalar s
    | _ => .dead
  let σ ← LinOp.convertCrs σ 0 4
  let σ ← LinOp.convertCrs σ 1 5
  let σ ← LinOp.scalarOp .smul σ 1 6 2
  let σ ← LinOp.addsub .add σ 0 2 3
  let L ← LinOp.getOp σ 3
  CG.solve N cfg (ofOp ord depth σ 3 L work sched) noPrecond x b

end Verif.Solver
