import Verif.Model.Solver
import Verif.Model.SolverMat

/-!
The SOR solver and preconditioner: src/equation/sor.cpp, src/equation/kernel/sor_kernel.hpp.
The kernels are sequential loops in the code as well. `int` indices are natural numbers (dimensions
below 2^31 assumed).
-/

namespace Verif.Solver

variable {α : Type}

/-! ### Kernels -/

/-- The inner loop of `sor_kernel_lower(CRS)` with its `break`: sor_kernel.hpp:13-19. `fuel` is the
number of remaining positions of the row. -/
def crsLowerRow (N : Num α) (A : Crs α) (x : List α) (i : Nat) : (fuel j : Nat) → α → Res α
  | 0, _, tmp => .ok tmp
  | m + 1, j, tmp => do
    let c ← rd A.colInd j
    if c < i then do
      let v ← rd A.val j
      let xv ← rd x c
      crsLowerRow N A x i m (j + 1) (N.sub tmp (N.mul v xv))
    else .ok tmp

/-- `sor_kernel_lower` for CRS: sor_kernel.hpp:5-23 -/
def crsLower (N : Num α) (A : Crs α) (D x b : List α) : Res (List α) :=
  forN A.rowN (fun i x => do
    let b0 ← rd b i
    let lo ← rd A.rowPtr i
    let hi ← rd A.rowPtr (i + 1)
    let tmp ← crsLowerRow N A x i (hi - lo) lo b0
    let d ← rd D i
    wr x i (N.mul tmp d)) x

/-- `sor_kernel_lower` for Dense: sor_kernel.hpp:25-39 (`A.data()` ignores the offset) -/
def denseLower (N : Num α) (A : Dense α) (D x b : List α) : Res (List α) :=
  forN A.rowN (fun i x => do
    let b0 ← rd b i
    let tmp ← forN i (fun j tmp => do
      let v ← rd A.val (i * A.colN + j)
      let xv ← rd x j
      .ok (N.sub tmp (N.mul v xv))) b0
    let d ← rd D i
    wr x i (N.mul tmp d)) x

/-- A downward loop `for (i = n - 1; i >= 0; i--)` -/
def forDown {σ : Type} : (n : Nat) → (body : Nat → σ → Res σ) → σ → Res σ
  | 0, _, s => .ok s
  | n + 1, body, s => do
    let s ← body n s
    forDown n body s

/-- First half of `sor_kernel_precond(CRS)`: sor_kernel.hpp:51-59 -/
def crsForward (N : Num α) (A : Crs α) (D x b : List α) : Res (List α) :=
  forN A.rowN (fun i x => do
    let b0 ← rd b i
    let tmp ← (do
      let lo ← rd A.rowPtr i
      let hi ← rd A.rowPtr (i + 1)
      forRange lo hi (fun j tmp => do
        let c ← rd A.colInd j
        if c < i then do
          let v ← rd A.val j
          let xv ← rd x c
          .ok (N.sub tmp (N.mul v xv))
        else .ok tmp) b0)
    let d ← rd D i
    wr x i (N.mul tmp d)) x

/-- Second half of `sor_kernel_precond(CRS)`: sor_kernel.hpp:60-68 -/
def crsBackward (N : Num α) (A : Crs α) (D x : List α) : Res (List α) :=
  forDown A.rowN (fun i x => do
    let tmp ← (do
      let lo ← rd A.rowPtr i
      let hi ← rd A.rowPtr (i + 1)
      forRange lo hi (fun j tmp => do
        let c ← rd A.colInd j
        if i < c then do
          let v ← rd A.val j
          let xv ← rd x c
          .ok (N.add tmp (N.mul v xv))
        else .ok tmp) N.zero)
    let d ← rd D i
    let xi ← rd x i
    wr x i (N.sub xi (N.mul tmp d))) x

/-- `sor_kernel_precond` for CRS: sor_kernel.hpp:41-72 -/
def crsPrecond (N : Num α) (A : Crs α) (D x b : List α) : Res (List α) := do
  let x ← crsForward N A D x b
  crsBackward N A D x

/-- The inner loop `for (j = A.get_col(); j > i; j--)` of the Dense kernel: sor_kernel.hpp:93-95.
`m` is the number of iterations left, the index read is `i + m`. -/
def denseBackRow (N : Num α) (A : Dense α) (x : List α) (i : Nat) : (m : Nat) → α → Res α
  | 0, tmp => .ok tmp
  | m + 1, tmp => do
    let v ← rd A.val (i * A.colN + (i + (m + 1)))
    let xv ← rd x (i + (m + 1))
    denseBackRow N A x i m (N.add tmp (N.mul v xv))

/-- `sor_kernel_precond` for Dense: sor_kernel.hpp:74-101 -/
def densePrecond (N : Num α) (A : Dense α) (D x b : List α) : Res (List α) := do
  let x ← denseLower N A D x b
  forDown A.rowN (fun i x => do
    let tmp ← denseBackRow N A x i (A.colN - i) N.zero
    let d ← rd D i
    let xi ← rd x i
    wr x i (N.sub xi (N.mul tmp d))) x

/-! ### Solver -/

/-- The loop of `monolish_SOR`: sor.cpp:122-157. `lower d t r` is `sor_kernel_lower(A, d, t, r)`. -/
def SOR.loop (N : Num α) (cfg : Cfg α) (A : Mat α)
    (lower : List α → List α → List α → Res (List α)) (pc : List α → Res (List α)) (b d : List α)
    (binv : α) : Nat → Nat → (x r : List α) → Res (Out α)
  | 0, _, x, r => atMaxiter N cfg x r
  | n + 1, iter, x, _ => do
    let s ← pc x
    let t ← A.mv s
    let r ← N.axpyz (N.neg N.one) t b A.row
    let nrm := N.nrm2 r
    let t ← lower d t r
    let x ← N.axpy N.one t x
    let nrm := N.mul nrm binv
    let o ← stopCheck N cfg iter nrm x r
    match o with
    | some out => .ok out
    | none => SOR.loop N cfg A lower pc b d binv n (iter + 1) x r

/-- `monolish_SOR`: sor.cpp:91-163 (`blas::scal` multiplies by `1 / omega`, then the reciprocal). -/
def SOR.monolish (N : Num α) (cfg : Cfg α) (A : Mat α)
    (lower : List α → List α → List α → Res (List α)) (create : Res (List α → Res (List α)))
    (x b : List α) : Res (Out α) :=
  if A.row ≠ A.col then .throw "error, A.row != A.col"
  else do
    let d ← A.diag
    let d := N.reciprocal (d.map (N.mul (N.div N.one cfg.omega)))
    let pc ← create
    SOR.loop N cfg A lower pc b d (N.div N.one (N.nrm2 b)) cfg.maxiter 0 x
      (List.replicate A.row N.zero)

/-- `SOR::solve`: sor.cpp:184-196 -/
def SOR.solve (N : Num α) (cfg : Cfg α) (A : Mat α)
    (lower : List α → List α → List α → Res (List α)) (create : Res (List α → Res (List α)))
    (x b : List α) : Res (Out α) :=
  if cfg.lib = 0 then SOR.monolish N cfg A lower create x b
  else .ok { status := 0, x := x, finalIter := cfg.prevIter, finalResid := cfg.prevResid }

/-- `SOR::create_precond` and `apply_precond`: sor.cpp:13-37, 60-68. `kernel M z r` is
`sor_kernel_precond(A, M, z, r)`; the output vector `z` holds zeros before the call (its contents are
overwritten before they are read, `C32_precond`). -/
def sorPrecond (N : Num α) (omega : α) (A : Mat α)
    (kernel : List α → List α → List α → Res (List α)) : Res (List α → Res (List α)) :=
  if A.row ≠ A.col then .throw "error A.row != A.col"
  else do
    let d ← A.diag
    let M := N.reciprocal (d.map (N.mul omega))
    .ok (fun r => kernel M (List.replicate A.row N.zero) r)

end Verif.Solver
