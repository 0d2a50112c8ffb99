import Verif.Model.Sor
import Mathlib.Logic.Function.Basic

/-!
# The iterative solvers in a GPU build

In a GPU build every vector and matrix has a host copy, and a device copy while its status flag is set
(`Model/Device.lean` models the mapping of memory itself; C84: for whole, separate objects the flag says exactly whether
there is a device copy). The solvers send their working vectors, call functions that work on the side where all
arguments are, and (SOR) run kernels on the host copies through raw pointers.

Simplifications: device and host arithmetic are the same (`Num`); the structure arrays of a sparse matrix are equal on
both sides (no function changes them there); the destruction of the working vectors at the end is not modelled.
-/

namespace Verif.Solver.Dev

open Verif.Solver

variable {α : Type}

/-- The objects: the matrix, the two vector arguments, the vector `M` of the preconditioner, the working vectors of
the solvers. -/
inductive V
  | A | x | b | M | r | p | q | z | r0 | phat | s | shat | v | t | d
  deriving DecidableEq, Repr

/-- Host copies, device copies (meaningful where the flag is set), flags `get_device_mem_stat()`. -/
structure St (α : Type) where
  host : V → List α
  dev : V → List α
  on : V → Bool

namespace St

/-- the copy functions work on: the device copy while the object is on the device -/
def get (s : St α) (o : V) : List α := if s.on o then s.dev o else s.host o

/-- write it -/
def put (s : St α) (o : V) (l : List α) : St α :=
  if s.on o then { s with dev := Function.update s.dev o l } else { s with host := Function.update s.host o l }

/-- construction on the host, `vector_constructor.cpp:18-30` -/
def new (s : St α) (o : V) (l : List α) : St α :=
  { s with host := Function.update s.host o l, on := Function.update s.on o false }

/-- `send` (`src/utils/system/gpu_comm.cpp`): copy to the device (also if it is there
already); the body is empty in a CPU build -/
def send (gpu : Bool) (s : St α) (o : V) : St α :=
  if gpu then { s with dev := Function.update s.dev o (s.host o), on := Function.update s.on o true } else s

/-- `recv`: copy back and drop the device copy -/
def recv (gpu : Bool) (s : St α) (o : V) : St α :=
  if gpu && s.on o then
    { s with host := Function.update s.host o (s.dev o), on := Function.update s.on o false }
  else s

/-- `nonfree_recv`: copy back, keep the device copy -/
def nonfreeRecv (gpu : Bool) (s : St α) (o : V) : St α :=
  if gpu && s.on o then { s with host := Function.update s.host o (s.dev o) } else s

/-- `device_free`: drop the device copy -/
def deviceFree (gpu : Bool) (s : St α) (o : V) : St α :=
  if gpu && s.on o then { s with on := Function.update s.on o false } else s

end St

/-- `assert(util::is_same_device_mem_stat(...))` (`monolish_common.hpp:906-923`) -/
def same (s : St α) (os : List V) : Res Unit :=
  match os with
  | [] => .ok ()
  | o :: os => cassert (os.all fun o' => s.on o' == s.on o)

/-- A function of the library with the arguments `os` that replaces the contents of `y`; `f` is what it computes. -/
def call (s : St α) (os : List V) (y : V) (f : Res (List α)) : Res (St α) := do
  same s os
  let l ← f
  .ok (s.put y l)

/-- A reduction. -/
def reduce (s : St α) (os : List V) (f : Res α) : Res α := do
  same s os
  f

/-- The matrix argument as a function of its values: the sizes, `matvec`, `diag`, and the two SOR kernels, which read
the values through the raw host pointer (`sor_kernel.hpp`). -/
structure MatD (α : Type) where
  row : Nat
  col : Nat
  mv : List α → List α → Res (List α)
  diag : List α → Res (List α)
  lower : List α → List α → List α → List α → Res (List α)
  precond : List α → List α → List α → List α → Res (List α)

/-- the matrix with given values -/
def MatD.at_ (A : MatD α) (a : List α) : Mat α := { row := A.row, col := A.col, mv := A.mv a, diag := A.diag a }

/-- `blas::matvec(A, x, y)`: asserts on the device status in `crs_matvec.hpp:21`, `dense_matvec.hpp` -/
def matvec (A : MatD α) (x y : V) (s : St α) : Res (St α) := call s [.A, x, y] y (A.mv (s.get .A) (s.get x))

/-- `A.diag(d)` -/
def diag (A : MatD α) (d : V) (s : St α) : Res (St α) := call s [.A, d] d (A.diag (s.get .A))

/-- A CRS matrix as solver argument: the structure of `A` with given values, `ofCrs`, and the SOR kernels for CRS. -/
def crsD [Zero α] [One α] [Add α] [Mul α] (N : Num α) (order zo : List Nat) (A : Crs α) : MatD α where
  row := A.rowN
  col := A.colN
  mv a := (ofCrs order zo { A with val := a }).mv
  diag a := (ofCrs order zo { A with val := a }).diag
  lower a := crsLower N { A with val := a }
  precond a := crsPrecond N { A with val := a }

/-- A Dense matrix as solver argument. -/
def denseD [Zero α] [One α] [Add α] [Mul α] (N : Num α) (order : List Nat) (A : Dense α) : MatD α where
  row := A.rowN
  col := A.colN
  mv a := (ofDense order { A with val := a }).mv
  diag a := (ofDense order { A with val := a }).diag
  lower a := denseLower N { A with val := a }
  precond a := densePrecond N { A with val := a }

variable (N : Num α)

/-- `blas::axpy(a, x, y)` -/
def axpy (a : α) (x y : V) (s : St α) : Res (St α) := call s [x, y] y (N.axpy a (s.get x) (s.get y))

/-- `blas::xpay(a, x, y)` -/
def xpay (a : α) (x y : V) (s : St α) : Res (St α) := call s [x, y] y (N.xpay a (s.get x) (s.get y))

/-- `blas::axpyz(a, x, y, z)` -/
def axpyz (a : α) (x y z : V) (s : St α) : Res (St α) :=
  call s [x, y, z] z (N.axpyz a (s.get x) (s.get y) (s.get z).length)

/-- `blas::copy(x, y)` -/
def copy (x y : V) (s : St α) : Res (St α) := call s [x, y] y (Num.copyV (s.get x) (s.get y).length)

/-- `vml::sub(x, y, z)` -/
def sub (x y z : V) (s : St α) : Res (St α) := call s [x, y, z] z (N.vsub (s.get x) (s.get y) (s.get z).length)

/-- `vml::add(x, y, z)` -/
def add (x y z : V) (s : St α) : Res (St α) := call s [x, y, z] z (N.vadd (s.get x) (s.get y) (s.get z).length)

/-- `vml::mul(x, y, z)` -/
def mul (x y z : V) (s : St α) : Res (St α) := call s [x, y, z] z (N.vmul (s.get x) (s.get y) (s.get z).length)

/-- `blas::scal(w, d)` -/
def scal (w : α) (d : V) (s : St α) : Res (St α) := call s [d] d (.ok ((s.get d).map (N.mul w)))

/-- `vml::reciprocal(d, d)` -/
def reciprocal (d : V) (s : St α) : Res (St α) := call s [d] d (.ok (N.reciprocal (s.get d)))

/-- `blas::dot(x, y)` -/
def dot (x y : V) (s : St α) : Res α := reduce s [x, y] (N.dot (s.get x) (s.get y))

/-! ### Preconditioners -/

/-- `create_precond(A)` and `apply_precond(r, z)` -/
structure PC (α : Type) where
  create : St α → Res (St α)
  apply : (r z : V) → St α → Res (St α)

/-- `equation::none`: none.cpp:10-20, 36-45 -/
def nonePC : PC α where
  create s := .ok s
  apply r z s := copy r z s

/-- `equation::Jacobi` as preconditioner: jacobi.cpp:12-31, 52-62 -/
def jacobiPC (gpu : Bool) (A : MatD α) : PC α where
  create s :=
    if A.row ≠ A.col then .throw "error A.row != A.col"
    else do
      let s := s.deviceFree gpu .M
      let s := { s with host := Function.update s.host .M (List.replicate A.row N.zero) }
      let s := if s.on .A then s.send gpu .M else s
      let s ← diag A .M s
      reciprocal N .M s
  apply r z s := mul N .M r z s

/-- `equation::SOR` as preconditioner: sor.cpp:13-37, 60-68, and `sor_kernel_precond` (sor_kernel.hpp:43-74, 76-104):
copy `r` (on both sides, `vector_constructor.cpp:159-176`), receive the copy (`tmp` is its host copy then), compute on the
host copies, `z.send()`. -/
def sorPC (gpu : Bool) (omega : α) (A : MatD α) : PC α where
  create s :=
    if A.row ≠ A.col then .throw "error A.row != A.col"
    else do
      let s := s.deviceFree gpu .M
      let s := { s with host := Function.update s.host .M (List.replicate A.row N.zero) }
      let s := if s.on .A then s.send gpu .M else s
      let s ← diag A .M s
      let s ← scal N omega .M s
      let s ← reciprocal N .M s
      .ok (s.recv gpu .M)
  apply r z s := do
    let tmp := if gpu && s.on r then s.dev r else s.host r
    let l ← A.precond (s.host .A) (s.host .M) (s.host z) tmp
    let s := { s with host := Function.update s.host z l }
    .ok (s.send gpu z)

/-! ### Solvers -/

/-- What a call leaves behind: the objects, the return code, `get_final_iter()`, `get_final_residual()`. -/
abbrev Ret (α : Type) := St α × Int × Nat × α

/-- what the user sees: the result with the contents of `x` -/
def out (r : Ret α) : Out α := { status := r.2.1, x := r.1.get .x, finalIter := r.2.2.1, finalResid := r.2.2.2 }

/-- the checks at the end of an iteration and the report (`Solver.stopCheck`) -/
def finish (cfg : Cfg α) (iter : Nat) (resid : α) (s : St α) : Res (Option (Ret α)) := do
  let o ← stopCheck N cfg iter resid (s.get .x) (s.get .r)
  .ok (o.map fun o => (s, o.status, o.finalIter, o.finalResid))

/-- after the loop (`Solver.atMaxiter`) -/
def atMax (cfg : Cfg α) (s : St α) : Res (Ret α) := do
  let fr ← getResidual N cfg (s.get .r)
  .ok (s, MAXITER, cfg.maxiter, fr)

/-- the check of the device status at the beginning of every solver (cg.cpp:21-25 and the others): an exception only if
*both* vectors differ from the matrix -/
def checkStat (s : St α) : Res Unit :=
  if s.on .A ≠ s.on .x ∧ s.on .A ≠ s.on .b then
    .throw "error, A.get_device_mem_stat != x.get_device_mem_stat != b.get_device_mem_stat"
  else .ok ()

def newAll (l : List α) (os : List V) (s : St α) : St α := os.foldl (fun s o => s.new o l) s

def sendAll (gpu : Bool) (os : List V) (s : St α) : St α := os.foldl (fun s o => s.send gpu o) s

/-- loop of `monolish_CG`: cg.cpp:46-87 -/
def cgLoop (cfg : Cfg α) (A : MatD α) (pc : PC α) : Nat → Nat → St α → Res (Ret α)
  | 0, _, s => atMax N cfg s
  | n + 1, iter, s => do
    let s ← matvec A .p .q s
    let tmp ← dot N .z .r s
    let pq ← dot N .p .q s
    let alpha := N.div tmp pq
    let s ← axpy N alpha .p .x s
    let s ← axpy N (N.neg alpha) .q .r s
    let s ← pc.apply .r .z s
    let zr ← dot N .z .r s
    let beta := N.div zr tmp
    let s ← xpay N beta .z .p s
    let resid ← getResidual N cfg (s.get .r)
    let o ← finish N cfg iter resid s
    match o with
    | some o => .ok o
    | none => cgLoop cfg A pc n (iter + 1) s

/-- `monolish_CG`: cg.cpp:12-88, `CG::solve`: cg.cpp:106-117 -/
def cg (gpu : Bool) (cfg : Cfg α) (A : MatD α) (pc : PC α) (s : St α) : Res (Ret α) :=
  if cfg.lib = 0 then
    if A.row ≠ A.col then .throw "error, A.row != A.col"
    else do
      checkStat s
      let s := newAll (List.replicate A.row N.zero) [.r, .p, .q, .z] s
      let s := if s.on .A then sendAll gpu [.r, .p, .q, .z] s else s
      let s ← pc.create s
      let s ← matvec A .x .q s
      let s ← sub N .b .q .r s
      let s ← pc.apply .r .z s
      let s ← copy .z .p s
      cgLoop N cfg A pc cfg.maxiter 0 s
  else .ok (s, 0, cfg.prevIter, cfg.prevResid)

/-- the new direction of BiCGSTAB: bicgstab.cpp:61-71 -/
def bicgDirection (iter : Nat) (rho rhoOld alpha omega : α) (s : St α) : Res (St α) :=
  if iter = 0 then copy .r .p s
  else do
    let beta := N.mul (N.div rho rhoOld) (N.div alpha omega)
    let s ← axpy N (N.neg omega) .v .p s
    xpay N beta .r .p s

/-- loop of `monolish_BiCGSTAB`: bicgstab.cpp:49-132 -/
def bicgLoop (cfg : Cfg α) (A : MatD α) (pc : PC α) : Nat → Nat → (rhoOld alpha omega : α) → St α → Res (Ret α)
  | 0, _, _, _, _, s => atMax N cfg s
  | n + 1, iter, rhoOld, alpha, omega, s => do
    let rho ← dot N .r .r0 s
    if N.isZero rho then
      let fr ← getResidual N cfg (s.get .r)
      .ok (s, BREAKDOWN, iter + 1, fr)
    else
      let s ← bicgDirection N iter rho rhoOld alpha omega s
      let s ← pc.apply .p .phat s
      let s ← matvec A .phat .v s
      let vr0 ← dot N .v .r0 s
      let alpha := N.div rho vr0
      let s ← axpyz N (N.neg alpha) .v .r .s s
      let s ← pc.apply .s .shat s
      let s ← matvec A .shat .t s
      let ts ← dot N .t .s s
      let tt ← dot N .t .t s
      let omega := N.div ts tt
      if N.isZero omega then
        let fr ← getResidual N cfg (s.get .r)
        .ok (s, BREAKDOWN, iter + 1, fr)
      else
        let s ← axpy N alpha .phat .x s
        let s ← axpy N omega .shat .x s
        let s ← axpyz N (N.neg omega) .t .s .r s
        let resid ← getResidual N cfg (s.get .r)
        let o ← finish N cfg iter resid s
        match o with
        | some o => .ok o
        | none => bicgLoop cfg A pc n (iter + 1) rho alpha omega s

/-- `monolish_BiCGSTAB`: bicgstab.cpp:12-133, `solve`: 154-168 -/
def bicg (gpu : Bool) (cfg : Cfg α) (A : MatD α) (pc : PC α) (s : St α) : Res (Ret α) :=
  if cfg.lib = 0 then
    if A.row ≠ A.col then .throw "error A.row != A.col"
    else do
      checkStat s
      let work := [.r, .r0, .p, .phat, .s, .shat, .v, .t]
      let s := newAll (List.replicate A.row N.zero) work s
      let s := if s.on .A then sendAll gpu work s else s
      let s ← pc.create s
      let s ← matvec A .x .r s
      let s ← sub N .b .r .r s
      let s ← copy .r .r0 s
      bicgLoop N cfg A pc cfg.maxiter 0 N.one N.one N.one s
  else .ok (s, 0, cfg.prevIter, cfg.prevResid)

/-- loop of `monolish_Jacobi`: jacobi.cpp:115-146 -/
def jacobiLoop (cfg : Cfg α) (A : MatD α) (pc : PC α) (binv : α) : Nat → Nat → St α → Res (Ret α)
  | 0, _, s => atMax N cfg s
  | n + 1, iter, s => do
    let s ← pc.apply .x .s s
    let s ← copy .x .s s
    let s ← matvec A .s .t s
    let s ← axpyz N (N.neg N.one) .t .b .r s
    let nrm := N.nrm2 (s.get .r)
    let s ← mul N .r .d .r s
    let s ← add N .x .r .x s
    let nrm := N.mul nrm binv
    let o ← finish N cfg iter nrm s
    match o with
    | some o => .ok o
    | none => jacobiLoop cfg A pc binv n (iter + 1) s

/-- `monolish_Jacobi`: jacobi.cpp:83-147 (`util::send(r, t, s, d)` is unconditional, :102), `solve`: 171-182 -/
def jacobi (gpu : Bool) (cfg : Cfg α) (A : MatD α) (pc : PC α) (s : St α) : Res (Ret α) :=
  if cfg.lib = 0 then
    if A.row ≠ A.col then .throw "error, A.row != A.col"
    else do
      checkStat s
      let s := newAll (List.replicate A.row N.zero) [.r, .t, .s, .d] s
      let s := sendAll gpu [.r, .t, .s, .d] s
      let bnrm2 := N.nrm2 (s.get .b)
      let s ← diag A .d s
      let s ← reciprocal N .d s
      let s ← pc.create s
      jacobiLoop N cfg A pc (N.div N.one bnrm2) cfg.maxiter 0 s
  else .ok (s, 0, cfg.prevIter, cfg.prevResid)

/-- loop of `monolish_SOR`: sor.cpp:122-157; `sor_kernel_lower(A, d, t, r)` works on the host copies
(sor_kernel.hpp:5-41) between `r.nonfree_recv()` and `t.send()` -/
def sorLoop (gpu : Bool) (cfg : Cfg α) (A : MatD α) (pc : PC α) (binv : α) : Nat → Nat → St α → Res (Ret α)
  | 0, _, s => atMax N cfg s
  | n + 1, iter, s => do
    let s ← pc.apply .x .s s
    let s ← matvec A .s .t s
    let s ← axpyz N (N.neg N.one) .t .b .r s
    let nrm := N.nrm2 (s.get .r)
    let s := s.nonfreeRecv gpu .r
    let l ← A.lower (s.host .A) (s.host .d) (s.host .t) (s.host .r)
    let s := { s with host := Function.update s.host .t l }
    let s := s.send gpu .t
    let s ← axpy N N.one .t .x s
    let nrm := N.mul nrm binv
    let o ← finish N cfg iter nrm s
    match o with
    | some o => .ok o
    | none => sorLoop gpu cfg A pc binv n (iter + 1) s

/-- `monolish_SOR`: sor.cpp:91-163, `solve`: 184-196 -/
def sor (gpu : Bool) (cfg : Cfg α) (A : MatD α) (pc : PC α) (s : St α) : Res (Ret α) :=
  if cfg.lib = 0 then
    if A.row ≠ A.col then .throw "error, A.row != A.col"
    else do
      checkStat s
      let s := newAll (List.replicate A.row N.zero) [.r, .t, .s, .d] s
      let s := sendAll gpu [.r, .t, .s, .d] s
      let s ← diag A .d s
      let s ← scal N (N.div N.one cfg.omega) .d s
      let s ← reciprocal N .d s
      let s := s.nonfreeRecv gpu .d
      let bnrm2 := N.nrm2 (s.get .b)
      let s ← pc.create s
      sorLoop N gpu cfg A pc (N.div N.one bnrm2) cfg.maxiter 0 s
  else .ok (s, 0, cfg.prevIter, cfg.prevResid)

end Verif.Solver.Dev
