import Verif.Model.Lapack
import Verif.Model.Crs

/-!
# The direct solvers in a GPU build

`equation::LU`, `equation::Cholesky` and the eigensolvers `DC` on dense matrices, and `equation::QR` and
`equation::Cholesky` on CRS matrices, for data that may be on the device: src/equation/lu, cholesky, qr, src/eigen/DC.cpp,
src/internal/lapack. `Verif/Model/Lapack.lean` is the host part, used here as it is.

A matrix or vector has a host copy and, while its status flag is set, a device copy. There are two libraries: LAPACK on
the host (`L`) and cuSOLVER on the device (`Cu`); the dense routines of cuSOLVER have the interface of the LAPACK
routines. `gpu` says that the library was built with `MONOLISH_USE_NVIDIA_GPU`.

Simplifications: the status flag and the mapping of the memory agree (that is C58 and C107); the handles and work
arrays hold no values; the cuSOLVER calls do not fail with a CUDA error; an address that is not mapped to the device is
a host address, and giving it to cuSOLVER is undefined.
-/

namespace Verif.Direct

open Verif.Lapack

variable {α : Type}

/-- a dense matrix: host copy, device copy, `get_device_mem_stat()` -/
structure DDense (α : Type) where
  host : Dense α
  dev : List α
  on : Bool

/-- a vector: host copy, device copy, `get_device_mem_stat()` -/
structure DVec (α : Type) where
  host : Vec α
  dev : List α
  on : Bool

/-- the elements the device holds, as a matrix: the mapped range begins at `begin()`, gpu_comm.cpp:191-192 -/
def DDense.devMat (A : DDense α) : Dense α := { A.host with val := A.dev, alloc := A.dev.length, first := 0 }

/-- the elements the device holds, as a vector: gpu_comm.cpp:13-14 -/
def DVec.devVec (x : DVec α) : Vec α := { x.host with val := x.dev, alloc := x.dev.length, first := 0 }

/-- `Dense::send()`: src/utils/system/gpu_comm.cpp:186-202 -/
def DDense.send (gpu : Bool) (A : DDense α) : DDense α :=
  if gpu then { A with dev := (A.host.val.drop A.host.first).take A.host.nnz, on := true } else A

/-- `Dense::recv()`: gpu_comm.cpp:205-221 -/
def DDense.recv (gpu : Bool) (A : DDense α) : DDense α :=
  if gpu && A.on then
    { A with
      host := { A.host with
        val := A.host.val.take A.host.first ++ A.dev ++ A.host.val.drop (A.host.first + A.dev.length) }
      on := false }
  else A

/-- `vector::send()`: gpu_comm.cpp:8-24 -/
def DVec.send (gpu : Bool) (x : DVec α) : DVec α :=
  if gpu then { x with dev := (x.host.val.drop x.host.first).take x.host.nnz, on := true } else x

/-- `vector::recv()`: gpu_comm.cpp:27-42 -/
def DVec.recv (gpu : Bool) (x : DVec α) : DVec α :=
  if gpu && x.on then
    { x with
      host := { x.host with
        val := x.host.val.take x.host.first ++ x.dev ++ x.host.val.drop (x.host.first + x.dev.length) }
      on := false }
  else x

/-- the exception of a build without GPU that finds the status flag set: dense_double_getrf.cpp:58-60 -/
def noGpu : String := "error USE_GPU is false, but get_device_mem_stat() == true"

/-- `internal::lapack::getrf`: src/internal/lapack/getrf/dense_double_getrf.cpp:12-67 -/
def getrf (gpu : Bool) (L Cu : Lib α) (A : DDense α) (ipiv : List Nat) : Res (DDense α × List Nat × Int) :=
  if A.on then
    if gpu then do
      let (A', ipiv, info) ← Lapack.getrf Cu A.devMat ipiv
      .ok ({ A with dev := A'.val }, ipiv, info)
    else .throw noGpu
  else do
    let (A', ipiv, info) ← Lapack.getrf L A.host ipiv
    .ok ({ A with host := A' }, ipiv, info)

/-- `internal::lapack::getrs`: src/internal/lapack/getrs/dense_double_getrs.cpp:12-68; the device is used only if both
flags are set, otherwise the host copies are used (line 32, 61-63) -/
def getrs (gpu : Bool) (L Cu : Lib α) (A : DDense α) (B : DVec α) (ipiv : List Nat) : Res (DVec α × Int) :=
  if A.on && B.on then
    if gpu then do
      let (B', info) ← Lapack.getrs Cu A.devMat B.devVec ipiv
      .ok ({ B with dev := B'.val }, info)
    else .throw noGpu
  else do
    let (B', info) ← Lapack.getrs L A.host B.host ipiv
    .ok ({ B with host := B' }, info)

/-- `internal::lapack::sytrf`: src/internal/lapack/sytrf/dense_double_sytrf.cpp:12-68 -/
def sytrf (gpu : Bool) (L Cu : Lib α) (A : DDense α) (ipiv : List Int) : Res (DDense α × List Int × Int) :=
  if A.on then
    if gpu then do
      let (A', ipiv, info) ← Lapack.sytrf Cu A.devMat ipiv
      .ok ({ A with dev := A'.val }, ipiv, info)
    else .throw noGpu
  else do
    let (A', ipiv, info) ← Lapack.sytrf L A.host ipiv
    .ok ({ A with host := A' }, ipiv, info)

/-- `internal::lapack::sytrs`: src/internal/lapack/sytrs/dense_double_sytrs.cpp:12-82: always the host copies -/
def sytrs (L : Lib α) (A : DDense α) (B : DVec α) (ipiv : List Int) : Res (DVec α × Int) := do
  let (B', info) ← Lapack.sytrs L A.host B.host ipiv
  .ok ({ B with host := B' }, info)

/-- `blas::copy(x, y)`: src/blas/vector/copy.hpp:5-16; `internal::vcopy` throws in a build without GPU -/
def copy (gpu : Bool) (x y : DVec α) : Res (DVec α) := do
  cassert (decide (x.host.nnz = y.host.nnz))
  cassert (decide (x.on = y.on))
  if y.on then
    if gpu then
      let r ← copyVec x.devVec y.devVec
      .ok { y with dev := r.val }
    else .throw "error USE_GPU is false, but gpu == true"
  else
    let r ← copyVec x.host y.host
    .ok { y with host := r }

/-- result of a solver: status, the matrix and the vector after the call -/
abbrev Ret (α : Type) := Int × DDense α × DVec α

namespace LU

/-- `LU<Dense>::solve(A, XB)`: src/equation/lu/lu.cpp:36-62 (double), 63-87 (float) -/
def solve2 (gpu : Bool) (L Cu : Lib α) (A : DDense α) (XB : DVec α) : Res (Ret α) := do
  let ipiv := List.replicate (min A.host.rowN A.host.colN) 0
  let (A, ipiv, info) ← getrf gpu L Cu A ipiv
  let ret := if info ≠ 0 then breakdown else success
  let (XB, info) ← getrs gpu L Cu A XB ipiv
  let ret := if info ≠ 0 then breakdown else ret
  .ok (ret, A, XB)

/-- `LU<Dense>::solve(A, x, b)`: lu.cpp:89-117 (double), 119-147 (float) -/
def solve (gpu : Bool) (L Cu : Lib α) (A : DDense α) (x b : DVec α) : Res (Ret α) := do
  let x ← copy gpu b x
  solve2 gpu L Cu A x

/-- `LU<CRS>::solve(A, x, b)`, both precisions: lu.cpp:8-20, 22-34 -/
def crs (_A : Crs α) (_x _b : DVec α) : Res (Int × DVec α) := .throw "error sparse Lu is not impl."

end LU

namespace Cholesky

/-- the common part of the overloads: src/equation/cholesky/cholesky.cpp:50-71, 81-104, 115-138, 149-172 -/
def core (gpu : Bool) (L Cu : Lib α) (A : DDense α) (XB : DVec α) : Res (Ret α) := do
  let ipiv := List.replicate (min A.host.rowN A.host.colN) 0
  let (A, ipiv, info) ← sytrf gpu L Cu A ipiv
  let ret := if info ≠ 0 then breakdown else success
  let A := A.recv gpu
  let XB := XB.recv gpu
  let (XB, info) ← sytrs L A XB ipiv
  let ret := if info ≠ 0 then breakdown else ret
  .ok (ret, A, XB.send gpu)

/-- `Cholesky<Dense>::solve(A, XB)`: cholesky.cpp:39-72 in double precision (`dbl`), which refuses a matrix on the
device (43-45), and 73-105 in single precision, which does not -/
def solve2 (gpu dbl : Bool) (L Cu : Lib α) (A : DDense α) (XB : DVec α) : Res (Ret α) :=
  if dbl && A.on then .throw "error Dense Cholesky on GPU does not impl."
  else core gpu L Cu A XB

/-- `Cholesky<Dense>::solve(A, x, b)`: cholesky.cpp:107-139 (double), 141-173 (float) -/
def solve (gpu : Bool) (L Cu : Lib α) (A : DDense α) (x b : DVec α) : Res (Ret α) := do
  let x ← copy gpu b x
  core gpu L Cu A x

end Cholesky

namespace DC

/-- the status the wrappers make of `INFO`: src/eigen/DC.cpp:17-22, 63-68 -/
def status (info : Int) : Int := if info > 0 then breakdown else if info < 0 then residualNan else success

/-- `internal::lapack::syevd`: src/internal/lapack/syev/dense_double_syev.cpp:12-84; in a GPU build `util::send(A, W)`
(line 37) and `util::recv(A, W)` (line 61) whatever the flags were -/
def syevd (gpu : Bool) (L Cu : Lib α) (A : DDense α) (W : DVec α) : Res (DDense α × DVec α × Int) :=
  if gpu then do
    let A := A.send gpu
    let W := W.send gpu
    let (A', W', info) ← Lapack.syevd Cu A.devMat W.devVec true true
    .ok (({ A with dev := A'.val } : DDense α).recv gpu, ({ W with dev := W'.val } : DVec α).recv gpu, info)
  else do
    let (A', W', info) ← Lapack.syevd L A.host W.host true true
    .ok ({ A with host := A' }, { W with host := W' }, info)

/-- `standard_eigen::DC::solve`: DC.cpp:8-26, 33-45 -/
def standard (gpu : Bool) (L Cu : Lib α) (lib : Int) (A : DDense α) (W : DVec α) : Res (Ret α) := do
  if lib = 0 then
    let (A, W, info) ← syevd gpu L Cu A W
    .ok (status info, A, W)
  else .ok (0, A, W)

/-- `internal::lapack::sygvd`: src/internal/lapack/sygv/dense_double_sygv.cpp:12-106; in a GPU build an `itype` other
than 1, 2, 3 is an exception (36-37), `A`, `B` and `W` are sent (54), `A` and `W` are received (82), `B` is not -/
def sygvd (gpu : Bool) (L Cu : Lib α) (A B : DDense α) (W : DVec α) (itype : Int) :
    Res (DDense α × DDense α × DVec α × Int) :=
  if gpu then
    if itype = 1 ∨ itype = 2 ∨ itype = 3 then do
      let A := A.send gpu
      let B := B.send gpu
      let W := W.send gpu
      let (A', B', W', info) ← Lapack.sygvd Cu A.devMat B.devMat W.devVec itype true true
      .ok (({ A with dev := A'.val } : DDense α).recv gpu, { B with dev := B'.val },
        ({ W with dev := W'.val } : DVec α).recv gpu, info)
    else .throw "itype should be either 1, 2, 3"
  else do
    let (A', B', W', info) ← Lapack.sygvd L A.host B.host W.host itype true true
    .ok ({ A with host := A' }, { B with host := B' }, { W with host := W' }, info)

/-- `generalized_eigen::DC::solve`: DC.cpp:53-72, 81-94 -/
def generalized (gpu : Bool) (L Cu : Lib α) (lib : Int) (A B : DDense α) (W : DVec α) (itype : Int) :
    Res (Int × DDense α × DDense α × DVec α) := do
  if lib = 0 then
    let (A, B, W, info) ← sygvd gpu L Cu A B W itype
    .ok (status info, A, B, W)
  else .ok (0, A, B, W)

end DC

/-- the sparse direct solvers of cuSOLVER, for a matrix given by its structure and the values on the device and a right-hand
side: the solution and `singularity` (-1, or the index of the pivot that failed) -/
structure CuSp (α : Type) where
  /-- `cusolverSpDcsrlsvqr`: src/equation/qr/qr_cusolver_gpu.cpp:45-47 -/
  qr : Crs α → List α → List α × Int
  /-- `cusolverSpDcsrlsvchol`: src/equation/cholesky/cholesky_cusolver_gpu.cpp:44-46 -/
  chol : Crs α → List α → List α × Int

/-- a CRS matrix: structure and host values (`mat`), device values, `get_device_mem_stat()` -/
structure DCrs (α : Type) where
  mat : Crs α
  dev : List α
  on : Bool

/-- `cusolver_QR` and `cusolver_Cholesky`: qr_cusolver_gpu.cpp:11-57, cholesky_cusolver_gpu.cpp:11-56. The addresses are
given to the library without a look at the status flags; `n = A.get_row()` elements of `b` are read, and of `x` written;
`singularity` is not looked at, the result is 0. -/
def cusolver (f : Crs α → List α → List α × Int) (A : DCrs α) (x b : DVec α) : Res (Int × DVec α) :=
  if !(A.on && x.on && b.on) then .ub "cuSOLVER: host address"
  else do
    touch A.mat.nnz A.dev.length
    touch A.mat.rowN b.dev.length
    touch A.mat.rowN x.dev.length
    let r := f { A.mat with val := A.dev } (b.dev.take A.mat.rowN)
    .ok (0, { x with dev := overwrite x.dev r.1 })

/-- `QR<CRS>::solve(A, x, b)`: src/equation/qr/qr.cpp:6-29; the message names Cholesky (24) -/
def qrCrs (gpu : Bool) (cu : CuSp α) (A : DCrs α) (x b : DVec α) : Res (Int × DVec α) :=
  if gpu then cusolver cu.qr A x b else .throw "error Cholesky on CPU does not impl."

/-- `Cholesky<CRS>::solve(A, x, b)`: src/equation/cholesky/cholesky.cpp:8-32 -/
def choleskyCrs (gpu : Bool) (cu : CuSp α) (A : DCrs α) (x b : DVec α) : Res (Int × DVec α) :=
  if gpu then cusolver cu.chol A x b else .throw "error Cholesky on CPU does not impl."

end Verif.Direct
