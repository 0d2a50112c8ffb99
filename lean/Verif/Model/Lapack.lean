import Verif.Model.Vec

/-!
Model of the direct solvers that call LAPACK (host side): `equation::LU`, `equation::Cholesky`,
`standard_eigen::DC`, `generalized_eigen::DC`, and of the wrappers in src/internal/lapack.

LAPACK itself is not part of the repository. It is a parameter `Lib`: one function per routine, from
the arguments to the final contents of the arrays it writes and the value of `INFO`. What a user
relies on is stated for every `Lib` that meets the contract in `Verif/Spec/LapackSpec.lean`.
The wrappers' pointer arithmetic is modelled: a routine called with dimensions that reach beyond the
buffer behind a pointer is `ub`.

Simplifications: device memory is off; the casts of the dimensions to `int` do not overflow; the work
arrays of the routines are not modelled, except that `dsytrf` is given `lwork = M`; the float and the
double files are identical (they are generated by `d2f.sh`) and share one model.
-/

namespace Verif.Lapack

/-- The LAPACK routines called by monolish: src/internal/lapack/lapack.h (declarations).
The arrays are passed from the pointer on; dimensions that a routine ignores are left out. -/
structure Lib (α : Type) where
  /-- `dgetrf_(M, N, A, LDA, IPIV, INFO)`: new `A`, `IPIV`, `INFO` -/
  getrf : (m n : Nat) → (a : List α) → (lda : Nat) → List α × List Nat × Int
  /-- `dgetrs_(TRANS, N, NRHS, A, LDA, IPIV, B, LDB, INFO)`: new `B`, `INFO` -/
  getrs : (trans : Bool) → (n nrhs : Nat) → (a : List α) → (lda : Nat) → (ipiv : List Nat) →
    (b : List α) → (ldb : Nat) → List α × Int
  /-- `dsytrf_(UPLO, N, A, LDA, IPIV, WORK, LWORK, INFO)`: new `A`, `IPIV`, `INFO` -/
  sytrf : (upper : Bool) → (n : Nat) → (a : List α) → (lda lwork : Nat) → List α × List Int × Int
  /-- `dsytrs_(UPLO, N, NRHS, A, LDA, IPIV, B, LDB, INFO)`: new `B`, `INFO` -/
  sytrs : (upper : Bool) → (n nrhs : Nat) → (a : List α) → (lda : Nat) → (ipiv : List Int) →
    (b : List α) → (ldb : Nat) → List α × Int
  /-- `dsyevd_(JOBZ, UPLO, N, A, LDA, W, ...)`, after the workspace query: new `A`, `W`, `INFO` -/
  syevd : (vectors upper : Bool) → (n : Nat) → (a : List α) → (lda : Nat) →
    List α × List α × Int
  /-- `dsygvd_(ITYPE, JOBZ, UPLO, N, A, LDA, B, LDB, W, ...)`: new `A`, `B`, `W`, `INFO` -/
  sygvd : (itype : Int) → (vectors upper : Bool) → (n : Nat) → (a : List α) → (lda : Nat) →
    (b : List α) → (ldb : Nat) → List α × List α × List α × Int

variable {α : Type}

/-- Number of elements from the start of a column-major `m × n` array with leading dimension `lda`
to the end of its last column. -/
def extent (m n lda : Nat) : Nat := if m = 0 ∨ n = 0 then 0 else (n - 1) * lda + m

/-- Access to `k` elements behind a pointer to a buffer of `len` elements. -/
def touch (k len : Nat) : Res Unit := if k ≤ len then .ok () else .ub "LAPACK: out of bounds"

/-- What is left in an `n`-element result array `old` after a routine wrote `new` at its start. -/
def overwrite {β : Type} (old new : List β) : List β := new ++ old.drop new.length

/-- `internal::lapack::getrf(A, ipiv)`: src/internal/lapack/getrf/dense_double_getrf.cpp:12-69.
The exception for a wrong size of `ipiv` is constructed, not thrown (line 18). -/
def getrf (L : Lib α) (A : Dense α) (ipiv : List Nat) : Res (Dense α × List Nat × Int) := do
  let M := A.rowN
  let N := A.colN
  touch (extent M N M) A.val.length
  touch (min M N) ipiv.length
  let r := L.getrf M N A.val M
  .ok ({ A with val := r.1 }, overwrite ipiv r.2.1, r.2.2)

/-- `internal::lapack::getrs(A, B, ipiv)`: src/internal/lapack/getrs/dense_double_getrs.cpp:12-68.
`TRANS = 'T'`, `N = M`, `NRHS = 1`, `LDA = N`, `LDB = M`; `B.data()` is the start of the buffer, not of
the vector. -/
def getrs (L : Lib α) (A : Dense α) (B : Vec α) (ipiv : List Nat) : Res (Vec α × Int) := do
  let M := A.rowN
  let N := A.colN
  let K := 1
  touch (extent M M N) A.val.length
  touch M ipiv.length
  touch (extent M K M) B.val.length
  let r := L.getrs true M K A.val N ipiv B.val M
  .ok ({ B with val := r.1 }, r.2)

/-- `internal::lapack::sytrf(A, ipiv)`: src/internal/lapack/sytrf/dense_double_sytrf.cpp:12-69 -/
def sytrf (L : Lib α) (A : Dense α) (ipiv : List Int) : Res (Dense α × List Int × Int) := do
  let M := A.rowN
  touch (extent M M M) A.val.length
  touch M ipiv.length
  let r := L.sytrf true M A.val M M
  .ok ({ A with val := r.1 }, overwrite ipiv r.2.1, r.2.2)

/-- `internal::lapack::sytrs(A, B, ipiv)`: src/internal/lapack/sytrs/dense_double_sytrs.cpp:12-77 -/
def sytrs (L : Lib α) (A : Dense α) (B : Vec α) (ipiv : List Int) : Res (Vec α × Int) := do
  let M := A.rowN
  let N := A.colN
  let nrhs := 1
  touch (extent M M N) A.val.length
  touch M ipiv.length
  touch (extent M nrhs M) B.val.length
  let r := L.sytrs true M nrhs A.val N ipiv B.val M
  .ok ({ B with val := r.1 }, r.2)

/-- `internal::lapack::syevd(A, W, jobz, uplo)`, host part:
src/internal/lapack/syev/dense_double_syev.cpp:12-19, 63-84 -/
def syevd (L : Lib α) (A : Dense α) (W : Vec α) (vectors upper : Bool) :
    Res (Dense α × Vec α × Int) := do
  let size := A.rowN
  touch (extent size size size) A.val.length
  touch size W.val.length
  let r := L.syevd vectors upper size A.val size
  .ok ({ A with val := r.1 }, { W with val := overwrite W.val r.2.1 }, r.2.2)

/-- `internal::lapack::sygvd(A, B, W, itype, jobz, uplo)`, host part:
src/internal/lapack/sygv/dense_double_sygv.cpp:12-19, 83-106 -/
def sygvd (L : Lib α) (A B : Dense α) (W : Vec α) (itype : Int) (vectors upper : Bool) :
    Res (Dense α × Dense α × Vec α × Int) := do
  let size := A.rowN
  touch (extent size size size) A.val.length
  touch (extent size size size) B.val.length
  touch size W.val.length
  let r := L.sygvd itype vectors upper size A.val size B.val size
  .ok ({ A with val := r.1 }, { B with val := r.2.1 },
    { W with val := overwrite W.val r.2.2.1 }, r.2.2.2)

/-- `MONOLISH_SOLVER_SUCCESS`: include/monolish/common/monolish_common.hpp:16 -/
def success : Int := 0
/-- `MONOLISH_SOLVER_BREAKDOWN`: monolish_common.hpp:19 -/
def breakdown : Int := -3
/-- `MONOLISH_SOLVER_RESIDUAL_NAN`: monolish_common.hpp:20 -/
def residualNan : Int := -4

/-- `blas::copy(x, y)` on vectors: src/blas/vector/copy.hpp:5-16 (`y.begin()[i] = x.begin()[i]`) -/
def copyVec (x y : Vec α) : Res (Vec α) := do
  cassert (decide (x.nnz = y.nnz))
  let b ← forN y.nnz (fun i b => do
    let v ← rd x.val (x.first + i)
    wr b (y.first + i) v) y.val
  .ok { y with val := b }

namespace LU

/-- `LU<Dense>::solve(A, XB)`: src/equation/lu/lu.cpp:36-62 (double), 63-87 (float). The class has its
own member `lib`, always 1 (include/monolish_equation.hpp:475), which hides the one written by
`set_lib`. -/
def solve2 (L : Lib α) (A : Dense α) (XB : Vec α) : Res (Int × Dense α × Vec α) := do
  let ipiv := List.replicate (min A.rowN A.colN) 0
  let (A, ipiv, info) ← getrf L A ipiv
  let ret := if info ≠ 0 then breakdown else success
  let (XB, info) ← getrs L A XB ipiv
  let ret := if info ≠ 0 then breakdown else ret
  .ok (ret, A, XB)

/-- `LU<Dense>::solve(A, x, b)`: lu.cpp:89-117 (double), 119-147 (float) -/
def solve (L : Lib α) (A : Dense α) (x b : Vec α) : Res (Int × Dense α × Vec α) := do
  let ipiv := List.replicate (min A.rowN A.colN) 0
  let x ← copyVec b x
  let (A, ipiv, info) ← getrf L A ipiv
  let ret := if info ≠ 0 then breakdown else success
  let (x, info) ← getrs L A x ipiv
  let ret := if info ≠ 0 then breakdown else ret
  .ok (ret, A, x)

end LU

namespace Cholesky

/-- `Cholesky<Dense>::solve(A, XB)`: src/equation/cholesky/cholesky.cpp:37-72 (double), 73-105 (float);
`recv()`/`send()` do nothing on the host (src/utils/system/gpu_comm.cpp:8-43) -/
def solve2 (L : Lib α) (A : Dense α) (XB : Vec α) : Res (Int × Dense α × Vec α) := do
  let ipiv := List.replicate (min A.rowN A.colN) 0
  let (A, ipiv, info) ← sytrf L A ipiv
  let ret := if info ≠ 0 then breakdown else success
  let (XB, info) ← sytrs L A XB ipiv
  let ret := if info ≠ 0 then breakdown else ret
  .ok (ret, A, XB)

/-- `Cholesky<Dense>::solve(A, x, b)`: cholesky.cpp:107-139 (double), 141-173 (float) -/
def solve (L : Lib α) (A : Dense α) (x b : Vec α) : Res (Int × Dense α × Vec α) := do
  let ipiv := List.replicate (min A.rowN A.colN) 0
  let x ← copyVec b x
  let (A, ipiv, info) ← sytrf L A ipiv
  let ret := if info ≠ 0 then breakdown else success
  let (x, info) ← sytrs L A x ipiv
  let ret := if info ≠ 0 then breakdown else ret
  .ok (ret, A, x)

end Cholesky

namespace DC

/-- `standard_eigen::DC::LAPACK_DC` and `solve`: src/eigen/DC.cpp:8-26, 33-45 -/
def standard (L : Lib α) (lib : Int) (A : Dense α) (lambda : Vec α) :
    Res (Int × Dense α × Vec α) := do
  if lib = 0 then
    let (A, lambda, info) ← syevd L A lambda true true
    .ok (if info > 0 then breakdown else if info < 0 then residualNan else success, A, lambda)
  else .ok (0, A, lambda)

/-- `generalized_eigen::DC::LAPACK_DC` and `solve`: DC.cpp:53-72, 81-94 -/
def generalized (L : Lib α) (lib : Int) (A B : Dense α) (lambda : Vec α) (itype : Int) :
    Res (Int × Dense α × Dense α × Vec α) := do
  if lib = 0 then
    let (A, B, lambda, info) ← sygvd L A B lambda itype true true
    .ok (if info > 0 then breakdown else if info < 0 then residualNan else success, A, B, lambda)
  else .ok (0, A, B, lambda)

end DC

end Verif.Lapack
