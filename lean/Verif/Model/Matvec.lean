import Verif.Core.Par
import Verif.Spec.LinAlg
import Verif.Model.Dense

/-!
Model of the matrix-vector and matrix-matrix products, CPU side, build without MKL.

The vector arguments are windows of buffers (`vector` or `view1D`); output and input buffers are
distinct. `cblas_?gemv` / `cblas_?gemm` are not part of the repository: `gemv`/`gemm` below state
their reference semantics (row-major).
-/

namespace Verif

variable {α : Type}

/-- inner loop of the row product: src/blas/matrix/matvec/crs_matvec.hpp:103-105 -/
def Crs.rowDot [Zero α] [Add α] [Mul α] (A : Crs α) (x : Win α) (i : Nat) : Res α := do
  let a ← rd A.rowPtr i
  let b ← rd A.rowPtr (i + 1)
  forRange a b (fun j acc => do
    let v ← rd A.val j
    let c ← rd A.colInd j
    let xv ← rd x.buf (x.off + c)
    .ok (acc + v * xv)) 0

/-- `Dmatvec_core` / `Smatvec_core` for CRS: crs_matvec.hpp:8-114 (double) and 117-224 (float), OSS
CPU branch. `alpha` and `beta` do not occur in that branch. `order` is the schedule of the parallel
row loop, `zorder` of the zero-fill loop. -/
def Crs.matvecCore [Zero α] [Add α] [Mul α] (order zorder : List Nat) (_alpha : α) (A : Crs α)
    (x : Win α) (_beta : α) (y : Win α) (transA : Bool) : Res (Win α) :=
  if transA then do
    cassert (decide (A.rowN = x.size))
    cassert (decide (A.colN = y.size))
    let b ← forList zorder (fun i b => wr b (y.off + i) 0) y.buf
    let b ← forN A.rowN (fun i b => do
      let p ← rd A.rowPtr i
      let q ← rd A.rowPtr (i + 1)
      forRange p q (fun j b => do
        let c ← rd A.colInd j
        let u ← rd b (y.off + c)
        let v ← rd A.val j
        let xv ← rd x.buf (x.off + i)
        wr b (y.off + c) (u + v * xv)) b) b
    .ok { y with buf := b }
  else do
    cassert (decide (A.rowN = y.size))
    cassert (decide (A.colN = x.size))
    let b ← forList order (fun i b => do
      let t ← A.rowDot x i
      wr b (y.off + i) t) y.buf
    .ok { y with buf := b }

/-- `matvec(A, x, y)`: src/blas/matrix/matvec/matvec_blas.cpp (calls the core with 1.0 and 0.0) -/
def Crs.matvec [Zero α] [One α] [Add α] [Mul α] (order : List Nat) (A : Crs α) (x y : Win α) :
    Res (Win α) := A.matvecCore order [] 1 x 0 y false

/-- `matvec_T(A, x, y)` -/
def Crs.matvecT [Zero α] [One α] [Add α] [Mul α] (zorder : List Nat) (A : Crs α) (x y : Win α) :
    Res (Win α) := A.matvecCore [] zorder 1 x 0 y true

/-- `matvec(a, A, x, b, y)` -/
def Crs.matvecScaled [Zero α] [Add α] [Mul α] (order : List Nat) (a : α) (A : Crs α) (x : Win α)
    (b : α) (y : Win α) : Res (Win α) := A.matvecCore order [] a x b y false

/-- `cblas_?gemv(CblasRowMajor, trans, m, n, alpha, A, lda, x, 1, beta, y, 1)`: reference semantics.
`y_i := alpha * sum_j op(A)_{ij} x_j + beta * y_i`; `A` is the buffer from offset `oA`. -/
def gemv [Zero α] [Add α] [Mul α] (trans : Bool) (m n : Nat) (alpha : α) (A : List α)
    (oA lda : Nat) (x : Win α) (beta : α) (y : Win α) : Res (Win α) := do
  let rows := if trans then n else m
  let cols := if trans then m else n
  let b ← forN rows (fun i b => do
    let t ← forN cols (fun j acc => do
      let u ← rd A (oA + (if trans then j * lda + i else i * lda + j))
      let v ← rd x.buf (x.off + j)
      .ok (acc + u * v)) 0
    let o ← rd b (y.off + i)
    wr b (y.off + i) (alpha * t + beta * o)) y.buf
  .ok { y with buf := b }

/-- `Dmatvec_core` / `Smatvec_core` for Dense: src/blas/matrix/matvec/dense_matvec.hpp:14-55 -/
def Dense.matvecCore [Zero α] [Add α] [Mul α] (alpha : α) (A : Dense α) (x : Win α) (beta : α)
    (y : Win α) (transA : Bool) : Res (Win α) := do
  if transA then do
    cassert (decide (A.rowN = x.size))
    cassert (decide (A.colN = y.size))
  else do
    cassert (decide (A.rowN = y.size))
    cassert (decide (A.colN = x.size))
  gemv transA A.rowN A.colN alpha A.val A.first A.colN x beta y

/-- `cblas_?gemm(CblasRowMajor, NoTrans, NoTrans, m, n, k, alpha, A, lda, B, ldb, beta, C, ldc)`:
reference semantics. -/
def gemm [Zero α] [Add α] [Mul α] (m n k : Nat) (alpha : α) (A : List α) (oA lda : Nat)
    (B : List α) (oB ldb : Nat) (beta : α) (C : List α) (oC ldc : Nat) : Res (List α) :=
  forN m (fun i C => forN n (fun j C => do
    let t ← forN k (fun l acc => do
      let u ← rd A (oA + (i * lda + l))
      let v ← rd B (oB + (l * ldb + j))
      .ok (acc + u * v)) 0
    let o ← rd C (oC + (i * ldc + j))
    wr C (oC + (i * ldc + j)) (alpha * t + beta * o)) C) C

/-- `Dense_Dense_?matmul_core`: src/blas/matrix/matmul/dense-dense_matmul.hpp:24-67. The flags
`transA`, `transB` only occur in the log name. -/
def Dense.matmulCore [Zero α] [Add α] [Mul α] (a : α) (A B : Dense α) (b : α) (C : Dense α) :
    Res (Dense α) := do
  cassert (decide (A.colN = B.rowN))
  cassert (decide (A.rowN = C.rowN))
  cassert (decide (B.colN = C.colN))
  let v ← gemm A.rowN B.colN A.colN a A.val A.first A.colN B.val B.first B.colN b C.val C.first B.colN
  .ok { C with val := v }

/-- inner product of row `i` of `A` and column `j` of `B`:
src/blas/matrix/matmul/crs-dense_matmul.hpp:133-138 -/
def Crs.rowDotCol [Zero α] [Add α] [Mul α] (A : Crs α) (B : Dense α) (N i j : Nat) : Res α := do
  let p ← rd A.rowPtr i
  let q ← rd A.rowPtr (i + 1)
  forRange p q (fun k tmp => do
    let v ← rd A.val k
    let c ← rd A.colInd k
    let u ← rd B.val (B.first + (N * c + j))
    .ok (tmp + v * u)) 0

/-- `CRS_Dense_Dmatmul_core`, OSS scalar branch: crs-dense_matmul.hpp:8-145 (the branch at 128-141;
also the float branch 325-338 without AVX). `order` is the schedule of the parallel column loop. -/
def Crs.matmulScalar [Zero α] [Add α] [Mul α] (order : List Nat) (a : α) (A : Crs α) (B : Dense α)
    (b : α) (C : Dense α) : Res (Dense α) := do
  cassert (decide (A.colN = B.rowN))
  cassert (decide (A.rowN = C.rowN))
  cassert (decide (B.colN = C.colN))
  let v ← forList order (fun j Cd => forN A.rowN (fun i Cd => do
    let tmp ← A.rowDotCol B B.colN i j
    let o ← rd Cd (C.first + (i * B.colN + j))
    wr Cd (C.first + (i * B.colN + j)) (a * tmp + b * o)) Cd) C.val
  .ok { C with val := v }

/-- one SIMD block of width `w`: `Cv = load(C[cc..cc+w)); Bv = load(B[bb..bb+w)); C += Av * Bv`, all
loads before the store: crs-dense_matmul.hpp:276-280 (`w = 8`) -/
def simdBlock [Add α] [Mul α] (w : Nat) (av : α) (B : List α) (bb : Nat) (cc : Nat) (Cd : List α) :
    Res (List α) :=
  if bb + w ≤ B.length then
    if cc + w ≤ Cd.length then
      .ok (Cd.take cc ++ List.zipWith (fun c b => c + av * b) ((Cd.drop cc).take w)
        ((B.drop bb).take w) ++ Cd.drop (cc + w))
    else .ub "SIMD store out of bounds"
  else .ub "SIMD load out of bounds"

/-- the three column loops of the float AVX branch for one stored element, from column `j` on:
crs-dense_matmul.hpp:272-319: blocks of 32 (four vectors), then of 8, then single columns. The tail
multiplies `(a * vald[k]) * Bd[..]`, as C++ does. The first argument bounds the iterations (each
consumes at least one column). -/
def avxCols [Add α] [Mul α] (N : Nat) (av : α) (B : List α) (br cr : Nat) :
    (fuel j : Nat) → List α → Res (List α)
  | 0, _, Cd => .ok Cd
  | f + 1, j, Cd =>
    if j + 31 < N then do
      let Cd ← simdBlock 8 av B (br + j) (cr + j) Cd
      let Cd ← simdBlock 8 av B (br + j + 8) (cr + j + 8) Cd
      let Cd ← simdBlock 8 av B (br + j + 16) (cr + j + 16) Cd
      let Cd ← simdBlock 8 av B (br + j + 24) (cr + j + 24) Cd
      avxCols N av B br cr f (j + 32) Cd
    else if j + 7 < N then do
      let Cd ← simdBlock 8 av B (br + j) (cr + j) Cd
      avxCols N av B br cr f (j + 8) Cd
    else if j < N then do
      let u ← rd Cd (cr + j)
      let w ← rd B (br + j)
      let Cd ← wr Cd (cr + j) (u + av * w)
      avxCols N av B br cr f (j + 1) Cd
    else .ok Cd

/-- `CRS_Dense_Smatmul_core`, AVX branch: crs-dense_matmul.hpp:148-344 (the branch at 252-322).
`order` is the schedule of the parallel row loop, `zorder` that of the scaling loop. -/
def Crs.matmulAvx [Zero α] [Add α] [Mul α] (order zorder : List Nat) (a : α) (A : Crs α)
    (B : Dense α) (b : α) (C : Dense α) : Res (Dense α) := do
  cassert (decide (A.colN = B.rowN))
  cassert (decide (A.rowN = C.rowN))
  cassert (decide (B.colN = C.colN))
  let v ← forList zorder (fun i Cd => do
    let u ← rd Cd (C.first + i)
    wr Cd (C.first + i) (b * u)) C.val
  let v ← forList order (fun i Cd => do
    let p ← rd A.rowPtr i
    let q ← rd A.rowPtr (i + 1)
    forRange p q (fun k Cd => do
      let c ← rd A.colInd k
      let x ← rd A.val k
      avxCols B.colN (a * x) B.val (B.first + B.colN * c) (C.first + i * B.colN) B.colN 0 Cd) Cd) v
  .ok { C with val := v }

end Verif
