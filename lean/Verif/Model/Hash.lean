import Verif.Model.Dense

/-!
Model of the structure hash of CRS matrices and of `matadd`/`matsub` on CRS and Dense matrices.

`size_t` is 64 bits, `int` 32 bits (two's complement), as on the platforms the library supports.
-/

namespace Verif

/-- The assignment of loop iterations to threads chosen by the OpenMP runtime for a loop of `N`
iterations: one list of iterations per thread. -/
abbrev Sched := List (List Nat)

/-- A legal schedule of an `N`-iteration `omp parallel for`: every iteration is executed exactly once,
and each thread executes its iterations in increasing order. -/
structure Sched.Legal (s : Sched) (N : Nat) : Prop where
  once : List.Perm s.flatten (List.range N)
  incr : ∀ t ∈ s, t.Pairwise (· < ·)

/-- loop body `seed ^= i + 0x9e3779b9 + (seed << 6) + (seed >> 2)`:
src/internal/math/integer_math.cpp:31-33 -/
def hashStep (seed : BitVec 64) (i : Nat) : BitVec 64 :=
  seed ^^^ (BitVec.ofNat 64 i + 0x9e3779b9#64 + (seed <<< 6) + (seed >>> 2))

/-- `internal::vhash(N, const int *y, int seed_value)`: integer_math.cpp:12-39. The seed parameter is
an `int`: the caller's `size_t` is truncated to 32 bits and sign-extended again.
`reduction(^ : seed)`: every thread starts from a private `seed = 0`, and the private results are
xor-ed to the original value at the end. The array `y` is not read. -/
def vhash (s : Sched) (_y : List Nat) (seedValue : BitVec 64) : BitVec 64 :=
  let seed := (seedValue.truncate 32).signExtend 64
  s.foldl (fun acc t => acc ^^^ t.foldl hashStep 0#64) seed

/-- `CRS::compute_hash()`: src/utils/hash.cpp:10-22. `sch` is the runtime's choice of schedule for
each trip count. -/
def Crs.computeHash {α : Type} (sch : Nat → Sched) (A : Crs α) : BitVec 64 :=
  let h := vhash (sch A.rowPtr.length) A.rowPtr (BitVec.ofNat 64 A.rowN)
  vhash (sch A.colInd.length) A.colInd h

/-- a CRS matrix together with its stored `structure_hash` -/
structure HCrs (α : Type) where
  mat : Crs α
  hash : BitVec 64
  deriving DecidableEq

/-- a CRS matrix as a constructor leaves it: the hash is computed from it -/
def HCrs.make {α : Type} (sch : Nat → Sched) (A : Crs α) : HCrs α := ⟨A, A.computeHash sch⟩

/-- `util::is_same_structure(CRS, CRS)`: src/utils/compare/compare_crs.cpp:91-110 -/
def HCrs.isSameStructure {α : Type} (A B : HCrs α) : Bool :=
  let ans := if A.mat.rowN ≠ B.mat.rowN ∨ A.mat.colN ≠ B.mat.colN then false else true
  if A.hash ≠ B.hash then false else ans

/-- `internal::vadd/vsub(N, a + oa, b + ob, y + oy)` with `op` for `+`/`-`:
src/internal/arithmetic/double_arithmetic.cpp:112-138 (vadd), 141-167 (vsub).
The buffers are distinct here; aliasing and parallel execution are the subject of C24. -/
def vbin {α : Type} (op : α → α → α) (N : Nat) (a : List α) (oa : Nat) (b : List α) (ob : Nat)
    (y : List α) (oy : Nat) : Res (List α) :=
  forN N (fun i y => do
    let u ← rd a (oa + i)
    let v ← rd b (ob + i)
    wr y (oy + i) (op u v)) y

/-- `matadd_core` / `matsub_core` for CRS: src/blas/matrix/mataddsub/crs_mataddsub.hpp:9-42
(`op` is `+` or `-`); `is_same_size`, `is_same_structure` of three arguments:
include/monolish/common/monolish_common.hpp:892-895 -/
def HCrs.matOp {α : Type} (op : α → α → α) (A B C : HCrs α) : Res (HCrs α) := do
  cassert (decide (A.mat.rowN = B.mat.rowN ∧ A.mat.colN = B.mat.colN))
  cassert (decide (A.mat.rowN = C.mat.rowN ∧ A.mat.colN = C.mat.colN))
  cassert (A.isSameStructure B)
  cassert (A.isSameStructure C)
  let v ← vbin op A.mat.nnz A.mat.val 0 B.mat.val 0 C.mat.val 0
  .ok { C with mat := { C.mat with val := v } }

/-- `matadd_core` / `matsub_core` for dense matrices:
src/blas/matrix/mataddsub/dense_mataddsub.hpp:8-37 -/
def Dense.matOp {α : Type} (op : α → α → α) (A B C : Dense α) : Res (Dense α) := do
  cassert (decide (A.rowN = B.rowN ∧ A.colN = B.colN))
  cassert (decide (A.rowN = C.rowN ∧ A.colN = C.colN))
  let v ← vbin op A.nnz A.val A.first B.val B.first C.val C.first
  .ok { C with val := v }

end Verif
