import Verif.Model.TensorCrs
import Verif.Model.Hash

/-!
# `tensor_CRS` with its structure hash

The member `size_t structure_hash` (include/monolish/common/monolish_tensor_crs.hpp:18) has no initialiser: a constructor
that does not call `compute_hash` leaves what was in memory. Those constructors take that value as the parameter `junk`.
The values are modelled by `TCrs` (Model/TensorCrs). Device copies are not modelled.
-/

namespace Verif

variable {α : Type}

/-- a `tensor_CRS` with `structure_hash` -/
structure HTCrs (α : Type) where
  tens : TCrs α
  hash : BitVec 64

namespace HTCrs

/-- `compute_hash()`: src/utils/hash.cpp:28-43; `shape[0]` and `col_inds[d]` are read unchecked. `sch` is the runtime's choice
of schedule for each trip count. -/
def computeHash (sch : Nat → Sched) (T : TCrs α) : Res (BitVec 64) :=
  forN T.rowPtrs.length (fun d h => do
    let rp ← rd T.rowPtrs d
    let s0 ← rd T.shape 0
    let ci ← rd T.colInds d
    .ok (vhash (sch ci.length) ci (vhash (sch rp.length) rp (BitVec.ofNat 64 s0 ||| h)))) 0#64

/-- `tensor_CRS()`, `tensor_CRS(shape)`: monolish_tensor_crs.hpp:35-47; no hash -/
def mkShape (junk : BitVec 64) (shape : List Nat) : HTCrs α := ⟨{ (TCrs.empty : TCrs α) with shape := shape }, junk⟩

/-- `tensor_CRS(shape, row_ptrs, col_inds, value)`: src/utils/tensor_crs_constructor.cpp:11-30; no hash -/
def ofArrays [Zero α] (junk : BitVec 64) (shape : List Nat) (rowPtrs colInds : List (List Nat)) (value : List α) :
    Res (HTCrs α) := do
  let T ← TCrs.ofArrays shape rowPtrs colInds value
  .ok ⟨T, junk⟩

/-- `tensor_CRS(const tensor_CRS &crs, value)`: tensor_crs_constructor.cpp:41-56; no hash. `order` is the schedule of
`vbroadcast`. -/
def like [Zero α] (junk : BitVec 64) (order : List Nat) (A : HTCrs α) (value : α) : Res (HTCrs α) := do
  let T ← TCrs.resize { (TCrs.empty : TCrs α) with
    shape := A.tens.shape, rowPtrs := A.tens.rowPtrs, colInds := A.tens.colInds } A.tens.nnz 0
  let b ← forList order (fun i b => wr b i value) T.val
  .ok ⟨{ T with val := b }, junk⟩

/-- `set_ptr(shape, rowptrs, colinds, vsize, const T *value)`: src/utils/copy/copy_tensor_crs.cpp:29-46;
`set_ptr(shape, rowptrs, colinds, std::vector)` (:89-95) is this with `value.size()` -/
def setPtr [Zero α] (sch : Nat → Sched) (T : HTCrs α) (shape : List Nat) (rowptrs colinds : List (List Nat)) (vsize : Nat)
    (value : List α) : Res (HTCrs α) := do
  let U ← TCrs.resize { T.tens with colInds := colinds, rowPtrs := rowptrs, created := true } vsize 0
  let v ← readN value U.nnz
  let b ← TCrs.wrN U.val U.first v
  let U := { U with val := b, shape := shape }
  let h ← computeHash sch U
  .ok ⟨U, h⟩

/-- `set_ptr(shape, rowptrs, colinds, vsize, T value)`: copy_tensor_crs.cpp:59-77; `order` is the schedule of `vbroadcast` -/
def setPtrFill [Zero α] (sch : Nat → Sched) (order : List Nat) (T : HTCrs α) (shape : List Nat)
    (rowptrs colinds : List (List Nat)) (vsize : Nat) (value : α) : Res (HTCrs α) := do
  let U ← TCrs.resize { T.tens with colInds := colinds, rowPtrs := rowptrs, created := true } vsize 0
  let b ← forList order (fun i b => wr b (U.first + i) value) U.val
  let U := { U with val := b, shape := shape }
  let h ← computeHash sch U
  .ok ⟨U, h⟩

/-- `convert(const tensor_COO &)`: src/utils/convert/convert_tensor_crs.cpp:10-65 (the hash at :63) -/
def convertCoo [Zero α] (sch : Nat → Sched) (T : HTCrs α) (coo : TCoo α) : Res (HTCrs α) := do
  let U ← T.tens.convertCoo coo
  let h ← computeHash sch U
  .ok ⟨U, h⟩

/-- `convert(const tensor_CRS &)`, also the copy constructor: convert_tensor_crs.cpp:71-102 (the hash at :85) -/
def convertCrs [Zero α] (T A : HTCrs α) : Res (HTCrs α) := do
  let U ← T.tens.convertCrs A.tens
  .ok ⟨U, A.hash⟩

/-- `convert(const matrix::CRS &)`: convert_tensor_crs.cpp:105-135 (the hash at :119) -/
def convertMat [Zero α] (T : HTCrs α) (A : HCrs α) : Res (HTCrs α) := do
  let U ← T.tens.convertMat A.mat
  .ok ⟨U, A.hash⟩

/-- `util::is_same_size(tensor_CRS, tensor_CRS)`: src/utils/compare/compare_tensor_crs.cpp:148-170 -/
def isSameSize (A B : HTCrs α) : Bool := decide (A.tens.shape = B.tens.shape)

/-- `util::is_same_structure(tensor_CRS, tensor_CRS)`: compare_tensor_crs.cpp:114-141 -/
def isSameStructure (A B : HTCrs α) : Bool :=
  if A.tens.shape ≠ B.tens.shape then false else if A.hash ≠ B.hash then false else true

/-- `operator=(const tensor_CRS &)`: copy_tensor_crs.cpp:11-25 (through `begin()` on both sides) -/
def assign (A B : HTCrs α) : Res (HTCrs α) := do
  cassert (isSameSize A B)
  cassert (isSameStructure A B)
  let v ← TCrs.rdN B.tens.val B.tens.first A.tens.nnz
  let b ← TCrs.wrN A.tens.val A.tens.first v
  .ok ⟨{ A.tens with val := b, created := true }, A.hash⟩

/-- `fill(value)`: src/utils/fill/fill_tensor_crs.cpp:9-32 (host); it writes from `data()` on -/
def fill (order : List Nat) (A : HTCrs α) (value : α) : Res (HTCrs α) := do
  let b ← forList order (fun i b => wr b i value) A.tens.val
  .ok ⟨{ A.tens with val := b }, A.hash⟩

/-- `blas::times(alpha, A, C)`: src/blas/tensor/times/tensor_crs_times.hpp:10-22 -/
def times [Mul α] (same : Bool) (order : List Nat) (alpha : α) (A C : HTCrs α) : Res (HTCrs α) := do
  let T ← A.tens.timesS (isSameStructure A C) same order alpha C.tens
  .ok ⟨T, C.hash⟩

end HTCrs

end Verif
