import Verif.Model.TensorCrs
import Verif.Model.Vec

/-!
The `print_all` functions (host branch, `get_device_mem_stat() == false`): src/utils/IO. The text is modelled as a
list of lines, a line as the index numbers before the value and the value itself; how a number is turned into digits
is not modelled (vector, Dense, CRS and the tensors use `operator<<`, view1D `printf("%f\n")`).
-/

namespace Verif

/-- a printed line: the index numbers and the value -/
abbrev Line (α : Type) := List Nat × α

variable {α : Type}

/-- `vector::print_all`: src/utils/IO/IO_vector.cpp:17-41, to a file 45-57 (`data()[i]`, not `begin()[i]`) -/
def Vec.print (v : Vec α) : Res (List (Line α)) :=
  forN v.nnz (fun i out => do
    let x ← rd v.val i
    .ok (out ++ [([], x)])) []

/-- `view1D::print_all`: IO_view1D.cpp:15-36, 39-61, 64-86 (double), 89-160 (float); `b` is `target.data()` -/
def View1D.print (w : View1D) (b : List α) : Res (List (Line α)) :=
  forRange w.first w.last (fun i out => do
    let x ← rd b i
    .ok (out ++ [([], x)])) []

/-- `COO::print_all`: IO_coo.cpp:17-29, to a file 33-46 -/
def Coo.print (A : Coo α) : Res (List (Line α)) :=
  forN A.nnz (fun k out => do
    let r ← rd A.rowIdx k
    let c ← rd A.colIdx k
    let x ← rd A.val k
    .ok (out ++ [([r + 1, c + 1], x)])) []

/-- `CRS::print_all`: IO_crs.cpp:17-47 -/
def Crs.print (A : Crs α) : Res (List (Line α)) :=
  forN A.rowN (fun i out => do
    let lo ← rd A.rowPtr i
    let hi ← rd A.rowPtr (i + 1)
    forRange lo hi (fun j out => do
      let c ← rd A.colInd j
      let x ← rd A.val j
      .ok (out ++ [([i + 1, c + 1], x)])) out) []

/-- `Dense::print_all`: IO_dense.cpp:17-45 (`data()`, not `begin()`) -/
def Dense.print (A : Dense α) : Res (List (Line α)) :=
  forN A.rowN (fun i out =>
    forN A.colN (fun j out => do
      let x ← rd A.val (i * A.colN + j)
      .ok (out ++ [([i + 1, j + 1], x)])) out) []

/-- `view_Dense::print_all`: IO_view_dense.cpp:15-41 (`data()` is `target_data`) -/
def ViewDense.print (w : ViewDense) (b : List α) : Res (List (Line α)) :=
  forN w.rowN (fun i out =>
    forN w.colN (fun j out => do
      let x ← rd b (w.first + i * w.colN + j)
      .ok (out ++ [([i + 1, j + 1], x)])) out) []

/-- the common loop of the dense tensor classes, values read from `b` at `off + i` -/
def printShape (shape : List Nat) (nnz : Nat) (b : List α) (off : Nat) : Res (List (Line α)) :=
  forN nnz (fun i out => do
    let pos ← unindex shape i
    let x ← rd b (off + i)
    .ok (out ++ [(pos.map (· + 1), x)])) []

/-- `tensor_Dense::print_all`: IO_tensor_dense.cpp:18-56 (`data()`, not `begin()`) -/
def TDense.print (T : TDense α) : Res (List (Line α)) := printShape T.shape T.nnz T.val 0

/-- `view_tensor_Dense::print_all`: IO_view_tensor_dense.cpp:15-52; extents `shape`, offset `first`, `range`
elements -/
def viewTensorPrint (shape : List Nat) (first range : Nat) (b : List α) : Res (List (Line α)) :=
  printShape shape range b first

/-- `tensor_COO::print_all`: IO_tensor_coo.cpp:18-32, to a file 36-51 -/
def TCoo.print (A : TCoo α) : Res (List (Line α)) :=
  forN A.nnz (fun k out => do
    let pos ← rd A.index k
    let x ← rd A.val k
    .ok (out ++ [(pos.map (· + 1), x)])) []

/-- one stored element of `tensor_CRS::print_all`: IO_tensor_crs.cpp:59-66; the state is the output and `nz` -/
def TCrs.printElem (A : TCrs α) (up : List Nat) (i : Nat) (ci : List Nat) (j : Nat) (s : List (Line α) × Nat) :
    Res (List (Line α) × Nat) := do
  let c ← rd ci j
  let x ← rd A.val (A.first + s.2)
  .ok (s.1 ++ [(up.map (· + 1) ++ [i + 1, c + 1], x)], s.2 + 1)

/-- one slice: IO_tensor_crs.cpp:51-69 -/
def TCrs.printSlice (A : TCrs α) (d : Nat) (s : List (Line α) × Nat) : Res (List (Line α) × Nat) := do
  let up ← TCoo.slicePos A.shape d
  let rp ← rd A.rowPtrs d
  let ci ← rd A.colInds d
  forN (rp.length - 1) (fun i s => do
    let lo ← rd rp i
    let hi ← rd rp (i + 1)
    forRange lo hi (TCrs.printElem A up i ci) s) s

/-- `tensor_CRS::print_all`: IO_tensor_crs.cpp:18-73. `std::vector<int> pos_2(shape.size() - 2)` is not valid for a
rank below 2. -/
def TCrs.print (A : TCrs α) : Res (List (Line α)) := do
  if A.shape.length < 2 then .ub "pos_2(shape.size() - 2)" else do
  let s ← forN A.rowPtrs.length (TCrs.printSlice A) ([], 0)
  .ok s.1

end Verif
