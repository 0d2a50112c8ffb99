import Verif.Model.Crs
import Verif.Model.Solver

/-!
# Incomplete factorisations: `equation::ILU`, `equation::IC`

src/equation/ilu.cpp, ic.cpp and the kernels `kernel/ilu_kernel.hpp`, `ic_kernel.hpp`. They exist only for CRS matrices
and do their work only in a GPU build, with cuSPARSE. What cuSPARSE computes is a parameter (`CuSparse`; its documented
meaning is in Spec/IncompleteSpec.lean): `csrilu02` and `csric02` replace the values of a sparse matrix by those of its
factors, or report a zero pivot; `csrsv2_solve` solves with one triangle of a sparse matrix. The Boolean
result says that a zero pivot was reported (structural or numerical).

In a GPU build a vector and the values of a matrix have a host copy and, while the status flag is set, a device copy.
Simplifications: device and host structure arrays are equal; the cuSPARSE handles, descriptors and work buffers hold no
values; an address that is not mapped to the device is a host address, and giving it to cuSPARSE is undefined.
-/

namespace Verif.Incomplete

variable {α : Type}

/-- the cuSPARSE functions used, for a matrix given by its structure and the values on the device -/
structure CuSparse (α : Type) where
  /-- `csrilu02` and `csrilu02_zeroPivot`: ilu_kernel.hpp:198-225, 261-284 -/
  ilu0 : Crs α → List α × Bool
  /-- `csric02` and `csric02_zeroPivot`: ic_kernel.hpp:189-216, 252-277 -/
  ic0 : Crs α → List α × Bool
  /-- `csrsv2_solve`, lower triangle, unit diagonal: ilu_kernel.hpp:27-31, 317-320 -/
  unitLower : Crs α → List α → List α
  /-- `csrsv2_solve`, upper triangle: ilu_kernel.hpp:33-37, 322-325 -/
  upper : Crs α → List α → List α
  /-- `csrsv2_solve`, lower triangle: ic_kernel.hpp:28-32 -/
  lower : Crs α → List α → List α
  /-- `csrsv2_solve`, transposed lower triangle: ic_kernel.hpp, `trans_Lt` -/
  lowerT : Crs α → List α → List α

/-- a vector: host copy, device copy, `get_device_mem_stat()` -/
structure DVec (α : Type) where
  host : List α
  dev : List α
  on : Bool

/-- a CRS matrix: structure and host values (`mat`), device values, `get_device_mem_stat()` -/
structure DCrs (α : Type) where
  mat : Crs α
  dev : List α
  on : Bool

/-- the checks at the start of `create_precond`: ilu.cpp:17-23, ic.cpp:17-23, and the `#else` at ilu.cpp:84-86 -/
def createChecks (gpu : Bool) (A : DCrs α) : Res Unit :=
  if A.mat.rowN ≠ A.mat.colN then .throw "error A.row != A.col"
  else if A.on ≠ true then .throw "ILU on CPU does not impl."
  else if gpu then .ok () else .throw "ILU on CPU does not impl."

/-- the values `cusolver_ilu` is given: `precond.M.data()[i] = A.data()[i]` on the host, then `send()`: ilu.cpp:56-62;
in `cusparse_ILU` the vector `tmpval(A.data(), A.data() + A.get_nnz())`: ilu.cpp:217-218 -/
def valuesOf (A : DCrs α) : Res (List α) := readN A.mat.val A.mat.nnz

/-- A reported zero pivot: an exception in single precision (ilu_kernel.hpp:204-207, 221-224, ic_kernel.hpp:195-198,
212-215); in double precision (`dbl`) a message on the standard output (ilu_kernel.hpp:265-267, 281-283,
ic_kernel.hpp:258-260, 274-276). -/
def pivots (dbl : Bool) (msg : String) (f : List α × Bool) : Res (List α) :=
  if f.2 && !dbl then .throw msg else .ok f.1

/-- `ILU::create_precond`: ilu.cpp:12-89; the result is the device copy of `precond.M` -/
def iluCreate (gpu dbl : Bool) (cu : CuSparse α) (A : DCrs α) : Res (List α) := do
  createChecks gpu A
  let v ← valuesOf A
  pivots dbl "ILU error." (cu.ilu0 { A.mat with val := v })

/-- `IC::create_precond`: ic.cpp:12-82 -/
def icCreate (gpu dbl : Bool) (cu : CuSparse α) (A : DCrs α) : Res (List α) := do
  createChecks gpu A
  let v ← valuesOf A
  pivots dbl "IC error." (cu.ic0 { A.mat with val := v })

/-- `use_device_ptr` on the two vectors, and their lengths: ilu_kernel.hpp:314-315 -/
def devicePtrs (n : Nat) (x b : DVec α) : Res Unit :=
  if x.on && b.on then
    if n ≤ b.dev.length ∧ n ≤ x.dev.length then .ok () else .ub "read past the end on the device"
  else .ub "host address given to cuSPARSE"

/-- `cusolver_ilu_solve` with the factors `m`: `L tmp = b`, `U x = tmp`; ilu_kernel.hpp:293-370 -/
def iluTriangles (cu : CuSparse α) (A : Crs α) (m : List α) (x b : DVec α) : Res (DVec α) := do
  devicePtrs A.rowN x b
  .ok { x with dev := cu.upper { A with val := m } (cu.unitLower { A with val := m } b.dev) }

/-- `cusolver_ic_solve`: `L tmp = b`, `L' x = tmp`; ic_kernel.hpp:286-361 -/
def icTriangles (cu : CuSparse α) (A : Crs α) (m : List α) (x b : DVec α) : Res (DVec α) := do
  devicePtrs A.rowN x b
  .ok { x with dev := cu.lowerT { A with val := m } (cu.lower { A with val := m } b.dev) }

/-- `ILU::apply_precond(r, z)`: ilu.cpp:108-139 -/
def iluApply (gpu : Bool) (cu : CuSparse α) (A : Crs α) (m : List α) (r z : DVec α) : Res (DVec α) :=
  if gpu then iluTriangles cu A m z r else .throw "ILU on CPU does not impl."

/-- `IC::apply_precond(r, z)`: ic.cpp -/
def icApply (gpu : Bool) (cu : CuSparse α) (A : Crs α) (m : List α) (r z : DVec α) : Res (DVec α) :=
  if gpu then icTriangles cu A m z r else .throw "IC on CPU does not impl."

/-- the checks at the start of `cusparse_ILU`, `cusparse_IC`: ilu.cpp:171-182 -/
def solveChecks (gpu : Bool) (A : DCrs α) (x b : DVec α) : Res Unit :=
  if A.mat.rowN ≠ A.mat.colN then .throw "error, A.row != A.col"
  else if A.on ≠ x.on ∧ A.on ≠ b.on then .throw "error, device_mem_stat"
  else if A.on ≠ true then .throw "ILU on CPU does not impl."
  else if gpu then .ok () else .throw "ILU on CPU does not impl."

/-- `ILU::solve`: ilu.cpp:165-240, 266-277 -/
def iluSolve (gpu dbl : Bool) (cu : CuSparse α) (lib : Nat) (A : DCrs α) (x b : DVec α) : Res (Int × DVec α) :=
  if lib = 0 then do
    solveChecks gpu A x b
    let v ← valuesOf A
    let m ← pivots dbl "ILU error." (cu.ilu0 { A.mat with val := v })
    let x ← iluTriangles cu A.mat m x b
    .ok (Solver.SUCCESS, x)
  else .ok (0, x)

/-- `IC::solve`: ic.cpp:160-260 -/
def icSolve (gpu dbl : Bool) (cu : CuSparse α) (lib : Nat) (A : DCrs α) (x b : DVec α) : Res (Int × DVec α) :=
  if lib = 0 then do
    solveChecks gpu A x b
    let v ← valuesOf A
    let m ← pivots dbl "IC error." (cu.ic0 { A.mat with val := v })
    let x ← icTriangles cu A.mat m x b
    .ok (Solver.SUCCESS, x)
  else .ok (0, x)

/-- the preconditioner as a solver uses it in a GPU build (everything on the device): `create_precond(A)`, then
`apply_precond(r, z)` with `z` of the length of `r` -/
def iluPrecond [Zero α] (dbl : Bool) (cu : CuSparse α) (A : DCrs α) : Res (List α → Res (List α)) := do
  let m ← iluCreate true dbl cu A
  .ok fun r => do
    let z ← iluApply true cu A.mat m ⟨r, r, true⟩ ⟨r, List.replicate r.length 0, true⟩
    .ok z.dev

/-- the same for `IC` -/
def icPrecond [Zero α] (dbl : Bool) (cu : CuSparse α) (A : DCrs α) : Res (List α → Res (List α)) := do
  let m ← icCreate true dbl cu A
  .ok fun r => do
    let z ← icApply true cu A.mat m ⟨r, r, true⟩ ⟨r, List.replicate r.length 0, true⟩
    .ok z.dev

end Verif.Incomplete
