import Verif.Model.Coo
import Mathlib.Algebra.Ring.Defs
import Mathlib.Data.Int.Cast.Basic

/-!
Model of the matrix generators of `monolish::util` (src/utils/create_matrix).

Simplifications: sizes `M`, `N`, `W`, `nnzrow`, `m`, `n` (C++ `int`) are naturals, so negative sizes are
not modelled and `int` arithmetic on them does not overflow; element values are a ring, so that the
conversion of a small integer constant to `T` is exact. Index arithmetic that can become negative
(`M - 1`, `i - 1`, ...) is done in `Int` and converted to `size_t` at the call of `insert`, as the code
does. The logger calls are not modelled here.
-/

namespace Verif
namespace Gen

variable {α : Type}

/-- conversion of an `int` argument to the `size_t` parameter of `COO::insert`
(monolish_coo.hpp declares `insert(const size_t m, const size_t n, const Float val)`) -/
def toSize (z : Int) : Nat := (z % 18446744073709551616).toNat

/-- `mat.insert(i, j, v)` with `int` arguments -/
def insertI [Zero α] (A : Coo α) (i j : Int) (v : α) : Res (Coo α) :=
  A.insert (toSize i) (toSize j) v

/-- `util::eye`: src/utils/create_matrix/eye.cpp:6-20 -/
def eye [Ring α] (M : Nat) : Res (Coo α) :=
  forN M (fun i A => insertI A i i 1) (Coo.new M M)

/-- `util::frank_matrix`: frank.cpp:6-21. `T val = M - std::max(i, j)`. -/
def frank [Ring α] (M : Nat) : Res (Coo α) :=
  forN M (fun i A =>
    forN M (fun j A => insertI A i j (((M : Int) - max (i : Int) (j : Int) : Int) : α)) A)
    (Coo.new M M)

/-- first column of row `i` of a band matrix, `start = (i < ww ? 0 : i - ww)`: band_matrix.cpp:21 -/
def bandStart (W i : Nat) : Nat := if i < W then 0 else i - W

/-- one past the last column, `end = (N <= (i + ww + 1) ? N : i + ww + 1)`: band_matrix.cpp:22 -/
def bandEnd (N W i : Nat) : Nat := if N ≤ i + W + 1 then N else i + W + 1

/-- `util::band_matrix`: band_matrix.cpp:6-35 -/
def band [Ring α] [DecidableEq α] (M N W : Nat) (diag val : α) : Res (Coo α) :=
  if N ≤ W then .throw "error band width <= matrix size"
  else
    forN M (fun i A =>
      forRange (bandStart W i) (bandEnd N W i) (fun j A =>
        if i = j ∧ diag ≠ 0 then insertI A i j diag
        else if val ≠ 0 then insertI A i j val
        else .ok A) A)
      (Coo.new M N)

/-- `util::asym_band_matrix`: band_matrix.cpp:45-76 -/
def asymBand [Ring α] [DecidableEq α] (M N W : Nat) (diag uval lval : α) : Res (Coo α) :=
  if N ≤ W then .throw "error band width <= matrix size"
  else
    forN M (fun i A =>
      forRange (bandStart W i) (bandEnd N W i) (fun j A =>
        if i = j ∧ diag ≠ 0 then insertI A i j diag
        else if i < j ∧ uval ≠ 0 then insertI A i j uval
        else if i > j ∧ lval ≠ 0 then insertI A i j lval
        else .ok A) A)
      (Coo.new M N)

/-- `util::tridiagonal_toeplitz_matrix`: tridiagonal_toeplitz.cpp:6-24 -/
def tridiagonal [Ring α] (M : Nat) (a b : α) : Res (Coo α) := do
  let A ← insertI (Coo.new M M) 0 0 a
  let A ← insertI A 0 1 b
  let A ← forRange 1 (M - 1) (fun (i : Nat) (A : Coo α) => do
    let A ← insertI A i ((i : Int) - 1) b
    let A ← insertI A i i a
    insertI A i ((i : Int) + 1) b) A
  let A ← insertI A ((M : Int) - 1) ((M : Int) - 2) b
  insertI A ((M : Int) - 1) ((M : Int) - 1) a

/-- `util::laplacian_matrix_1D`: laplacian.cpp:6-8 -/
def laplacian1D [Ring α] (M : Nat) : Res (Coo α) := tridiagonal M (2 : Int) (-1 : Int)

/-- the conditional insertions of `laplacian_matrix_2D_5p`: `if (c) mat.insert(ii, jj, v)` -/
def insertIf [Zero α] (c : Bool) (A : Coo α) (i j : Int) (v : α) : Res (Coo α) :=
  if c then insertI A i j v else .ok A

/-- `util::laplacian_matrix_2D_5p`: laplacian_2D5p.cpp:6-49 (the counter `ctr` is never read). -/
def laplacian2D [Ring α] (m n : Nat) : Res (Coo α) :=
  forN (m * n) (fun (ii : Nat) (A : Coo α) => do
    let i := ii / m
    let j := (ii : Int) - i * m
    let A ← insertIf (decide (i > 0)) A ii ((ii : Int) - m) (-1)
    let A ← insertIf (decide (j > 0)) A ii ((ii : Int) - 1) (-1)
    let A ← insertI A ii ii ((4 : Int) : α)
    let A ← insertIf (decide (j < (m : Int) - 1)) A ii ((ii : Int) + 1) (-1)
    insertIf (decide ((i : Int) < (n : Int) - 1)) A ii ((ii : Int) + m) (-1))
    (Coo.new (m * n) (m * n))

/-- `util::toeplitz_plus_hankel_matrix`: toeplitz_plus_hankel.cpp:6-36 -/
def toeplitzHankel [Ring α] (M : Nat) (a0 a1 a2 : α) : Res (Coo α) := do
  let A ← insertI (Coo.new M M) 0 0 (a0 - a2)
  let A ← insertI A 0 1 a1
  let A ← insertI A 0 2 a2
  let A ← insertI A 1 0 a1
  let A ← insertI A 1 1 a0
  let A ← insertI A 1 2 a1
  let A ← insertI A 1 3 a2
  let A ← forRange 2 (M - 2) (fun (i : Nat) (A : Coo α) => do
    let A ← insertI A i ((i : Int) - 2) a2
    let A ← insertI A i ((i : Int) - 1) a1
    let A ← insertI A i i a0
    let A ← insertI A i ((i : Int) + 1) a1
    insertI A i ((i : Int) + 2) a2) A
  let A ← insertI A ((M : Int) - 2) ((M : Int) - 4) a2
  let A ← insertI A ((M : Int) - 2) ((M : Int) - 3) a1
  let A ← insertI A ((M : Int) - 2) ((M : Int) - 2) a0
  let A ← insertI A ((M : Int) - 2) ((M : Int) - 1) a1
  let A ← insertI A ((M : Int) - 1) ((M : Int) - 3) a2
  let A ← insertI A ((M : Int) - 1) ((M : Int) - 2) a1
  insertI A ((M : Int) - 1) ((M : Int) - 1) (a0 - a2)

/-- The inner loop of `random_structure_matrix`, random_structure.cpp:24-29:
`for (j = 0; j < nnzrow; j++) { c = dist_pos(rng); if (mat.at(i, c) != 0) j--; mat.insert(i, c, val); }`
`left` is `nnzrow - j`. The random engine is an arbitrary stream of draws: the loop consumes a list and
returns the rest; running out of draws (`none`) means that the loop has not finished on that prefix of
the stream. -/
def randRow [Zero α] [DecidableEq α] (i : Nat) (val : α) :
    List Nat → (left : Nat) → Coo α → Res (Option (List Nat × Coo α))
  | ds, 0, A => .ok (some (ds, A))
  | [], _ + 1, _ => .ok none
  | c :: ds, left + 1, A => do
    let x ← A.at_ i c
    let A ← insertI A i c val
    if x ≠ 0 then randRow i val ds (left + 1) A else randRow i val ds left A

/-- the row loop of `random_structure_matrix`: random_structure.cpp:22-31 -/
def randRows [Zero α] [DecidableEq α] (nnzrow : Nat) (val : α) :
    (rows : List Nat) → List Nat → Coo α → Res (Option (List Nat × Coo α))
  | [], ds, A => .ok (some (ds, A))
  | i :: is, ds, A => do
    match ← randRow i val ds nnzrow A with
    | none => .ok none
    | some (ds, A) => randRows nnzrow val is ds A

/-- `util::random_structure_matrix`: random_structure.cpp:6-38, on a stream of draws from
`uniform_int_distribution<>(0, N - 1)`. -/
def randomStructure [Zero α] [DecidableEq α] (M N nnzrow : Nat) (val : α) (draws : List Nat) :
    Res (Option (Coo α)) :=
  if N ≤ nnzrow then .throw "error nnzrow <= matrix size"
  else do
    match ← randRows nnzrow val (List.range M) draws (Coo.new M N) with
    | none => .ok none
    | some (_, A) => do
      let A ← A.sort true
      .ok (some A)

end Gen
end Verif
