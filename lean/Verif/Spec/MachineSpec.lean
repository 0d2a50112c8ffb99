import Verif.Model.Machine
import Verif.Spec.CooSpec

/-!
What it means that the 32-bit integers of the code do not matter: on matrices whose sizes fit into `int`,
the code with machine integers does exactly what the code with unbounded integers does.
-/

namespace Verif.Spec

open Verif.Machine

variable {α : Type}

/-- all sizes are at most `INT_MAX`, as are the stored indices -/
structure SmallCoo (A : Coo α) : Prop where
  row : A.rowN ≤ 2147483647
  col : A.colN ≤ 2147483647
  nnz : A.nnz ≤ 2147483647
  rows : ∀ r ∈ A.rowIdx, r ≤ 2147483647
  cols : ∀ c ∈ A.colIdx, c ≤ 2147483647

structure SmallCrs (A : Crs α) : Prop where
  row : A.rowN ≤ 2147483647
  col : A.colN ≤ 2147483647
  nnz : A.nnz ≤ 2147483647
  ptrs : ∀ r ∈ A.rowPtr, r ≤ 2147483647
  cols : ∀ c ∈ A.colInd, c ≤ 2147483647

/-- the same matrix in the memory of the machine -/
def mcoo (A : Coo α) : MCoo α where
  rowN := A.rowN
  colN := A.colN
  rowIdx := A.rowIdx.map Int.ofNat
  colIdx := A.colIdx.map Int.ofNat
  val := A.val
  nnz := A.nnz
  alloc := A.alloc
  created := A.created

def mcrs (A : Crs α) : MCrs α where
  rowN := A.rowN
  colN := A.colN
  rowPtr := A.rowPtr.map Int.ofNat
  colInd := A.colInd.map Int.ofNat
  val := A.val
  nnz := A.nnz
  alloc := A.alloc
  created := A.created

/-- `m` is the outcome `r` in the memory of the machine: the same kind of outcome, the same message of an
exception or failed assertion, and related values -/
def SameOutcome {A B : Type} (R : A → B → Prop) : Res A → Res B → Prop
  | .ok a, .ok b => R a b
  | .throw x, .throw y => x = y
  | .abort x, .abort y => x = y
  | .ub _, .ub _ => True
  | _, _ => False

/-- the result is the same matrix, again with small sizes -/
def IsCoo (A : Coo α) (M : MCoo α) : Prop := M = mcoo A ∧ SmallCoo A
def IsCrs (A : Crs α) (M : MCrs α) : Prop := M = mcrs A ∧ SmallCrs A

/-- a sequence of inserts, as in `Coo.insertAll` -/
def insertAllM [Zero α] : List (Entry α) → MCoo α → Res (MCoo α)
  | [], A => .ok A
  | e :: L, A => do
    let A ← A.insert e.1 e.2.1 e.2.2
    insertAllM L A

/-- A program: insert elements, sort, convert to CRS, transpose if `tr`, multiply by a vector -/
def productOf [Zero α] [One α] [Add α] [Mul α] (r c : Nat) (L : List (Entry α)) (merge tr : Bool)
    (order : List Nat) (x y : Win α) : Res (Win α) := do
  let A ← Coo.insertAll L (Coo.new r c)
  let A ← A.sort merge
  let B ← Crs.empty.convertCoo A
  let B ← (if tr then B.transpose else .ok B)
  B.matvec order x y

/-- the same program with machine integers -/
def productOfM [Zero α] [Add α] [Mul α] (r c : Nat) (L : List (Entry α)) (merge tr : Bool)
    (order : List Nat) (x y : Win α) : Res (Win α) := do
  let A ← insertAllM L (MCoo.new r c)
  let A ← A.sort merge
  let B ← MCrs.empty.convertCoo A
  let B ← (if tr then B.transpose else .ok B)
  B.matvec order x y

end Verif.Spec
