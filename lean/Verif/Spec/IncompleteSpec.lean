import Verif.Spec.LinAlg
import Verif.Spec.CrsSpec
import Verif.Model.Incomplete
import Mathlib.LinearAlgebra.Matrix.NonsingularInverse

/-!
Incomplete factorisations without fill-in, and what the cuSPARSE documentation promises.
-/

namespace Verif.Spec

open Matrix

variable {K : Type} [Field K] {n : Nat}

/-- the lower triangle with ones on the diagonal -/
def unitLower (F : Matrix (Fin n) (Fin n) K) : Matrix (Fin n) (Fin n) K :=
  Matrix.of fun i j => if j < i then F i j else if i = j then 1 else 0

/-- the upper triangle with the diagonal -/
def upperPart (F : Matrix (Fin n) (Fin n) K) : Matrix (Fin n) (Fin n) K :=
  Matrix.of fun i j => if i ≤ j then F i j else 0

/-- the lower triangle with the diagonal -/
def lowerPart (F : Matrix (Fin n) (Fin n) K) : Matrix (Fin n) (Fin n) K :=
  Matrix.of fun i j => if j ≤ i then F i j else 0

/-- the matrix a CRS object represents -/
def crsMat (n : Nat) (A : Crs K) : Matrix (Fin n) (Fin n) K := Matrix.of fun i j => crsAt A i j

/-- position `(i, j)` is stored (possibly with value zero) -/
def Stored (A : Crs K) (i j : Nat) : Prop := ∃ v, (i, j, v) ∈ A.entries

/-- `F` holds an LU factorisation of `A` without fill-in: pivots different from zero, and the product of the factors
agrees with `A` at the stored positions -/
def IsIlu0 (S : Nat → Nat → Prop) (A F : Matrix (Fin n) (Fin n) K) : Prop :=
  (∀ i, F i i ≠ 0) ∧ ∀ i j : Fin n, S i j → (unitLower F * upperPart F) i j = A i j

/-- the lower triangle of `F` holds a Cholesky factor of `A` without fill-in -/
def IsIc0 (S : Nat → Nat → Prop) (A F : Matrix (Fin n) (Fin n) K) : Prop :=
  (∀ i, F i i ≠ 0) ∧ ∀ i j : Fin n, j ≤ i → S i j → (lowerPart F * (lowerPart F)ᵀ) i j = A i j

/-- eliminating with the stored positions produces no new ones (as for tridiagonal matrices) -/
def NoFill (n : Nat) (S : Nat → Nat → Prop) : Prop :=
  ∀ i j k, i < n → j < n → k < i → k < j → S i k → S k j → S i j

/-- the arrays are long enough and the column indices in range -/
structure Readable (A : Crs K) : Prop where
  lenP : A.rowPtr.length = A.rowN + 1
  ptr_le : ∀ i, i ≤ A.rowN → A.ptr i ≤ A.nnz
  lenC : A.nnz ≤ A.colInd.length
  lenV : A.nnz ≤ A.val.length
  col_lt : ∀ k, (h : k < A.colInd.length) → k < A.nnz → A.colInd[k] < A.colN

/-- what the documentation of cuSPARSE says of the functions used, in exact arithmetic -/
structure CuSparseOk (cu : Incomplete.CuSparse K) : Prop where
  ilu : ∀ (A : Crs K) (n : Nat) (v : List K), Readable A → A.rowN = n → A.colN = n → cu.ilu0 A = (v, false) →
    v.length = A.val.length ∧ IsIlu0 (Stored A) (crsMat n A) (crsMat n { A with val := v })
  ic : ∀ (A : Crs K) (n : Nat) (v : List K), Readable A → A.rowN = n → A.colN = n → cu.ic0 A = (v, false) →
    v.length = A.val.length ∧ IsIc0 (Stored A) (crsMat n A) (crsMat n { A with val := v })
  iluFinds : ∀ A : Crs K, Readable A → (∃ v : List K, v.length = A.val.length ∧
    IsIlu0 (Stored A) (crsMat A.rowN A) (crsMat A.rowN { A with val := v })) → (cu.ilu0 A).2 = false
  icFinds : ∀ A : Crs K, Readable A → (∃ v : List K, v.length = A.val.length ∧
    IsIc0 (Stored A) (crsMat A.rowN A) (crsMat A.rowN { A with val := v })) → (cu.ic0 A).2 = false
  unitLower : ∀ (A : Crs K) (b : Fin A.rowN → K), ∃ y, cu.unitLower A (List.ofFn b) = List.ofFn y ∧
    unitLower (crsMat A.rowN A) *ᵥ y = b
  upper : ∀ (A : Crs K) (b : Fin A.rowN → K), (∀ i, crsMat A.rowN A i i ≠ 0) →
    ∃ y, cu.upper A (List.ofFn b) = List.ofFn y ∧ upperPart (crsMat A.rowN A) *ᵥ y = b
  lower : ∀ (A : Crs K) (b : Fin A.rowN → K), (∀ i, crsMat A.rowN A i i ≠ 0) →
    ∃ y, cu.lower A (List.ofFn b) = List.ofFn y ∧ lowerPart (crsMat A.rowN A) *ᵥ y = b
  lowerT : ∀ (A : Crs K) (b : Fin A.rowN → K), (∀ i, crsMat A.rowN A i i ≠ 0) →
    ∃ y, cu.lowerT A (List.ofFn b) = List.ofFn y ∧ (lowerPart (crsMat A.rowN A))ᵀ *ᵥ y = b

end Verif.Spec
