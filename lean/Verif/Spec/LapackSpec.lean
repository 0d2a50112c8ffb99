import Verif.Model.Lapack
import Verif.Spec.LinAlg
import Verif.Spec.DenseSpec
import Verif.Spec.VecSpec
import Mathlib.LinearAlgebra.Matrix.Determinant.Basic

/-!
The documented behaviour of the LAPACK routines that monolish calls, in exact arithmetic (LAPACK
Users' Guide, and the headers of dgetrf, dgetrs, dsytrf, dsytrs, dsyevd, dsygvd). LAPACK is not part of
the repository; this contract is the assumption the theorems about LU, Cholesky and DC make about it.
Matrices are column-major: element `(i, j)` is at `i + lda * j`.
-/

namespace Verif.Lapack

variable {α : Type} [Field α]

/-- element `(i, j)` of a column-major array -/
def cm (a : List α) (lda i j : Nat) : α := a.getD (i + lda * j) 0

/-- The row interchanges recorded in `IPIV` (1-based), from row `k` on: row `i` of the permuted matrix
is row `rowPerm k ipiv i` of the original one. -/
def rowPerm : Nat → List Nat → Equiv.Perm Nat
  | _, [] => 1
  | k, p :: ps => Equiv.swap k (p - 1) * rowPerm (k + 1) ps

/-- the unit lower trapezoidal factor stored below the diagonal of `a` -/
def lower (a : Nat → Nat → α) (i t : Nat) : α := if i = t then 1 else if t < i then a i t else 0

/-- the upper trapezoidal factor stored in the upper triangle of `a` -/
def upper (a : Nat → Nat → α) (t j : Nat) : α := if t ≤ j then a t j else 0

/-- `P A = L U`, `L`, `U` and `P` given in the form in which `dgetrf` returns them -/
def IsLU (m n : Nat) (A : Nat → Nat → α) (lu : Nat → Nat → α) (ipiv : List Nat) : Prop :=
  ∀ i j, i < m → j < n →
    A (rowPerm 0 ipiv i) j = ∑ t ∈ Finset.range (min m n), lower lu i t * upper lu t j

/-- `dgetrf`: LU factorisation with partial pivoting and row interchanges -/
structure GetrfOk (m n : Nat) (a : List α) (lda : Nat) (r : List α × List Nat × Int) : Prop where
  illegal : lda < max 1 m → r.2.2 < 0 ∧ r.1 = a
  length : r.1.length = a.length
  pivots : max 1 m ≤ lda → r.2.1.length = min m n ∧
    ∀ k p, r.2.1[k]? = some p → k < p ∧ p ≤ m
  factors : max 1 m ≤ lda → IsLU m n (cm a lda) (cm r.1 lda) r.2.1
  info : max 1 m ≤ lda → 0 ≤ r.2.2 ∧ (r.2.2 = 0 ↔ ∀ k, k < min m n → cm r.1 lda k k ≠ 0)

/-- `op(A)` for `TRANS = 'N'` and `'T'` -/
def op (trans : Bool) (A : Nat → Nat → α) (i j : Nat) : α := if trans then A j i else A i j

/-- `dgetrs`: solution of `op(A) X = B` with the factorisation of `A` computed by `dgetrf`.
If `U` is singular nothing is said about `X`. -/
structure GetrsOk (trans : Bool) (n nrhs : Nat) (a : List α) (lda : Nat) (ipiv : List Nat)
    (b : List α) (ldb : Nat) (r : List α × Int) : Prop where
  illegal : (lda < max 1 n ∨ ldb < max 1 n) → r.2 < 0 ∧ r.1 = b
  length : r.1.length = b.length
  info : max 1 n ≤ lda → max 1 n ≤ ldb → r.2 = 0
  solves : max 1 n ≤ lda → max 1 n ≤ ldb → (∀ k, k < n → cm a lda k k ≠ 0) →
    ipiv.length = n → (∀ k p, ipiv[k]? = some p → k < p ∧ p ≤ n) →
    ∀ A : Nat → Nat → α, IsLU n n A (cm a lda) ipiv →
      ∀ c, c < nrhs → ∀ i, i < n →
        Spec.mulVec n (op trans A) (fun j => cm r.1 ldb j c) i = cm b ldb i c
  rest : ∀ p, (∀ c i, c < nrhs → i < n → p ≠ i + ldb * c) → r.1[p]? = b[p]?

/-- the symmetric matrix whose upper (lower) triangle is stored in `a` -/
def sym (upper : Bool) (a : List α) (lda i j : Nat) : α :=
  if upper then (if i ≤ j then cm a lda i j else cm a lda j i)
  else (if j ≤ i then cm a lda i j else cm a lda j i)

/-- determinant of an `n × n` array -/
def det (n : Nat) (A : Nat → Nat → α) : α := Matrix.det (Matrix.of fun i j : Fin n => A i j)

/-- `dsytrf` and `dsytrs`: Bunch-Kaufman factorisation of a symmetric matrix and solution with it.
The contents of the factored array are left open: only `dsytrs` reads them. -/
structure SytrOk (upper : Bool) (n : Nat) (a : List α) (lda lwork : Nat)
    (f : List α × List Int × Int)
    (solve : (nrhs : Nat) → (b : List α) → (ldb : Nat) → List α × Int) : Prop where
  illegal : (lda < max 1 n ∨ lwork < 1) → f.2.2 < 0 ∧ f.1 = a
  length : f.1.length = a.length
  pivots : max 1 n ≤ lda → 1 ≤ lwork → f.2.1.length = n
  info : max 1 n ≤ lda → 1 ≤ lwork → 0 ≤ f.2.2 ∧ (f.2.2 = 0 ↔ det n (sym upper a lda) ≠ 0)
  sLength : ∀ nrhs b ldb, (solve nrhs b ldb).1.length = b.length
  sInfo : ∀ nrhs b ldb, max 1 n ≤ lda → max 1 n ≤ ldb → (solve nrhs b ldb).2 = 0
  sSolves : max 1 n ≤ lda → 1 ≤ lwork → f.2.2 = 0 → ∀ nrhs b ldb, max 1 n ≤ ldb →
    extent n nrhs ldb ≤ b.length → ∀ c, c < nrhs → ∀ i, i < n →
      Spec.mulVec n (sym upper a lda) (fun j => cm (solve nrhs b ldb).1 ldb j c) i = cm b ldb i c

/-- `dsyevd` with `JOBZ = 'V'`: on success the columns of the array are orthonormal eigenvectors, the
eigenvalues are in ascending order -/
structure SyevdOk [LinearOrder α] (upper : Bool) (n : Nat) (a : List α) (lda : Nat)
    (r : List α × List α × Int) : Prop where
  length : r.1.length = a.length
  illegal : lda < max 1 n → r.2.2 < 0
  wLength : r.2.2 = 0 → r.2.1.length = n
  eigen : r.2.2 = 0 → ∀ k, k < n → ∀ i, i < n →
    Spec.mulVec n (sym upper a lda) (fun j => cm r.1 lda j k) i = r.2.1.getD k 0 * cm r.1 lda i k
  ortho : r.2.2 = 0 → ∀ k l, k < n → l < n →
    (∑ i ∈ Finset.range n, cm r.1 lda i k * cm r.1 lda i l) = if k = l then 1 else 0
  sorted : r.2.2 = 0 → ∀ k l, k ≤ l → l < n → r.2.1.getD k 0 ≤ r.2.1.getD l 0

/-- the matrix of the eigenproblem of `dsygvd`: `ITYPE = 1`: `A x = λ B x`; `2`: `A B x = λ x`;
`3`: `B A x = λ x` -/
def GenEig (itype : Int) (n : Nat) (A B : Nat → Nat → α) (w : α) (v : Nat → α) : Prop :=
  ∀ i, i < n →
    if itype = 1 then Spec.mulVec n A v i = w * Spec.mulVec n B v i
    else if itype = 2 then Spec.mulVec n A (Spec.mulVec n B v) i = w * v i
    else Spec.mulVec n B (Spec.mulVec n A v) i = w * v i

/-- `dsygvd` with `JOBZ = 'V'`: eigenvectors, not identically zero, eigenvalues ascending -/
structure SygvdOk [LinearOrder α] (itype : Int) (upper : Bool) (n : Nat) (a : List α) (lda : Nat)
    (b : List α) (ldb : Nat) (r : List α × List α × List α × Int) : Prop where
  length : r.1.length = a.length ∧ r.2.1.length = b.length
  illegal : (itype < 1 ∨ 3 < itype ∨ lda < max 1 n ∨ ldb < max 1 n) → r.2.2.2 < 0
  wLength : r.2.2.2 = 0 → r.2.2.1.length = n
  eigen : r.2.2.2 = 0 → ∀ k, k < n →
    GenEig itype n (sym upper a lda) (sym upper b ldb) (r.2.2.1.getD k 0) (fun j => cm r.1 lda j k)
  nonzero : r.2.2.2 = 0 → ∀ k, k < n → ∃ i, i < n ∧ cm r.1 lda i k ≠ 0
  sorted : r.2.2.2 = 0 → ∀ k l, k ≤ l → l < n → r.2.2.1.getD k 0 ≤ r.2.2.1.getD l 0

/-- A LAPACK library whose LU routines meet the contract. -/
structure Lib.LUOk (L : Lib α) : Prop where
  getrf : ∀ m n a lda, extent m n lda ≤ a.length → GetrfOk m n a lda (L.getrf m n a lda)
  getrs : ∀ trans n nrhs a lda ipiv b ldb, extent n n lda ≤ a.length → extent n nrhs ldb ≤ b.length →
    n ≤ ipiv.length → GetrsOk trans n nrhs a lda ipiv b ldb (L.getrs trans n nrhs a lda ipiv b ldb)

/-- A LAPACK library whose symmetric indefinite solver meets the contract. -/
def Lib.SyOk (L : Lib α) : Prop :=
  ∀ upper n a lda lwork, extent n n lda ≤ a.length →
    SytrOk upper n a lda lwork (L.sytrf upper n a lda lwork)
      (fun nrhs b ldb => L.sytrs upper n nrhs (L.sytrf upper n a lda lwork).1 lda
        (L.sytrf upper n a lda lwork).2.1 b ldb)

end Verif.Lapack
