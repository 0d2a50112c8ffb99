import Verif.Spec.Ext

/-! What the LOBPCG solvers promise: pairs of numbers and vectors whose residual is small. -/

namespace Verif.Spec

open Matrix

variable {K : Type} {n : Nat}

/-- A preconditioner that applies `P` to vectors of numbers, keeps the length, and does not make numbers
out of infinities or NaNs. -/
structure Strict (pc : List (Ext K) → Res (List (Ext K))) (P : (Fin n → K) → Fin n → K) : Prop where
  app : ∀ v, pc (vec Ext.fin v) = .ok (vec Ext.fin (P v))
  len : ∀ u w, u.length = n → pc u = .ok w → w.length = n
  fin : ∀ (u : List (Ext K)) (v : Fin n → K), u.length = n → pc u = .ok (vec Ext.fin v) → ∃ v' : Fin n → K, u = vec Ext.fin v'

variable [Field K] [LinearOrder K]

/-- `v` is some vector divided by its norm -/
def Normalised (sq : K → K) (v : Fin n → K) : Prop :=
  ∃ q : Fin n → K, norm2 sq q ≠ 0 ∧ v = (norm2 sq q)⁻¹ • q

/-- `xs` are normalised vectors and `ls` numbers such that the `i`-th residual `res l v` is below `tol`
in the Euclidean norm. -/
def Pairs (sq : K → K) (res : K → (Fin n → K) → Fin n → K) (tol : K) (ls : List (Ext K))
    (xs : List (List (Ext K))) (m : Nat) : Prop :=
  ∃ (l : Fin m → K) (v : Fin m → Fin n → K),
    ls = List.ofFn (fun i => Ext.fin (l i)) ∧ xs = List.ofFn (fun i => vec Ext.fin (v i)) ∧
      ∀ i, norm2 sq (res (l i) (v i)) < tol ∧ Normalised sq (v i)

end Verif.Spec
