import Verif.Spec.SolverSpec
import Verif.Model.Lobpcg

/-!
What the pairs of an iterative eigensolver are worth before it has converged, for `M v = λ Q v` with symmetric `M` and
`Q` (`Q = 1` for the standard problem).
-/

namespace Verif.Spec

open Matrix

variable {K : Type} [Field K] [LinearOrder K] {n m : Nat}

/-- Each number is the Rayleigh quotient of its vector; the vectors are orthogonal to one another, for `Q` as for `M`;
the numbers ascend. -/
structure RitzPairs (M Q : Matrix (Fin n) (Fin n) K) (lam : Fin m → K) (v : Fin m → Fin n → K) : Prop where
  pos : ∀ i, 0 < v i ⬝ᵥ (Q *ᵥ v i)
  quot : ∀ i, v i ⬝ᵥ (M *ᵥ v i) = lam i * (v i ⬝ᵥ (Q *ᵥ v i))
  orth : ∀ i j, i ≠ j → v i ⬝ᵥ (Q *ᵥ v j) = 0 ∧ v i ⬝ᵥ (M *ᵥ v j) = 0
  sorted : ∀ i j, i ≤ j → lam i ≤ lam j

/-- All `n` eigenvalues of `M x = μ Q x` in ascending order, with eigenvectors that are orthonormal for `Q`. -/
structure Spectrum (M Q : Matrix (Fin n) (Fin n) K) (μ : Fin n → K) (e : Fin n → Fin n → K) : Prop where
  eigen : ∀ k, M *ᵥ e k = μ k • (Q *ᵥ e k)
  norm : ∀ k, e k ⬝ᵥ (Q *ᵥ e k) = 1
  orth : ∀ k l, k ≠ l → e k ⬝ᵥ (Q *ᵥ e l) = 0
  sorted : ∀ k l, k ≤ l → μ k ≤ μ l

/-- On the space spanned by the vectors `u` the Rayleigh quotient is at most `ρ`. -/
def QuotLe (M Q : Matrix (Fin n) (Fin n) K) {r : Nat} (u : Fin r → Fin n → K) (ρ : K) : Prop :=
  ∀ c : Fin r → K, (∑ j, c j • u j) ⬝ᵥ (M *ᵥ ∑ j, c j • u j) ≤ ρ * ((∑ j, c j • u j) ⬝ᵥ (Q *ᵥ ∑ j, c j • u j))

/-- The numbers `lam` are at least as good as what the vectors `start` offer: number `i` is at most the largest
Rayleigh quotient on any space spanned by `i + 1` of them. -/
def Improves (M Q : Matrix (Fin n) (Fin n) K) (ι : K → α) (start : List (List α)) (lam : Fin m → K) : Prop :=
  ∀ (i : Fin m) (r : Fin (i + 1) → Nat) (u : Fin (i + 1) → Fin n → K) (ρ : K), Function.Injective r →
    (∀ j, start[r j]? = some (vec ι (u j))) → QuotLe M Q u ρ → lam i ≤ ρ

/-- the vectors an eigensolver starts from: the caller's, or the random ones -/
def startOf (m : Nat) (rs : Option (List (List α))) (xin : List (List α)) : List (List α) :=
  match rs with
  | some rs => rs.take m
  | none => xin

/-- The errors of `dsygvd` for matrices of order `k` that LOBPCG with `m` vectors neither reports nor answers by a new
attempt: a value of `info` of `m` or more that is not in the range `(2k - m, 2k]` taken for a singular matrix. -/
def Ignored (m k : Nat) (info : Int) : Prop :=
  info ≠ 0 ∧ (m : Int) ≤ info ∧ ¬ (2 * (k : Int) - m < info ∧ info ≤ 2 * (k : Int))

instance (m k : Nat) (info : Int) : Decidable (Ignored m k info) := by unfold Ignored; infer_instance

/-- The same LAPACK, except that it gives the errors LOBPCG ignores as `info = -1`, which LOBPCG reports. -/
def loud {α : Type} (m : Nat) (L : Lapack.Lib α) : Lapack.Lib α :=
  { L with
    sygvd := fun itype vectors upper n a lda b ldb =>
      let r := L.sygvd itype vectors upper n a lda b ldb
      (r.1, r.2.1, r.2.2.1, if Ignored m n r.2.2.2 then -1 else r.2.2.2) }

end Verif.Spec
