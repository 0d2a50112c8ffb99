import Verif.Spec.Ext
import Verif.Props.GenSpectrum

/-! The documented behaviour of `dsygvd` on arrays of IEEE-like numbers. -/

namespace Verif.Spec

open Lapack

/-- What the documentation of `dsygvd` says about the eigenproblem `A x = λ B x` with eigenvectors when `info = 0`, for
arrays of numbers of which the lower triangle is read: numbers are returned, they are eigenvalues in ascending order
and eigenvectors, and the eigenvectors satisfy `Z' B Z = I`. -/
def Dsygvd {K : Type} [Field K] [LinearOrder K] (L : Lib (Ext K)) : Prop :=
  ∀ (k : Nat) (a b : List K), a.length = k * k → b.length = k * k →
    (L.sygvd 1 true false k (a.map Ext.fin) k (b.map Ext.fin) k).2.2.2 = 0 →
    ∃ z e w : List K, (L.sygvd 1 true false k (a.map Ext.fin) k (b.map Ext.fin) k).1 = z.map Ext.fin ∧
      (L.sygvd 1 true false k (a.map Ext.fin) k (b.map Ext.fin) k).2.2.1 = w.map Ext.fin ∧
      SygvdOk 1 false k a k b k (z, e, w, 0) ∧ SygvdNormal 1 false k b k k (z, e, w, 0)

/-- The errors of `dsygvd`, as documented, when its arguments are legal and the eigenvalue iteration converges:
`info = k + i` means that the leading minor of order `i` of `B` is not positive definite. -/
def DsygvdCompletes {K : Type} [Field K] [LinearOrder K] (L : Lib (Ext K)) : Prop :=
  ∀ (k : Nat) (a b : List K), 0 < k → a.length = k * k → b.length = k * k →
    (L.sygvd 1 true false k (a.map Ext.fin) k (b.map Ext.fin) k).2.2.2 = 0 ∨
    ∃ i : Nat, 1 ≤ i ∧ i ≤ k ∧ (L.sygvd 1 true false k (a.map Ext.fin) k (b.map Ext.fin) k).2.2.2 = k + i ∧
      ∃ c : Fin k → K, c ≠ 0 ∧ (∀ j : Fin k, i ≤ j → c j = 0) ∧ c ⬝ᵥ (mat k (sym false b k)).mulVec c ≤ 0

end Verif.Spec
