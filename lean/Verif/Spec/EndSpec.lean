import Verif.Spec.SolverSpec
import Verif.Spec.LinAlg
import Verif.Spec.GenSpec
import Verif.Model.Mm

/-! Matrices as the end-to-end theorems state them. -/

namespace Verif.Spec

variable {α K : Type}

/-- the `n × n` matrix given by a list of entries (entries at the same position add up) -/
def matrixOf [AddZeroClass K] (n : Nat) (L : List (Entry K)) : Matrix (Fin n) (Fin n) K :=
  Matrix.of fun i j => sumAt L i j

/-- `a` on the diagonal, `b` beside it -/
def triMatrix [Zero K] (n : Nat) (a b : K) : Matrix (Fin n) (Fin n) K :=
  Matrix.of fun i j => if i = j then a else if (i : Nat) + 1 = j ∨ (j : Nat) + 1 = i then b else 0

/-- the five-point Laplacian of a grid with `m` columns, `n` points in all: 4 on the diagonal, -1 for
neighbours -/
def gridMatrix [Ring K] (m n : Nat) : Matrix (Fin n) (Fin n) K :=
  Matrix.of fun i j => if i = j then 4 else if GridNeighbours m i j then -1 else 0

/-- the first `n` numbers of a stream, as a vector -/
def firstN (n : Nat) (g : Nat → α) : Fin n → α := fun i => g i

/-- the text of a Matrix Market file with comment lines `cs`, dimensions `M` and `N` and the entries `L`
(1-based row and column, value written by the codec) -/
def mmText (K : Mm.Codec α) (cs : List (List Char)) (M N : Nat) (L : List (Entry α)) : List Char :=
  "%%MatrixMarket matrix coordinate real general".toList ++ '\n' ::
    (cs.flatMap (fun c => c ++ ['\n']) ++
      (Nat.toDigits 10 M ++ ' ' :: (Nat.toDigits 10 N ++ ' ' :: (Nat.toDigits 10 L.length ++ '\n' ::
        L.flatMap fun e => Nat.toDigits 10 (e.1 + 1) ++ ' ' :: (Nat.toDigits 10 (e.2.1 + 1) ++ ' ' ::
          (K.fmt e.2.2 ++ ['\n']))))))

/-- a comment line: begins with a percent sign, has no line break in it -/
def IsComment (c : List Char) : Prop := c.head? = some '%' ∧ ∀ x ∈ c, x ≠ '\n'

end Verif.Spec
