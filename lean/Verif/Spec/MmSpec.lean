import Verif.Spec.Entries

/-!
The Matrix Market coordinate format (real, general), as its definition describes it, without any layout:
words separated by any number of blanks. Nothing here refers to the reader.
-/

namespace Verif.Spec

/-- a blank inside a line, or a line break -/
def Blank (c : Char) : Prop := c ∈ [' ', '\t', '\r', '\n', '\x0b', '\x0c']

/-- `l` consists of the words `ws`, separated (and possibly preceded and followed) by blanks -/
inductive Words : List Char → List (List Char) → Prop
  | none {s : List Char} : (∀ c ∈ s, Blank c) → Words s []
  | word {s w l : List Char} {ws : List (List Char)} : (∀ c ∈ s, Blank c) → w ≠ [] → (∀ c ∈ w, ¬ Blank c) →
      (∀ c ∈ l.head?, Blank c) → Words l ws → Words (s ++ (w ++ l)) (w :: ws)

/-- value of a decimal digit -/
def digitOf (c : Char) : Nat := c.toNat - '0'.toNat

/-- `w` is a decimal numeral (leading zeros allowed) for `n` -/
def Numeral (w : List Char) (n : Nat) : Prop :=
  w ≠ [] ∧ (∀ c ∈ w, '0' ≤ c ∧ c ≤ '9') ∧ w.foldl (fun a c => 10 * a + digitOf c) 0 = n

/-- the line has no line break in it -/
def OneLine (l : List Char) : Prop := ∀ c ∈ l, c ≠ '\n'

/-- the line `l` states the entry `e`: row and column counted from 1, and a value -/
def StatesEntry {α : Type} (parse : List Char → Option α) (l : List Char) (e : Entry α) : Prop :=
  OneLine l ∧ ∃ r c v, Words l [r, c, v] ∧ Numeral r (e.1 + 1) ∧ Numeral c (e.2.1 + 1) ∧ parse v = some e.2.2

/-- the line `l` states the sizes -/
def StatesSize (l : List Char) (M N n : Nat) : Prop :=
  OneLine l ∧ ∃ a b c, Words l [a, b, c] ∧ Numeral a M ∧ Numeral b N ∧ Numeral c n

/-- the first line of the file -/
def StatesBanner (l : List Char) : Prop :=
  OneLine l ∧ Words l ["%%MatrixMarket".toList, "matrix".toList, "coordinate".toList, "real".toList,
    "general".toList]

/-- the line `l` is a comment -/
def Remark (l : List Char) : Prop := OneLine l ∧ l.head? = some '%'

/-- The file `text` announces `n` entries of an `M` by `N` matrix and then lists the entries `L`, one on a
line; `rest` is what follows the last of them: nothing, or a line break and anything else. -/
structure MmFile {α : Type} (parse : List Char → Option α) (text : List Char) (M N n : Nat)
    (L : List (Entry α)) (rest : List Char) : Prop where
  layout : ∃ (banner : List Char) (remarks : List (List Char)) (size : List Char) (lines : List (List Char)),
    text = banner ++ '\n' :: (remarks.flatMap (fun l => l ++ ['\n']) ++
      (size ++ (lines.flatMap (fun l => '\n' :: l) ++ rest))) ∧
    StatesBanner banner ∧ (∀ l ∈ remarks, Remark l) ∧ StatesSize size M N n ∧
    lines.length = L.length ∧ ∀ i, (h : i < lines.length) → (h' : i < L.length) → StatesEntry parse lines[i] L[i]
  after : ∀ c ∈ rest.head?, c = '\n'

end Verif.Spec
