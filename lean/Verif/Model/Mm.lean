import Verif.Model.Coo

/-!
Model of MatrixMarket output and input of `COO` (src/utils/IO/IO_coo.cpp), character by character.

A file is a list of characters. Printing and parsing one element of type `T` is a parameter (`Codec`):
`fmt x` is the text `out << x` produces in scientific notation with `max_digits10` digits, and
`parse t` is what `data >> value` makes of a blank-delimited word `t` (`none`: the conversion fails and
stores 0, as C++11 requires). Reading a number at the end of the line stores nothing; using the variable
afterwards is undefined behaviour. Simplifications: the file can be opened; a sign in front of an
unsigned number is treated as a failed conversion; numbers do not overflow `size_t`.
`exit(-1)` is the outcome `abort`.
-/

namespace Verif
namespace Mm

variable {α : Type}

/-- text conversion of the element type -/
structure Codec (α : Type) where
  fmt : α → List Char
  parse : List Char → Option α

/-- blanks skipped by `operator>>` -/
def isWs (c : Char) : Bool :=
  c == ' ' || c == '\n' || c == '\t' || c == '\r' || c == '\x0b' || c == '\x0c'

/-- `MM_BANNER " " MM_MAT " " MM_FMT " " MM_TYPE_REAL " " MM_TYPE_GENERAL`:
include/monolish/common/monolish_coo.hpp:17-22 -/
def banner : List Char := "%%MatrixMarket matrix coordinate real general".toList

/-- a number printed by `operator<<` -/
def showNat (n : Nat) : List Char := Nat.toDigits 10 n

/-- one entry line, `row_index[i] + 1 << " " << col_index[i] + 1 << " " << data()[i] << std::endl`:
IO_coo.cpp:62-63 -/
def entryLine (K : Codec α) (r c : Nat) (v : α) : List Char :=
  showNat (r + 1) ++ ' ' :: (showNat (c + 1) ++ ' ' :: (K.fmt v ++ ['\n']))

/-- the loop of entry lines: IO_coo.cpp:61-64 -/
def printEntries (K : Codec α) (A : Coo α) (out : List Char) : Res (List Char) :=
  forN A.nnz (fun i out => do
    let r ← rd A.rowIdx i
    let c ← rd A.colIdx i
    let v ← rd A.val i
    .ok (out ++ entryLine K r c v)) out

/-- `COO::print_all(filename)`: IO_coo.cpp:33-45 -/
def printAll (K : Codec α) (A : Coo α) : Res (List Char) := printEntries K A []

/-- `COO::output_mm`: IO_coo.cpp:49-66 -/
def output (K : Codec α) (A : Coo α) : Res (List Char) :=
  printEntries K A (banner ++ '\n' :: (showNat A.rowN ++ ' ' :: (showNat A.colN ++ ' ' ::
    (showNat A.nnz ++ ['\n']))))

/-- an input file stream: the characters not yet read, and `good()` -/
structure Ifs where
  rest : List Char
  good : Bool
  deriving DecidableEq, Repr

/-- the first line of a text, and what follows its newline (`none`: there is no newline) -/
def splitLine : List Char → List Char × Option (List Char)
  | [] => ([], none)
  | c :: s => if c = '\n' then ([], some s) else
    let (l, r) := splitLine s
    (c :: l, r)

/-- `std::getline(ifs, buf)`. On a stream that is not good nothing is extracted and `buf` keeps its
value; reaching the end of the file sets `eofbit`. -/
def getline (f : Ifs) (buf : List Char) : Ifs × List Char :=
  if f.good then
    match splitLine f.rest with
    | (l, some r) => ({ rest := r, good := true }, l)
    | (l, none) => ({ rest := [], good := false }, l)
  else (f, buf)

/-- `stream >> std::string`: the next blank-delimited word (empty when there is none) -/
def word (s : List Char) : List Char × List Char :=
  let s := s.dropWhile isWs
  (s.takeWhile (fun c => !isWs c), s.dropWhile (fun c => !isWs c))

/-- `stream >> size_t` -/
def readNat (s : List Char) : Option (Nat × List Char) :=
  let s := s.dropWhile isWs
  let ds := s.takeWhile Char.isDigit
  if ds = [] then none else some (Nat.ofDigitChars 10 ds 0, s.dropWhile Char.isDigit)

/-- a number that has to be there -/
def needNat (s : List Char) : Res (Nat × List Char) :=
  match readNat s with
  | some x => .ok x
  | none => .ub "use of an uninitialised number"

/-- `data >> value` -/
def readVal [Zero α] (K : Codec α) (s : List Char) : Res α :=
  let t := (word s).1
  if t = [] then .ub "use of an uninitialised value"
  else .ok ((K.parse t).getD 0)

/-- `do { getline(ifs, buf); } while (buf[0] == '%')`: IO_coo.cpp:112-114. On a stream at its end
`getline` no longer changes `buf`, so a last comment line without newline loops for ever. -/
def skipComments : (fuel : Nat) → Ifs → List Char → Res (Ifs × List Char)
  | 0, _, _ => .ub "out of fuel"
  | fuel + 1, f, buf =>
    let (f', buf') := getline f buf
    if buf'.head? = some '%' then
      if f'.good then skipComments fuel f' buf' else .ub "endless loop at end of file"
    else .ok (f', buf')

/-- `ix - 1` in `size_t`, which wraps at 0. (Stored in an `int` that is -1; the indices of the model are natural
numbers, so it is kept as the `size_t` value -1 converts back to. Indices from 2^31 on are left to C99.) -/
def pred64 (n : Nat) : Nat := if n = 0 then 18446744073709551615 else n - 1

/-- one entry: IO_coo.cpp:138-149 -/
def readEntry [Zero α] (K : Codec α) (i : Nat) (st : Ifs × List Char × Coo α) :
    Res (Ifs × List Char × Coo α) := do
  let (f, buf) := getline st.1 st.2.1
  let A := st.2.2
  let (ix, s) ← needNat buf
  let (jx, s) ← needNat s
  let value ← readVal K s
  let r ← wr A.rowIdx i (pred64 ix)
  let c ← wr A.colIdx i (pred64 jx)
  let v ← wr A.val i value
  .ok (f, buf, { A with rowIdx := r, colIdx := c, val := v })

/-- the header words of the banner: IO_coo.cpp:84-110 -/
def checkBanner (l : List Char) : Bool :=
  let (mm, s) := word l
  let (mat, s) := word s
  let (fmt, s) := word s
  let (dtype, s) := word s
  let (dstruct, _) := word s
  mm == "%%MatrixMarket".toList && mat == "matrix".toList && fmt == "coordinate".toList &&
    dtype == "real".toList && dstruct == "general".toList

/-- `COO::input_mm`: IO_coo.cpp:70-152, on an existing object `A`. -/
def input [Zero α] (K : Codec α) (A : Coo α) (text : List Char) : Res (Coo α) := do
  let (f, line) := getline { rest := text, good := true } []
  if checkBanner line then do
    let (f, buf) ← skipComments (text.length + 1) f []
    let (rowNN, s) ← needNat buf
    let (colNN, s) ← needNat s
    let (nnz, _) ← needNat s
    if colNN ≤ 0 then .abort "exit(-1)"
    else do
      let A ← Coo.resize { A with
        rowN := rowNN, colN := colNN, rowIdx := stdResize A.rowIdx nnz 0,
        colIdx := stdResize A.colIdx nnz 0, created := true } nnz 0
      let st ← forN nnz (readEntry K) (f, buf, A)
      .ok st.2.2
  else .abort "exit(-1)"

end Mm
end Verif
