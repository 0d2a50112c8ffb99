import Verif.Model.Logger
import Mathlib.Data.List.Dedup
import Mathlib.Data.List.Sort
import Mathlib.Data.Rat.Defs

/-!
# The log viewer

Model of `python/monolish_log_viewer` (`create_log.py:5-37`): it reads the log file and shows two tables, the
calls of the outermost level (`aggregate.py:18-47`) and the breakdown of the solver calls
(`aggregate.py:49-193`).

A pandas DataFrame is a list of rows; a missing value (NaN) is `none`. `groupby` sorts by the keys, drops rows
whose key is missing, `sum` and `count` skip missing values. Numbers are exact (rational). The digits of the
times in the file (the logger writes six) and the HTML text are not modelled.
-/

namespace Verif.Viewer

/-- A record of the log file: `{type, name, stat, time}`; `isIn` is `stat == "IN"`, such records have no time.
The type is not used by the tables. -/
structure Rec where
  name : List Char
  isIn : Bool
  time : Option Rat
  deriving DecidableEq, Repr

/-- the text of a call path: every name is followed by a slash (`logger_utils.cpp:22-25, 54-56, 107-109`) -/
def pathText (p : List String) : List Char := p.flatMap (fun s => s.toList ++ ['/'])

/-- the record written for a log line (`logger_utils.cpp:19-36, 49-70, 102-127`) and read back by
`read.py:5-14` -/
def recOf (l : Log.Line) : Rec :=
  match l.stat with
  | .start => ⟨pathText l.path, true, none⟩
  | .finish t => ⟨pathText l.path, false, some t⟩

/-- `name.count("/")`: aggregate.py:29, 66 -/
def layer (n : List Char) : Nat := n.count '/'

/-- order of Python strings -/
def nameLe (a b : List Char) : Bool := decide (a ≤ b)

/-- `sum()` of a column, missing values skipped -/
def colSum (l : List (Option Rat)) : Rat := (l.filterMap id).foldr (· + ·) 0

/-- `count()` of a column: the values that are not missing -/
def colCount (l : List (Option Rat)) : Nat := (l.filterMap id).length

/-- the keys of `groupby`: sorted, without repetitions -/
def groupKeys {κ : Type} [DecidableEq κ] (le : κ → κ → Bool) (keys : List κ) : List κ :=
  keys.dedup.insertionSort (fun a b => le a b = true)

/-- A row of the first table. -/
structure Row1 where
  name : List Char
  layer : Nat
  time : Rat
  cnt : Nat
  deriving DecidableEq, Repr

/-- `layer_1_aggregated`: aggregate.py:18-47. The test `time != "IN"` (line 32) holds for every record. The
first statement that uses a column fails if there are no records. -/
def layer1 (rows : List Rec) : Res (List Row1) :=
  if rows = [] then .throw "AttributeError: 'DataFrame' object has no attribute 'name'" else
    let sel := rows.filter (fun r => layer r.name = 1)
    .ok ((groupKeys nameLe (sel.map (·.name))).map (fun n =>
      let g := (sel.filter (fun r => r.name = n)).map (·.time)
      ⟨n, layer n, colSum g, colCount g⟩))

/-- `grouping_df["group"] = range(1, ...)` merged by index: the finished calls of layer 1 are numbered from
`k + 1`, other records have no group. aggregate.py:91-94 -/
def labels (k : Nat) : List Rec → List (Option Nat)
  | [] => []
  | r :: rows => if layer r.name = 1 ∧ r.isIn = false then some (k + 1) :: labels (k + 1) rows
                 else none :: labels k rows

/-- `fillna(method="bfill")`: the next value that is not missing. aggregate.py:95 -/
def bfill : List (Option Nat) → List (Option Nat)
  | [] => []
  | none :: l => ((bfill l).head?).join :: bfill l
  | some g :: l => some g :: bfill l

/-- A row of the solver table before the percentages: aggregate.py:128. -/
structure Base where
  group : Nat
  layer : Nat
  name : List Char
  parent : List Char
  hasChild : Bool
  time : Rat
  cnt : Nat
  deriving DecidableEq, Repr

/-- `x.split("/")` -/
def split : List Char → List (List Char)
  | [] => [[]]
  | c :: l => if c = '/' then [] :: split l else
    match split l with
    | [] => [[c]]
    | w :: ws => (c :: w) :: ws

/-- `"/".join(l)` -/
def joinSlash : List (List Char) → List Char
  | [] => []
  | [w] => w
  | w :: ws => w ++ '/' :: joinSlash ws

/-- `"/".join(x.split("/")[:-2] + [""])`: aggregate.py:120 -/
def parentOf (x : List Char) : List Char := joinSlash ((split x).dropLast.dropLast ++ [[]])

/-- order of the keys `["group", "name"]` -/
def keyLe (a b : Nat × List Char) : Bool := decide (a.1 < b.1) || (decide (a.1 = b.1) && nameLe a.2 b.2)

/-- the records with their groups, `IN` records and records without group removed: aggregate.py:91-103 -/
def grouped (rows : List Rec) : List (Nat × Rec) :=
  ((bfill (labels 0 rows)).zip rows).filterMap (fun p =>
    match p.1 with
    | none => none
    | some g => if p.2.isIn then none else some (g, p.2))

/-- `create_preprocessing_table`: aggregate.py:81-130 -/
def base (rows : List Rec) : List Base :=
  let gr := grouped rows
  let keys := groupKeys keyLe (gr.map (fun p => (p.1, p.2.name)))
  keys.map (fun k =>
    let col := (gr.filter (fun p => (p.1, p.2.name) = k)).map (·.2.time)
    { group := k.1
      layer := layer k.2
      name := k.2
      parent := parentOf k.2
      hasChild := keys.any (fun k' => k'.1 = k.1 ∧ parentOf k'.2 = k.2)
      time := colSum col
      cnt := colCount col })

/-- the columns `l{n+1}/l{n}_per` and `..._per/count` of one row: aggregate.py:142-163. `merge` with the rows of
the layers `n`, `n + 1` is a search, since there is one row for every group and name. A division by zero gives
no number. -/
def percent (B : List Base) (n : Nat) (b : Base) : Option Rat × Option Rat :=
  if b.layer = n ∧ b.hasChild then (some 100, some 100)
  else if b.layer = n ∨ b.layer = n + 1 then
    match B.find? (fun p => (p.layer = n ∨ p.layer = n + 1) ∧ p.group = b.group ∧ p.name = b.parent) with
    | none => (none, none)
    | some p => if p.time = 0 then (none, none) else
      (some (b.time / p.time * 100), some (b.time / p.time * 100 / b.cnt))
  else (none, none)

/-- `max(dataframe["layer"])` -/
def maxLayer (B : List Base) : Nat := (B.map (·.layer)).foldr max 0

/-- A row of the solver table. -/
structure Row2 where
  name : List Char
  layer : Nat
  group : Nat
  time : Rat
  cnt : Nat
  pers : List (Option Rat × Option Rat)
  deriving DecidableEq, Repr

/-- `name.str.contains("solve/")`: aggregate.py:174 -/
def contains (w : List Char) : List Char → Bool
  | [] => w.isPrefixOf []
  | c :: l => w.isPrefixOf (c :: l) || contains w l

/-- `unique()`: first occurrences, in order -/
def unique : List Nat → List Nat
  | [] => []
  | a :: l => a :: (unique l).filter (· ≠ a)

/-- `aggregated`: aggregate.py:49-79, with `calculate_table` (:132-165) and `shaping` (:167-193). -/
def solver (rows : List Rec) : Res (List Row2) :=
  let B := base rows
  if B = [] then .throw "ValueError: max() arg is an empty sequence" else
    let S := B.filter (fun b => contains "solve/".toList b.name)
    let groups := unique (S.map (·.group))
    .ok (S.map (fun b =>
      { name := b.name
        layer := b.layer
        group := groups.idxOf b.group + 1
        time := b.time
        cnt := b.cnt
        pers := (List.range (maxLayer S - 1)).map (fun n => percent B (n + 1) b) }))

/-- `execute_create_log`: create_log.py:5-37 -/
def view (rows : List Rec) : Res (List Row1 × List Row2) := do
  let t1 ← layer1 rows
  let t2 ← solver rows
  .ok (t1, t2)

end Verif.Viewer
