import Verif.Model.Series
import Verif.Model.PyArg
import Mathlib.Data.List.Sort

set_option autoImplicit false

/-!
# Data frames and input validation (`tti/utils/data_validation.py`, `tti/utils/data_preprocessing.py`)
-/

namespace TTI

/-- A column label: a string, or something without a `lower` method. -/
inductive Label where
  | str (s : String)
  | other
  deriving DecidableEq, Repr

/-- A column of a frame the user passes: label, whether pandas calls its dtype numeric, values. Simplification: the values
of a non-numeric column are never looked at, integer and boolean columns are given by their float values. -/
structure RawCol where
  label : Label
  numeric : Bool
  data : List Val
  deriving DecidableEq, Repr

/-- A `pandas.DataFrame` the user passes. Dates are integers (only their order matters). -/
structure RawFrame where
  datetimeIndex : Bool
  idx : List ℤ
  cols : List RawCol
  deriving DecidableEq, Repr

/-- What the user passes as `input_data` / `close_values`. -/
inductive InputArg where
  | notFrame
  | frame (f : RawFrame)
  deriving DecidableEq, Repr

/-- A validated frame: sorted dates, columns in the order of the input. -/
structure Frame where
  idx : List ℤ
  cols : List (String × List Val)
  deriving DecidableEq, Repr

namespace Frame

/-- `df[name]`; the empty column if absent (validation guarantees the required columns). -/
def col (F : Frame) (name : String) : List Val := ((F.cols.find? fun c => c.1 == name).map (·.2)).getD []

/-- `df.iloc[:n]`. -/
def take (n : ℕ) (F : Frame) : Frame := ⟨F.idx.take n, F.cols.map fun c => (c.1, c.2.take n)⟩

/-- A validated frame passed on as the `input_data` of another indicator. -/
def toRaw (F : Frame) : RawFrame := ⟨true, F.idx, F.cols.map fun c => ⟨.str c.1, true, c.2⟩⟩

/-- `df[names]`-like restriction to some columns, keeping the order of the frame. -/
def restrict (F : Frame) (names : List String) : Frame := ⟨F.idx, F.cols.filter fun c => decide (c.1 ∈ names)⟩

/-- `len(df)`. -/
def len (F : Frame) : ℕ := F.idx.length

end Frame

/-- `c.lower()` for a label. Simplification: only ASCII letters change case. -/
def Label.lower : Label → Option String
  | .str s => some s.toLower
  | .other => none

/-- The lower-cased labels (`data_validation.py:67`); `none` is the `AttributeError` of a label that is not a string. -/
def lowerLabels : List RawCol → Option (List (String × RawCol))
  | [] => some []
  | c :: cs =>
    match c.label.lower, lowerLabels cs with
    | some s, some l => some ((s, c) :: l)
    | _, _ => none

/-- The checks of one required column (`data_validation.py:71-91`). With a duplicated label `input_data[column]` is a
frame: not numeric, and the error message then fails with `AttributeError`. -/
def checkColumn (cols : List (String × RawCol)) (name : String) : Option Err :=
  match cols.filter fun c => c.1 == name with
  | [] => some .valueError
  | [c] => if c.2.numeric then none else some .valueError
  | _ => some .attributeError

/-- The loop over the required columns: the first failing check. -/
def checkColumns (cols : List (String × RawCol)) (required : List String) : Option Err :=
  required.findSome? (checkColumn cols)

/-- The loop dropping the columns that are not required (`data_validation.py:94-96`). `drop` removes all columns of the
label at once, so the second column of a repeated label raises `KeyError`. -/
def dropExtra (required : List String) (labels : List String) (cols : List (String × RawCol)) :
    Except Err (List (String × RawCol)) :=
  match labels with
  | [] => .ok cols
  | l :: ls =>
    if l ∈ required then dropExtra required ls cols
    else if (cols.map (·.1)).contains l then dropExtra required ls (cols.filter fun c => !(c.1 == l))
    else .error .keyError

/-- Stable sort of the rows by date. -/
def sortRows {α : Type} (rows : List (ℤ × α)) : List (ℤ × α) := rows.insertionSort fun a b => a.1 ≤ b.1

/-- Sort of the dates. -/
def sortIdx (idx : List ℤ) : List ℤ := idx.insertionSort (· ≤ ·)

/-- `df.sort_index(ascending=True)`, column by column. Simplification: rows with equal dates keep their order (pandas uses
an unstable sort). -/
def Frame.sortIndex (F : Frame) : Frame :=
  ⟨sortIdx F.idx,
   F.cols.map fun c => (c.1, (sortRows (F.idx.zip c.2)).map (·.2))⟩

/-- `fillMissingValues` (`data_preprocessing.py:11-42`): sort, forward fill, backward fill. -/
def fillMissingValues (F : Frame) : Frame :=
  let G := F.sortIndex
  ⟨G.idx, G.cols.map fun c => (c.1, bfill (ffill c.2))⟩

/-- `validateInputData` (`data_validation.py:15-104`). The first component is the caller's object afterwards: line 67
replaces its labels in place. -/
def validateInputData (input : InputArg) (required : List String) (fill : Bool) : InputArg × Except Err Frame :=
  match input with
  | .notFrame => (.notFrame, .error .wrongType)
  | .frame f =>
    if f.datetimeIndex = false then (.frame f, .error .typeError)
    else if f.idx = [] ∨ f.cols = [] then (.frame f, .error .valueError)
    else
      match lowerLabels f.cols with
      | none => (.frame f, .error .attributeError)
      | some cols =>
        let caller := InputArg.frame { f with cols := cols.map fun c => { c.2 with label := .str c.1 } }
        match checkColumns cols required with
        | some e => (caller, .error e)
        | none =>
          match dropExtra required (cols.map (·.1)) cols with
          | .error e => (caller, .error e)
          | .ok kept =>
            let F := Frame.sortIndex ⟨f.idx, kept.map fun c => (c.1, c.2.data)⟩
            (caller, .ok (if fill then fillMissingValues F else F))

end TTI
