import Verif.Model.Frame

set_option autoImplicit false

/-!
# The public function of `tti.utils` (`tti/utils/__init__.py:7-9`)
-/

namespace TTI

/-- `fillMissingValues` on a data frame (`data_preprocessing.py:27-32`): `sort_index`, `ffill` and `bfill` treat all columns and
return new frames with the same labels and types. Simplifications as for `Frame.sortIndex`; the index may be of any type whose
values can be ordered, and the values of non-numeric columns are treated like numbers (only whether a cell is missing matters). -/
def fillFrame (f : RawFrame) : RawFrame :=
  { f with
    idx := sortIdx f.idx
    cols := f.cols.map fun c => { c with data := bfill (ffill ((sortRows (f.idx.zip c.data)).map (·.2))) } }

/-- `tti.utils.fillMissingValues` (`data_preprocessing.py:11-42`): a new frame, or the exception. -/
def utilsFill : InputArg → Except Err RawFrame
  | .frame f => .ok (fillFrame f)
  | .notFrame => .error .typeError

end TTI
