import Verif.Model.Val

set_option autoImplicit false

/-!
# Python argument values and exceptions
-/

namespace TTI

/-- A Python object passed for a parameter, as far as the `isinstance` tests of the library can tell. -/
inductive PyArg where
  | int (n : ℤ)
  | float (v : Val)
  | bool (b : Bool)
  | str (s : String)
  | none
  /-- any other object -/
  | other
  deriving DecidableEq, Repr

/-- Exceptions the library can raise (`tti/utils/exceptions.py` and the built-in ones reached by the code). The texts of
the messages are in `Model/Message`. -/
inductive Err where
  | wrongType
  | wrongValue
  | notEnough (required found : ℕ)
  | notValidForSimulation
  | typeError
  | valueError
  | indexError
  | keyError
  | attributeError
  deriving DecidableEq, Repr

namespace PyArg

/-- `isinstance(x, int)`: a `bool` is an `int`. -/
def asInt : PyArg → Option ℤ
  | int n => some n
  | bool b => some (if b then 1 else 0)
  | _ => Option.none

/-- `isinstance(x, (int, float))` and the number it stands for. -/
def asNumber : PyArg → Option Val
  | int n => some (.fin n)
  | bool b => some (.fin (if b then 1 else 0))
  | float v => some v
  | _ => Option.none

end PyArg
end TTI
