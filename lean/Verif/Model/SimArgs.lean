import Verif.Model.Sim
import Verif.Model.Frame

set_option autoImplicit false

/-!
# Construction of the simulator (`trading_simulation.py:157-282`)
-/

namespace TTI

/-- What the constructor of the simulator establishes: the dates, the close prices and the numeric arguments. -/
structure SimSetup where
  idx : List ℤ
  close : List Val
  params : Sim.Params Val

/-- Validation of `max_exposure` (`trading_simulation.py:261-270`). -/
def checkMaxExposure (a : PyArg) : Except Err (Option Val) :=
  match a.asNumber with
  | some v => if Val.le v 0 then .error .wrongValue else .ok (some v)
  | none => if a = .none then .ok none else .error .wrongType

/-- Validation of `short_exposure_factor` (`trading_simulation.py:273-281`). -/
def checkFactor (a : PyArg) : Except Err Val :=
  match a.asNumber with
  | some v => if Val.lt v 1 then .error .wrongValue else .ok v
  | none => .error .wrongType

/-- `TradingSimulation.__init__` and `_validateSimulationArguments` (`trading_simulation.py:157-281`). `isDatetime` tells
whether `input_data_index` is a `DatetimeIndex`. The first component is the caller's `close_values` afterwards. -/
def setupSimulation (isDatetime : Bool) (inputIdx : List ℤ) (close : InputArg) (maxExposure factor : PyArg) :
    InputArg × Except Err SimSetup :=
  if isDatetime = false then (close, .error .notValidForSimulation)
  else
    let idx := sortIdx inputIdx
    match validateInputData close ["close"] true with
    | (caller, .error _) => (caller, .error .notValidForSimulation)
    | (caller, .ok F) =>
      if F.idx ≠ idx then (caller, .error .notValidForSimulation)
      else
        match checkMaxExposure maxExposure with
        | .error e => (caller, .error e)
        | .ok m =>
          match checkFactor factor with
          | .error e => (caller, .error e)
          | .ok fac => (caller, .ok ⟨idx, F.col "close", ⟨m, fac⟩⟩)

end TTI
