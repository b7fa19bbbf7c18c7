import Verif.Model.FloatApi

set_option autoImplicit false

/-! Specification for C97. -/

namespace TTI.Spec

/-- The classes whose signal calculates an average (or a share) of its own. -/
def signalAverages : Ind → Bool
  | .averageTrueRange | .chaikinOscillator | .momentum _ | .negativeVolumeIndex | .positiveVolumeIndex | .projectionBands _
  | .standardDeviation _ | .typicalPrice _ | .verticalHorizontalFilter _ => true
  | _ => false

/-- A row of numbers as the row of the simulation data. -/
def asVals (x : Sim.Row ℚ) : Sim.Row Val :=
  ⟨x.signal, x.action, .fin x.stock, .fin x.exposure, .fin x.portfolio, .fin x.earnings, .fin x.balance⟩

end TTI.Spec
