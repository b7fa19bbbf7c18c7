import Verif.Model.Api
import Mathlib.Order.Monotone.Defs

set_option autoImplicit false

/-!
# The same market on other dates

`φ` gives every date another one. Data, objects, calls and results on the new dates: the prices, values and parameters are
the same, only the dates change.
-/

namespace TTI.Spec

/-- A frame on other dates. -/
def redate (φ : ℤ → ℤ) (F : Frame) : Frame := ⟨F.idx.map φ, F.cols⟩

/-- The user's data on other dates. -/
def redateInput (φ : ℤ → ℤ) : InputArg → InputArg
  | .notFrame => .notFrame
  | .frame f => .frame { f with idx := f.idx.map φ }

/-- An object on other dates. -/
def redateObj (φ : ℤ → ℤ) (o : Obj) : Obj := ⟨o.ind, redate φ o.input, redate φ o.ti⟩

/-- A date asked for, on the other dates. -/
def redateDate (φ : ℤ → ℤ) : DateArg → DateArg
  | .unparsable => .unparsable
  | .date d => .date (φ d)

/-- A simulation on other dates. -/
def redateSim (φ : ℤ → ℤ) (r : SimResult) : SimResult := ⟨r.idx.map φ, r.rows, r.stats⟩

/-- A call on other dates. -/
def redateCall (φ : ℤ → ℤ) : ApiCall → ApiCall
  | .getTiData => .getTiData
  | .getTiValue d => .getTiValue (d.map (redateDate φ))
  | .getTiSignal => .getTiSignal
  | .getTiSimulation close m f => .getTiSimulation (redateInput φ close) m f

/-- What a call returns, on other dates: values, signals, statistics and exceptions are the same. -/
def redateResult (φ : ℤ → ℤ) : ApiResult → ApiResult
  | .data T => .data (redate φ T)
  | .value v => .value v
  | .signal r => .signal r
  | .simulation r => .simulation (r.map (redateSim φ))

/-- The dates of the user's data are in `S`. -/
def DatesIn (S : Set ℤ) : InputArg → Prop
  | .notFrame => True
  | .frame f => ∀ d ∈ f.idx, d ∈ S

/-- The dates of a call are in `S`. -/
def CallDatesIn (S : Set ℤ) : ApiCall → Prop
  | .getTiData => True
  | .getTiValue (some (.date d)) => d ∈ S
  | .getTiValue _ => True
  | .getTiSignal => True
  | .getTiSimulation close _ _ => DatesIn S close

end TTI.Spec
