import Verif.Spec.Indicators

set_option autoImplicit false

/-!
# What the graphs are expected to show

Written down independently of the properties table of the library.
-/

namespace TTI.Spec

/-- The input columns shown beside the indicator: the close; for indicators of volume the volume; high and low for the
relative volatility index; for two indicators also, or only, an average of the close. -/
def shownInputs : Ind → List String
  | .easeOfMovement _ | .volatilityChaikins _ _ => []
  | .marketFacilitationIndex | .volumeOscillator _ _ | .volumeRateOfChange _ => ["volume"]
  | .massIndex => ["close", "9_ema"]
  | .medianPrice _ => ["close_ema"]
  | .relativeVolatilityIndex _ => ["high", "low"]
  | _ => ["close"]

/-- The indicators that are prices (or are shown alone) share one panel with the input; the others have a panel of their own
below it. -/
def onePanel : Ind → Bool
  | .bollingerBands _ _ | .doubleExponentialMovingAverage _ | .easeOfMovement _ | .envelopes _ _ | .fibonacciRetracement
  | .ichimokuCloud | .linearRegressionIndicator _ | .medianPrice _ | .movingAverage _ _ | .parabolicSAR | .priceChannel _
  | .projectionBands _ | .timeSeriesForecast _ | .tripleExponentialMovingAverage _ | .typicalPrice _ | .volatilityChaikins _ _
  | .weightedClose | .wildersSmoothing _ => true
  | _ => false

end TTI.Spec
