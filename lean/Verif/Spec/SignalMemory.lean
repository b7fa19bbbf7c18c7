import Verif.Model.Ind.All

set_option autoImplicit false

/-!
# How many days a signal depends on
-/

namespace TTI.Spec

/-- The number of latest rows of the data on which the signal of an object depends (C68). `none`: the whole past may count,
either because the values do (`memory`) or because the signal averages them exponentially or looks for an earlier event. -/
def signalMemory : Ind → Option ℕ
  | .bollingerBands p _ => some p
  | .chaikinMoneyFlow p => some (max 3 (p + 1))
  | .chandeMomentumOscillator p => some (p + 2)
  | .commodityChannelIndex p => some p
  | .detrendedPriceOscillator p => some (1 + p / 2 + max 1 (p - 1 - p / 2) + 1)
  | .easeOfMovement p => some (p + 2)
  | .envelopes p _ => some p
  | .forecastOscillator p => some (p + 2)
  | .ichimokuCloud => some 78
  | .intradayMomentumIndex p => some (p + 1)
  | .linearRegressionIndicator p => some (p + 1)
  | .linearRegressionSlope p => some (p + 1)
  | .marketFacilitationIndex => some 2
  | .movingAverage p .simple => some p
  | .movingAverage p .timeSeries => some p
  | .movingAverage p .triangular => some (2 * p - 1)
  | .priceChannel p => some (p + 1)
  | .priceOscillator long short => some (max long short + 1)
  | .priceRateOfChange p => some (p + 3)
  | .projectionBands p => some p
  | .qstick p => some (p + 3)
  | .standardDeviation p => some p
  | .stochasticOscillator k slowing d _ => some (k + slowing + d - 1)
  | .swingIndex => some 3
  | .timeSeriesForecast p => some (p + 1)
  | .typicalPrice p => some p
  | .ultimateOscillator => some 58
  | .volumeOscillator long short => some (max long short + 2)
  | .volumeRateOfChange p => some (p + 3)
  | .weightedClose => some 2
  | .williamsAccumulationDistribution => some 31
  | _ => none

end TTI.Spec
