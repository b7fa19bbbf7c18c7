import Verif.Model.Ind.All

set_option autoImplicit false

/-!
# How many days an indicator remembers
-/

namespace TTI.Spec

/-- The number of days, the day itself included, on whose data the value of a column on a day depends (C68): the window of the
class, one more day where day-to-day changes enter, the sum of the windows where one is taken of the other. `none`: the whole
past may count (exponential and Wilder averages, running totals, first price, highest and lowest price). -/
def memory : Ind → String → Option ℕ
  | .bollingerBands p _, _ => some p
  | .chaikinMoneyFlow p, _ => some p
  | .chandeMomentumOscillator p, _ => some (p + 1)
  | .commodityChannelIndex p, _ => some p
  | .detrendedPriceOscillator p, _ => some (max 1 (p - 1 - p / 2))
  | .easeOfMovement p, column => some (if column = "emv" then 2 else p + 1)
  | .envelopes p _, _ => some p
  | .forecastOscillator p, _ => some (p + 1)
  | .ichimokuCloud, column =>
    some (if column = "tenkan_sen" then 9 else if column = "kijun_sen" then 26 else if column = "senkou_a" then 26 + 26
      else 52 + 26)
  | .intradayMomentumIndex p, _ => some p
  | .linearRegressionIndicator p, _ => some p
  | .linearRegressionSlope p, _ => some p
  | .marketFacilitationIndex, _ => some 1
  | .medianPrice _, _ => some 1
  | .momentum p, _ => some (p + 1)
  | .movingAverage p .simple, _ => some p
  | .movingAverage p .timeSeries, _ => some p
  | .movingAverage p .triangular, _ => some (2 * p - 1)
  | .priceChannel p, _ => some (p + 1)
  | .priceOscillator long short, _ => some (max long short)
  | .priceRateOfChange p, _ => some (p + 1)
  | .projectionBands p, _ => some p
  | .projectionOscillator p, column => if column = "posc" then some p else none
  | .qstick p, _ => some p
  | .standardDeviation p, _ => some p
  | .stochasticOscillator k slowing d _, column => some (if column = "%K" then k + slowing - 1 else k + slowing + d - 2)
  | .swingIndex, _ => some 2
  | .timeSeriesForecast p, _ => some p
  | .typicalPrice _, _ => some 1
  | .ultimateOscillator, _ => some 29
  | .verticalHorizontalFilter p, _ => some (p + 1)
  | .volumeOscillator long short, _ => some (max long short)
  | .volumeRateOfChange p, _ => some (p + 1)
  | .weightedClose, _ => some 1
  | .williamsAccumulationDistribution, _ => some 2
  | .williamsR p, _ => some p
  | _, _ => none

end TTI.Spec
