import Verif.Model.Ind.Averages
import Verif.Model.Ind.Bands
import Verif.Model.Ind.Momentum
import Verif.Model.Ind.Volume
import Verif.Model.Ind.Trend
import Verif.Model.Ind.Oscillators

set_option autoImplicit false

/-!
# The indicators of the library, as one type

The virtual methods `_calculateTi` and `getTiSignal` of `TechnicalIndicator` (`_technical_indicator.py:95-124`) dispatch on
the class of the object; here they dispatch on the constructor of `Ind`, which also carries the accepted parameters.
-/

namespace TTI

/-- The numerical functions left open: the square root used by `std`, and scipy's window weights. -/
structure Env where
  sq : ℚ → ℚ
  weights : ℕ → List ℚ

/-- The classes exported by `tti/indicators/__init__.py:8-64`, with their accepted parameters. -/
inductive Ind where
  | accumulationDistributionLine
  | averageTrueRange
  | bollingerBands (period : ℕ) (stdNumber : Val)
  | chaikinMoneyFlow (period : ℕ)
  | chaikinOscillator
  | chandeMomentumOscillator (period : ℕ)
  | commodityChannelIndex (period : ℕ)
  | detrendedPriceOscillator (period : ℕ)
  | directionalMovementIndex
  | doubleExponentialMovingAverage (period : ℕ)
  | easeOfMovement (period : ℕ)
  | envelopes (period : ℕ) (shiftBy : ℚ)
  | fibonacciRetracement
  | forecastOscillator (period : ℕ)
  | ichimokuCloud
  | intradayMomentumIndex (period : ℕ)
  | klingerOscillator
  | linearRegressionIndicator (period : ℕ)
  | linearRegressionSlope (period : ℕ)
  | marketFacilitationIndex
  | massIndex
  | medianPrice (period : ℕ)
  | momentum (period : ℕ)
  | movingAverage (period : ℕ) (maType : Ind.MaType)
  | movingAverageConvergenceDivergence
  | negativeVolumeIndex
  | onBalanceVolume
  | parabolicSAR
  | performance (long : Bool) (target : Val)
  | positiveVolumeIndex
  | priceAndVolumeTrend
  | priceChannel (period : ℕ)
  | priceOscillator (longMa : ℕ) (shortMa : ℕ)
  | priceRateOfChange (period : ℕ)
  | projectionBands (period : ℕ)
  | projectionOscillator (period : ℕ)
  | qstick (period : ℕ)
  | rangeIndicator (rangePeriod : ℕ) (smoothingPeriod : ℕ)
  | relativeMomentumIndex (period : ℕ) (momentumPeriod : ℕ)
  | relativeStrengthIndex (period : ℕ)
  | relativeVolatilityIndex (period : ℕ)
  | standardDeviation (period : ℕ)
  | stochasticMomentumIndex (period : ℕ) (smoothing : ℕ) (doubleSmoothing : ℕ)
  | stochasticOscillator (k : ℕ) (slowing : ℕ) (d : ℕ) (simple : Bool)
  | swingIndex
  | timeSeriesForecast (period : ℕ)
  | tripleExponentialMovingAverage (period : ℕ)
  | typicalPrice (period : ℕ)
  | ultimateOscillator
  | verticalHorizontalFilter (period : ℕ)
  | volatilityChaikins (emaPeriod : ℕ) (changePeriod : ℕ)
  | volumeOscillator (longPeriod : ℕ) (shortPeriod : ℕ)
  | volumeRateOfChange (period : ℕ)
  | weightedClose
  | wildersSmoothing (period : ℕ)
  | williamsAccumulationDistribution
  | williamsR (period : ℕ)
  deriving DecidableEq

namespace Ind

/-- `_calculateTi` of the class. -/
def calcTi (E : Env) (F : Frame) : Ind → Except Err Frame
  | .accumulationDistributionLine => AccumulationDistributionLine.calcTi F
  | .averageTrueRange => AverageTrueRange.calcTi F
  | .bollingerBands period stdNumber => BollingerBands.calcTi E.sq period stdNumber F
  | .chaikinMoneyFlow period => ChaikinMoneyFlow.calcTi period F
  | .chaikinOscillator => ChaikinOscillator.calcTi F
  | .chandeMomentumOscillator period => ChandeMomentumOscillator.calcTi period F
  | .commodityChannelIndex period => CommodityChannelIndex.calcTi period F
  | .detrendedPriceOscillator period => DetrendedPriceOscillator.calcTi period F
  | .directionalMovementIndex => DirectionalMovementIndex.calcTi F
  | .doubleExponentialMovingAverage period => DoubleExponentialMovingAverage.calcTi period F
  | .easeOfMovement period => EaseOfMovement.calcTi period F
  | .envelopes period shiftBy => Envelopes.calcTi period shiftBy F
  | .fibonacciRetracement => FibonacciRetracement.calcTi F
  | .forecastOscillator period => ForecastOscillator.calcTi period F
  | .ichimokuCloud => IchimokuCloud.calcTi F
  | .intradayMomentumIndex period => IntradayMomentumIndex.calcTi period F
  | .klingerOscillator => KlingerOscillator.calcTi F
  | .linearRegressionIndicator period => LinearRegressionIndicator.calcTi period F
  | .linearRegressionSlope period => LinearRegressionSlope.calcTi period F
  | .marketFacilitationIndex => MarketFacilitationIndex.calcTi F
  | .massIndex => MassIndex.calcTi F
  | .medianPrice _ => MedianPrice.calcTi F
  | .momentum period => Momentum.calcTi period F
  | .movingAverage period maType => MovingAverage.calcTi period maType F
  | .movingAverageConvergenceDivergence => MovingAverageConvergenceDivergence.calcTi F
  | .negativeVolumeIndex => NegativeVolumeIndex.calcTi F
  | .onBalanceVolume => OnBalanceVolume.calcTi F
  | .parabolicSAR => ParabolicSAR.calcTi F
  | .performance long target => Performance.calcTi long target F
  | .positiveVolumeIndex => PositiveVolumeIndex.calcTi F
  | .priceAndVolumeTrend => PriceAndVolumeTrend.calcTi F
  | .priceChannel period => PriceChannel.calcTi period F
  | .priceOscillator longMa shortMa => PriceOscillator.calcTi longMa shortMa F
  | .priceRateOfChange period => PriceRateOfChange.calcTi period F
  | .projectionBands period => ProjectionBands.calcTi period F
  | .projectionOscillator period => ProjectionOscillator.calcTi period F
  | .qstick period => Qstick.calcTi period F
  | .rangeIndicator rangePeriod smoothingPeriod => RangeIndicator.calcTi rangePeriod smoothingPeriod F
  | .relativeMomentumIndex period momentumPeriod => RelativeMomentumIndex.calcTi period momentumPeriod F
  | .relativeStrengthIndex period => RelativeStrengthIndex.calcTi period F
  | .relativeVolatilityIndex period => RelativeVolatilityIndex.calcTi E.sq period F
  | .standardDeviation period => StandardDeviation.calcTi E.sq period F
  | .stochasticMomentumIndex period smoothing doubleSmoothing => StochasticMomentumIndex.calcTi period smoothing doubleSmoothing F
  | .stochasticOscillator k slowing d simple => StochasticOscillator.calcTi E.weights k slowing d simple F
  | .swingIndex => SwingIndex.calcTi F
  | .timeSeriesForecast period => TimeSeriesForecast.calcTi period F
  | .tripleExponentialMovingAverage period => TripleExponentialMovingAverage.calcTi period F
  | .typicalPrice _ => TypicalPrice.calcTi F
  | .ultimateOscillator => UltimateOscillator.calcTi F
  | .verticalHorizontalFilter period => VerticalHorizontalFilter.calcTi period F
  | .volatilityChaikins emaPeriod changePeriod => VolatilityChaikins.calcTi emaPeriod changePeriod F
  | .volumeOscillator longPeriod shortPeriod => VolumeOscillator.calcTi longPeriod shortPeriod F
  | .volumeRateOfChange period => VolumeRateOfChange.calcTi period F
  | .weightedClose => WeightedClose.calcTi F
  | .wildersSmoothing period => WildersSmoothing.calcTi period F
  | .williamsAccumulationDistribution => WilliamsAccumulationDistribution.calcTi F
  | .williamsR period => WilliamsR.calcTi period F

/-- `getTiSignal` of the class, on the object's current input data and indicator data. -/
def signal (F T : Frame) : Ind → SigResult
  | .accumulationDistributionLine => AccumulationDistributionLine.signal F T
  | .averageTrueRange => AverageTrueRange.signal F T
  | .bollingerBands _ _ => BollingerBands.signal F T
  | .chaikinMoneyFlow _ => ChaikinMoneyFlow.signal F T
  | .chaikinOscillator => ChaikinOscillator.signal F T
  | .chandeMomentumOscillator _ => ChandeMomentumOscillator.signal T
  | .commodityChannelIndex _ => CommodityChannelIndex.signal T
  | .detrendedPriceOscillator _ => DetrendedPriceOscillator.signal T
  | .directionalMovementIndex => DirectionalMovementIndex.signal T
  | .doubleExponentialMovingAverage _ => DoubleExponentialMovingAverage.signal F T
  | .easeOfMovement _ => EaseOfMovement.signal T
  | .envelopes _ _ => Envelopes.signal F T
  | .fibonacciRetracement => FibonacciRetracement.signal F T
  | .forecastOscillator _ => ForecastOscillator.signal T
  | .ichimokuCloud => IchimokuCloud.signal F T
  | .intradayMomentumIndex _ => IntradayMomentumIndex.signal T
  | .klingerOscillator => KlingerOscillator.signal T
  | .linearRegressionIndicator _ => LinearRegressionIndicator.signal F T
  | .linearRegressionSlope _ => LinearRegressionSlope.signal T
  | .marketFacilitationIndex => MarketFacilitationIndex.signal T
  | .massIndex => MassIndex.signal F T
  | .medianPrice period => MedianPrice.signal period F T
  | .momentum _ => Momentum.signal T
  | .movingAverage _ maType => MovingAverage.signal maType F T
  | .movingAverageConvergenceDivergence => MovingAverageConvergenceDivergence.signal T
  | .negativeVolumeIndex => NegativeVolumeIndex.signal T
  | .onBalanceVolume => OnBalanceVolume.signal T
  | .parabolicSAR => ParabolicSAR.signal F T
  | .performance long target => Performance.signal long target T
  | .positiveVolumeIndex => PositiveVolumeIndex.signal T
  | .priceAndVolumeTrend => PriceAndVolumeTrend.signal T
  | .priceChannel _ => PriceChannel.signal F T
  | .priceOscillator _ _ => PriceOscillator.signal T
  | .priceRateOfChange _ => PriceRateOfChange.signal T
  | .projectionBands _ => ProjectionBands.signal F T
  | .projectionOscillator _ => ProjectionOscillator.signal T
  | .qstick _ => Qstick.signal T
  | .rangeIndicator _ _ => RangeIndicator.signal F T
  | .relativeMomentumIndex _ _ => RelativeMomentumIndex.signal T
  | .relativeStrengthIndex _ => RelativeStrengthIndex.signal T
  | .relativeVolatilityIndex _ => RelativeVolatilityIndex.signal T
  | .standardDeviation period => StandardDeviation.signal period F T
  | .stochasticMomentumIndex _ _ _ => StochasticMomentumIndex.signal T
  | .stochasticOscillator _ _ _ _ => StochasticOscillator.signal T
  | .swingIndex => SwingIndex.signal T
  | .timeSeriesForecast _ => TimeSeriesForecast.signal F T
  | .tripleExponentialMovingAverage _ => TripleExponentialMovingAverage.signal F T
  | .typicalPrice period => TypicalPrice.signal period F T
  | .ultimateOscillator => UltimateOscillator.signal F T
  | .verticalHorizontalFilter _ => VerticalHorizontalFilter.signal F T
  | .volatilityChaikins _ _ => VolatilityChaikins.signal T
  | .volumeOscillator _ _ => VolumeOscillator.signal T
  | .volumeRateOfChange _ => VolumeRateOfChange.signal T
  | .weightedClose => WeightedClose.signal F T
  | .wildersSmoothing _ => WildersSmoothing.signal F T
  | .williamsAccumulationDistribution => WilliamsAccumulationDistribution.signal F T
  | .williamsR _ => WilliamsR.signal T

/-- The columns `_calculateTi` adds to the object's input data (`_mass_index.py:73-75`, `_median_price.py:78-82`). -/
def inputAfter (F : Frame) : Ind → Frame
  | .massIndex => MassIndex.inputAfter F
  | .medianPrice period => MedianPrice.inputAfter period F
  | _ => F

/-- `required_input_data` (`indicators_properties.py`, line numbers at the entries). -/
def required : Ind → List String
  | .accumulationDistributionLine => ["close", "volume", "high", "low"] -- line 33
  | .averageTrueRange => ["high", "low", "close"] -- line 44
  | .bollingerBands _ _ => ["close"] -- line 55
  | .chaikinMoneyFlow _ => ["close", "volume", "high", "low"] -- line 66
  | .chaikinOscillator => ["close", "volume", "high", "low"] -- line 77
  | .chandeMomentumOscillator _ => ["close"] -- line 88
  | .commodityChannelIndex _ => ["high", "low", "close"] -- line 99
  | .detrendedPriceOscillator _ => ["close"] -- line 110
  | .directionalMovementIndex => ["high", "low", "close"] -- line 121
  | .doubleExponentialMovingAverage _ => ["close"] -- line 132
  | .easeOfMovement _ => ["high", "low", "volume"] -- line 143
  | .envelopes _ _ => ["close"] -- line 154
  | .fibonacciRetracement => ["close"] -- line 165
  | .forecastOscillator _ => ["close"] -- line 184
  | .ichimokuCloud => ["high", "low", "close"] -- line 195
  | .intradayMomentumIndex _ => ["open", "close"] -- line 213
  | .klingerOscillator => ["high", "low", "close", "volume"] -- line 224
  | .linearRegressionIndicator _ => ["close"] -- line 235
  | .linearRegressionSlope _ => ["close"] -- line 246
  | .marketFacilitationIndex => ["high", "low", "volume"] -- line 257
  | .massIndex => ["high", "low", "close"] -- line 268
  | .medianPrice _ => ["high", "low", "close"] -- line 279
  | .momentum _ => ["close"] -- line 290
  | .movingAverage _ _ => ["close"] -- line 301
  | .movingAverageConvergenceDivergence => ["close"] -- line 312
  | .negativeVolumeIndex => ["close", "volume"] -- line 323
  | .onBalanceVolume => ["close", "volume"] -- line 334
  | .parabolicSAR => ["high", "low", "close"] -- line 345
  | .performance _ _ => ["close"] -- line 356
  | .positiveVolumeIndex => ["close", "volume"] -- line 367
  | .priceAndVolumeTrend => ["close", "volume"] -- line 378
  | .priceChannel _ => ["high", "low", "close"] -- line 389
  | .priceOscillator _ _ => ["close"] -- line 400
  | .priceRateOfChange _ => ["close"] -- line 411
  | .projectionBands _ => ["high", "low", "close"] -- line 422
  | .projectionOscillator _ => ["high", "low", "close"] -- line 433
  | .qstick _ => ["open", "close"] -- line 444
  | .rangeIndicator _ _ => ["high", "low", "close", "volume"] -- line 455
  | .relativeMomentumIndex _ _ => ["close"] -- line 466
  | .relativeStrengthIndex _ => ["close"] -- line 477
  | .relativeVolatilityIndex _ => ["high", "low"] -- line 488
  | .standardDeviation _ => ["close"] -- line 499
  | .stochasticMomentumIndex _ _ _ => ["high", "low", "close"] -- line 510
  | .stochasticOscillator _ _ _ _ => ["high", "low", "close"] -- line 521
  | .swingIndex => ["open", "high", "low", "close"] -- line 532
  | .timeSeriesForecast _ => ["close"] -- line 543
  | .tripleExponentialMovingAverage _ => ["close"] -- line 554
  | .typicalPrice _ => ["high", "low", "close"] -- line 565
  | .ultimateOscillator => ["high", "low", "close"] -- line 576
  | .verticalHorizontalFilter _ => ["close"] -- line 587
  | .volatilityChaikins _ _ => ["high", "low"] -- line 598
  | .volumeOscillator _ _ => ["volume"] -- line 609
  | .volumeRateOfChange _ => ["volume"] -- line 620
  | .weightedClose => ["high", "low", "close"] -- line 631
  | .wildersSmoothing _ => ["close"] -- line 642
  | .williamsAccumulationDistribution => ["high", "low", "close"] -- line 653
  | .williamsR _ => ["high", "low", "close"] -- line 664

end Ind
end TTI
