import Verif.Model.Api

set_option autoImplicit false

/-!
# Graphs

What is drawn, not how: `matplotlib` is modelled by the record of what is plotted (lines, areas, titles, legends). Positions,
sizes, fonts, tick marks and grid lines are left out.
-/

namespace TTI

/-- One line of a graph: `ax.plot(x, y, label=..., color=..., alpha=...)` (`plot.py:81-88`). No colour: matplotlib's own. -/
structure Line where
  label : String
  x : List ℤ
  y : List Val
  color : Option String
  alpha : ℚ
  deriving DecidableEq, Repr

/-- A value of an entry of `graph_areas` (`plot.py:137-144`): `[panel, _, column]`, or the string `"ti_index"`. Constants
(which no indicator uses) are left out. -/
inductive AreaValue where
  | column (panel : ℕ) (name : String)
  | tiIndex
  deriving DecidableEq, Repr

/-- An entry of `graph_areas`: the keys `x`, `y1`, `y2`, `color`. -/
structure AreaSpec where
  x : AreaValue
  y1 : AreaValue
  y2 : AreaValue
  color : Option String
  deriving DecidableEq, Repr

/-- The data behind a value: dates or numbers. -/
inductive AreaData where
  | dates (xs : List ℤ)
  | numbers (xs : List Val)
  deriving DecidableEq, Repr

/-- A filled area: `target_ax.fill_between(x, y1, y2, color)` (`plot.py:146-150`). -/
structure Area where
  x : AreaData
  y1 : AreaData
  y2 : AreaData
  color : String
  deriving DecidableEq, Repr

/-- A graph: panels from top to bottom, each with its lines; the areas belong to the last panel. -/
structure Graph where
  title : String
  xLabel : String
  yLabel : String
  panels : List (List Line)
  legends : List (List String)
  areas : List Area
  deriving DecidableEq, Repr

/-- A member of the `data` argument of `linesGraph`. -/
inductive PlotData where
  | notFrame
  | wrongIndex
  | frame (F : Frame)
  deriving DecidableEq, Repr

/-- The checks of the data (`plot.py:22-37`): the frames, or `TypeError`. -/
def plotFrames : List PlotData → Except Err (List Frame)
  | [] => .ok []
  | .frame F :: rest =>
    match plotFrames rest with
    | .ok Fs => .ok (F :: Fs)
    | .error e => .error e
  | _ :: _ => .error .typeError

/-- Style of the `j`-th line of the figure (`plot.py:73-80`): colours and transparencies are used in turn. -/
def styleColor (colors : List String) (j : ℕ) : Option String := colors[j % colors.length]?
def styleAlpha (alphas : List ℚ) (j : ℕ) : ℚ := (alphas[j % alphas.length]?).getD (9 / 10)

/-- The lines of one frame, the first being line `j` of the figure (`plot.py:72-89`). Simplification: labels are distinct, so
`df[line_name]` is one column. -/
def frameLines (colors : List String) (alphas : List ℚ) (idx : List ℤ) : ℕ → List (String × List Val) → List Line
  | _, [] => []
  | j, c :: cs => ⟨c.1, idx, c.2, styleColor colors j, styleAlpha alphas j⟩ :: frameLines colors alphas idx (j + 1) cs

/-- The panels (`plot.py:64-89`); the counter `j` runs on from panel to panel. -/
def graphPanels (colors : List String) (alphas : List ℚ) : ℕ → List Frame → List (List Line)
  | _, [] => []
  | j, F :: Fs => frameLines colors alphas F.idx j F.cols :: graphPanels colors alphas (j + F.cols.length) Fs

/-- The legends (`plot.py:99-127`): of the top panel, and of the bottom panel if there are two or more; a panel without lines
has none. Simplification: matplotlib leaves out labels that start with an underscore; no column has such a name. -/
def graphLegends (panels : List (List Line)) : List (List String) :=
  let labels := fun (p : List Line) => p.map (·.label)
  let top := match panels.head? with
    | some p => if p = [] then [] else [labels p]
    | none => []
  let bottom := match panels.getLast? with
    | some p => if 2 ≤ panels.length ∧ p ≠ [] then [labels p] else []
    | none => []
  top ++ bottom

/-- `df[name]` that raises `KeyError` (`plot.py:139`, `_technical_indicator.py:169-172`). -/
def Frame.column (F : Frame) (name : String) : Except Err (List Val) :=
  match F.cols.find? fun c => c.1 == name with
  | some c => .ok c.2
  | none => .error .keyError

/-- One value of an area (`plot.py:137-144`). Simplification: the panel number is not negative. -/
def areaValue (Fs : List Frame) : AreaValue → Except Err AreaData
  | .column p name =>
    match Fs[p]? with
    | none => .error .indexError
    | some F =>
      match F.column name with
      | .ok xs => .ok (.numbers xs)
      | .error e => .error e
  | .tiIndex =>
    match Fs[0]? with
    | none => .error .indexError
    | some F => .ok (.dates F.idx)

/-- One area (`plot.py:134-150`). Simplification: that the three data have the same length is not checked. -/
def areaOf (Fs : List Frame) (a : AreaSpec) : Except Err Area :=
  match areaValue Fs a.x, areaValue Fs a.y1, areaValue Fs a.y2 with
  | .ok x, .ok y1, .ok y2 => .ok ⟨x, y1, y2, a.color.getD "#cccccc"⟩
  | .error e, _, _ => .error e
  | _, .error e, _ => .error e
  | _, _, .error e => .error e

/-- All areas (`plot.py:131-150`). -/
def areasOf (Fs : List Frame) : List AreaSpec → Except Err (List Area)
  | [] => .ok []
  | a :: rest =>
    match areaOf Fs a, areasOf Fs rest with
    | .ok x, .ok xs => .ok (x :: xs)
    | .error e, _ => .error e
    | _, .error e => .error e

/-- `linesGraph` (`plot.py:14-152`). Simplification: `data` that is not a list is given as the list with that one member, as
lines 19-20 make it. No panels: `plt.subplots(nrows=0)` raises `ValueError`. -/
def linesGraph (data : List PlotData) (yLabel title : String) (colors : List String) (alphas : List ℚ)
    (areas : Option (List AreaSpec)) (xLabel : String := "Date") : Except Err Graph :=
  match plotFrames data with
  | .error e => .error e
  | .ok [] => .error .valueError
  | .ok Fs =>
    let panels := graphPanels colors alphas 0 Fs
    match areasOf Fs (areas.getD []) with
    | .error e => .error e
    | .ok as => .ok ⟨title, xLabel, yLabel, panels, graphLegends panels, as⟩

/-- The entries of `INDICATORS_PROPERTIES` that concern the graph. -/
structure GraphProperties where
  longName : String
  inputColumns : List String
  yLabel : String
  colors : List String
  alphas : List ℚ
  areas : Option (List AreaSpec)
  subplots : Bool

namespace Ind

/-- `INDICATORS_PROPERTIES` (`indicators_properties.py`, line numbers at the entries). -/
def graphProperties : Ind → GraphProperties
  | .accumulationDistributionLine => ⟨"Accumulation Distribution Line", ["close"], "ADL | Price",
      ["black", "limegreen"], [1/2, 1], none, true⟩ -- line 30
  | .averageTrueRange => ⟨"Average True Range", ["close"], "ATR | Price",
      ["black", "limegreen"], [1/2, 1], none, true⟩ -- line 41
  | .bollingerBands _ _ => ⟨"Bollinger Bands", ["close"], "Price",
      ["black", "cornflowerblue", "limegreen", "tomato"], [1/2, 1, 1, 1], none, false⟩ -- line 52
  | .chaikinMoneyFlow _ => ⟨"Chaikin Money Flow", ["close"], "CMF | Price",
      ["black", "limegreen"], [1/2, 1], none, true⟩ -- line 63
  | .chaikinOscillator => ⟨"Chaikin Oscillator", ["close"], "CO | Price",
      ["black", "limegreen"], [1/2, 1], none, true⟩ -- line 74
  | .chandeMomentumOscillator _ => ⟨"Chande Momentum Oscillator", ["close"], "CMO | Price",
      ["black", "limegreen"], [1/2, 1], none, true⟩ -- line 85
  | .commodityChannelIndex _ => ⟨"Commodity Channel Index", ["close"], "CCI | Price",
      ["black", "limegreen"], [1/2, 1], none, true⟩ -- line 96
  | .detrendedPriceOscillator _ => ⟨"Detrended Price Oscillator", ["close"], "DPO | Price",
      ["black", "limegreen"], [1/2, 1], none, true⟩ -- line 107
  | .directionalMovementIndex => ⟨"Directional Movement Index", ["close"], "DMI | Price",
      ["black", "limegreen", "red", "cornflowerblue", "tomato", "orange"], [1/2, 1, 1, 1, 1], none, true⟩ -- line 118
  | .doubleExponentialMovingAverage _ => ⟨"Double Exponential Moving Average", ["close"], "Price",
      ["black", "limegreen"], [1/2, 1], none, false⟩ -- line 129
  | .easeOfMovement _ => ⟨"Ease Of Movement", [], "EMV",
      ["limegreen", "tomato"], [1, 1], none, false⟩ -- line 140
  | .envelopes _ _ => ⟨"Envelopes (Trading Bands)", ["close"], "Price",
      ["black", "limegreen", "tomato"], [1/2, 1, 1], none, false⟩ -- line 151
  | .fibonacciRetracement => ⟨"Fibonacci Retracement", ["close"], "Price",
      ["black", "limegreen", "peru", "cornflowerblue", "tomato", "orange", "brown"], [1/2, 1, 1, 1, 1, 1, 1], none, false⟩ -- line 162
  | .forecastOscillator _ => ⟨"Forecast Oscillator", ["close"], "FOSC | Price",
      ["black", "limegreen"], [1/2, 1], none, true⟩ -- line 181
  | .ichimokuCloud => ⟨"Ichimoku Cloud", ["close"], "Price",
      ["black", "cornflowerblue", "tomato", "limegreen", "orange", "purple"], [1/2, 1, 1, 1, 1, 1], (some [⟨.tiIndex, .column 0 "senkou_a", .column 0 "senkou_b", some "lightblue"⟩]), false⟩ -- line 192
  | .intradayMomentumIndex _ => ⟨"Intraday Momentum Index", ["close"], "IMI | Price",
      ["black", "limegreen"], [1/2, 1], none, true⟩ -- line 210
  | .klingerOscillator => ⟨"Klinger Oscillator", ["close"], "KO | Price",
      ["black", "limegreen"], [1/2, 1], none, true⟩ -- line 221
  | .linearRegressionIndicator _ => ⟨"Linear Regression Indicator", ["close"], "Price",
      ["black", "limegreen"], [1/2, 1], none, false⟩ -- line 232
  | .linearRegressionSlope _ => ⟨"Linear Regression Slope", ["close"], "LRS | Price",
      ["black", "limegreen"], [1/2, 1], none, true⟩ -- line 243
  | .marketFacilitationIndex => ⟨"Market Facilitation Index", ["volume"], "MFI | Volume",
      ["black", "limegreen"], [1/2, 1], none, true⟩ -- line 254
  | .massIndex => ⟨"Mass Index", ["close", "9_ema"], "MI | Price",
      ["black", "tomato", "limegreen"], [1/2, 1/2, 1], none, true⟩ -- line 265
  | .medianPrice _ => ⟨"Median Price", ["close_ema"], "Price",
      ["red", "limegreen"], [1/2, 1], none, false⟩ -- line 276
  | .momentum _ => ⟨"Momentum", ["close"], "MOM | Price",
      ["black", "limegreen"], [1/2, 1], none, true⟩ -- line 287
  | .movingAverage _ _ => ⟨"Moving Average", ["close"], "Price",
      ["black", "limegreen"], [1/2, 1], none, false⟩ -- line 298
  | .movingAverageConvergenceDivergence => ⟨"Moving Average Convergence Divergence", ["close"], "MACD | Price",
      ["black", "cornflowerblue", "tomato"], [1/2, 1, 1], none, true⟩ -- line 309
  | .negativeVolumeIndex => ⟨"Negative Volume Index", ["close"], "NVI | Price",
      ["black", "limegreen"], [1/2, 1], none, true⟩ -- line 320
  | .onBalanceVolume => ⟨"On Balance Volume", ["close"], "Volume | Price",
      ["black", "limegreen"], [1/2, 1], none, true⟩ -- line 331
  | .parabolicSAR => ⟨"Parabolic SAR", ["close"], "PSAR",
      ["black", "limegreen"], [1/2, 1], none, false⟩ -- line 342
  | .performance _ _ => ⟨"Performance", ["close"], "PERF | Price",
      ["black", "limegreen", "tomato"], [1/2, 1, 1], none, true⟩ -- line 353
  | .positiveVolumeIndex => ⟨"Positive Volume Index", ["close"], "PVI | Price",
      ["black", "limegreen"], [1/2, 1], none, true⟩ -- line 364
  | .priceAndVolumeTrend => ⟨"Price And Volume Trend", ["close"], "PVT | Price",
      ["black", "limegreen"], [1/2, 1], none, true⟩ -- line 375
  | .priceChannel _ => ⟨"Price Channel", ["close"], "PCH",
      ["black", "limegreen", "tomato"], [1/2, 1, 1], none, false⟩ -- line 386
  | .priceOscillator _ _ => ⟨"Price Oscillator", ["close"], "POSC | Price",
      ["black", "limegreen"], [1/2, 1], none, true⟩ -- line 397
  | .priceRateOfChange _ => ⟨"Price Rate Of Change", ["close"], "PRC | Price",
      ["black", "limegreen"], [1/2, 1], none, true⟩ -- line 408
  | .projectionBands _ => ⟨"Projection Bands", ["close"], "PBS",
      ["black", "limegreen", "tomato"], [1/2, 1, 1], none, false⟩ -- line 419
  | .projectionOscillator _ => ⟨"Projection Oscillator", ["close"], "POSC | Price",
      ["black", "limegreen", "tomato"], [1/2, 1, 1], none, true⟩ -- line 430
  | .qstick _ => ⟨"Qstick", ["close"], "QST | Price",
      ["black", "limegreen"], [1/2, 1], none, true⟩ -- line 441
  | .rangeIndicator _ _ => ⟨"Range Indicator", ["close"], "RI | Price",
      ["black", "limegreen"], [1/2, 1], none, true⟩ -- line 452
  | .relativeMomentumIndex _ _ => ⟨"Relative Momentum Index", ["close"], "RMI | Price",
      ["black", "limegreen"], [1/2, 1], none, true⟩ -- line 463
  | .relativeStrengthIndex _ => ⟨"Relative Strength Index", ["close"], "RSI | Price",
      ["black", "limegreen"], [1/2, 1], none, true⟩ -- line 474
  | .relativeVolatilityIndex _ => ⟨"Relative Volatility Index", ["high", "low"], "RVI | Price",
      ["limegreen", "tomato", "limegreen"], [1/2, 1/2, 1], none, true⟩ -- line 485
  | .standardDeviation _ => ⟨"Standard Deviation", ["close"], "SD | Price",
      ["black", "limegreen"], [1/2, 1], none, true⟩ -- line 496
  | .stochasticMomentumIndex _ _ _ => ⟨"Stochastic Momentum Index", ["close"], "SMI | Price",
      ["black", "limegreen"], [1/2, 1], none, true⟩ -- line 507
  | .stochasticOscillator _ _ _ _ => ⟨"Stochastic Oscillator", ["close"], "Percentage | Price",
      ["black", "cornflowerblue", "tomato"], [1/2, 1, 1], none, true⟩ -- line 518
  | .swingIndex => ⟨"Swing Index", ["close"], "SWI | Price",
      ["black", "limegreen"], [1/2, 1], none, true⟩ -- line 529
  | .timeSeriesForecast _ => ⟨"Time Series Forecast", ["close"], "Price",
      ["black", "limegreen"], [1/2, 1], none, false⟩ -- line 540
  | .tripleExponentialMovingAverage _ => ⟨"Triple Exponential Moving Average", ["close"], "Price",
      ["black", "limegreen"], [1/2, 1], none, false⟩ -- line 551
  | .typicalPrice _ => ⟨"TypicalPrice", ["close"], "Price",
      ["black", "limegreen"], [1/2, 1], none, false⟩ -- line 562
  | .ultimateOscillator => ⟨"Ultimate Oscillator", ["close"], "UOSC | Price",
      ["black", "limegreen"], [1/2, 1], none, true⟩ -- line 573
  | .verticalHorizontalFilter _ => ⟨"Vertical Horizontal Filter", ["close"], "VHF | Price",
      ["black", "limegreen"], [1/2, 1], none, true⟩ -- line 584
  | .volatilityChaikins _ _ => ⟨"Volatility Chaikins", [], "VCH",
      ["limegreen"], [1], none, false⟩ -- line 595
  | .volumeOscillator _ _ => ⟨"Volume Oscillator", ["volume"], "VOSC | Volume",
      ["black", "limegreen"], [1/2, 1], none, true⟩ -- line 606
  | .volumeRateOfChange _ => ⟨"Volume Rate Of Change", ["volume"], "VROC | Volume",
      ["black", "limegreen"], [1/2, 1], none, true⟩ -- line 617
  | .weightedClose => ⟨"WeightedClose", ["close"], "Price",
      ["black", "limegreen"], [1/2, 1], none, false⟩ -- line 628
  | .wildersSmoothing _ => ⟨"Wilders Smoothing", ["close"], "Price",
      ["black", "limegreen"], [1/2, 1], none, false⟩ -- line 639
  | .williamsAccumulationDistribution => ⟨"Williams Accumulation Distribution", ["close"], "WAD | Price",
      ["black", "limegreen"], [1/2, 1], none, true⟩ -- line 650
  | .williamsR _ => ⟨"Williams %R", ["close"], "WR | Price",
      ["black", "limegreen"], [1/2, 1], none, true⟩ -- line 661

/-- The name of the class (the keys of `INDICATORS_PROPERTIES`). -/
def className : Ind → String
  | .accumulationDistributionLine => "AccumulationDistributionLine"
  | .averageTrueRange => "AverageTrueRange"
  | .bollingerBands _ _ => "BollingerBands"
  | .chaikinMoneyFlow _ => "ChaikinMoneyFlow"
  | .chaikinOscillator => "ChaikinOscillator"
  | .chandeMomentumOscillator _ => "ChandeMomentumOscillator"
  | .commodityChannelIndex _ => "CommodityChannelIndex"
  | .detrendedPriceOscillator _ => "DetrendedPriceOscillator"
  | .directionalMovementIndex => "DirectionalMovementIndex"
  | .doubleExponentialMovingAverage _ => "DoubleExponentialMovingAverage"
  | .easeOfMovement _ => "EaseOfMovement"
  | .envelopes _ _ => "Envelopes"
  | .fibonacciRetracement => "FibonacciRetracement"
  | .forecastOscillator _ => "ForecastOscillator"
  | .ichimokuCloud => "IchimokuCloud"
  | .intradayMomentumIndex _ => "IntradayMomentumIndex"
  | .klingerOscillator => "KlingerOscillator"
  | .linearRegressionIndicator _ => "LinearRegressionIndicator"
  | .linearRegressionSlope _ => "LinearRegressionSlope"
  | .marketFacilitationIndex => "MarketFacilitationIndex"
  | .massIndex => "MassIndex"
  | .medianPrice _ => "MedianPrice"
  | .momentum _ => "Momentum"
  | .movingAverage _ _ => "MovingAverage"
  | .movingAverageConvergenceDivergence => "MovingAverageConvergenceDivergence"
  | .negativeVolumeIndex => "NegativeVolumeIndex"
  | .onBalanceVolume => "OnBalanceVolume"
  | .parabolicSAR => "ParabolicSAR"
  | .performance _ _ => "Performance"
  | .positiveVolumeIndex => "PositiveVolumeIndex"
  | .priceAndVolumeTrend => "PriceAndVolumeTrend"
  | .priceChannel _ => "PriceChannel"
  | .priceOscillator _ _ => "PriceOscillator"
  | .priceRateOfChange _ => "PriceRateOfChange"
  | .projectionBands _ => "ProjectionBands"
  | .projectionOscillator _ => "ProjectionOscillator"
  | .qstick _ => "Qstick"
  | .rangeIndicator _ _ => "RangeIndicator"
  | .relativeMomentumIndex _ _ => "RelativeMomentumIndex"
  | .relativeStrengthIndex _ => "RelativeStrengthIndex"
  | .relativeVolatilityIndex _ => "RelativeVolatilityIndex"
  | .standardDeviation _ => "StandardDeviation"
  | .stochasticMomentumIndex _ _ _ => "StochasticMomentumIndex"
  | .stochasticOscillator _ _ _ _ => "StochasticOscillator"
  | .swingIndex => "SwingIndex"
  | .timeSeriesForecast _ => "TimeSeriesForecast"
  | .tripleExponentialMovingAverage _ => "TripleExponentialMovingAverage"
  | .typicalPrice _ => "TypicalPrice"
  | .ultimateOscillator => "UltimateOscillator"
  | .verticalHorizontalFilter _ => "VerticalHorizontalFilter"
  | .volatilityChaikins _ _ => "VolatilityChaikins"
  | .volumeOscillator _ _ => "VolumeOscillator"
  | .volumeRateOfChange _ => "VolumeRateOfChange"
  | .weightedClose => "WeightedClose"
  | .wildersSmoothing _ => "WildersSmoothing"
  | .williamsAccumulationDistribution => "WilliamsAccumulationDistribution"
  | .williamsR _ => "WilliamsR"

end Ind

/-- `df[names]` (`_technical_indicator.py:169-172`): the named columns in that order, or `KeyError`. -/
def Frame.select (F : Frame) : List String → Except Err (List (String × List Val))
  | [] => .ok []
  | n :: ns =>
    match F.column n, F.select ns with
    | .ok xs, .ok cs => .ok ((n, xs) :: cs)
    | .error e, _ => .error e
    | _, .error e => .error e

/-- `getTiGraph` (`_technical_indicator.py:159-182`). Simplification: `pd.concat(..., axis=1)` is modelled for frames with the
same dates (`C62_same_dates` shows that they are the same wherever it is used). -/
def Obj.getTiGraph (o : Obj) : Except Err Graph :=
  let p := o.ind.graphProperties
  match o.input.select p.inputColumns with
  | .error e => .error e
  | .ok cs =>
    let data := if p.subplots then [PlotData.frame ⟨o.input.idx, cs⟩, .frame o.ti]
      else [.frame ⟨o.input.idx, cs ++ o.ti.cols⟩]
    linesGraph data p.yLabel p.longName p.colors p.alphas p.areas

/-- A curve of the simulation graph: label and points; an empty cell of the simulation data is not a number. -/
structure Curve where
  label : String
  points : List (ℕ × Val)
  deriving DecidableEq, Repr

/-- The graph of a simulation. -/
structure SimGraph where
  title : String
  panels : List Curve
  deriving DecidableEq, Repr

/-- One curve over `x = 1, 2, ...` (`_technical_indicator.py:209`). -/
def curve (label : String) (value : Sim.Row Val → Val) (rows : List (Option (Sim.Row Val))) : Curve :=
  ⟨label, ((List.range rows.length).map (· + 1)).zip (rows.map fun r => (r.map value).getD .nan)⟩

/-- `_getSimulationGraph` (`_technical_indicator.py:184-282`), called with the title of lines 430-432. -/
def SimResult.graph (r : SimResult) (ind : Ind) : SimGraph :=
  ⟨"Trading Simulation for " ++ ind.className,
    [curve "close_price" (·.stock) r.rows, curve "exposure" (·.exposure) r.rows, curve "balance" (·.balance) r.rows]⟩

end TTI
