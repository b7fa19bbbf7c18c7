import Verif.Model.Val
import Verif.Model.Sim
import Verif.Spec.Ledger
import Verif.Lemmas.Sim
import Verif.Lemmas.NpSum
import Verif.Lemmas.SimQ
import Verif.Lemmas.SimRows
import Verif.Props.Sim1
import Verif.Lemmas.SimMap
import Verif.Props.Sim2
import Verif.Props.SimFloat
import Verif.Model.Frame
import Verif.Lemmas.Series
import Verif.Lemmas.Frame
import Verif.Model.SimArgs
import Verif.Model.Ind.Base
import Verif.Model.Ind.Averages
import Verif.Model.Ind.Bands
import Verif.Model.Ind.Momentum
import Verif.Model.Ind.Volume
import Verif.Model.Ind.Trend
import Verif.Model.Ind.Oscillators
import Verif.Model.Ind.All
import Verif.Model.Call
import Verif.Model.Api
import Verif.Props.Validate
import Verif.Props.Validate2
import Verif.Spec.Indicators
import Verif.Lemmas.Shape
import Verif.Lemmas.Api
import Verif.Lemmas.Signal
import Verif.Lemmas.Built
import Verif.Props.Build
import Verif.Props.Api
import Verif.Lemmas.Causal
import Verif.Lemmas.Cut
import Verif.Props.Causal
import Verif.Props.Fill
import Verif.Model.Plot
import Verif.Spec.Graph
import Verif.Lemmas.Plot
import Verif.Props.Graph
import Verif.Spec.Params
import Verif.Props.Params
import Verif.Spec.Signals
import Verif.Lemmas.Rules
import Verif.Props.Signals
import Verif.Lemmas.Num
import Verif.Lemmas.Roll
import Verif.Spec.Prices
import Verif.Lemmas.Prices
import Verif.Lemmas.Params
import Verif.Lemmas.Ranges
import Verif.Lemmas.Ranges2
import Verif.Props.Range
import Verif.Lemmas.Averages
import Verif.Props.Averages
import Verif.Lemmas.Bands
import Verif.Props.Bands
import Verif.Spec.Regression
import Verif.Lemmas.Regression
import Verif.Props.Regression
import Verif.Spec.Volume
import Verif.Lemmas.Volume
import Verif.Props.Volume
import Verif.Spec.Sar
import Verif.Lemmas.Sar
import Verif.Props.Sar
import Verif.Lemmas.NoDown
import Verif.Props.NoDown
import Verif.Props.Constant
import Verif.Props.Order
import Verif.Props.Scale
import Verif.Spec.Formula
import Verif.Spec.Gaps
import Verif.Lemmas.Col
import Verif.Props.Sample
import Verif.Props.FormulaAverages
import Verif.Props.FormulaMomentum
import Verif.Props.FormulaBands
import Verif.Props.FormulaOscillators
import Verif.Props.FormulaPrices
import Verif.Props.FormulaRange
import Verif.Props.FormulaRange2
import Verif.Props.FormulaVolume
import Verif.Props.FormulaStrength
import Verif.Props.FormulaProjection
import Verif.Props.FormulaZero
import Verif.Props.FormulaGaps
import Verif.Lemmas.Unit
import Verif.Lemmas.UnitInd
import Verif.Lemmas.UnitVolume
import Verif.Props.Unit
import Verif.Lemmas.Identities
import Verif.Props.Identities
import Verif.Model.Message
import Verif.Spec.Messages
import Verif.Lemmas.Messages
import Verif.Lemmas.Reports
import Verif.Props.Messages
import Verif.Model.Bind
import Verif.Spec.Bind
import Verif.Lemmas.Bind
import Verif.Props.Calls
import Verif.Props.CallsData
import Verif.Spec.Memory
import Verif.Spec.SignalMemory
import Verif.Lemmas.Memory
import Verif.Lemmas.MemoryInd
import Verif.Lemmas.Since
import Verif.Lemmas.SinceBuilt
import Verif.Lemmas.SinceSignal
import Verif.Props.Memory
import Verif.Spec.Raise
import Verif.Lemmas.Raise
import Verif.Lemmas.RaiseInd
import Verif.Lemmas.RaiseClass
import Verif.Lemmas.RaiseObj
import Verif.Props.Raise
import Verif.Spec.Close
import Verif.Lemmas.Under
import Verif.Lemmas.UnderFrame
import Verif.Props.Close
import Verif.Spec.Mirror
import Verif.Lemmas.Mirror
import Verif.Lemmas.MirrorInd
import Verif.Lemmas.MirrorClass
import Verif.Lemmas.MirrorAll
import Verif.Lemmas.MirrorObj
import Verif.Lemmas.MirrorSig
import Verif.Lemmas.MirrorSar
import Verif.Props.Mirror
import Verif.Spec.Redate
import Verif.Lemmas.Redate
import Verif.Props.Redate
import Verif.Spec.Currency
import Verif.Lemmas.Currency
import Verif.Props.Currency
import Verif.Spec.WarmUp
import Verif.Lemmas.WarmUp
import Verif.Lemmas.WarmUpInd
import Verif.Lemmas.WarmUpSig
import Verif.Props.WarmUp
import Verif.Spec.ShortPeriod
import Verif.Props.ShortPeriod
import Verif.Spec.Alternate
import Verif.Props.Alternate
import Verif.Spec.Stricter
import Verif.Props.Stricter
import Verif.Spec.Superpose
import Verif.Props.Superpose
import Verif.Model.Scripts
import Verif.Spec.Scripts
import Verif.Props.Scripts
import Verif.Spec.Rounding
import Verif.Lemmas.Rounding
import Verif.Lemmas.Double
import Verif.Props.Rounding
import Verif.Model.Loops
import Verif.Spec.Loops
import Verif.Lemmas.Loops
import Verif.Lemmas.Loops2
import Verif.Lemmas.Loops3
import Verif.Lemmas.Loops4
import Verif.Props.Loops
import Verif.Model.SimClass
import Verif.Lemmas.SimClass
import Verif.Lemmas.SimClass2
import Verif.Props.SimClass
import Verif.Model.Float
import Verif.Spec.Float
import Verif.Lemmas.Float
import Verif.Lemmas.FloatErr
import Verif.Lemmas.FloatRoll
import Verif.Lemmas.FloatReport
import Verif.Lemmas.FloatSample
import Verif.Props.Float
import Verif.Props.FloatPrices
import Verif.Props.FloatRoll
import Verif.Lemmas.FloatSignal
import Verif.Props.FloatSignal
import Verif.Lemmas.FloatExact
import Verif.Props.FloatExact
import Verif.Lemmas.FloatShape
import Verif.Props.FloatLife
import Verif.Spec.FloatFlat
import Verif.Lemmas.FloatFlat
import Verif.Props.FloatFlat
import Verif.Spec.FloatCorrect
import Verif.Lemmas.FloatCorrect
import Verif.Props.FloatCorrect
import Verif.Spec.FloatRange
import Verif.Lemmas.FloatRange
import Verif.Props.FloatRange
import Verif.Props.FloatBetween
import Verif.Model.Heap
import Verif.Spec.Heap
import Verif.Lemmas.Heap
import Verif.Props.Heap
import Verif.Props.HeapFed
import Verif.Lemmas.FloatStd
import Verif.Props.FloatStd
import Verif.Model.FloatApi
import Verif.Spec.FloatApi
import Verif.Lemmas.FloatApi
import Verif.Props.FloatApi
import Verif.Spec.SimApi
import Verif.Props.SimApi
import Verif.Spec.Forget
import Verif.Lemmas.Forget
import Verif.Props.Forget
import Verif.Spec.Stakes
import Verif.Lemmas.Stakes
import Verif.Props.Stakes
import Verif.Model.Utils
import Verif.Props.HeapOwn
import Verif.Props.Utils
import Verif.Spec.Trend
import Verif.Lemmas.Trend
import Verif.Lemmas.Trend2
import Verif.Props.Trend
import Verif.Props.TrendSignals
import Verif.Props.TrendTrading
import Verif.Props.Table
import Verif.Props.Level
import Verif.Props.Ruin
import Verif.Spec.Hole
import Verif.Lemmas.Hole
import Verif.Lemmas.HoleInd
import Verif.Lemmas.HoleObj
import Verif.Props.Hole
import Verif.Spec.Unlimited
import Verif.Lemmas.Unlimited
import Verif.Lemmas.Unlimited2
import Verif.Lemmas.Unlimited3
import Verif.Lemmas.Unlimited4
import Verif.Lemmas.Unlimited5
import Verif.Lemmas.Unlimited6
import Verif.Props.Unlimited
import Verif.Spec.Least
import Verif.Lemmas.Least
import Verif.Lemmas.Least2
import Verif.Lemmas.Least3
import Verif.Lemmas.Least4
import Verif.Props.Least
import Verif.Spec.Basket
import Verif.Lemmas.Basket
import Verif.Lemmas.Basket2
import Verif.Props.Basket
import Verif.Spec.LastClose
import Verif.Lemmas.LastClose
import Verif.Lemmas.LastClose2
import Verif.Props.LastClose
import Verif.Props.LastClose2
import Verif.Props.LastClose3
import Verif.Props.LastClose4
import Verif.Props.LastClose5
import Verif.Props.LastClose6
import Verif.Props.LastClose7
import Verif.Props.LastClose8
import Verif.Props.LastClose9
import Verif.Props.LastClose10
import Verif.Props.LastClose11
import Verif.Props.LastClose12
import Verif.Props.LastClose13
import Verif.Spec.Errors
import Verif.Lemmas.Errors
import Verif.Props.Errors
import Verif.Props.Errors2
import Verif.Props.Errors3
import Verif.Spec.Ties
import Verif.Props.Ties
import Verif.Spec.Idle
import Verif.Props.Idle
import Verif.Spec.Factor
import Verif.Props.Factor
import Verif.Props.ValidateApi
