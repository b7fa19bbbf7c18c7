import Verif.Model.Ind.Base

set_option autoImplicit false

/-!
# Volume indicators
-/

namespace TTI.Ind

/-- `volume * ((close - low) - (high - close)) / (high - low)`, the money flow volume
(`_accumulation_distribution_line.py:63-70`, `_chaikin_money_flow.py:90-97`). -/
def moneyFlowVolume (F : Frame) : List Val :=
  let high := F.col "high"
  let low := F.col "low"
  let close := F.col "close"
  divS (mulS (F.col "volume") (subS (subS close low) (subS high close))) (subS high low)

/-- Truncation towards zero, the float to int64 conversion of numpy (overflow is not modelled). -/
def truncQ (q : ℚ) : ℤ := if 0 ≤ q then ⌊q⌋ else -⌊-q⌋

/-- `df.astype("int64", errors="ignore")` on a float column: the truncated column, or the column itself if it contains
a value that is not finite. -/
def astypeInt (xs : List Val) : List Val :=
  match allFin xs with
  | some v => v.map fun q => .fin (truncQ q)
  | none => xs

/-! ## Accumulation Distribution Line (`_accumulation_distribution_line.py`) -/
namespace AccumulationDistributionLine

/-- `_calculateTi` (`_accumulation_distribution_line.py:52-74`). -/
def calcTi (F : Frame) : Except Err Frame :=
  .ok ⟨F.idx, [("adl", astypeInt (cumsum (moneyFlowVolume F)))]⟩

/-- `getTiSignal` (`_accumulation_distribution_line.py:76-104`). -/
def signal (F T : Frame) : SigResult := do
  if T.len < 2 then return .hold
  let c1 ← iat (F.col "close") 1
  let c2 ← iat (F.col "close") 2
  let slope := Val.sub c1 c2
  let a ← iat (T.col "adl") 1
  if (slope <ᵥ 0 && (0 : Val) <ᵥ a) || ((0 : Val) <ᵥ slope && (0 : Val) <ᵥ a) then return .buy
  if ((0 : Val) <ᵥ slope && a <ᵥ 0) || (slope <ᵥ 0 && a <ᵥ 0) then return .sell
  return .hold

end AccumulationDistributionLine

/-! ## Chaikin Money Flow (`_chaikin_money_flow.py`) -/
namespace ChaikinMoneyFlow

/-- `_calculateTi` (`_chaikin_money_flow.py:69-109`). -/
def calcTi (period : ℕ) (F : Frame) : Except Err Frame :=
  if F.len < period then .error (.notEnough period F.len)
  else
    let numerator := rolling period period aggSum (moneyFlowVolume F)
    let denominator := rolling period period aggSum (F.col "volume")
    .ok ⟨F.idx, [("cmf", roundS 4 (divS numerator denominator))]⟩

/-- `getTiSignal` (`_chaikin_money_flow.py:111-142`). -/
def signal (F T : Frame) : SigResult := do
  if T.len < 3 then return .hold
  let m2 ← iat (T.col "cmf") 2
  let m1 ← iat (T.col "cmf") 1
  let c3 ← iat (F.col "close") 3
  let c2 ← iat (F.col "close") 2
  let c1 ← iat (F.col "close") 1
  if m1 <ᵥ m2 && Val.pmax c3 c2 <ᵥ c1 then return .sell
  else if m2 <ᵥ m1 && c1 <ᵥ Val.pmin c3 c2 then return .buy
  else return .hold

end ChaikinMoneyFlow

/-! ## Chaikin Oscillator (`_chaikin_oscillator.py`) -/
namespace ChaikinOscillator

/-- `_calculateTi` (`_chaikin_oscillator.py:54-80`). -/
def calcTi (F : Frame) : Except Err Frame := do
  if F.len < 10 then throw (.notEnough 10 F.len)
  let T ← AccumulationDistributionLine.calcTi (F.sub ["close", "volume", "high", "low"])
  let adl := T.col "adl"
  return ⟨F.idx, [("co", roundS 4 (subS (ewm 3 3 adl) (ewm 10 10 adl)))]⟩

/-- `getTiSignal` (`_chaikin_oscillator.py:82-116`). -/
def signal (F T : Frame) : SigResult := do
  if T.len < 90 then return .hold
  let ma := meanSkip (window 90 (F.col "close"))
  let c ← iat (F.col "close") 1
  let t2 ← iat (T.col "co") 2
  let t1 ← iat (T.col "co") 1
  if ma <ᵥ c && (t2 <ᵥ t1 && t1 <ᵥ 0) then return .buy
  else if c <ᵥ ma && (t1 <ᵥ t2 && (0 : Val) <ᵥ t1) then return .sell
  else return .hold

end ChaikinOscillator

/-! ## Ease Of Movement (`_ease_of_movement.py`) -/
namespace EaseOfMovement

/-- `_calculateTi` (`_ease_of_movement.py:70-107`). -/
def calcTi (period : ℕ) (F : Frame) : Except Err Frame :=
  if F.len < max period 2 then .error (.notEnough (max period 2) F.len)
  else
    let high := F.col "high"
    let low := F.col "low"
    let midpointMove := scaleS (1 / 2) (subS (addS high low) (addS (shift 1 high) (shift 1 low)))
    let boxRatio := divS (F.col "volume") (scaleS 10000 (subS high low))
    let emv := divS midpointMove boxRatio
    .ok ⟨F.idx, [("emv", roundS 4 emv), ("emv_ma", roundS 4 (rolling period period aggMean emv))]⟩

/-- `getTiSignal` (`_ease_of_movement.py:109-131`). -/
def signal (T : Frame) : SigResult := levelSignal "emv_ma" 0 0 .buy .sell T

end EaseOfMovement

/-- The loop shared by the negative and the positive volume index (`_negative_volume_index.py:74-82`,
`_positive_volume_index.py:74-82`) on rows `(close, volume)`: starts at 1000 and follows the close on the days on which
`moves previous current` of the volumes holds. -/
def volumeIndex (moves : Val → Val → Bool) (rows : List (Val × Val)) : List Val :=
  prefixMap (fun pre =>
    match pre with
    | [] => .nan
    | first :: rest =>
      (rest.foldl (fun (st : Val × (Val × Val)) r =>
        let v := st.1
        let p := st.2
        (if moves p.2 r.2 then Val.add v (Val.mul (Val.sub r.1 p.1) (Val.div v p.1)) else v, r))
        ((1000 : Val), first)).1) rows

/-! ## Negative Volume Index (`_negative_volume_index.py`) -/
namespace NegativeVolumeIndex

/-- `_calculateTi` (`_negative_volume_index.py:53-84`). -/
def calcTi (F : Frame) : Except Err Frame :=
  if F.len < 2 then .error (.notEnough 2 F.len)
  else .ok ⟨F.idx, [("nvi", roundS 4 (volumeIndex (fun p c => c <ᵥ p) ((F.col "close").zip (F.col "volume"))))]⟩

/-- `getTiSignal` (`_negative_volume_index.py:86-106`). -/
def signal (T : Frame) : SigResult := do
  if T.len < 255 then return .hold
  let ema := ewm 255 255 (T.col "nvi")
  let t ← iat (T.col "nvi") 1
  let e ← iat ema 1
  if e <ᵥ t then return .buy
  return .hold

end NegativeVolumeIndex

/-! ## Positive Volume Index (`_positive_volume_index.py`) -/
namespace PositiveVolumeIndex

/-- `_calculateTi` (`_positive_volume_index.py:53-84`). -/
def calcTi (F : Frame) : Except Err Frame :=
  if F.len < 2 then .error (.notEnough 2 F.len)
  else .ok ⟨F.idx, [("pvi", roundS 4 (volumeIndex (fun p c => p <ᵥ c) ((F.col "close").zip (F.col "volume"))))]⟩

/-- `getTiSignal` (`_positive_volume_index.py:86-113`). -/
def signal (T : Frame) : SigResult := do
  if T.len < 255 then return .hold
  let ema := ewm 255 255 (T.col "pvi")
  let t2 ← iat (T.col "pvi") 2
  let t1 ← iat (T.col "pvi") 1
  let e2 ← iat ema 2
  let e1 ← iat ema 1
  if t2 <ᵥ e2 && e1 <ᵥ t1 then return .buy
  if e2 <ᵥ t2 && t1 <ᵥ e1 then return .sell
  return .hold

end PositiveVolumeIndex

/-! ## On Balance Volume (`_on_balance_volume.py`) -/
namespace OnBalanceVolume

/-- Signed volume of a day (`_on_balance_volume.py:62-69`). -/
def signedVolume (close previous volume : Val) : Val :=
  let v := if previous <ᵥ close then volume else 0
  if close <ᵥ previous then Val.neg volume else v

/-- `_calculateTi` (`_on_balance_volume.py:52-73`). -/
def calcTi (F : Frame) : Except Err Frame :=
  let close := F.col "close"
  .ok ⟨F.idx, [("obv", cumsum (zip3 signedVolume close (shift 1 close) (F.col "volume")))]⟩

/-- `getTiSignal` (`_on_balance_volume.py:75-109`). -/
def signal (T : Frame) : SigResult := trendSignal "obv" .buy .sell T

end OnBalanceVolume

/-! ## Price And Volume Trend (`_price_and_volume_trend.py`) -/
namespace PriceAndVolumeTrend

/-- The loop (`_price_and_volume_trend.py:74-79`) on rows `(close, volume)`. -/
def trend (rows : List (Val × Val)) : List Val :=
  prefixMap (fun pre =>
    match pre with
    | [] => .nan
    | first :: rest =>
      (rest.foldl (fun (st : Val × Val) r =>
        (Val.add st.1 (Val.mul (Val.sub r.1 st.2) (Val.div r.2 st.2)), r.1)) ((0 : Val), first.1)).1) rows

/-- `_calculateTi` (`_price_and_volume_trend.py:53-81`). -/
def calcTi (F : Frame) : Except Err Frame :=
  if F.len < 2 then .error (.notEnough 2 F.len)
  else .ok ⟨F.idx, [("pvt", roundS 4 (trend ((F.col "close").zip (F.col "volume"))))]⟩

/-- `getTiSignal` (`_price_and_volume_trend.py:83-117`). -/
def signal (T : Frame) : SigResult := trendSignal "pvt" .buy .sell T

end PriceAndVolumeTrend

/-! ## Market Facilitation Index (`_market_facilitation_index.py`) -/
namespace MarketFacilitationIndex

/-- `_calculateTi` (`_market_facilitation_index.py:52-72`). -/
def calcTi (F : Frame) : Except Err Frame :=
  .ok ⟨F.idx, [("mfi", roundS 10 (divS (subS (F.col "high") (F.col "low")) (F.col "volume")))]⟩

/-- `getTiSignal` (`_market_facilitation_index.py:74-97`). -/
def signal (T : Frame) : SigResult := do
  if T.len < 2 then return .hold
  let a ← iat (T.col "mfi") 2
  let b ← iat (T.col "mfi") 1
  if b <ᵥ a then return .buy
  else if a <ᵥ b then return .sell
  else return .hold

end MarketFacilitationIndex

/-! ## Klinger Oscillator (`_klinger_oscillator.py`) -/
namespace KlingerOscillator

/-- `t[t > 0.0] = 1.0; t[t <= 0.0] = -1.0` (`_klinger_oscillator.py:76-77`). -/
def direction (x : Val) : Val :=
  let y := if (0 : Val) <ᵥ x then 1 else x
  if y ≤ᵥ 0 then .fin (-1) else y

/-- Cumulative measurement (`_klinger_oscillator.py:83-88`) on rows `(t, dm)`. -/
def cumulative (rows : List (Val × Val)) : List Val :=
  prefixMap (fun pre =>
    match pre with
    | [] => .nan
    | first :: rest =>
      (rest.foldl (fun (st : Val × (Val × Val)) r =>
        (if Val.eqv r.1 st.2.1 then Val.add st.1 r.2 else Val.add st.2.2 r.2, r)) ((0 : Val), first)).1) rows

/-- `_calculateTi` (`_klinger_oscillator.py:53-97`). -/
def calcTi (F : Frame) : Except Err Frame :=
  if F.len < 55 then .error (.notEnough 55 F.len)
  else
    let high := F.col "high"
    let low := F.col "low"
    let sum := zip3 (fun x y z => sumSkip [x, y, z]) high low (F.col "close")
    let t := (subS sum (shift 1 sum)).map direction
    let dm := subS high low
    let cm := cumulative (t.zip dm)
    let factor := (divS dm cm).map fun x => Val.abs (Val.sub (Val.mul 2 x) 1)
    let force := (mulS (mulS (F.col "volume") factor) t).map fun x => Val.mul x 100
    .ok ⟨F.idx, [("ko", roundS 4 (subS (ewm 34 34 force) (ewm 55 55 force)))]⟩

/-- `getTiSignal` (`_klinger_oscillator.py:99-120`). -/
def signal (T : Frame) : SigResult := levelSignal "ko" 0 0 .sell .buy T

end KlingerOscillator

/-! ## Williams Accumulation Distribution (`_williams_accumulation_distribution.py`) -/
namespace WilliamsAccumulationDistribution

/-- One row (`_williams_accumulation_distribution.py:67-84`). -/
def row (close previous high low : Val) : Val :=
  let trh := maxNan previous high
  let trl := minNan previous low
  let wad := Val.sub close previous
  if wad <ᵥ 0 then Val.sub close trh else if (0 : Val) <ᵥ wad then Val.sub close trl else wad

/-- `_calculateTi` (`_williams_accumulation_distribution.py:53-86`). -/
def calcTi (F : Frame) : Except Err Frame :=
  let close := F.col "close"
  .ok ⟨F.idx, [("wad", roundS 4 (List.zipWith (fun (p q : Val × Val) => row p.1 p.2 q.1 q.2)
    (close.zip (shift 1 close)) ((F.col "high").zip (F.col "low"))))]⟩

/-- `getTiSignal` (`_williams_accumulation_distribution.py:88-115`). -/
def signal (F T : Frame) : SigResult := do
  if F.len < 30 then return .hold
  let close := window 30 (F.col "close")
  let wad := window 30 (T.col "wad")
  let c ← iat (F.col "close") 1
  let w ← iat (T.col "wad") 1
  if Val.eqv (minOf close) c && !Val.eqv (minOf wad) w then return .buy
  if Val.eqv (maxOf close) c && !Val.eqv (maxOf wad) w then return .sell
  return .hold

end WilliamsAccumulationDistribution

end TTI.Ind
