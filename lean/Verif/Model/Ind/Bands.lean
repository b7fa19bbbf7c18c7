import Verif.Model.Ind.Base

set_option autoImplicit false

/-!
# Bands and channels
-/

namespace TTI.Ind

/-! ## Projection Bands (`_projection_bands.py`) -/
namespace ProjectionBands

/-- The loop of one band (`_projection_bands.py:121-136`): `pick` is Python's `max` or `min`; row `i` looks at the last
`period` prices projected to row `i` along the slope of row `i`. -/
def band (pick : Val → Val → Val) (period : ℕ) (price slope : List Val) : List Val :=
  prefixMap (fun pre =>
    if pre.length < period then .nan
    else
      match pre.reverse with
      | [] => .nan
      | (p0, s) :: older =>
        (((older.take (period - 1)).map (·.1)).zipIdx.map fun q => Val.add (Val.mul (.fin ((q.2 : ℚ) + 1)) s) q.1).foldl
          pick p0) (price.zip slope)

/-- `_calculateTi` (`_projection_bands.py:73-138`). -/
def calcTi (period : ℕ) (F : Frame) : Except Err Frame :=
  if F.len < period then .error (.notEnough period F.len)
  else
    let high := F.col "high"
    let low := F.col "low"
    let highSlope := (rollingOLS period (fillna 0 high)).map (·.2)
    let lowSlope := (rollingOLS period (fillna 0 low)).map (·.2)
    .ok ⟨F.idx, [("upper_band", roundS 4 (band Val.pmax period high highSlope)),
                 ("lower_band", roundS 4 (band Val.pmin period low lowSlope))]⟩

/-- `getTiSignal` (`_projection_bands.py:140-168`); `0.15` is taken as exactly `15/100`. -/
def signal (F T : Frame) : SigResult := do
  if T.len < 1 then return .hold
  let u ← iat (T.col "upper_band") 1
  let l ← iat (T.col "lower_band") 1
  let c ← iat (F.col "close") 1
  if Val.sub u c <ᵥ Val.mul (.fin (15 / 100)) (Val.sub u l) then return .sell
  if Val.sub c l <ᵥ Val.mul (.fin (15 / 100)) (Val.sub u l) then return .buy
  return .hold

end ProjectionBands

/-! ## Projection Oscillator (`_projection_oscillator.py`) -/
namespace ProjectionOscillator

/-- `_calculateTi` (`_projection_oscillator.py:71-113`). -/
def calcTi (period : ℕ) (F : Frame) : Except Err Frame := do
  if F.len < period then throw (.notEnough period F.len)
  let pb ← ProjectionBands.calcTi period (F.sub ["high", "low", "close"])
  let upper := pb.col "upper_band"
  let lower := pb.col "lower_band"
  let posc := divS (scaleS 100 (subS (F.col "close") lower)) (subS upper lower)
  return ⟨F.idx, [("posc", roundS 4 posc), ("trigger_line", roundS 4 (ewm 3 3 posc))]⟩

/-- `getTiSignal` (`_projection_oscillator.py:115-153`). -/
def signal (T : Frame) : SigResult := do
  if T.len < 4 then return .hold
  let p4 ← iat (T.col "posc") 4
  let p3 ← iat (T.col "posc") 3
  let p2 ← iat (T.col "posc") 2
  let p1 ← iat (T.col "posc") 1
  let t4 ← iat (T.col "trigger_line") 4
  let t3 ← iat (T.col "trigger_line") 3
  let t2 ← iat (T.col "trigger_line") 2
  let t1 ← iat (T.col "trigger_line") 1
  if p2 <ᵥ 15 && (15 : Val) <ᵥ p1 then return .buy
  if (85 : Val) <ᵥ p2 && p1 <ᵥ 85 then return .sell
  if p4 <ᵥ t4 && p3 <ᵥ t3 && t2 <ᵥ p2 && t1 <ᵥ p1 then return .buy
  if t4 <ᵥ p4 && t3 <ᵥ p3 && p2 <ᵥ t2 && p1 <ᵥ t1 then return .sell
  return .hold

end ProjectionOscillator

/-! ## Standard Deviation (`_standard_deviation.py`) -/
namespace StandardDeviation

/-- `_calculateTi` (`_standard_deviation.py:66-97`); `sq` is the square root. -/
def calcTi (sq : ℚ → ℚ) (period : ℕ) (F : Frame) : Except Err Frame :=
  if F.len < period then .error (.notEnough period F.len)
  else .ok ⟨F.idx, [("sd", roundS 4 (rolling period period (aggStd sq 0) (F.col "close")))]⟩

/-- `getTiSignal` (`_standard_deviation.py:99-126`). -/
def signal (period : ℕ) (F T : Frame) : SigResult := do
  if T.len < 1 then return .hold
  let c ← iat (F.col "close") 1
  let m ← iat (roundS 4 (rolling period period aggMean (F.col "close"))) 1
  let s ← iat (T.col "sd") 1
  if m <ᵥ c && (2 : Val) <ᵥ s then return .sell
  if c <ᵥ m && (2 : Val) <ᵥ s then return .buy
  return .hold

end StandardDeviation

/-! ## Bollinger Bands (`_bollinger_bands.py`) -/
namespace BollingerBands

/-- `_calculateTi` (`_bollinger_bands.py:80-117`). -/
def calcTi (sq : ℚ → ℚ) (period : ℕ) (stdNumber : Val) (F : Frame) : Except Err Frame :=
  if F.len < period then .error (.notEnough period F.len)
  else
    let close := F.col "close"
    let bb := roundS 4 (rolling period period aggMean close)
    let sd := (rolling period period (aggStd sq 0) close).map fun x => Val.mul x stdNumber
    .ok ⟨F.idx, [("middle_band", bb), ("upper_band", roundS 4 (addS bb sd)), ("lower_band", roundS 4 (subS bb sd))]⟩

/-- `getTiSignal` (`_bollinger_bands.py:119-142`). -/
def signal (F T : Frame) : SigResult := bandSignal "upper_band" "lower_band" F T

end BollingerBands

/-! ## Envelopes (`_envelopes.py`) -/
namespace Envelopes

/-- `_calculateTi` (`_envelopes.py:79-109`). -/
def calcTi (period : ℕ) (shiftBy : ℚ) (F : Frame) : Except Err Frame :=
  if F.len < period then .error (.notEnough period F.len)
  else
    let ma := rolling period period aggMean (F.col "close")
    .ok ⟨F.idx, [("upper_band", roundS 4 (scaleS (1 + shiftBy) ma)), ("lower_band", roundS 4 (scaleS (1 - shiftBy) ma))]⟩

/-- `getTiSignal` (`_envelopes.py:111-134`). -/
def signal (F T : Frame) : SigResult := bandSignal "upper_band" "lower_band" F T

end Envelopes

/-! ## Price Channel (`_price_channel.py`) -/
namespace PriceChannel

/-- `_calculateTi` (`_price_channel.py:70-109`). -/
def calcTi (period : ℕ) (F : Frame) : Except Err Frame :=
  if F.len < period then .error (.notEnough period F.len)
  else .ok ⟨F.idx, [("highest_high", roundS 4 (shift 1 (rolling period period aggMax (F.col "high")))),
                    ("lowest_low", roundS 4 (shift 1 (rolling period period aggMin (F.col "low"))))]⟩

/-- `getTiSignal` (`_price_channel.py:111-134`). -/
def signal (F T : Frame) : SigResult := bandSignal "highest_high" "lowest_low" F T

end PriceChannel

end TTI.Ind
