import Verif.Model.Ind.Base

set_option autoImplicit false

/-!
# Momentum and rate of change indicators
-/

namespace TTI.Ind

/-! ## Moving Average Convergence Divergence (`_moving_average_convergence_divergence.py`) -/
namespace MovingAverageConvergenceDivergence

/-- `_calculateTi` (`_moving_average_convergence_divergence.py:54-88`). -/
def calcTi (F : Frame) : Except Err Frame :=
  if F.len < 26 then .error (.notEnough 26 F.len)
  else
    let close := F.col "close"
    let ema26 := roundS 4 (ewm 26 26 close)
    let ema12 := roundS 4 (ewm 12 12 close)
    let macd := subS ema12 ema26
    .ok ⟨F.idx, [("macd", roundS 4 macd), ("signal_line", roundS 4 (ewm 9 9 macd))]⟩

/-- `getTiSignal` (`_moving_average_convergence_divergence.py:90-126`). -/
def signal (T : Frame) : SigResult := do
  if T.len < 2 then return .hold
  let m2 ← iat (T.col "macd") 2
  let m1 ← iat (T.col "macd") 1
  let s2 ← iat (T.col "signal_line") 2
  let s1 ← iat (T.col "signal_line") 1
  if m2 <ᵥ 0 && (0 : Val) <ᵥ m1 then return .buy
  if (0 : Val) <ᵥ m2 && m1 <ᵥ 0 then return .sell
  if s2 <ᵥ m2 && m1 <ᵥ s1 then return .sell
  if m2 <ᵥ s2 && s1 <ᵥ m1 then return .buy
  return .hold

end MovingAverageConvergenceDivergence

/-! ## Price Oscillator (`_price_oscillator.py`) -/
namespace PriceOscillator

/-- `_calculateTi` (`_price_oscillator.py:80-110`). -/
def calcTi (longMa shortMa : ℕ) (F : Frame) : Except Err Frame :=
  if F.len < longMa then .error (.notEnough longMa F.len)
  else
    let close := F.col "close"
    let long := rolling longMa longMa aggMean close
    let short := rolling shortMa shortMa aggMean close
    .ok ⟨F.idx, [("posc", roundS 4 (divS (scaleS 100 (subS short long)) long))]⟩

/-- `getTiSignal` (`_price_oscillator.py:112-133`). -/
def signal (T : Frame) : SigResult := levelSignal "posc" 0 0 .buy .sell T

end PriceOscillator

/-! ## Momentum (`_momentum.py`) -/
namespace Momentum

/-- `_calculateTi` (`_momentum.py:68-95`). -/
def calcTi (period : ℕ) (F : Frame) : Except Err Frame :=
  if F.len < period then .error (.notEnough period F.len)
  else
    let close := F.col "close"
    .ok ⟨F.idx, [("mom", roundS 4 (maskBefore period (divS (scaleS 100 close) (shift period close))))]⟩

/-- `getTiSignal` (`_momentum.py:97-128`). -/
def signal (T : Frame) : SigResult := do
  if T.len < 9 then return .hold
  let ema := ewm 9 9 (T.col "mom")
  let m2 ← iat (T.col "mom") 2
  let m1 ← iat (T.col "mom") 1
  let e2 ← iat ema 2
  let e1 ← iat ema 1
  if m2 <ᵥ e2 && e1 <ᵥ m1 then return .sell
  if e2 <ᵥ m2 && m1 <ᵥ e1 then return .buy
  return .hold

end Momentum

/-! ## Price Rate of Change (`_price_rate_of_change.py`) -/
namespace PriceRateOfChange

/-- `_calculateTi` (`_price_rate_of_change.py:68-97`). -/
def calcTi (period : ℕ) (F : Frame) : Except Err Frame :=
  if F.len < period then .error (.notEnough period F.len)
  else
    let close := F.col "close"
    .ok ⟨F.idx, [("prc", roundS 4 (divS (scaleS 100 (subS close (shift period close))) (shift period close)))]⟩

/-- `getTiSignal` (`_price_rate_of_change.py:99-133`). -/
def signal (T : Frame) : SigResult := trendSignal "prc" .buy .sell T

end PriceRateOfChange

/-! ## Volume Rate of Change (`_volume_rate_of_change.py`) -/
namespace VolumeRateOfChange

/-- `_calculateTi` (`_volume_rate_of_change.py:68-96`). -/
def calcTi (period : ℕ) (F : Frame) : Except Err Frame :=
  if F.len < period then .error (.notEnough period F.len)
  else
    let volume := F.col "volume"
    .ok ⟨F.idx, [("vrc", roundS 4 (scaleS 100 (divS (subS volume (shift period volume)) (shift period volume))))]⟩

/-- `getTiSignal` (`_volume_rate_of_change.py:98-132`). -/
def signal (T : Frame) : SigResult := trendSignal "vrc" .buy .sell T

end VolumeRateOfChange

/-! ## Volume Oscillator (`_volume_oscillator.py`) -/
namespace VolumeOscillator

/-- `_calculateTi` (`_volume_oscillator.py:84-116`). -/
def calcTi (longPeriod shortPeriod : ℕ) (F : Frame) : Except Err Frame :=
  if F.len < longPeriod then .error (.notEnough longPeriod F.len)
  else
    let volume := F.col "volume"
    .ok ⟨F.idx, [("vosc", roundS 4 (subS (rolling shortPeriod shortPeriod aggMean volume)
                                        (rolling longPeriod longPeriod aggMean volume)))]⟩

/-- `getTiSignal` (`_volume_oscillator.py:118-148`). -/
def signal (T : Frame) : SigResult := do
  if T.len < 3 then return .hold
  let a ← iat (T.col "vosc") 3
  let b ← iat (T.col "vosc") 2
  let c ← iat (T.col "vosc") 1
  if (0 : Val) <ᵥ a && a <ᵥ b && b <ᵥ c then return .buy
  if b <ᵥ a && c <ᵥ b && (0 : Val) <ᵥ c then return .sell
  return .hold

end VolumeOscillator

end TTI.Ind
