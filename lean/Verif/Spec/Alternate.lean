import Verif.Spec.Signals
import Verif.Spec.Prices
import Verif.Model.Api

set_option autoImplicit false

/-!
# Signals that come from two lines crossing

Small specification for C78: the two lines, day by day, and what it means that they are apart on a day.
-/

namespace TTI.Spec

/-- The two lines of the classes that compare yesterday and today of one pair of lines only: buy when the first rises through
the second, sell when it falls through it (`F` input, `T` indicator data, days counted from 0). `none` for other classes. -/
def lines (F T : Frame) : Ind → Option ((ℕ → Val) × (ℕ → Val))
  | .detrendedPriceOscillator _ => some (T.day "dpo", fun _ => 0)
  | .easeOfMovement _ => some (T.day "emv_ma", fun _ => 0)
  | .priceOscillator _ _ => some (T.day "posc", fun _ => 0)
  | .forecastOscillator _ => some (fun _ => 0, T.day "fosc")
  | .klingerOscillator => some (fun _ => 0, T.day "ko")
  | .linearRegressionSlope _ => some (fun _ => 0, T.day "lrs")
  | .swingIndex => some (fun _ => 0, T.day "swi")
  | .linearRegressionIndicator _ => some (T.day "lri", F.day "close")
  | .timeSeriesForecast _ => some (T.day "tsf", F.day "close")
  | .weightedClose => some (T.day "wc", F.day "close")
  | .wildersSmoothing _ => some (T.day "ws", F.day "close")
  | .parabolicSAR => some (F.day "close", T.day "sar")
  | .medianPrice _ => some (F.day "close_ema", T.day "mp")
  | .momentum _ => some (fun i => (ewm 9 9 (T.col "mom")).getD i .nan, T.day "mom")
  | .positiveVolumeIndex => some (T.day "pvi", fun i => (ewm 255 255 (T.col "pvi")).getD i .nan)
  | _ => none

/-- The first day on which a signal can be given. -/
def firstDay : Ind → ℕ
  | .medianPrice p => p - 1
  | .momentum _ => 8
  | .positiveVolumeIndex => 254
  | _ => 1

/-- Both lines have a value on the day and they differ. -/
def Apart (x y : ℕ → Val) (k : ℕ) : Prop := x k <ᵥ y k ∨ y k <ᵥ x k

/-- The simulation reports the signal `s` on day `i`. -/
def SignalOn (r : SimResult) (i : ℕ) (s : Signal) : Prop := ∃ row, r.rows[i]? = some (some row) ∧ row.signal = s

end TTI.Spec
