import Verif.Spec.Volume
import Verif.Model.Api

set_option autoImplicit false

/-!
# The vocabulary of the textbook formulas

Used by the properties that state the value of an indicator on every day (C52 and later). Everything here is about exact
numbers, one per day; nothing refers to columns, windows or missing values of the model. Days are numbered from 0.
-/

namespace TTI.Spec

/-- The user's number in a column on a day, and the usual columns. -/
def price (f : RawFrame) (name : String) (j : ℕ) : ℚ := number (f.day name j)
abbrev high (f : RawFrame) : ℕ → ℚ := price f "high"
abbrev low (f : RawFrame) : ℕ → ℚ := price f "low"
abbrev opening (f : RawFrame) : ℕ → ℚ := price f "open"

/-- `o` was constructed by the call `c` on the user's frame `f`, all of whose required cells are numbers that satisfy `P`. -/
structure BuiltOn (E : Env) (c : Call) (f : RawFrame) (fill : Bool) (o : Obj) (P : (String → ℚ) → Prop) : Prop where
  wf : ∀ c ∈ f.cols, c.data.length = f.idx.length
  ok : (construct E c (.frame f) (.bool fill)).2 = .ok o
  rows : f.EachRow o.ind.required P

/-- Missing on the first `k` days, then `v`. -/
def since (k i : ℕ) (v : Val) : Val := if i < k then .nan else v

/-- A number rounded to four decimals, as the indicators report it. -/
def to4 (q : ℚ) : Val := .fin (roundQ 4 q)

/-- Rounding of a value to four decimals; a missing or infinite value stays. -/
abbrev round4 (v : Val) : Val := Val.round 4 v

/-- A quotient as floats compute it: `0/0` is missing, another number divided by 0 is infinite. -/
def quotient (a b : ℚ) : Val :=
  if b ≠ 0 then .fin (a / b) else if 0 < a then .pinf else if a < 0 then .ninf else .nan

/-- Sum and mean over the last `w` days (the day itself included). -/
def sumLast (w : ℕ) (g : ℕ → ℚ) (i : ℕ) : ℚ := ∑ t ∈ Finset.range w, g (i - t)
def meanLast (w : ℕ) (g : ℕ → ℚ) (i : ℕ) : ℚ := sumLast w g i / w

/-- Greatest and least value of the last `w` days. -/
def highest (w : ℕ) (g : ℕ → ℚ) (i : ℕ) : ℚ := (List.range w).foldl (fun m t => max m (g (i - t))) (g i)
def lowest (w : ℕ) (g : ℕ → ℚ) (i : ℕ) : ℚ := (List.range w).foldl (fun m t => min m (g (i - t))) (g i)

/-- Population variance of the last `w` days. -/
def varianceLast (w : ℕ) (g : ℕ → ℚ) (i : ℕ) : ℚ := meanLast w (fun j => (g j - meanLast w g i) ^ 2) i

/-- The average that starts on day `s` with the value `seed` and on every later day moves by the fraction `a` of the distance
to the new number. -/
def smoothed (a : ℚ) (s : ℕ) (seed : ℚ) (g : ℕ → ℚ) : ℕ → ℚ
  | 0 => seed
  | i + 1 => if i + 1 ≤ s then seed else
    let before := smoothed a s seed g i
    before + a * (g (i + 1) - before)

/-- Exponential average of `n` periods of numbers that start on day `s`: it moves by `2 / (n + 1)`. -/
def ema (n s : ℕ) (g : ℕ → ℚ) : ℕ → ℚ := smoothed (2 / ((n : ℚ) + 1)) s (g s) g

/-- Wilder's average of `n` periods of numbers that start on day `s`: the mean of the first `n` numbers, then it moves by
`1 / n`. -/
def wilderAverage (n s : ℕ) (g : ℕ → ℚ) : ℕ → ℚ := smoothed (1 / (n : ℚ)) (s + n - 1) (meanLast n g (s + n - 1)) g

/-- The MACD line of a day: 12-day minus 26-day exponential average, each rounded to four decimals. -/
def macdLine (g : ℕ → ℚ) (i : ℕ) : ℚ := roundQ 4 (ema 12 0 g i) - roundQ 4 (ema 26 0 g i)

/-- Rise and fall against the day before. -/
def gain (g : ℕ → ℚ) (j : ℕ) : ℚ := max (g j - g (j - 1)) 0
def loss (g : ℕ → ℚ) (j : ℕ) : ℚ := max (g (j - 1) - g j) 0

/-- Chande's momentum: rises minus falls of the last `n` days in percent of their total. -/
def chande (n : ℕ) (g : ℕ → ℚ) (i : ℕ) : Val :=
  quotient (100 * (sumLast n (gain g) i - sumLast n (loss g) i)) (sumLast n (gain g) i + sumLast n (loss g) i)

/-- The variable average of `n` periods: it starts on day 21 (the 22nd) with the number of that day and later moves by
`2 / (n + 1)` times the fraction that 9-day Chande momentum (rounded to four decimals, sign dropped) is of 100. -/
def variableAverage (n : ℕ) (g : ℕ → ℚ) : ℕ → ℚ
  | 0 => g 21
  | i + 1 => if i + 1 ≤ 21 then g 21 else
    let momentum := 100 * (sumLast 9 (gain g) (i + 1) - sumLast 9 (loss g) (i + 1)) /
      (sumLast 9 (gain g) (i + 1) + sumLast 9 (loss g) (i + 1))
    let before := variableAverage n g i
    before + 2 / ((n : ℚ) + 1) * |roundQ 4 momentum / 100| * (g (i + 1) - before)

/-- Distance of the close from the lowest low, and height of the range, of the last `k` days. -/
def aboveLow (f : RawFrame) (k j : ℕ) : ℚ := close f j - lowest k (low f) j
def rangeHeight (f : RawFrame) (k j : ℕ) : ℚ := highest k (high f) j - lowest k (low f) j

/-- Typical price of a day. -/
def typical (f : RawFrame) (j : ℕ) : ℚ := (high f j + low f j + close f j) / 3

/-- Middle between the highest high and the lowest low of the last `w` days (of all days so far if they are fewer). -/
def midRange (f : RawFrame) (w i : ℕ) : ℚ := (highest w (high f) i + lowest w (low f) i) / 2

/-- A running value that starts on day `s` with `seed` and on every later day combines the day before with the new number. -/
def running (s : ℕ) (seed : ℚ) (step : ℚ → ℚ → ℚ) (g : ℕ → ℚ) : ℕ → ℚ
  | 0 => seed
  | i + 1 => if i + 1 ≤ s then seed else step (running s seed step g i) (g (i + 1))

/-- True range of a day: the widest of today's range and the distances of today's high and low from yesterday's close. -/
def trueRange (f : RawFrame) (j : ℕ) : ℚ :=
  if j = 0 then high f 0 - low f 0
  else max (max (high f j - low f j) (high f j - close f (j - 1))) (close f (j - 1) - low f j)

/-- Directional movement of a day: the extension of the range above yesterday's high, if that is positive and larger than the
extension below yesterday's low; and the other way round. -/
def plusMove (f : RawFrame) (j : ℕ) : ℚ :=
  if low f (j - 1) - low f j < high f j - high f (j - 1) ∧ 0 < high f j - high f (j - 1) then high f j - high f (j - 1) else 0
def minusMove (f : RawFrame) (j : ℕ) : ℚ :=
  if high f j - high f (j - 1) < low f (j - 1) - low f j ∧ 0 < low f (j - 1) - low f j then low f (j - 1) - low f j else 0

/-- Wilder's running total of 14 days: the total of the days 1 to 13, and from then on a fourteenth is given up for the new
number. -/
def total14 (g : ℕ → ℚ) : ℕ → ℚ := running 13 (∑ t ∈ Finset.range 13, g (t + 1)) (fun before x => before - before / 14 + x) g

/-- The directional lines, their contrast, and its average: the mean of the first 14 numbers (days 14 to 27), then moving by a
fourteenth. -/
def plusLine (f : RawFrame) (i : ℕ) : ℚ := 100 * total14 (plusMove f) i / total14 (trueRange f) i
def minusLine (f : RawFrame) (i : ℕ) : ℚ := 100 * total14 (minusMove f) i / total14 (trueRange f) i
def contrast (f : RawFrame) (i : ℕ) : ℚ := 100 * |plusLine f i - minusLine f i| / |plusLine f i + minusLine f i|
def directional (f : RawFrame) : ℕ → ℚ := wilderAverage 14 14 (contrast f)

/-- Buying pressure and true range of a day as the ultimate oscillator takes them: yesterday's close counts as a part of the
day. -/
def trueHigh (f : RawFrame) (j : ℕ) : ℚ := max (high f j) (close f (j - 1))
def trueLow (f : RawFrame) (j : ℕ) : ℚ := min (low f j) (close f (j - 1))
def pressure (f : RawFrame) (j : ℕ) : ℚ := close f j - trueLow f j
def span (f : RawFrame) (j : ℕ) : ℚ := trueHigh f j - trueLow f j
def pressureRatio (f : RawFrame) (w i : ℕ) : ℚ := sumLast w (pressure f) i / sumLast w (span f) i

/-- High minus low of a day. -/
def dayRange (f : RawFrame) (j : ℕ) : ℚ := high f j - low f j

/-- 9-day exponential average of the daily range, and the ratio of it to its own 9-day exponential average. -/
def rangeAverage (f : RawFrame) : ℕ → ℚ := ema 9 0 (dayRange f)
def rangeAverage2 (f : RawFrame) : ℕ → ℚ := ema 9 8 (rangeAverage f)

/-- True range per unit of a rise of the close (the true range itself if the close did not rise), and its place in percent
between the least and the greatest of the last `w` days (0 if these agree). -/
def rangePerRise (f : RawFrame) (j : ℕ) : ℚ :=
  if close f (j - 1) < close f j then trueRange f j / (close f j - close f (j - 1)) else trueRange f j
def rangePlace (f : RawFrame) (w j : ℕ) : ℚ :=
  let lo := lowest w (rangePerRise f) j
  let hi := highest w (rangePerRise f) j
  if hi = lo then 0 else 100 * (rangePerRise f j - lo) / (hi - lo)

/-- The parts of Wilder's swing index. -/
def swingMove (f : RawFrame) (j : ℕ) : ℚ :=
  (close f j - close f (j - 1)) + (close f j - opening f j) / 2 + (close f (j - 1) - opening f (j - 1)) / 4
def swingReach (f : RawFrame) (j : ℕ) : ℚ := max |high f j - close f (j - 1)| |low f j - close f (j - 1)|
def swingRange (f : RawFrame) (j : ℕ) : ℚ :=
  max (swingReach f j) (high f j - low f j) + |close f (j - 1) - opening f (j - 1)| / 4

/-- A number kept between -100 and 100. -/
def within100 (q : ℚ) : ℚ := max (-100) (min 100 q)

/-- Move of the middle of the range against the day before, and ease of movement: that move times the range per unit of volume
(in units of 10000). Without volume the quotient is infinite or missing. -/
def midpointMove (f : RawFrame) (j : ℕ) : ℚ := ((high f j + low f j) - (high f (j - 1) + low f (j - 1))) / 2
def easeOfMovement (f : RawFrame) (j : ℕ) : ℚ := midpointMove f j * (10000 * dayRange f j) / volume f j

/-- Williams' accumulation and distribution of a day. -/
def accumulation (f : RawFrame) (j : ℕ) : ℚ :=
  if close f j < close f (j - 1) then close f j - max (close f (j - 1)) (high f j)
  else if close f (j - 1) < close f j then close f j - min (close f (j - 1)) (low f j)
  else 0

/-- Money flow of a day: the volume, weighed by the place of the close in the day's range (-1 at the low, 1 at the high). -/
def flow (f : RawFrame) (j : ℕ) : ℚ := volume f j * ((close f j - low f j) - (high f j - close f j)) / (high f j - low f j)

/-- The close lies in the day's range. -/
def CloseInside (x : String → ℚ) : Prop := x "low" ≤ x "close" ∧ x "close" ≤ x "high"

/-- A number without its decimals. -/
def truncated (q : ℚ) : ℚ := if 0 ≤ q then ⌊q⌋ else -⌊-q⌋

/-- The accumulation distribution line of prices without a flat day. -/
def flowLine (f : RawFrame) (i : ℕ) : ℚ := truncated (∑ j ∈ Finset.range (i + 1), flow f j)

/-- Klinger: direction of the sum of high, low and close; length of the ranges since the direction last changed (the day before
the change included); and the volume force. -/
def priceSum (f : RawFrame) (j : ℕ) : ℚ := high f j + low f j + close f j
def heading (f : RawFrame) (j : ℕ) : ℚ := if priceSum f (j - 1) < priceSum f j then 1 else -1
def rangeRun (f : RawFrame) : ℕ → ℚ
  | 0 => 0
  | j + 1 => if j ≠ 0 ∧ heading f (j + 1) = heading f j then rangeRun f j + dayRange f (j + 1)
    else dayRange f j + dayRange f (j + 1)
def volumeForce (f : RawFrame) (j : ℕ) : ℚ :=
  volume f j * |2 * (dayRange f j / rangeRun f j) - 1| * heading f j * 100

/-- The average of the relative strength index: the mean of days 1 to `n`, later moved by one `n`-th of the distance to the new
number and rounded to four decimals every day. -/
def roundedAverage (n : ℕ) (g : ℕ → ℚ) : ℕ → ℚ := running n (meanLast n g n) (fun b x => roundQ 4 (b + (x - b) / n)) g

/-- Averages of the rises and of the falls (each rounded to four decimals) of the relative strength index. -/
def risePart (f : RawFrame) (n : ℕ) : ℕ → ℚ := roundedAverage n fun j => roundQ 4 (gain (close f) j)
def fallPart (f : RawFrame) (n : ℕ) : ℕ → ℚ := roundedAverage n fun j => roundQ 4 (loss (close f) j)

/-- Rise and fall of the close over `m` days. -/
def gainOver (m : ℕ) (g : ℕ → ℚ) (j : ℕ) : ℚ := max (g j - g (j - m)) 0
def lossOver (m : ℕ) (g : ℕ → ℚ) (j : ℕ) : ℚ := max (g (j - m) - g j) 0

/-- The 10-day deviation on the days on which the price rises, or falls; 0 on the other days. -/
def risingDeviation (sq : ℚ → ℚ) (g : ℕ → ℚ) (j : ℕ) : ℚ := if g (j - 1) < g j then sq (varianceLast 10 g j) else 0
def fallingDeviation (sq : ℚ → ℚ) (g : ℕ → ℚ) (j : ℕ) : ℚ := if g j < g (j - 1) then sq (varianceLast 10 g j) else 0

/-- The averaged deviation of the days on which the price moved, and the share of the rising days in percent. -/
def averagedDeviation (sq : ℚ → ℚ) (n : ℕ) (g : ℕ → ℚ) (i : ℕ) : ℚ :=
  wilderAverage n 9 (risingDeviation sq g) i + wilderAverage n 9 (fallingDeviation sq g) i
def risingShare (sq : ℚ → ℚ) (n : ℕ) (g : ℕ → ℚ) (i : ℕ) : ℚ :=
  100 * wilderAverage n 9 (risingDeviation sq g) i / averagedDeviation sq n g i

/-- The squared error of the line `a + b * j` over the last `p` days, and the lines that fit best. -/
def fitError (g : ℕ → ℚ) (p i : ℕ) (a b : ℚ) : ℚ := ∑ t ∈ Finset.range p, (g (i - t) - (a + b * (i - t : ℕ))) ^ 2
def BestLine (g : ℕ → ℚ) (p i : ℕ) (a b : ℚ) : Prop := ∀ a' b', fitError g p i a b ≤ fitError g p i a' b'

/-- `b` is the slope of a line that fits best. -/
def BestSlope (g : ℕ → ℚ) (p i : ℕ) (b : ℚ) : Prop := ∃ a, BestLine g p i a b

/-- The projection bands of day `i`: the greatest high (least low) of the last `p` days, each carried to day `i` along the slope. -/
def upperProjection (f : RawFrame) (p : ℕ) (b : ℚ) (i : ℕ) : ℚ := highest p (fun j => high f j + (i - j : ℕ) * b) i
def lowerProjection (f : RawFrame) (p : ℕ) (b : ℚ) (i : ℕ) : ℚ := lowest p (fun j => low f j + (i - j : ℕ) * b) i

/-- The place of the close between the bands (each rounded to four decimals) in percent. -/
def projectionPlace (f : RawFrame) (p : ℕ) (bh bl : ℚ) (i : ℕ) : Val :=
  quotient (100 * (close f i - roundQ 4 (lowerProjection f p bl i)))
    (roundQ 4 (upperProjection f p bh i) - roundQ 4 (lowerProjection f p bl i))

end TTI.Spec
