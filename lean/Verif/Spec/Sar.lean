import Verif.Spec.Regression

set_option autoImplicit false

/-!
# The rules of the parabolic SAR

Used by C46. `high` and `low` are the prices by day; days are numbered from 0. The rules are those of the library's
documentation (Wilder), written without any reference to the code.
-/

namespace TTI.Spec

/-- `m` is the largest of `x a, ..., x b`. -/
def Highest (x : ℕ → ℚ) (a b : ℕ) (m : ℚ) : Prop := (∃ k, a ≤ k ∧ k ≤ b ∧ x k = m) ∧ ∀ k, a ≤ k → k ≤ b → x k ≤ m

/-- `m` is the smallest of `x a, ..., x b`. -/
def Lowest (x : ℕ → ℚ) (a b : ℕ) (m : ℚ) : Prop := (∃ k, a ≤ k ∧ k ≤ b ∧ x k = m) ∧ ∀ k, a ≤ k → k ≤ b → m ≤ x k

/-- The number of days in `(a, i]` whose high is above all highs since day `a`. -/
def newHighs (high : ℕ → ℚ) (a i : ℕ) : ℕ := ((Finset.Ioc a i).filter fun j => ∀ k ∈ Finset.Ico a j, high k < high j).card

/-- The number of days in `(a, i]` whose low is below all lows since day `a`. -/
def newLows (low : ℕ → ℚ) (a i : ℕ) : ℕ := ((Finset.Ioc a i).filter fun j => ∀ k ∈ Finset.Ico a j, low j < low k).card

/-- What is known at the end of a day: the position, the first day of the position, acceleration factor, extreme price and
SAR. -/
structure SarDay where
  long : Bool
  since : ℕ
  af : ℚ
  ep : ℚ
  sar : ℚ

/-- The stop for the next day in a long position: moved towards the extreme price, but not above the last two lows. -/
def longStop (low : ℕ → ℚ) (i : ℕ) (d : SarDay) : ℚ := min (d.sar + d.af * (d.ep - d.sar)) (min (low (i - 1)) (low i))

/-- The stop for the next day in a short position: moved towards the extreme price, but not below the last two highs. -/
def shortStop (high : ℕ → ℚ) (i : ℕ) (d : SarDay) : ℚ := max (d.sar + d.af * (d.ep - d.sar)) (max (high (i - 1)) (high i))

/-- `D` describes `n` days of the parabolic SAR over the given prices. -/
structure SarRun (high low : ℕ → ℚ) (n : ℕ) (D : ℕ → SarDay) : Prop where
  /-- The first position is long exactly if the second high is above the first; the SAR starts at the other end of the bar. -/
  first : (D 0).long = decide (high 0 < high 1) ∧ (D 0).sar = if high 0 < high 1 then low 0 else high 0
  /-- `since` is the first day of the position. -/
  since : ∀ i < n, (D i).since ≤ i ∧ (∀ k, (D i).since ≤ k → k ≤ i → (D k).long = (D i).long) ∧
    (0 < (D i).since → (D ((D i).since - 1)).long = !(D i).long)
  /-- The extreme price is the highest high (long) or lowest low (short) of the position. -/
  extreme : ∀ i < n, if (D i).long then Highest high (D i).since i (D i).ep else Lowest low (D i).since i (D i).ep
  /-- The acceleration factor is 0.02 plus 0.02 for each new extreme, at most 0.2. -/
  accel : ∀ i < n, (D i).af =
    min (1 / 5 : ℚ) ((1 + ((if (D i).long then newHighs high (D i).since i else newLows low (D i).since i : ℕ) : ℚ)) / 50)
  /-- A long position ends on the day whose low is below the stop; the SAR is then the highest high of the position. -/
  long : ∀ i, i + 1 < n → (D i).long = true →
    if low (i + 1) < longStop low i (D i) then (D (i + 1)).long = false ∧ Highest high (D i).since i (D (i + 1)).sar
    else (D (i + 1)).long = true ∧ (D (i + 1)).sar = longStop low i (D i)
  /-- A short position ends on the day whose high is above the stop; the SAR is then the lowest low of the position. -/
  short : ∀ i, i + 1 < n → (D i).long = false →
    if shortStop high i (D i) < high (i + 1) then (D (i + 1)).long = true ∧ Lowest low (D i).since i (D (i + 1)).sar
    else (D (i + 1)).long = false ∧ (D (i + 1)).sar = shortStop high i (D i)

end TTI.Spec
