import Verif.Spec.Formula

set_option autoImplicit false

/-!
# Exponential averages of numbers with gaps

`s j` is the number of day `j`, or nothing.
-/

namespace TTI.Spec

/-- The number in a cell, if it holds one. -/
def found : Val → Option ℚ
  | .fin q => some q
  | _ => none

/-- The last day before day `i` with a number. -/
def lastSeen (s : ℕ → Option ℚ) : ℕ → Option ℕ
  | 0 => none
  | i + 1 => if (s i).isSome then some i else lastSeen s i

/-- How many of the days up to day `i` have a number. -/
def seen (s : ℕ → Option ℚ) (i : ℕ) : ℕ := ((Finset.range (i + 1)).filter fun j => (s j).isSome).card

/-- The fraction of the distance to a new number by which an exponential average of `n` periods moves, `d` days after the last
number: with `a = 2 / (n + 1)` it is `a` the next day, and after a gap `a / (a + (1 - a) ^ d)`; pandas treats `a = 1 / 2`
differently, there it is `1 - 1 / 2 ^ d`. -/
def gapMove (n d : ℕ) : ℚ :=
  let a : ℚ := 2 / ((n : ℚ) + 1)
  if n = 3 then 1 - (1 - a) ^ d else a / (a + (1 - a) ^ d)

/-- The exponential average of `n` periods on day `i`: it starts with the first number and stays during a gap. -/
def gapAverage (n : ℕ) (s : ℕ → Option ℚ) : ℕ → ℚ
  | 0 => (s 0).getD 0
  | i + 1 =>
    match s (i + 1), lastSeen s (i + 1) with
    | none, _ => gapAverage n s i
    | some q, none => q
    | some q, some j => gapAverage n s i + gapMove n (i + 1 - j) * (q - gapAverage n s i)

/-- Missing until `m` numbers have been seen. -/
def onceSeen (s : ℕ → Option ℚ) (m i : ℕ) (v : Val) : Val := if seen s i < m then .nan else v

/-- The volume force of a day; there is none on day 0 and while the range total is zero. -/
def forceSeen (f : RawFrame) (j : ℕ) : Option ℚ := if j = 0 ∨ rangeRun f j = 0 then none else some (volumeForce f j)

/-- The accumulation distribution line of prices with a flat day: the sum of the money flows so far with its decimals; flat days
have none and count nothing. -/
def flowSeen (f : RawFrame) (i : ℕ) : Option ℚ :=
  if high f i = low f i then none else some (∑ j ∈ Finset.range (i + 1), if high f j = low f j then 0 else flow f j)

/-- On none of the days 1 to `i` the range moved beyond the range of the day before (or it did equally on both sides). -/
abbrev NoMove (f : RawFrame) (i : ℕ) : Prop := ∀ j ≤ i, 1 ≤ j → plusMove f j = 0 ∧ minusMove f j = 0

end TTI.Spec
