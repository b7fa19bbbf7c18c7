import Verif.Spec.Formula
import Verif.Spec.Superpose
import Verif.Spec.Alternate

set_option autoImplicit false

/-!
# Days on which nothing was traded (C109)
-/

namespace TTI.Spec

/-- `g` is `f` with idle days added: day `i` of `g` is day `φ i` of `f`, or an idle day after it, with the close of the day before and
no volume. Nothing is said about open, high and low of an idle day. -/
structure IdleDays (f g : RawFrame) (φ : ℕ → ℕ) : Prop where
  first : φ 0 = 0
  inside : ∀ i < g.idx.length, φ i < f.idx.length
  start : ∀ s ∈ ["open", "high", "low", "close", "volume"], price g s 0 = price f s 0
  step : ∀ i, i + 1 < g.idx.length →
    (φ (i + 1) = φ i + 1 ∧ ∀ s ∈ ["open", "high", "low", "close", "volume"], price g s (i + 1) = price f s (φ i + 1)) ∨
    (φ (i + 1) = φ i ∧ close g (i + 1) = close g i ∧ volume g (i + 1) = 0)

/-- An idle day of `g`. -/
def IsIdle (φ : ℕ → ℕ) (i : ℕ) : Prop := 1 ≤ i ∧ φ i = φ (i - 1)

/-- The amounts of two rows of a simulation are the same. -/
def SameAmounts (a b : Sim.Row Val) : Prop :=
  a.stock = b.stock ∧ a.exposure = b.exposure ∧ a.portfolio = b.portfolio ∧ a.earnings = b.earnings ∧ a.balance = b.balance

end TTI.Spec
