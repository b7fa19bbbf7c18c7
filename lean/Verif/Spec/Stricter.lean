import Verif.Spec.Alternate

set_option autoImplicit false

/-!
# A stricter choice of a parameter

Small specification for C79: what it means that one simulation gives only signals the other one gives too.
-/

namespace TTI.Spec

/-- Every buy or sell signal of `r'` is given by `r` on the same day, and so `r'` counts no more signals. -/
def OnlySignalsOf (r' r : SimResult) : Prop :=
  (∀ i s, s ≠ .hold → SignalOn r' i s → SignalOn r i s) ∧
  r'.stats.buySignals ≤ r.stats.buySignals ∧ r'.stats.sellSignals ≤ r.stats.sellSignals

/-- The pair of bands `l' u'` (when present) contains the pair `l u`, and the lower one is not above the upper one. -/
def Contains (l' u' l u : Val) : Prop :=
  l' = .nan ∧ u' = .nan ∨ l' ≤ᵥ l ∧ l ≤ᵥ u ∧ u ≤ᵥ u'

end TTI.Spec
