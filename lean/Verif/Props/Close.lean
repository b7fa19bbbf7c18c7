import Verif.Lemmas.UnderFrame
import Verif.Props.Scale

set_option autoImplicit false

/-!
# C70, C71: higher prices, and prices with errors

Specification: `Verif/Spec/Close.lean`.
-/

namespace TTI.Props

open TTI.Spec

theorem atMost_isNan (a b : Val) (h : atMost a b) : a.isNan = b.isNan := by
  rw [← under_zero] at h; exact under_isNan h

theorem within_isNan {e : ℚ} (a b : Val) (h : within e a b) : a.isNan = b.isNan := under_isNan ((within_iff e a b).1 h).1

theorem forall₂_and {α β : Type} {R S : α → β → Prop} {xs : List α} {ys : List β} (h : List.Forall₂ R xs ys)
    (g : List.Forall₂ S xs ys) : List.Forall₂ (fun a b => R a b ∧ S a b) xs ys := by
  induction h with
  | nil => exact .nil
  | cons h _ ih =>
    cases g with
    | cons g t => exact .cons ⟨h, g⟩ (ih t)

theorem relatedValues_within {e : ℚ} {F G : Frame} :
    RelatedValues (within e) F G ↔ RelatedValues (under e) F G ∧ RelatedValues (under e) G F := by
  constructor
  · rintro ⟨h1, h2⟩
    refine ⟨⟨h1, h2.imp fun c c' h => ⟨h.1, h.2.imp fun a b h => ((within_iff e a b).1 h).1⟩⟩, h1.symm, ?_⟩
    exact (h2.imp fun c c' h => ⟨h.1.symm, (h.2.imp fun a b h => ((within_iff e a b).1 h).2).flip⟩ :
      List.Forall₂ (fun c c' => c'.1 = c.1 ∧ List.Forall₂ (under e) c'.2 c.2) F.cols G.cols).flip
  · rintro ⟨⟨h1, h2⟩, -, h3⟩
    refine ⟨h1, (forall₂_and h2 h3.flip).imp ?_⟩
    rintro c c' ⟨⟨h4, h5⟩, -, h6⟩
    exact ⟨h4, (forall₂_and h5 h6.flip).imp fun a b h => (within_iff e a b).2 h⟩

theorem sameOutcome_of {R : Val → Val → Prop} {r r' : Except Err Obj}
    (h : ExceptRel (fun o o' => RelatedValues R o.ti o'.ti) r r') : SameOutcome R r r' := by
  cases r <;> cases r' <;> exact h

/-- C70: for the classes `rising`, when no price of the second table is below the price at the same place of the first
table (and the same prices are missing), both constructions have the same outcome and no indicator value of the second is
below the value of the first, after the rounding too, for all parameters and with and without filling of missing values. -/
theorem C70_rising (E : Env) (c : Call) (fill : PyArg) (f f' : RawFrame) (h : Related atMost f f')
    (hr : ∀ ind, c.check = .ok ind → rising ind = true) :
    SameOutcome atMost (construct E c (.frame f) fill).2 (construct E c (.frame f') fill).2 := by
  refine sameOutcome_of (construct_rel atMost_isNan trivial E c fill h fun ind hi F G hFG => ?_)
  rw [← under_zero] at hFG ⊢
  have := calcTi_rising le_rfl E ind (hr ind hi) (check_pos c ind hi) hFG
  rw [mul_zero] at this
  cases h1 : ind.calcTi E F <;> cases h2 : ind.calcTi E G <;> rw [h1, h2] at this <;>
    first | exact this | exact Rounded.atMost this

/-- C71: for the classes with an `amplification` `(a, b)`, when the prices of two tables differ by at most `e` (and the
same prices are missing), both constructions have the same outcome and the indicator values differ by at most `a * e + b`. -/
theorem C71_amplification (E : Env) (c : Call) (fill : PyArg) (f f' : RawFrame) (e a b : ℚ) (he : 0 ≤ e)
    (h : Related (within e) f f') (hr : ∀ ind, c.check = .ok ind → amplification ind = some (a, b)) :
    SameOutcome (within (a * e + b)) (construct E c (.frame f) fill).2 (construct E c (.frame f') fill).2 := by
  refine sameOutcome_of (construct_rel within_isNan trivial E c fill h fun ind hi F G hFG => ?_)
  obtain ⟨h1, h2⟩ := relatedValues_within.1 hFG
  have g1 := calcTi_amplifies he E ind (hr ind hi) (check_pos c ind hi) h1 h2
  have g2 := calcTi_amplifies he E ind (hr ind hi) (check_pos c ind hi) h2 h1
  have hab : a * e + b - 1 / 10000 + 1 / 10000 = a * e + b := by ring
  cases e1 : ind.calcTi E F <;> cases e2 : ind.calcTi E G <;> rw [e1, e2] at g1 <;> rw [e1, e2] at g2 <;>
    first
    | exact g1
    | exact relatedValues_within.2 ⟨hab ▸ Rounded.under g1, hab ▸ Rounded.under g2⟩

/-! ## What does not hold -/

/-- A frame of closes. -/
def closeTable (xs : List ℚ) : RawFrame :=
  ⟨true, (List.range xs.length).map fun i => (i : ℤ), [⟨.str "close", true, xs.map .fin⟩]⟩

/-- C70: the Double Exponential Moving Average is not among the rising classes: a higher close lowers later values. -/
theorem C70_double_exponential_witness (E : Env) :
    (construct E (.doubleExponentialMovingAverage (.int 2)) (.frame (closeTable [1, 1, 1, 1])) (.bool true)).2.map
      (fun o => o.getTiData.day "dema" 3) = .ok (.fin 1) ∧
    (construct E (.doubleExponentialMovingAverage (.int 2)) (.frame (closeTable [1, 10, 1, 1])) (.bool true)).2.map
      (fun o => o.getTiData.day "dema" 3) = .ok (.fin (7778 / 10000)) := by
  have hE : ∀ (x : InputArg), construct E (.doubleExponentialMovingAverage (.int 2)) x (.bool true) =
      construct demoEnv (.doubleExponentialMovingAverage (.int 2)) x (.bool true) := fun _ => rfl
  rw [hE, hE]
  exact ⟨by decide +kernel, by decide +kernel⟩

/-- C70: neither is the end of the regression line: it falls when the oldest close of the window rises. -/
theorem C70_regression_witness (E : Env) :
    (construct E (.linearRegressionIndicator (.int 3)) (.frame (closeTable [1, 1, 1])) (.bool true)).2.map
      (fun o => o.getTiData.day "lri" 2) = .ok (.fin 1) ∧
    (construct E (.linearRegressionIndicator (.int 3)) (.frame (closeTable [7, 1, 1])) (.bool true)).2.map
      (fun o => o.getTiData.day "lri" 2) = .ok (.fin 0) := by
  have hE : ∀ (x : InputArg), construct E (.linearRegressionIndicator (.int 3)) x (.bool true) =
      construct demoEnv (.linearRegressionIndicator (.int 3)) x (.bool true) := fun _ => rfl
  rw [hE, hE]
  exact ⟨by decide +kernel, by decide +kernel⟩

/-- C71: the Momentum has no such bound: it divides by a price, which may be small. -/
theorem C71_momentum_witness (E : Env) :
    (construct E (.momentum (.int 1)) (.frame (closeTable [1 / 1000, 1])) (.bool true)).2.map
      (fun o => o.getTiData.day "mom" 1) = .ok (.fin 100000) ∧
    (construct E (.momentum (.int 1)) (.frame (closeTable [2 / 1000, 1])) (.bool true)).2.map
      (fun o => o.getTiData.day "mom" 1) = .ok (.fin 50000) := by
  have hE : ∀ (x : InputArg), construct E (.momentum (.int 1)) x (.bool true) =
      construct demoEnv (.momentum (.int 1)) x (.bool true) := fun _ => rfl
  rw [hE, hE]
  exact ⟨by decide +kernel, by decide +kernel⟩

/-- C71: nor have the counting classes: the On Balance Volume adds or subtracts a whole day's volume as soon as the close
changes at all. -/
theorem C71_on_balance_volume_witness (E : Env) :
    (construct E .onBalanceVolume (.frame ⟨true, [1, 2], [⟨.str "close", true, [.fin 1, .fin 1]⟩,
      ⟨.str "volume", true, [.fin 0, .fin 1000]⟩]⟩) (.bool true)).2.map
      (fun o => o.getTiData.day "obv" 1) = .ok (.fin 0) ∧
    (construct E .onBalanceVolume (.frame ⟨true, [1, 2], [⟨.str "close", true, [.fin 1, .fin (1001 / 1000)]⟩,
      ⟨.str "volume", true, [.fin 0, .fin 1000]⟩]⟩) (.bool true)).2.map
      (fun o => o.getTiData.day "obv" 1) = .ok (.fin 1000) := by
  have hE : ∀ (x : InputArg), construct E .onBalanceVolume x (.bool true) =
      construct demoEnv .onBalanceVolume x (.bool true) := fun _ => rfl
  rw [hE, hE]
  exact ⟨by decide +kernel, by decide +kernel⟩

/-! ## The hypotheses can be met -/

instance : DecidableRel atMost := fun a b => by
  cases a <;> cases b <;> simp only [atMost] <;> infer_instance

instance (e : ℚ) : DecidableRel (within e) := fun a b => by
  cases a <;> cases b <;> simp only [within] <;> infer_instance

/-- C70: three closes, one of them missing, and higher ones. -/
example : Related atMost ⟨true, [1, 2, 3], [⟨.str "close", true, [.fin 1, .nan, .fin 3]⟩]⟩
    ⟨true, [1, 2, 3], [⟨.str "close", true, [.fin 1, .nan, .fin 4]⟩]⟩ ∧
    (∀ ind, (Call.movingAverage (.int 2) (.str "exponential")).check = .ok ind → rising ind = true) ∧
    (construct demoEnv (.movingAverage (.int 2) (.str "exponential")) (.frame ⟨true, [1, 2, 3], [⟨.str "close", true,
      [.fin 1, .nan, .fin 3]⟩]⟩) (.bool true)).2.map (fun o => o.getTiData.day "ma-exponential" 2) = .ok (.fin (23333 / 10000)) ∧
    (construct demoEnv (.movingAverage (.int 2) (.str "exponential")) (.frame ⟨true, [1, 2, 3], [⟨.str "close", true,
      [.fin 1, .nan, .fin 4]⟩]⟩) (.bool true)).2.map (fun o => o.getTiData.day "ma-exponential" 2) = .ok (.fin 3) := by
  refine ⟨⟨rfl, rfl, ?_⟩, ?_, by decide +kernel, by decide +kernel⟩
  · exact .cons ⟨rfl, rfl, .cons (by decide +kernel) (.cons trivial (.cons (by decide +kernel) .nil))⟩ .nil
  · intro ind h
    rw [show (Call.movingAverage (.int 2) (.str "exponential")).check = .ok (.movingAverage 2 .exponential) by decide +kernel] at h
    cases h; rfl

/-- C71: closes that differ by at most one half. -/
example : Related (within (1 / 2)) (closeTable [1, 2, 3]) (closeTable [1, 5 / 2, 3]) ∧
    (∀ ind, (Call.doubleExponentialMovingAverage (.int 2)).check = .ok ind → amplification ind = some (3, 1 / 10000)) := by
  refine ⟨⟨rfl, rfl, ?_⟩, ?_⟩
  · exact .cons ⟨rfl, rfl, .cons (by decide +kernel) (.cons (by decide +kernel) (.cons (by decide +kernel) .nil))⟩ .nil
  · intro ind h
    rw [show (Call.doubleExponentialMovingAverage (.int 2)).check = .ok (.doubleExponentialMovingAverage 2) by decide +kernel] at h
    cases h; rfl

end TTI.Props
