import Verif.Lemmas.Errors
import Verif.Props.Basket
import Verif.Props.FormulaAverages
import Verif.Props.FormulaBands
import Verif.Props.FormulaPrices
import Verif.Props.FormulaOscillators

set_option autoImplicit false

/-!
# Errors of the prices: C107

`Within`, `DifferBy` and the table `errorFactor` are in Spec/Errors.
-/

namespace TTI.Props

open Spec Errors

variable {E : Env} {c : Call} {f g : RawFrame} {fill : Bool} {o p : Obj} {e : ℚ}

theorem near_close (hw : Within e f g) : CloseBy f.idx.length e (close f) (close g) := hw.near "close" (by simp)

theorem near_high (hw : Within e f g) : CloseBy f.idx.length e (high f) (high g) := hw.near "high" (by simp)

theorem near_low (hw : Within e f g) : CloseBy f.idx.length e (low f) (low g) := hw.near "low" (by simp)

theorem near_open (hw : Within e f g) : CloseBy f.idx.length e (opening f) (opening g) := hw.near "open" (by simp)

theorem near_half {a b x y d : ℚ} (h1 : |b - a| ≤ d) (h2 : |y - x| ≤ d) : |(b + y) / 2 - (a + x) / 2| ≤ d := by
  have a1 := abs_le.1 h1
  have a2 := abs_le.1 h2
  rw [abs_le]
  constructor <;> linarith

theorem near_max {a b x y d : ℚ} (h1 : |b - a| ≤ d) (h2 : |y - x| ≤ d) : |max b y - max a x| ≤ d := by
  have a1 := abs_le.1 h1
  have a2 := abs_le.1 h2
  rw [abs_le]
  rcases max_cases b y with ⟨q, q'⟩ | ⟨q, q'⟩ <;> rcases max_cases a x with ⟨t, t'⟩ | ⟨t, t'⟩ <;> rw [q, t] <;>
    constructor <;> linarith

theorem near_mid (hw : Within e f g) (w : ℕ) (hn : 1 ≤ w) (i : ℕ) (hi : i < f.idx.length) : |midRange g w i - midRange f w i| ≤ e := by
  unfold midRange
  exact near_half ((near_high hw).highest w hn i hi) ((near_low hw).lowest w hn i hi)

theorem near_range (hw : Within e f g) : CloseBy f.idx.length (2 * e) (trueRange f) (trueRange g) := fun j hj => by
  have h1 := abs_le.1 (near_high hw j hj)
  have h2 := abs_le.1 (near_low hw j hj)
  unfold trueRange
  split
  · next h0 =>
    subst h0
    rw [abs_le]
    constructor <;> linarith
  · have h3 := abs_le.1 (near_close hw (j - 1) (by omega))
    refine near_max (near_max ?_ ?_) ?_ <;> (rw [abs_le]; constructor <;> linarith)

theorem near_level (hw : Within e f g) (h0 : 0 < f.idx.length) (r : ℚ) (r0 : 0 ≤ r) (r1 : r ≤ 1) :
    |(highest g.idx.length (close g) (g.idx.length - 1) -
        r * (highest g.idx.length (close g) (g.idx.length - 1) - lowest g.idx.length (close g) (g.idx.length - 1))) -
      (highest f.idx.length (close f) (f.idx.length - 1) -
        r * (highest f.idx.length (close f) (f.idx.length - 1) - lowest f.idx.length (close f) (f.idx.length - 1)))| ≤ e := by
  rw [hw.days]
  have a1 := abs_le.1 ((near_close hw).highest f.idx.length (by omega) (f.idx.length - 1) (by omega))
  have a2 := abs_le.1 ((near_close hw).lowest f.idx.length (by omega) (f.idx.length - 1) (by omega))
  rw [abs_le]
  constructor <;> nlinarith [mul_le_mul_of_nonneg_left a1.1 (sub_nonneg.2 r1), mul_le_mul_of_nonneg_left a1.2 (sub_nonneg.2 r1),
    mul_le_mul_of_nonneg_left a2.1 r0, mul_le_mul_of_nonneg_left a2.2 r0]

theorem macd_near {n : ℕ} {u v : ℕ → ℚ} (h : CloseBy n e u v) (hn : 0 < n) : CloseBy n (2 * e + 2 / 10000) (macdLine u) (macdLine v) := by
  intro j hj
  have := ((h.ema 12 0 (by omega) hn).round).sub ((h.ema 26 0 (by omega) hn).round) j hj
  rwa [show e + 1 / 10000 + (e + 1 / 10000) = 2 * e + 2 / 10000 by ring] at this

/-- C107: if the prices of two tables differ by at most `e`, the values of these columns differ by at most `k·e` and `m` times 0.0001,
with the factors `k` and `m` of the table; and the values are missing on the same days. -/
theorem C107_errors (ho : BuiltOn E c f fill o AnyPrices) (hp : BuiltOn E c g fill p AnyPrices) (hw : Within e f g) (column : String)
    (k m : ℚ) (hk : errorFactor o.ind column = some (k, m)) (i : ℕ) (hi : i < o.getTiData.len) :
    DifferBy (k * e + m / 10000) (o.getTiData.day column i) (p.getTiData.day column i) := by
  have e2 : p.ind = o.ind := same_ind ho hp
  have hh := ti_len_le ho
  have i1 : i < f.idx.length := by omega
  have i2 : i < g.idx.length := by rw [hw.days]; exact i1
  have hcl := near_close hw
  have hhi := near_high hw
  have hlo := near_low hw
  have hop := near_open hw
  have he : 0 ≤ e := (abs_nonneg _).trans (hcl i i1)
  have hpos := check_pos c _ (construct_sound E c f fill o ho.wf ho.ok).2.1
  generalize hind : o.ind = ind at *
  unfold errorFactor at hk
  split at hk
  all_goals try (cases hk; done)
  all_goals
    simp only [Option.some.injEq, Prod.mk.injEq] at hk
    obtain ⟨rfl, rfl⟩ := hk
  · rw [C52_simple ho _ hind i i1, C52_simple hp _ e2 i i2, one_mul]
    exact apart_since fun _ => hcl.mean _ hpos.1 i i1
  · rw [C52_exponential ho _ hind i i1, C52_exponential hp _ e2 i i2, one_mul]
    exact apart_since fun _ => hcl.ema _ 0 hpos.1 (by omega) i i1
  · rw [C52_triangular ho _ hind i i1, C52_triangular hp _ e2 i i2, one_mul]
    exact apart_since fun _ => (hcl.mean _ hpos.1).mean _ hpos.1 i i1
  · next n =>
    replace hpos : 1 ≤ n := hpos
    rw [C52_wilders_smoothing ho _ hind i i1, C52_wilders_smoothing hp _ e2 i i2, one_mul]
    exact apart_since fun _ => hcl.wilder _ 0 hpos (by omega) i i1
  · next n =>
    replace hpos : 1 ≤ n := hpos
    rw [C52_double_exponential ho _ hind i i1, C52_double_exponential hp _ e2 i i2]
    refine apart_since fun _ => ?_
    have h1 := hcl.ema n 0 hpos (by omega)
    have a1 := abs_le.1 (h1 i i1)
    have a2 := abs_le.1 (h1.ema n (n - 1) hpos (by omega) i i1)
    rw [abs_le]
    constructor <;> linarith
  · next n =>
    replace hpos : 1 ≤ n := hpos
    rw [C52_triple_exponential ho _ hind i i1, C52_triple_exponential hp _ e2 i i2]
    refine apart_since fun _ => ?_
    have h1 := hcl.ema n 0 hpos (by omega)
    have h2 := h1.ema n (n - 1) hpos (by omega)
    have a1 := abs_le.1 (h1 i i1)
    have a2 := abs_le.1 (h2 i i1)
    have a3 := abs_le.1 (h2.ema n (2 * n - 2) hpos (by omega) i i1)
    rw [abs_le]
    constructor <;> linarith
  · rw [C56_median_price ho _ hind i i1, C56_median_price hp _ e2 i i2, one_mul]
    exact apart_to4 (near_half (hhi i i1) (hlo i i1))
  · rw [C56_typical_price ho _ hind i i1, C56_typical_price hp _ e2 i i2, one_mul]
    refine apart_to4 ?_
    have a1 := abs_le.1 (hhi i i1)
    have a2 := abs_le.1 (hlo i i1)
    have a3 := abs_le.1 (hcl i i1)
    unfold typical
    rw [abs_le]
    constructor <;> linarith
  · rw [C56_weighted_close ho hind i i1, C56_weighted_close hp e2 i i2, one_mul]
    refine apart_to4 ?_
    have a1 := abs_le.1 (hhi i i1)
    have a2 := abs_le.1 (hlo i i1)
    have a3 := abs_le.1 (hcl i i1)
    rw [abs_le]
    constructor <;> linarith
  · rw [(C54_bollinger ho _ _ hind i i1).1, (C54_bollinger hp _ _ e2 i i2).1, one_mul]
    exact apart_since fun _ => hcl.mean _ hpos.1 i i1
  · rw [(C54_envelopes ho _ _ hind i i1).1, (C54_envelopes hp _ _ e2 i i2).1]
    refine apart_since fun _ => ?_
    rw [← mul_sub, abs_mul]
    exact mul_le_mul_of_nonneg_left (hcl.mean _ hpos.1 i i1) (abs_nonneg _)
  · rw [(C54_envelopes ho _ _ hind i i1).2, (C54_envelopes hp _ _ e2 i i2).2]
    refine apart_since fun _ => ?_
    rw [← mul_sub, abs_mul]
    exact mul_le_mul_of_nonneg_left (hcl.mean _ hpos.1 i i1) (abs_nonneg _)
  · rw [(C54_price_channel ho _ hind i i1).1, (C54_price_channel hp _ e2 i i2).1, one_mul]
    exact apart_since fun _ => hhi.highest _ hpos (i - 1) (by omega)
  · rw [(C54_price_channel ho _ hind i i1).2, (C54_price_channel hp _ e2 i i2).2, one_mul]
    exact apart_since fun _ => hlo.lowest _ hpos (i - 1) (by omega)
  · rw [(C56_ichimoku ho hind i i1).1, (C56_ichimoku hp e2 i i2).1, one_mul]
    exact apart_to4 (near_mid hw 9 (by omega) i i1)
  · rw [(C56_ichimoku ho hind i i1).2.1, (C56_ichimoku hp e2 i i2).2.1, one_mul]
    exact apart_to4 (near_mid hw 26 (by omega) i i1)
  · rw [(C56_ichimoku ho hind i i1).2.2.1, (C56_ichimoku hp e2 i i2).2.2.1, one_mul]
    exact apart_since fun _ => near_half (near_mid hw 9 (by omega) _ (by omega)) (near_mid hw 26 (by omega) _ (by omega))
  · rw [(C56_ichimoku ho hind i i1).2.2.2, (C56_ichimoku hp e2 i i2).2.2.2, one_mul]
    exact apart_since fun _ => near_mid hw 52 (by omega) _ (by omega)
  · rw [C54_fibonacci ho hind i i1 _ 0 (by simp), C54_fibonacci hp e2 i i2 _ 0 (by simp), one_mul]
    exact apart_to4 (near_level hw (by omega) _ (by norm_num) (by norm_num))
  · rw [C54_fibonacci ho hind i i1 _ (236 / 1000) (by simp), C54_fibonacci hp e2 i i2 _ (236 / 1000) (by simp), one_mul]
    exact apart_to4 (near_level hw (by omega) _ (by norm_num) (by norm_num))
  · rw [C54_fibonacci ho hind i i1 _ (382 / 1000) (by simp), C54_fibonacci hp e2 i i2 _ (382 / 1000) (by simp), one_mul]
    exact apart_to4 (near_level hw (by omega) _ (by norm_num) (by norm_num))
  · rw [C54_fibonacci ho hind i i1 _ (1 / 2) (by simp), C54_fibonacci hp e2 i i2 _ (1 / 2) (by simp), one_mul]
    exact apart_to4 (near_level hw (by omega) _ (by norm_num) (by norm_num))
  · rw [C54_fibonacci ho hind i i1 _ (618 / 1000) (by simp), C54_fibonacci hp e2 i i2 _ (618 / 1000) (by simp), one_mul]
    exact apart_to4 (near_level hw (by omega) _ (by norm_num) (by norm_num))
  · rw [C54_fibonacci ho hind i i1 _ 1 (by simp), C54_fibonacci hp e2 i i2 _ 1 (by simp), one_mul]
    exact apart_to4 (near_level hw (by omega) _ (by norm_num) (by norm_num))
  · rw [C55_qstick ho _ hind i i1, C55_qstick hp _ e2 i i2, two_mul]
    exact apart_since fun _ => (hcl.sub hop).mean _ hpos i i1
  · next n =>
    have hlen : o.getTiData.idx = _ := (C33_shape E c f fill o ho.wf ho.ok).2.2.2 n hind
    have hs : (sortIdx f.idx).length = f.idx.length := by simp [sortIdx]
    have hi' : i + (1 + n / 2) < f.idx.length := by
      rw [Frame.len, hlen, List.length_take, hs] at hi
      omega
    rw [(C56_detrended ho n hind i hi').1, (C56_detrended hp n e2 i (by rw [hw.days]; exact hi')).1]
    refine apart_since fun _ => ?_
    have a1 := abs_le.1 (hcl i i1)
    have a2 := abs_le.1 (hcl.mean n hpos _ hi')
    rw [abs_le]
    constructor <;> linarith
  · rw [C57_average_true_range ho hind i i1, C57_average_true_range hp e2 i i2]
    exact apart_since fun _ => (near_range hw).wilder 14 0 (by omega) (by omega) i i1
  · rw [slope_since ho _ (by omega) hind i i1, slope_since hp _ (by omega) e2 i i2]
    exact apart_since fun _ => hcl.slope _ _ (by omega) (by omega)
  · rw [line_since ho _ (by omega) hind i i1, line_since hp _ (by omega) e2 i i2]
    exact apart_since fun _ => (hcl.line _ _ (by omega) (by omega) i (by omega)).1
  · next n =>
    replace hpos : 2 ≤ n := hpos
    rw [forecast_since ho n hpos hind i i1, forecast_since hp n hpos e2 i i2]
    exact apart_sum fun _ => (hcl.line _ _ (by omega) (by omega) i (by omega)).2
  · rw [series_since ho _ (by omega) hind i i1, series_since hp _ (by omega) e2 i i2]
    exact apart_sum fun _ => (hcl.line _ _ (by omega) (by omega) i (by omega)).2
  · rw [(C53_macd ho hind i i1).1, (C53_macd hp e2 i i2).1]
    have a1 := macd_near hcl (by omega) i i1
    unfold since
    split
    · exact .inl ⟨rfl, rfl⟩
    · refine .inr ⟨_, _, rfl, rfl, ?_⟩
      unfold macdLine at a1 ⊢
      rw [roundQ_sub, roundQ_sub]
      exact a1
  · rw [(C53_macd ho hind i i1).2, (C53_macd hp e2 i i2).2, show 2 * e + 3 / 10000 = 2 * e + 2 / 10000 + 1 / 10000 by ring]
    exact apart_since fun _ => (macd_near hcl (by omega)).ema 9 25 (by omega) (by omega) i i1

end TTI.Props
