import Verif.Props.LastClose7

set_option autoImplicit false

/-!
# A higher last close: classes without a direction (C106)
-/

namespace TTI.Props

open Spec LastClose

/-- There are two tables that differ in the last close, the first gives the signal `s`, the second, with the higher close, gives `t`.
In both the close is between low and high, and low and high differ. -/
def Moves (c : Call) (s t : Signal) : Prop :=
  ∃ f g o p, BuiltOn demoEnv c f true o Quoted ∧ BuiltOn demoEnv c g true p Quoted ∧ LastCloseRaised f g ∧
    (∀ j < f.idx.length, low f j < high f j ∧ low f j ≤ close f j ∧ close f j ≤ high f j ∧ low g j ≤ close g j ∧ close g j ≤ high g j) ∧
    o.getTiSignal = .ok s ∧ p.getTiSignal = .ok t

/-- The number of a day in lists of closes, highs, lows, opens and volumes. -/
def quote (cl hi lo op vo : List ℕ) (s : String) (j : ℕ) : ℚ :=
  ((if s = "close" then cl else if s = "high" then hi else if s = "low" then lo else if s = "open" then op else vo).getD j 1 : ℕ)

theorem quote_quoted {cl hi lo : List ℕ} (op vo : List ℕ) {j : ℕ} (h : 0 < cl.getD j 1 ∧ lo.getD j 1 ≤ cl.getD j 1 ∧ cl.getD j 1 ≤ hi.getD j 1) :
    Quoted fun s => quote cl hi lo op vo s j := by
  obtain ⟨h1, h2, h3⟩ := h
  refine ⟨?_, ⟨(cl.getD j 1 : ℕ) * 10000, ?_⟩, ?_, ?_⟩
  · simpa [quote] using h1
  · simp [quote]
  · have := h2.trans h3
    simpa [quote] using this
  · simp [quote]

theorem moves_of (c : Call) (ind : Ind) (xs : List ℕ) (a b : ℕ) (hi lo op vo : List ℕ) {s t : Signal} (hc : c.check = .ok ind)
    (hm : minRows ind ≤ (xs ++ [a]).length) (hab : a ≤ b)
    (hq : ∀ j < (xs ++ [a]).length, lo.getD j 1 < hi.getD j 1 ∧ (0 < (xs ++ [a]).getD j 1 ∧ lo.getD j 1 ≤ (xs ++ [a]).getD j 1 ∧ (xs ++ [a]).getD j 1 ≤ hi.getD j 1) ∧
      0 < (xs ++ [b]).getD j 1 ∧ lo.getD j 1 ≤ (xs ++ [b]).getD j 1 ∧ (xs ++ [b]).getD j 1 ≤ hi.getD j 1)
    (h1 : signalOf c (table (xs ++ [a]).length (quote (xs ++ [a]) hi lo op vo)) = some s)
    (h2 : signalOf c (table (xs ++ [a]).length (quote (xs ++ [b]) hi lo op vo)) = some t) : Moves c s t := by
  obtain ⟨o, ho, -⟩ := table_built demoEnv c ind hc _ (quote (xs ++ [a]) hi lo op vo) Quoted (by simp) hm (Past.required_ohlcv _)
    fun j hj => quote_quoted op vo (hq j hj).2.1
  obtain ⟨p, hp, -⟩ := table_built demoEnv c ind hc _ (quote (xs ++ [b]) hi lo op vo) Quoted (by simp) hm (Past.required_ohlcv _)
    fun j hj => quote_quoted op vo (hq j hj).2.2
  refine ⟨_, _, o, p, ho, hp, ⟨by simp only [table_length], fun n hn j hj => ?_, fun j hj => ?_, ?_⟩, fun j hj => ?_, signalOf_eq ho h1,
    signalOf_eq hp h2⟩
  · rw [table_length] at hj
    have hs' : n ∈ ohlcv := by revert hn; simp [ohlcv]; tauto
    have : n ≠ "close" := by rintro rfl; simp at hn
    rw [table_price _ _ _ hs' _ hj, table_price _ _ _ hs' _ hj]
    simp [quote, this]
  · rw [table_length] at hj
    have hj' : j < xs.length := by simpa using hj
    rw [table_price _ _ _ (by decide) _ (by omega), table_price _ _ _ (by decide) _ (by omega)]
    simp [quote, List.getElem?_append_left hj']
  · simp only [table_length]
    rw [table_price _ _ _ (by decide) _ (by simp), table_price _ _ _ (by decide) _ (by simp)]
    simpa [quote] using hab
  · rw [table_length] at hj
    obtain ⟨a0, ⟨-, a1, a2⟩, -, b1, b2⟩ := hq j hj
    change price _ "low" j < price _ "high" j ∧ price _ "low" j ≤ price _ "close" j ∧ price _ "close" j ≤ price _ "high" j ∧ price _ "low" j ≤ price _ "close" j ∧
      price _ "close" j ≤ price _ "high" j
    rw [table_price _ _ _ (by decide) _ hj, table_price _ _ _ (by decide) _ hj, table_price _ _ _ (by decide) _ hj,
      table_price _ _ _ (by decide) _ hj, table_price _ _ _ (by decide) _ hj, table_price _ _ _ (by decide) _ hj]
    simp only [quote, if_true, if_false, String.reduceEq, Nat.cast_le]
    exact ⟨by exact_mod_cast a0, a1, a2, b1, b2⟩

variable {E : Env} {c : Call} {f g : RawFrame} {fill : Bool} {o p : Obj}

/-- C106: the class of the Fibonacci retracement opposes the market. -/
theorem C106_fibonacci (ho : BuiltOn E c f fill o Quoted) (hp : BuiltOn E c g fill p Quoted) (hr : LastCloseRaised f g)
    (hi : o.ind = .fibonacciRetracement) {s t : Signal} (h1 : o.getTiSignal = .ok s) (h2 : p.getTiSignal = .ok t) : TowardsBuy t s := by
  obtain ⟨L, h⟩ := pair_of ho hp hr (by rw [hi]; exact fun _ => rfl) (by rw [hi]; exact fun _ h => by cases h)
  exact last_fibonacci ho hp h h1 h2 hi

/-- The hypotheses of `C106_fibonacci`: the signal goes from buy to hold. -/
example : Moves .fibonacciRetracement .buy .hold :=
  moves_of .fibonacciRetracement .fibonacciRetracement [18, 11, 10, 16, 21, 10, 19] 17 20 [18, 12, 10, 17, 22, 13, 20, 25] [14, 7, 9, 13, 
      19, 9, 15, 5] [12, 18, 21, 10, 17, 20, 10, 19] [11, 10, 9, 9, 10, 9, 11, 12] (by decide +kernel) (by decide +kernel) (by decide) 
      (by decide) (by decide +kernel) (by decide +kernel)

/-- C106: the class of the Klinger oscillator opposes the market, on tables with different low and high on every day. -/
theorem C106_klinger (ho : BuiltOn E c f fill o Quoted) (hp : BuiltOn E c g fill p Quoted) (hr : LastCloseRaised f g)
    (hi : o.ind = .klingerOscillator) (hd : ∀ j < f.idx.length, low f j < high f j) {s t : Signal} (h1 : o.getTiSignal = .ok s)
    (h2 : p.getTiSignal = .ok t) : TowardsBuy t s := by
  obtain ⟨L, h⟩ := pair_of ho hp hr (by rw [hi]; exact fun _ => rfl) (by rw [hi]; exact fun _ h => by cases h)
  exact last_klinger ho hp h h1 h2 hi hd

/-- The hypotheses of `C106_klinger`: the signal goes from buy to hold. -/
example : Moves .klingerOscillator .buy .hold :=
  moves_of .klingerOscillator .klingerOscillator [18, 13, 21, 12, 21, 9, 21, 16, 15, 10, 14, 18, 19, 15, 15, 15, 11, 18, 14, 13, 21, 10, 
      14, 21, 19, 18, 14, 17, 14, 18, 12, 21, 20, 10, 21, 10, 11, 19, 21, 9, 16, 21, 15, 18, 13, 21, 21, 21, 18, 16, 16, 21, 8, 18, 9, 15, 12, 
      10, 13] 8 9 [21, 15, 24, 15, 21, 11, 23, 17, 16, 13, 16, 19, 19, 18, 15, 18, 13, 21, 17, 14, 21, 13, 14, 23, 21, 18, 16, 20, 16, 20, 14, 
      23, 22, 13, 24, 11, 12, 22, 21, 10, 16, 22, 15, 20, 15, 21, 24, 23, 21, 17, 17, 23, 11, 21, 10, 17, 12, 12, 13, 25] [15, 10, 18, 11, 17, 
      7, 17, 12, 12, 9, 10, 16, 15, 12, 11, 12, 9, 14, 12, 9, 20, 7, 12, 18, 15, 15, 10, 16, 12, 14, 11, 19, 17, 8, 20, 8, 7, 18, 18, 5, 12, 
      18, 11, 14, 9, 18, 19, 19, 16, 12, 14, 19, 6, 15, 5, 13, 10, 9, 12, 5] [19, 10, 9, 11, 16, 13, 17, 13, 19, 13, 20, 15, 15, 12, 8, 17, 
      14, 20, 14, 17, 9, 8, 14, 14, 20, 12, 19, 15, 10, 9, 17, 9, 8, 12, 21, 14, 18, 11, 15, 19, 14, 8, 13, 17, 10, 17, 9, 16, 9, 15, 12, 15, 
      17, 18, 19, 20, 8, 21, 10, 9] [12, 10, 11, 13, 11, 11, 11, 10, 8, 8, 9, 12, 12, 12, 11, 9, 13, 11, 8, 10, 9, 11, 10, 11, 8, 13, 13, 13, 
      9, 11, 11, 8, 13, 10, 13, 10, 13, 8, 11, 12, 12, 12, 9, 9, 12, 11, 12, 13, 10, 10, 9, 11, 13, 11, 9, 13, 9, 12, 10, 9] 
      (by decide +kernel) (by decide +kernel) (by decide) (by decide) (by decide +kernel) (by decide +kernel)

/-- C106: for each of these classes a higher last close moves the signal towards buy on some tables and towards sell on others; the
tables are those of `Moves`, with the close between low and high on every day. -/
theorem C106_goes_both_ways :
    Moves .accumulationDistributionLine .sell .hold ∧ Moves .accumulationDistributionLine .buy .hold ∧
    Moves .averageTrueRange .sell .buy ∧ Moves .averageTrueRange .buy .sell ∧
    Moves (.chaikinMoneyFlow (.int 3)) .hold .buy ∧ Moves (.chaikinMoneyFlow (.int 3)) .buy .hold ∧
    Moves (.rangeIndicator (.int 4) (.int 2)) .sell .buy ∧ Moves (.rangeIndicator (.int 4) (.int 2)) .buy .hold ∧
    Moves (.stochasticOscillator (.int 4) (.int 1) (.int 2) (.str "simple")) .sell .hold ∧ Moves (.stochasticOscillator (.int 4) (.int 1) (.int 2) (.str "simple")) .buy .hold ∧
    Moves .ultimateOscillator .hold .buy ∧ Moves .ultimateOscillator .buy .hold ∧
    Moves (.verticalHorizontalFilter (.int 3)) .sell .hold ∧ Moves (.verticalHorizontalFilter (.int 3)) .buy .hold ∧
    Moves .williamsAccumulationDistribution .hold .buy ∧ Moves .williamsAccumulationDistribution .buy .hold := by
  refine ⟨?_, ?_, ?_, ?_, ?_, ?_, ?_, ?_, ?_, ?_, ?_, ?_, ?_, ?_, ?_, ?_⟩
  · exact moves_of .accumulationDistributionLine .accumulationDistributionLine [21, 10, 19] 13 14 [23, 13, 21, 25] [19, 6, 17, 5] [21, 18, 
      11, 9] [12, 9, 10, 13] (by decide +kernel) (by decide +kernel) (by decide) (by decide) (by decide +kernel) (by decide +kernel)
  · exact moves_of .accumulationDistributionLine .accumulationDistributionLine [11, 13, 17] 15 17 [14, 13, 19, 25] [10, 11, 16, 5] [20, 20, 
      10, 9] [9, 13, 8, 12] (by decide +kernel) (by decide +kernel) (by decide) (by decide) (by decide +kernel) (by decide +kernel)
  · exact moves_of .averageTrueRange .averageTrueRange [12, 17, 13, 14, 15, 17, 20, 18, 15, 14, 8, 18, 21, 21, 19, 10, 8, 12, 21] 17 20 [13, 
      19, 15, 17, 17, 18, 22, 18, 15, 17, 8, 21, 21, 23, 20, 13, 10, 13, 22, 25] [10, 13, 11, 12, 11, 13, 17, 16, 14, 12, 5, 17, 18, 17, 18, 
      9, 6, 8, 19, 5] [13, 11, 9, 10, 12, 14, 17, 13, 9, 16, 17, 17, 14, 19, 10, 19, 20, 13, 11, 12] [11, 9, 8, 10, 11, 9, 11, 13, 12, 9, 12, 
      8, 12, 12, 10, 11, 11, 9, 10, 10] (by decide +kernel) (by decide +kernel) (by decide) (by decide) (by decide +kernel) 
      (by decide +kernel)
  · exact moves_of .averageTrueRange .averageTrueRange [12, 17, 13, 14, 15, 17, 20, 18, 15, 14, 8, 18, 21, 21, 19, 10, 8, 12, 21] 15 17 [13, 
      19, 15, 17, 17, 18, 22, 18, 15, 17, 8, 21, 21, 23, 20, 13, 10, 13, 22, 25] [10, 13, 11, 12, 11, 13, 17, 16, 14, 12, 5, 17, 18, 17, 18, 
      9, 6, 8, 19, 5] [13, 11, 9, 10, 12, 14, 17, 13, 9, 16, 17, 17, 14, 19, 10, 19, 20, 13, 11, 12] [11, 9, 8, 10, 11, 9, 11, 13, 12, 9, 12, 
      8, 12, 12, 10, 11, 11, 9, 10, 10] (by decide +kernel) (by decide +kernel) (by decide) (by decide) (by decide +kernel) 
      (by decide +kernel)
  · exact moves_of (.chaikinMoneyFlow (.int 3)) (.chaikinMoneyFlow 3) [17, 20, 10, 19, 19] 11 12 [20, 23, 12, 21, 22, 25] [15, 19, 9, 17, 
      18, 5] [20, 12, 20, 10, 15, 15] [12, 12, 8, 10, 12, 13] (by decide +kernel) (by decide +kernel) (by decide) (by decide) 
      (by decide +kernel) (by decide +kernel)
  · exact moves_of (.chaikinMoneyFlow (.int 3)) (.chaikinMoneyFlow 3) [17, 20, 10, 19, 19] 17 20 [20, 23, 12, 21, 22, 25] [15, 19, 9, 17, 
      18, 5] [20, 12, 20, 10, 15, 15] [12, 12, 8, 10, 12, 13] (by decide +kernel) (by decide +kernel) (by decide) (by decide) 
      (by decide +kernel) (by decide +kernel)
  · exact moves_of (.rangeIndicator (.int 4) (.int 2)) (.rangeIndicator 4 2) [20, 12, 20, 10, 15, 15, 10, 14, 20] 20 24 [20, 12, 23, 10, 17, 
      15, 11, 17, 23, 25] [19, 11, 19, 8, 11, 11, 7, 13, 19, 5] [9, 11, 12, 16, 8, 15, 20, 11, 16, 12] [8, 12, 10, 9, 12, 10, 13, 11, 8, 10] 
      (by decide +kernel) (by decide +kernel) (by decide) (by decide) (by decide +kernel) (by decide +kernel)
  · exact moves_of (.rangeIndicator (.int 4) (.int 2)) (.rangeIndicator 4 2) [15, 14, 18, 11, 10, 16, 21, 10, 19] 20 24 [16, 14, 21, 14, 10, 
      17, 21, 11, 20, 25] [13, 12, 17, 9, 8, 13, 17, 6, 18, 5] [16, 9, 19, 8, 20, 19, 12, 20, 19, 19] [8, 12, 11, 12, 13, 8, 10, 11, 11, 10] 
      (by decide +kernel) (by decide +kernel) (by decide) (by decide) (by decide +kernel) (by decide +kernel)
  · exact moves_of (.stochasticOscillator (.int 4) (.int 1) (.int 2) (.str "simple")) (.stochasticOscillator 4 1 2 true) [8, 18, 13, 16, 16, 
      13, 21] 20 24 [10, 19, 13, 16, 16, 14, 23, 25] [6, 17, 12, 13, 14, 11, 20, 5] [8, 12, 18, 9, 20, 19, 9, 12] [9, 12, 9, 10, 8, 12, 10, 
      11] (by decide +kernel) (by decide +kernel) (by decide) (by decide) (by decide +kernel) (by decide +kernel)
  · exact moves_of (.stochasticOscillator (.int 4) (.int 1) (.int 2) (.str "simple")) (.stochasticOscillator 4 1 2 true) [10, 20, 8, 11, 21, 
      16, 8] 8 9 [12, 21, 10, 13, 22, 19, 9, 25] [9, 17, 5, 8, 17, 14, 7, 5] [12, 18, 18, 14, 18, 14, 14, 10] [11, 10, 13, 11, 9, 8, 10, 9] 
      (by decide +kernel) (by decide +kernel) (by decide) (by decide) (by decide +kernel) (by decide +kernel)
  · exact moves_of .ultimateOscillator .ultimateOscillator [12, 18, 21, 10, 17, 20, 10, 19, 19, 12, 21, 11, 18, 17, 17, 8, 11, 21, 16, 18, 
      21, 18, 11, 9, 20, 19, 16, 19, 19, 17, 15, 14, 18, 11, 10, 16, 21, 10, 19] 6 8 [12, 18, 21, 11, 20, 23, 12, 19, 19, 13, 21, 11, 21, 17, 
      19, 8, 12, 24, 19, 21, 21, 18, 11, 11, 23, 22, 18, 19, 21, 19, 17, 15, 19, 11, 10, 17, 21, 12, 22, 25] [8, 16, 18, 7, 16, 16, 7, 15, 16, 
      9, 18, 10, 17, 16, 15, 5, 10, 20, 12, 15, 19, 14, 8, 8, 17, 17, 15, 17, 16, 14, 14, 13, 17, 9, 7, 13, 17, 8, 18, 5] [21, 21, 18, 13, 19, 
      9, 19, 10, 11, 13, 12, 15, 11, 15, 10, 8, 17, 11, 10, 19, 20, 16, 19, 13, 10, 15, 11, 19, 9, 8, 11, 18, 18, 13, 11, 9, 14, 11, 16, 15] 
      [9, 11, 13, 12, 12, 9, 12, 8, 9, 11, 11, 9, 8, 8, 10, 13, 11, 10, 11, 10, 10, 13, 9, 8, 11, 11, 8, 13, 10, 10, 12, 11, 8, 12, 8, 9, 13, 
      10, 9, 8] (by decide +kernel) (by decide +kernel) (by decide) (by decide) (by decide +kernel) (by decide +kernel)
  · exact moves_of .ultimateOscillator .ultimateOscillator [15, 12, 14, 19, 20, 11, 16, 16, 14, 21, 14, 15, 12, 12, 17, 17, 16, 9, 19, 10, 
      12, 17, 13, 14, 15, 17, 20, 18, 15, 14, 8, 18, 21, 21, 19, 10, 8, 12, 21] 12 13 [16, 15, 14, 19, 21, 12, 17, 17, 14, 24, 16, 15, 12, 12, 
      17, 18, 17, 10, 19, 10, 13, 20, 14, 15, 18, 20, 22, 19, 15, 15, 10, 18, 23, 24, 19, 10, 9, 15, 22, 25] [14, 9, 13, 17, 18, 10, 12, 15, 
      13, 17, 11, 14, 11, 11, 15, 14, 14, 8, 16, 7, 10, 15, 9, 11, 12, 14, 16, 16, 13, 11, 6, 14, 20, 19, 18, 8, 5, 8, 17, 5] [15, 13, 10, 19, 
      18, 11, 10, 8, 10, 15, 11, 19, 21, 16, 10, 21, 10, 18, 10, 20, 14, 14, 11, 15, 21, 21, 16, 13, 17, 20, 8, 8, 14, 19, 13, 11, 8, 16, 18, 
      18] [8, 12, 11, 8, 9, 8, 13, 11, 12, 8, 12, 12, 8, 13, 9, 12, 11, 8, 13, 10, 9, 13, 11, 11, 12, 9, 10, 12, 8, 8, 8, 10, 12, 12, 13, 13, 
      8, 8, 9, 13] (by decide +kernel) (by decide +kernel) (by decide) (by decide) (by decide +kernel) (by decide +kernel)
  · exact moves_of (.verticalHorizontalFilter (.int 3)) (.verticalHorizontalFilter 3) [10, 11, 21, 12, 19, 15, 14, 19, 16, 17, 11, 18, 19, 
      11, 16, 16, 11, 10, 20, 14, 8, 18, 15, 8, 13, 17, 19, 13, 17, 8, 21, 17, 20, 18, 15, 15, 10, 12, 20] 17 20 [12, 14, 24, 13, 19, 17, 17, 
      20, 18, 19, 12, 18, 20, 11, 19, 19, 14, 12, 22, 14, 10, 18, 15, 9, 14, 18, 20, 13, 19, 10, 21, 20, 22, 18, 16, 15, 10, 15, 23, 25] [8, 
      8, 18, 9, 17, 12, 12, 18, 12, 15, 10, 14, 17, 9, 12, 14, 7, 9, 17, 12, 5, 15, 14, 4, 10, 15, 17, 11, 13, 6, 18, 13, 19, 16, 11, 14, 7, 
      11, 16, 5] [21, 12, 14, 21, 10, 14, 8, 19, 15, 21, 14, 9, 8, 18, 18, 14, 20, 21, 13, 12, 11, 10, 11, 19, 20, 12, 11, 16, 12, 11, 13, 10, 
      10, 12, 9, 10, 15, 13, 17, 21] [11, 11, 8, 10, 13, 11, 9, 11, 8, 12, 12, 10, 11, 11, 13, 8, 12, 12, 10, 11, 11, 10, 8, 8, 12, 10, 11, 
      11, 11, 10, 10, 12, 11, 8, 8, 11, 8, 10, 12, 12] (by decide +kernel) (by decide +kernel) (by decide) (by decide) (by decide +kernel) 
      (by decide +kernel)
  · exact moves_of (.verticalHorizontalFilter (.int 3)) (.verticalHorizontalFilter 3) [12, 18, 21, 10, 17, 20, 10, 19, 19, 12, 21, 11, 18, 
      17, 17, 8, 11, 21, 16, 18, 21, 18, 11, 9, 20, 19, 16, 19, 19, 17, 15, 14, 18, 11, 10, 16, 21, 10, 19] 17 20 [12, 18, 21, 11, 20, 23, 12, 
      19, 19, 13, 21, 11, 21, 17, 19, 8, 12, 24, 19, 21, 21, 18, 11, 11, 23, 22, 18, 19, 21, 19, 17, 15, 19, 11, 10, 17, 21, 12, 22, 25] [8, 
      16, 18, 7, 16, 16, 7, 15, 16, 9, 18, 10, 17, 16, 15, 5, 10, 20, 12, 15, 19, 14, 8, 8, 17, 17, 15, 17, 16, 14, 14, 13, 17, 9, 7, 13, 17, 
      8, 18, 5] [21, 21, 18, 13, 19, 9, 19, 10, 11, 13, 12, 15, 11, 15, 10, 8, 17, 11, 10, 19, 20, 16, 19, 13, 10, 15, 11, 19, 9, 8, 11, 18, 
      18, 13, 11, 9, 14, 11, 16, 15] [9, 11, 13, 12, 12, 9, 12, 8, 9, 11, 11, 9, 8, 8, 10, 13, 11, 10, 11, 10, 10, 13, 9, 8, 11, 11, 8, 13, 
      10, 10, 12, 11, 8, 12, 8, 9, 13, 10, 9, 8] (by decide +kernel) (by decide +kernel) (by decide) (by decide) (by decide +kernel) 
      (by decide +kernel)
  · exact moves_of .williamsAccumulationDistribution .williamsAccumulationDistribution [14, 8, 12, 18, 17, 10, 10, 14, 17, 9, 16, 10, 19, 
      10, 18, 21, 9, 15, 21, 21, 15, 19, 17, 17, 15, 15, 13, 12, 11, 8, 21, 17, 14, 9, 12, 10, 11, 18, 8] 6 8 [14, 8, 13, 18, 20, 10, 11, 16, 
      19, 10, 16, 11, 20, 13, 20, 22, 10, 17, 23, 22, 16, 22, 18, 17, 17, 15, 16, 13, 14, 8, 24, 18, 17, 9, 15, 11, 14, 19, 8, 25] [10, 7, 10, 
      14, 15, 8, 9, 11, 14, 6, 15, 7, 18, 9, 14, 18, 7, 12, 18, 18, 12, 18, 13, 16, 14, 14, 11, 11, 9, 6, 19, 13, 13, 8, 11, 9, 7, 15, 4, 5] 
      [19, 10, 9, 17, 15, 10, 16, 16, 20, 12, 13, 21, 11, 14, 15, 8, 19, 16, 14, 17, 12, 9, 18, 16, 17, 11, 20, 13, 10, 8, 11, 14, 17, 8, 11, 
      19, 16, 8, 15, 19] [9, 9, 13, 12, 9, 12, 12, 12, 13, 10, 9, 10, 11, 11, 10, 11, 8, 10, 13, 9, 13, 9, 9, 12, 9, 12, 10, 8, 13, 12, 11, 9, 
      8, 8, 9, 13, 10, 11, 8, 8] (by decide +kernel) (by decide +kernel) (by decide) (by decide) (by decide +kernel) (by decide +kernel)
  · exact moves_of .williamsAccumulationDistribution .williamsAccumulationDistribution [14, 8, 12, 18, 17, 10, 10, 14, 17, 9, 16, 10, 19, 
      10, 18, 21, 9, 15, 21, 21, 15, 19, 17, 17, 15, 15, 13, 12, 11, 8, 21, 17, 14, 9, 12, 10, 11, 18, 8] 8 9 [14, 8, 13, 18, 20, 10, 11, 16, 
      19, 10, 16, 11, 20, 13, 20, 22, 10, 17, 23, 22, 16, 22, 18, 17, 17, 15, 16, 13, 14, 8, 24, 18, 17, 9, 15, 11, 14, 19, 8, 25] [10, 7, 10, 
      14, 15, 8, 9, 11, 14, 6, 15, 7, 18, 9, 14, 18, 7, 12, 18, 18, 12, 18, 13, 16, 14, 14, 11, 11, 9, 6, 19, 13, 13, 8, 11, 9, 7, 15, 4, 5] 
      [19, 10, 9, 17, 15, 10, 16, 16, 20, 12, 13, 21, 11, 14, 15, 8, 19, 16, 14, 17, 12, 9, 18, 16, 17, 11, 20, 13, 10, 8, 11, 14, 17, 8, 11, 
      19, 16, 8, 15, 19] [9, 9, 13, 12, 9, 12, 12, 12, 13, 10, 9, 10, 11, 11, 10, 11, 8, 10, 13, 9, 13, 9, 9, 12, 9, 12, 10, 8, 13, 12, 11, 9, 
      8, 8, 9, 13, 10, 11, 8, 8] (by decide +kernel) (by decide +kernel) (by decide) (by decide) (by decide +kernel) (by decide +kernel)

end TTI.Props
