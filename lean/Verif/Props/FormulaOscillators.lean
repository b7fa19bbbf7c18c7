import Verif.Props.Sample
import Verif.Props.Constant

set_option autoImplicit false

/-!
# Oscillators that compare the close with the range of the last days: C55
-/

namespace TTI.Props

open Spec

variable {E : Env} {c : Call} {f : RawFrame} {fill : Bool} {o : Obj}

/-- C55: Williams %R is the distance of the close from the highest high, in (negative) percent of the range of the last `n`
days. -/
theorem C55_williams_r (hB : BuiltOn E c f fill o AnyPrices) (n : ℕ) (ho : o.ind = .williamsR n) (i : ℕ) (hi : i < f.idx.length) :
    o.getTiData.day "wr" i =
      since (n - 1) i (round4 (quotient (-100 * (highest n (high f) i - close f i)) (rangeHeight f n i))) := by
  obtain ⟨F, hl, hn, -, ht, hp, -⟩ := hB.on ho
  have hcl : Nums F.len 0 (close f) (F.col "close") := hn _ (by simp [Ind.required])
  have hh : Nums F.len 0 (high f) (F.col "high") := hn _ (by simp [Ind.required])
  have hlo : Nums F.len 0 (low f) (F.col "low") := hn _ (by simp [Ind.required])
  replace hp : 1 ≤ n := hp
  rw [guard_ok ht]
  have h1 := hh.rollMax n hp
  exact ((((h1.sub hcl).quot (h1.sub (hlo.rollMin n hp))).scale (-100)).round 4).eq (hl ▸ hi) (by omega) fun _ => by
    simp only [mul_quotient (-100) _ _ (by norm_num)]; rfl

/-- The hypotheses of `C55_williams_r` on the sample. -/
example : ∃ o, BuiltOn demoEnv (.williamsR (.int 3)) (sample 6) true o AnyPrices ∧ o.ind = .williamsR 3 ∧
    o.getTiData.day "wr" 4 = .fin (-29661 / 625) :=
  sample_any 6 "wr" 4 _ (by decide +kernel) (by decide)

/-- C55: %K of the stochastic oscillator: the distance of the close from the lowest low of the last `k` days, in percent of
the range of these days, both summed over the slowing days. -/
theorem C55_stochastic_k (hB : BuiltOn E c f fill o AnyPrices) (k s d : ℕ) (simple : Bool)
    (ho : o.ind = .stochasticOscillator k s d simple) (i : ℕ) (hi : i < f.idx.length) :
    o.getTiData.day "%K" i =
      since (k + s - 2) i (round4 (quotient (100 * sumLast s (aboveLow f k) i) (sumLast s (rangeHeight f k) i))) := by
  obtain ⟨F, hl, hn, -, ht, hp, -⟩ := hB.on ho
  have hcl : Nums F.len 0 (close f) (F.col "close") := hn _ (by simp [Ind.required])
  have hh : Nums F.len 0 (high f) (F.col "high") := hn _ (by simp [Ind.required])
  have hlo : Nums F.len 0 (low f) (F.col "low") := hn _ (by simp [Ind.required])
  obtain ⟨hk, hs, hd⟩ : 1 ≤ k ∧ (s = 1 ∨ s = 3) ∧ 1 ≤ d := hp
  rw [guard_ok ht]
  have h1 := hlo.rollMin k hk
  have h2 := (hcl.sub h1).rollSum s (by omega)
  have h3 := ((hh.rollMax k hk).sub h1).rollSum s (by omega)
  exact (((h2.scale 100).quot h3).round 4).eq (hl ▸ hi) (by omega) fun _ => rfl

/-- The hypotheses of `C55_stochastic_k` on the sample. -/
example : ∃ o, BuiltOn demoEnv (.stochasticOscillator (.int 3) (.int 3) (.int 2) (.str "simple")) (sample 7) true o AnyPrices ∧ o.ind = .stochasticOscillator 3 3 2 true ∧
    o.getTiData.day "%K" 5 = .fin (32839 / 625) :=
  sample_any 7 "%K" 5 _ (by decide +kernel) (by decide)

/-- C55: %D with the simple method is the mean of the last `d` reported values of %K, if none of them is a quotient by 0. -/
theorem C55_stochastic_d (hB : BuiltOn E c f fill o AnyPrices) (k s d : ℕ) (ho : o.ind = .stochasticOscillator k s d true)
    (i : ℕ) (hi : i < f.idx.length) (h0 : ∀ j ≤ i, i < j + d → k + s - 2 ≤ j → sumLast s (rangeHeight f k) j ≠ 0) :
    o.getTiData.day "%D" i = since (k + s + d - 3) i (to4 (meanLast d
      (fun j => roundQ 4 (100 * sumLast s (aboveLow f k) j / sumLast s (rangeHeight f k) j)) i)) := by
  obtain ⟨F, hl, hn, -, ht, hp, -⟩ := hB.on ho
  have hcl : Nums F.len 0 (close f) (F.col "close") := hn _ (by simp [Ind.required])
  have hh : Nums F.len 0 (high f) (F.col "high") := hn _ (by simp [Ind.required])
  have hlo : Nums F.len 0 (low f) (F.col "low") := hn _ (by simp [Ind.required])
  obtain ⟨hk, hs, hd⟩ : 1 ≤ k ∧ (s = 1 ∨ s = 3) ∧ 1 ≤ d := hp
  rw [guard_ok ht]
  have h1 := hlo.rollMin k hk
  have h2 := (hcl.sub h1).rollSum s (by omega)
  have h3 := ((hh.rollMax k hk).sub h1).rollSum s (by omega)
  have h4 := (((h2.scale 100).quot h3).round 4).congr (k' := k + s - 2) (by omega) fun _ _ _ => rfl
  refine (val_roundS _ _ _).trans ((congrArg round4 (h4.meanLocal d hd (hl ▸ hi) fun j h1 h2 h3 => ?_)).trans
    ((round_since _ _ _ _).trans (since_congr (by omega) fun _ => rfl)))
  show Val.round 4 (quotient _ (sumLast s (rangeHeight f k) j)) = _
  rw [quotient_ne _ _ (h0 j h1 h2 h3)]; rfl

/-- The hypotheses of `C55_stochastic_d` on the sample. -/
example : (∃ o, BuiltOn demoEnv (.stochasticOscillator (.int 3) (.int 3) (.int 2) (.str "simple")) (sample 7) true o AnyPrices ∧ o.ind = .stochasticOscillator 3 3 2 true ∧
    o.getTiData.day "%D" 6 = .fin (64089 / 1250)) ∧
    (∀ j ≤ 6, 6 < j + 2 → 3 + 3 - 2 ≤ j → sumLast 3 (rangeHeight (sample 7) 3) j ≠ 0) :=
  ⟨sample_any 7 "%D" 6 _ (by decide +kernel) (by decide), by decide +kernel⟩

/-- C55: %D with the exponential method is the weighted mean of the last `d` reported values of %K (the weights are those of
scipy's exponential window, `E.weights d`, oldest day first). -/
theorem C55_stochastic_d_weighted (hB : BuiltOn E c f fill o AnyPrices) (k s d : ℕ)
    (ho : o.ind = .stochasticOscillator k s d false) (hw : (E.weights d).length = d) (hw0 : (E.weights d).sum ≠ 0)
    (i : ℕ) (hi : i < f.idx.length) (h0 : ∀ j ≤ i, i < j + d → k + s - 2 ≤ j → sumLast s (rangeHeight f k) j ≠ 0) :
    o.getTiData.day "%D" i = since (k + s + d - 3) i (to4 ((∑ t ∈ Finset.range d, (E.weights d).getD t 0 *
      roundQ 4 (100 * sumLast s (aboveLow f k) (i + 1 - d + t) / sumLast s (rangeHeight f k) (i + 1 - d + t))) /
        (E.weights d).sum)) := by
  obtain ⟨F, hl, hn, -, ht, hp, -⟩ := hB.on ho
  have hcl : Nums F.len 0 (close f) (F.col "close") := hn _ (by simp [Ind.required])
  have hh : Nums F.len 0 (high f) (F.col "high") := hn _ (by simp [Ind.required])
  have hlo : Nums F.len 0 (low f) (F.col "low") := hn _ (by simp [Ind.required])
  obtain ⟨hk, hs, hd⟩ : 1 ≤ k ∧ (s = 1 ∨ s = 3) ∧ 1 ≤ d := hp
  rw [guard_ok ht]
  have h1 := hlo.rollMin k hk
  have h2 := (hcl.sub h1).rollSum s (by omega)
  have h3 := ((hh.rollMax k hk).sub h1).rollSum s (by omega)
  have h4 := (((h2.scale 100).quot h3).round 4).congr (k' := k + s - 2) (by omega) fun _ _ _ => rfl
  refine (val_roundS _ _ _).trans ((congrArg round4 (h4.rollLocal d hd _ (hl ▸ hi)
    (g := fun j => roundQ 4 (100 * sumLast s (aboveLow f k) j / sumLast s (rangeHeight f k) j)) fun j h1 h2 h3 => ?_)).trans
    ((round_since _ _ _ _).trans (since_congr (by omega) fun _ => ?_)))
  · show Val.round 4 (quotient _ (sumLast s (rangeHeight f k) j)) = _
    rw [quotient_ne _ _ (h0 j h1 h2 h3)]; rfl
  · show Val.round 4 (Ind.StochasticOscillator.aggWeighted (E.weights d) _) = _
    unfold Ind.StochasticOscillator.aggWeighted
    rw [if_neg hw0]
    show Val.fin (roundQ 4 _) = Val.fin (roundQ 4 _)
    congr 3
    have key : ∀ (d : ℕ) (l : List ℚ) (g : ℕ → ℚ), l.length = d →
        (List.zipWith (· * ·) l ((List.range d).map g)).sum = ∑ t ∈ Finset.range d, l.getD t 0 * g t := by
      intro d
      induction d with
      | zero => intro l g hl; simp
      | succ d ih =>
        intro l g hl
        cases l with
        | nil => simp at hl
        | cons a l =>
          rw [List.range_succ_eq_map, List.map_cons, List.zipWith_cons_cons, List.sum_cons, Finset.sum_range_succ', List.map_map,
            add_comm, ih l _ (by simpa using hl)]
          simp
    exact key d _ (fun t => roundQ 4 (100 * sumLast s (aboveLow f k) (i + 1 - d + t) / sumLast s (rangeHeight f k) (i + 1 - d + t))) hw

/-- The hypotheses of `C55_stochastic_d_weighted` on the sample. -/
example : (∃ o, BuiltOn ⟨id, fun _ => [1 / 2, 1]⟩ (.stochasticOscillator (.int 3) (.int 3) (.int 2) (.str "exponential")) (sample 7) true o AnyPrices ∧ o.ind = .stochasticOscillator 3 3 2 false ∧
    o.getTiData.day "%D" 6 = .fin (20339 / 400)) ∧
    (∀ j ≤ 6, 6 < j + 2 → 3 + 3 - 2 ≤ j → sumLast 3 (rangeHeight (sample 7) 3) j ≠ 0) ∧
    (((⟨id, fun _ => [1 / 2, 1]⟩ : Env).weights 2).length = 2 ∧ ((⟨id, fun _ => [1 / 2, 1]⟩ : Env).weights 2).sum ≠ 0) :=
  ⟨sample_any 7 "%D" 6 _ (by decide +kernel) (by decide), by decide +kernel, by decide +kernel⟩

/-- C55: the stochastic momentum index is the doubly smoothed distance of the close from the middle of the range, in percent of
half the doubly smoothed height of the range. -/
theorem C55_stochastic_momentum (hB : BuiltOn E c f fill o AnyPrices) (n s d : ℕ) (ho : o.ind = .stochasticMomentumIndex n s d)
    (i : ℕ) (hi : i < f.idx.length) :
    o.getTiData.day "smi" i = since (n + s + d - 3) i (round4 (quotient
      (100 * ema d (n + s - 2) (ema s (n - 1) fun j => close f j - (highest n (high f) j + lowest n (low f) j) / 2) i)
      (ema d (n + s - 2) (ema s (n - 1) (rangeHeight f n)) i / 2))) := by
  obtain ⟨F, hl, hn, -, ht, hp, -⟩ := hB.on ho
  have hcl : Nums F.len 0 (close f) (F.col "close") := hn _ (by simp [Ind.required])
  have hh : Nums F.len 0 (high f) (F.col "high") := hn _ (by simp [Ind.required])
  have hlo : Nums F.len 0 (low f) (F.col "low") := hn _ (by simp [Ind.required])
  obtain ⟨hn1, hs, hd⟩ : 1 ≤ n ∧ 1 ≤ s ∧ 1 ≤ d := hp
  rw [guard_ok ht]
  have h1 := hlo.rollMin n hn1
  have h2 := hh.rollMax n hn1
  have h3 := (hcl.sub ((h2.add h1).divConst 2 (by norm_num))).congr (k' := n - 1) (by omega) fun _ _ _ => rfl
  have h4 := (h3.ewm s s hs).congr (k' := n + s - 2) (by omega) fun _ _ _ => rfl
  have h5 := (h2.sub h1).congr (k' := n - 1) (by omega) fun _ _ _ => rfl
  have h6 := (h5.ewm s s hs).congr (k' := n + s - 2) (by omega) fun _ _ _ => rfl
  exact ((((h4.ewm d d hd).quot ((h6.ewm d d hd).scale (1 / 2))).scale 100).round 4).eq (hl ▸ hi) (by omega) fun _ => by
    simp only [mul_quotient 100 _ _ (by norm_num)]
    rw [one_div, inv_mul_eq_div]
    rfl

/-- The hypotheses of `C55_stochastic_momentum` on the sample. -/
example : ∃ o, BuiltOn demoEnv (.stochasticMomentumIndex (.int 3) (.int 2) (.int 2)) (sample 7) true o AnyPrices ∧ o.ind = .stochasticMomentumIndex 3 2 2 ∧
    o.getTiData.day "smi" 5 = .fin (-133277 / 10000) :=
  sample_any 7 "smi" 5 _ (by decide +kernel) (by decide)

/-- C55: Chande's momentum oscillator. -/
theorem C55_chande (hB : BuiltOn E c f fill o AnyPrices) (n : ℕ) (ho : o.ind = .chandeMomentumOscillator n) (i : ℕ)
    (hi : i < f.idx.length) : o.getTiData.day "cmo" i = since n i (round4 (chande n (close f) i)) := by
  obtain ⟨F, hl, hn, -, ht, hp, -⟩ := hB.on ho
  have hcl : Nums F.len 0 (close f) (F.col "close") := hn _ (by simp [Ind.required])
  replace hp : 1 ≤ n := hp
  rw [guard_ok ht]
  exact (hcl.cmo n hp).eq (hl ▸ hi) rfl fun _ => rfl

/-- The hypotheses of `C55_chande` on the sample. -/
example : ∃ o, BuiltOn demoEnv (.chandeMomentumOscillator (.int 3)) (sample 6) true o AnyPrices ∧ o.ind = .chandeMomentumOscillator 3 ∧
    o.getTiData.day "cmo" 4 = .fin (-66667 / 10000) :=
  sample_any 6 "cmo" 4 _ (by decide +kernel) (by decide)

/-- C55: the intraday momentum index: the rises from open to close in percent of all moves from open to close, over `n` days. -/
theorem C55_intraday_momentum (hB : BuiltOn E c f fill o AnyPrices) (n : ℕ) (ho : o.ind = .intradayMomentumIndex n) (i : ℕ)
    (hi : i < f.idx.length) :
    o.getTiData.day "imi" i = since (n - 1) i (round4 (quotient (100 * sumLast n (fun j => max (close f j - opening f j) 0) i)
      (sumLast n (fun j => max (close f j - opening f j) 0) i + sumLast n (fun j => max (opening f j - close f j) 0) i))) := by
  obtain ⟨F, hl, hn, -, ht, hp, -⟩ := hB.on ho
  have hcl : Nums F.len 0 (close f) (F.col "close") := hn _ (by simp [Ind.required])
  have hop : Nums F.len 0 (opening f) (F.col "open") := hn _ (by simp [Ind.required])
  replace hp : 1 ≤ n := hp
  rw [guard_ok ht]
  have h1 := (hcl.sub hop).zeroBelow.rollSum n hp
  have h2 := (hop.sub hcl).zeroBelow.rollSum n hp
  exact (((h1.scale 100).quot (h1.add h2)).round 4).eq (hl ▸ hi) (by omega) fun _ => rfl

/-- The hypotheses of `C55_intraday_momentum` on the sample. -/
example : ∃ o, BuiltOn demoEnv (.intradayMomentumIndex (.int 3)) (sample 12) true o AnyPrices ∧ o.ind = .intradayMomentumIndex 3 ∧
    o.getTiData.day "imi" 9 = .fin (571429 / 10000) :=
  sample_any 12 "imi" 9 _ (by decide +kernel) (by decide)

/-- C55: Qstick is the mean of close minus open over `n` days. -/
theorem C55_qstick (hB : BuiltOn E c f fill o AnyPrices) (n : ℕ) (ho : o.ind = .qstick n) (i : ℕ)
    (hi : i < f.idx.length) :
    o.getTiData.day "qstick" i = since (n - 1) i (to4 (meanLast n (fun j => close f j - opening f j) i)) := by
  obtain ⟨F, hl, hn, -, ht, hp, -⟩ := hB.on ho
  have hcl : Nums F.len 0 (close f) (F.col "close") := hn _ (by simp [Ind.required])
  have hop : Nums F.len 0 (opening f) (F.col "open") := hn _ (by simp [Ind.required])
  replace hp : 1 ≤ n := hp
  rw [guard_ok ht]
  exact (((hcl.sub hop).rollSum n hp).divConst n (by positivity)).eq4 (hl ▸ hi) (by omega) fun _ => rfl

/-- The hypotheses of `C55_qstick` on the sample. -/
example : ∃ o, BuiltOn demoEnv (.qstick (.int 3)) (sample 6) true o AnyPrices ∧ o.ind = .qstick 3 ∧
    o.getTiData.day "qstick" 4 = .fin (33333 / 10000) :=
  sample_any 6 "qstick" 4 _ (by decide +kernel) (by decide)

/-- C55: the vertical horizontal filter is the height of the closes of the last `n` days divided by the length of their path. -/
theorem C55_vertical_horizontal (hB : BuiltOn E c f fill o AnyPrices) (n : ℕ) (ho : o.ind = .verticalHorizontalFilter n) (i : ℕ)
    (hi : i < f.idx.length) :
    o.getTiData.day "vhf" i = since n i (round4 (quotient (highest n (close f) i - lowest n (close f) i)
      (sumLast n (fun j => |close f j - close f (j - 1)|) i))) := by
  obtain ⟨F, hl, hn, -, ht, hp, -⟩ := hB.on ho
  have hcl : Nums F.len 0 (close f) (F.col "close") := hn _ (by simp [Ind.required])
  replace hp : 1 ≤ n := hp
  rw [guard_ok ht]
  have h1 := ((hcl.rollMax n hp).sub (hcl.rollMin n hp)).abs
  have h2 := (hcl.sub (hcl.shift 1)).abs.rollSum n hp
  exact ((h1.quot h2).round 4).eq (hl ▸ hi) (by omega) fun _ => by
    have h3 := (Nums.highest_spec n hp (close f) i).1 0 (by omega)
    have h4 := (Nums.lowest_spec n hp (close f) i).1 0 (by omega)
    simp only [abs_of_nonneg (show 0 ≤ highest n (close f) i - lowest n (close f) i by linarith)]

/-- The hypotheses of `C55_vertical_horizontal` on the sample. -/
example : ∃ o, BuiltOn demoEnv (.verticalHorizontalFilter (.int 3)) (sample 6) true o AnyPrices ∧ o.ind = .verticalHorizontalFilter 3 ∧
    o.getTiData.day "vhf" 4 = .fin (4667 / 10000) :=
  sample_any 6 "vhf" 4 _ (by decide +kernel) (by decide)

end TTI.Props
