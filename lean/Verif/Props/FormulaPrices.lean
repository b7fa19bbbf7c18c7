import Verif.Props.Sample
import Verif.Lemmas.Col2

set_option autoImplicit false

/-!
# Price transforms: C56
-/

namespace TTI.Props

open Spec

variable {E : Env} {c : Call} {f : RawFrame} {fill : Bool} {o : Obj}

/-- C56: median price is the middle of the day's high and low. -/
theorem C56_median_price (hB : BuiltOn E c f fill o AnyPrices) (n : ℕ) (ho : o.ind = .medianPrice n) (i : ℕ)
    (hi : i < f.idx.length) : o.getTiData.day "mp" i = to4 ((high f i + low f i) / 2) := by
  obtain ⟨F, hl, hn, -, ht, hp, -⟩ := hB.on ho
  have hh : Nums F.len 0 (high f) (F.col "high") := hn _ (by simp [Ind.required])
  have hlo : Nums F.len 0 (low f) (F.col "low") := hn _ (by simp [Ind.required])
  rw [← Except.ok.inj ht]
  exact ((hh.add hlo).scale (1 / 2)).all4 (hl ▸ hi) rfl (by ring)

/-- The hypotheses of `C56_median_price` on the sample. -/
example : ∃ o, BuiltOn demoEnv (.medianPrice (.int 3)) (sample 6) true o AnyPrices ∧ o.ind = .medianPrice 3 ∧
    o.getTiData.day "mp" 4 = .fin (111 / 2) :=
  sample_any 6 "mp" 4 _ (by decide +kernel) (by decide)

/-- C56: weighted close counts the close twice. -/
theorem C56_weighted_close (hB : BuiltOn E c f fill o AnyPrices) (ho : o.ind = .weightedClose) (i : ℕ)
    (hi : i < f.idx.length) : o.getTiData.day "wc" i = to4 ((2 * close f i + high f i + low f i) / 4) := by
  obtain ⟨F, hl, hn, -, ht, hp, -⟩ := hB.on ho
  have hcl : Nums F.len 0 (close f) (F.col "close") := hn _ (by simp [Ind.required])
  have hh : Nums F.len 0 (high f) (F.col "high") := hn _ (by simp [Ind.required])
  have hlo : Nums F.len 0 (low f) (F.col "low") := hn _ (by simp [Ind.required])
  rw [← Except.ok.inj ht]
  exact ((((hcl.scale 2).add hh).add hlo).divConst 4 (by norm_num)).all4 (hl ▸ hi) rfl rfl

/-- The hypotheses of `C56_weighted_close` on the sample. -/
example : ∃ o, BuiltOn demoEnv (.weightedClose) (sample 6) true o AnyPrices ∧ o.ind = .weightedClose ∧
    o.getTiData.day "wc" 4 = .fin (223 / 4) :=
  sample_any 6 "wc" 4 _ (by decide +kernel) (by decide)

/-- C56: typical price is the mean of the day's high, low and close. -/
theorem C56_typical_price (hB : BuiltOn E c f fill o AnyPrices) (n : ℕ) (ho : o.ind = .typicalPrice n) (i : ℕ)
    (hi : i < f.idx.length) : o.getTiData.day "tp" i = to4 (typical f i) := by
  obtain ⟨F, hl, hn, ht, hp, hF⟩ := hB.onRows ho (by simp [Ind.required])
  rw [← Except.ok.inj ht]
  exact (Nums.rows3 hF (hn _ (by simp [Ind.required])) (hn _ (by simp [Ind.required])) (hn _ (by simp [Ind.required])) meanSkip
    (typical f) fun i => Nums.meanSkip3 _ _ _).all4 (hl ▸ hi) rfl rfl

/-- The hypotheses of `C56_typical_price` on the sample. -/
example : ∃ o, BuiltOn demoEnv (.typicalPrice (.int 3)) (sample 6) true o AnyPrices ∧ o.ind = .typicalPrice 3 ∧
    o.getTiData.day "tp" 4 = .fin (556667 / 10000) :=
  sample_any 6 "tp" 4 _ (by decide +kernel) (by decide)

/-- C56: detrended price: the close minus the mean of the `n` closes that end `1 + n / 2` days later; the last `1 + n / 2` days
have no row. -/
theorem C56_detrended (hB : BuiltOn E c f fill o AnyPrices) (n : ℕ) (ho : o.ind = .detrendedPriceOscillator n) (i : ℕ)
    (hi : i + (1 + n / 2) < f.idx.length) :
    o.getTiData.day "dpo" i = since (n - 1 - (1 + n / 2)) i (to4 (close f i - meanLast n (close f) (i + (1 + n / 2)))) ∧
    o.getTiData.len = f.idx.length - (1 + n / 2) := by
  obtain ⟨F, hl, hn, -, ht, hp, -⟩ := hB.on ho
  have hcl : Nums F.len 0 (close f) (F.col "close") := hn _ (by simp [Ind.required])
  replace hp : 1 ≤ n := hp
  rw [guard_ok ht]
  have hm := hcl.rollMean n hp
  refine ⟨?_, by simp [Frame.len] at hl ⊢; omega⟩
  show val (roundS 4 ((subS _ _).take _)) i = _
  rw [val_roundS, val_take _ _ _ (by omega), val_subS, hcl.fin (by omega) (by omega), val_shiftBack _ _ _ (by rw [hm.len]; omega),
    hm.val _ (by omega)]
  unfold since
  split
  · rw [if_pos (by omega)]; rfl
  · rw [if_neg (by omega), Val.fin_sub]; rfl

/-- The hypotheses of `C56_detrended` on the sample. -/
example : ∃ o, BuiltOn demoEnv (.detrendedPriceOscillator (.int 4)) (sample 8) true o AnyPrices ∧ o.ind = .detrendedPriceOscillator 4 ∧
    o.getTiData.day "dpo" 3 = .fin (13 / 4) :=
  sample_any 8 "dpo" 3 _ (by decide +kernel) (by decide)

/-- C56: the lines of the Ichimoku cloud: the middles of the ranges of 9 and 26 days; their mean, and the middle of the range of
52 days, both moved 26 days forward. -/
theorem C56_ichimoku (hB : BuiltOn E c f fill o AnyPrices) (ho : o.ind = .ichimokuCloud) (i : ℕ) (hi : i < f.idx.length) :
    o.getTiData.day "tenkan_sen" i = to4 (midRange f 9 i) ∧
    o.getTiData.day "kijun_sen" i = to4 (midRange f 26 i) ∧
    o.getTiData.day "senkou_a" i = since 26 i (to4 ((midRange f 9 (i - 26) + midRange f 26 (i - 26)) / 2)) ∧
    o.getTiData.day "senkou_b" i = since 26 i (to4 (midRange f 52 (i - 26))) := by
  obtain ⟨F, hl, hn, -, ht, hp, -⟩ := hB.on ho
  have hh : Nums F.len 0 (high f) (F.col "high") := hn _ (by simp [Ind.required])
  have hlo : Nums F.len 0 (low f) (F.col "low") := hn _ (by simp [Ind.required])
  rw [← Except.ok.inj ht]
  have hm (w : ℕ) (hw : 1 ≤ w) : Nums F.len 0 (midRange f w) (Ind.IchimokuCloud.middle w F) :=
    ((hh.rollMax1 w hw).add (hlo.rollMin1 w hw)).divConst 2 (by norm_num)
  exact ⟨(hm 9 (by norm_num)).all4 (hl ▸ hi) rfl rfl, (hm 26 (by norm_num)).all4 (hl ▸ hi) rfl rfl,
    ((((hm 9 (by norm_num)).add (hm 26 (by norm_num))).divConst 2 (by norm_num)).shift 26).eq4 (hl ▸ hi) (by omega) fun _ => rfl,
    ((hm 52 (by norm_num)).shift 26).eq4 (hl ▸ hi) (by omega) fun _ => rfl⟩

/-- The hypotheses of `C56_ichimoku` on the sample. -/
example : ∃ o, BuiltOn demoEnv (.ichimokuCloud) (sample 30) true o AnyPrices ∧ o.ind = .ichimokuCloud ∧
    o.getTiData.day "senkou_a" 28 = .fin (223 / 4) :=
  sample_any 30 "senkou_a" 28 _ (by decide +kernel) (by decide)

end TTI.Props
