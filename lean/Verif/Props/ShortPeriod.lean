import Verif.Spec.ShortPeriod
import Verif.Lemmas.Mirror
import Verif.Lemmas.WarmUpSig
import Verif.Props.Constant
import Verif.Props.FormulaAverages
import Verif.Props.FormulaBands
import Verif.Props.FormulaOscillators
import Verif.Props.FormulaRange2

set_option autoImplicit false

/-!
# C77: periods that the constructors accept but that are too short to work

Specification: `Verif/Spec/ShortPeriod.lean`.
-/

namespace TTI.Props

open TTI.Spec

variable {E : Env} {c : Call} {f : RawFrame} {fill : Bool} {o : Obj}

/-- Deviations from the mean sum to 0, so the one of today is at most half of the total of all. -/
theorem deviation_half (n : ℕ) (hn : 1 ≤ n) (g : ℕ → ℚ) (i : ℕ) :
    2 * |g i - meanLast n g i| ≤ sumLast n (fun j => |meanLast n g i - g j|) i := by
  obtain ⟨k, rfl⟩ : ∃ k, n = k + 1 := ⟨n - 1, by omega⟩
  generalize hm : meanLast (k + 1) g i = m
  have hk : ((k + 1 : ℕ) : ℚ) ≠ 0 := by positivity
  have h0 : ∑ t ∈ Finset.range (k + 1), (g (i - t) - m) = 0 := by
    rw [Finset.sum_sub_distrib, Finset.sum_const, Finset.card_range, ← hm]
    unfold meanLast sumLast
    rw [nsmul_eq_mul, mul_div_cancel₀ _ hk, sub_self]
  unfold sumLast
  rw [Finset.sum_range_succ'] at h0 ⊢
  simp only [Nat.sub_zero] at h0 ⊢
  have h1 := Finset.abs_sum_le_sum_abs (fun t => g (i - (t + 1)) - m) (Finset.range k)
  have h2 : |∑ t ∈ Finset.range k, (g (i - (t + 1)) - m)| = |g i - m| := by
    rw [show ∑ t ∈ Finset.range k, (g (i - (t + 1)) - m) = -(g i - m) by linarith, abs_neg]
  have h3 : ∑ t ∈ Finset.range k, |m - g (i - (t + 1))| = ∑ t ∈ Finset.range k, |g (i - (t + 1)) - m| :=
    Finset.sum_congr rfl fun t _ => abs_sub_comm _ _
  rw [h3, abs_sub_comm m]
  rw [h2] at h1
  linarith

/-- C77: whatever the prices, the commodity channel index of `n` days stays between `-100 n / 3` and `100 n / 3`. -/
theorem C77_channel_bound (hB : BuiltOn E c f fill o AnyPrices) (n : ℕ) (ho : o.ind = .commodityChannelIndex n) (i : ℕ)
    (hi : i < f.idx.length) :
    o.getTiData.day "cci" i = .nan ∨ ∃ q, o.getTiData.day "cci" i = .fin q ∧ |q| ≤ roundQ 4 (100 * n / 3) := by
  have hp : 1 ≤ n := by obtain ⟨F, -, -, -, -, hp, -⟩ := hB.on ho; exact hp
  rw [C58_commodity_channel hB n ho i hi]
  unfold since
  split_ifs with hlt
  · exact .inl rfl
  have hd := deviation_half n hp (typical f) i
  generalize typical f i - meanLast n (typical f) i = d at hd ⊢
  unfold meanLast at hd ⊢
  generalize sumLast n (fun j => |sumLast n (typical f) i / n - typical f j|) i = s at hd ⊢
  have hn : (0 : ℚ) < n := by exact_mod_cast hp
  have hs : 0 ≤ s := le_trans (by positivity) hd
  rcases hs.eq_or_lt with hs | hs
  · left
    have : d = 0 := by
      rw [← hs] at hd
      exact abs_nonpos_iff.1 (by linarith)
    rw [← hs, this]
    simp [quotient]
  · right
    have hpos : 0 < 15 / 1000 * (s / n) := by positivity
    refine ⟨roundQ 4 (d / (15 / 1000 * (s / n))), by simp [quotient, hpos.ne', Val.round], ?_⟩
    have hle : |d / (15 / 1000 * (s / n))| ≤ 100 * n / 3 := by
      rw [abs_div, abs_of_pos hpos, div_le_iff₀ hpos]
      have : 100 * (n : ℚ) / 3 * (15 / 1000 * (s / n)) = s / 2 := by field_simp; norm_num
      rw [this]; linarith
    rw [abs_le] at hle ⊢
    exact ⟨by rw [← roundQ_neg]; exact roundQ_mono 4 hle.1, roundQ_mono 4 hle.2⟩

/-- The hypotheses of `C77_channel_bound` on the sample: the bound for three days is 100. -/
example : (∃ o, BuiltOn demoEnv (.commodityChannelIndex (.int 3)) (sample 6) true o AnyPrices ∧ o.ind = .commodityChannelIndex 3 ∧
    o.getTiData.day "cci" 4 = .fin (34483 / 10000)) ∧ roundQ 4 (100 * (3 : ℕ) / 3) = 100 :=
  ⟨sample_any 6 "cci" 4 _ (by decide +kernel) (by decide), by decide +kernel⟩

/-- C77: the bound is reached: it is the value whenever the typical price moves after `n - 1` days without a move, however
small the move. -/
theorem C77_channel_jump (hB : BuiltOn E c f fill o AnyPrices) (n : ℕ) (ho : o.ind = .commodityChannelIndex n) (i : ℕ)
    (hi : i < f.idx.length) (hn : 2 ≤ n) (hni : n ≤ i + 1) (m : ℚ) (hm : ∀ t, 1 ≤ t → t < n → typical f (i - t) = m) :
    (m < typical f i → o.getTiData.day "cci" i = to4 (100 * n / 3)) ∧
    (typical f i < m → o.getTiData.day "cci" i = to4 (-(100 * n / 3))) := by
  rw [C58_commodity_channel hB n ho i hi]
  have hsum : ∀ g : ℕ → ℚ, sumLast n (fun j => g j) i = g i + ∑ t ∈ Finset.range (n - 1), g (i - (t + 1)) := fun g => by
    obtain ⟨k, rfl⟩ : ∃ k, n = k + 1 := ⟨n - 1, by omega⟩
    unfold sumLast
    rw [Finset.sum_range_succ', Nat.add_sub_cancel, add_comm]
    rfl
  have hmean : meanLast n (typical f) i = (typical f i + (n - 1) * m) / n := by
    unfold meanLast
    rw [hsum (typical f), Finset.sum_congr rfl (g := fun _ => m) fun t ht => hm (t + 1) (by omega)
      (by rw [Finset.mem_range] at ht; omega), Finset.sum_const, Finset.card_range, nsmul_eq_mul, Nat.cast_sub (by omega), Nat.cast_one]
  have hn0 : (0 : ℚ) < n := by positivity
  have hn1 : (0 : ℚ) < n - 1 := by
    have : (2 : ℚ) ≤ n := by exact_mod_cast hn
    linarith
  have hdev : meanLast n (fun j => |meanLast n (typical f) i - typical f j|) i = 2 * (n - 1) / n ^ 2 * |typical f i - m| := by
    rw [hmean]
    unfold meanLast
    rw [hsum fun j => |(typical f i + (n - 1) * m) / n - typical f j|,
      Finset.sum_congr rfl (g := fun _ => |(typical f i + (n - 1) * m) / n - m|) fun t ht => by
        rw [hm (t + 1) (by omega) (by rw [Finset.mem_range] at ht; omega)],
      Finset.sum_const, Finset.card_range, nsmul_eq_mul, Nat.cast_sub (by omega), Nat.cast_one]
    have e1 : (typical f i + (n - 1) * m) / n - typical f i = (n - 1) / n * -(typical f i - m) := by field_simp; ring
    have e2 : (typical f i + (n - 1) * m) / n - m = 1 / n * (typical f i - m) := by field_simp; ring
    rw [e1, e2, abs_mul, abs_mul, abs_neg, abs_of_pos (a := ((n : ℚ) - 1) / n) (by positivity),
      abs_of_pos (a := 1 / (n : ℚ)) (by positivity)]
    field_simp
    ring
  rw [hdev, hmean]
  have e1 : typical f i - (typical f i + (n - 1) * m) / n = (n - 1) / n * (typical f i - m) := by field_simp; ring
  rw [e1]
  generalize typical f i = x
  unfold since
  rw [if_neg (by omega)]
  constructor <;> intro h
  · have hx : 0 < x - m := by linarith
    rw [abs_of_pos hx]
    have hb : 15 / 1000 * (2 * ((n : ℚ) - 1) / n ^ 2 * (x - m)) ≠ 0 := by positivity
    unfold quotient to4
    rw [if_pos hb]
    show Val.fin _ = _
    congr 2
    field_simp
    norm_num
  · have hx : 0 < m - x := by linarith
    rw [abs_sub_comm, abs_of_pos hx]
    have hb : 15 / 1000 * (2 * ((n : ℚ) - 1) / n ^ 2 * (m - x)) ≠ 0 := by positivity
    unfold quotient to4
    rw [if_pos hb]
    show Val.fin _ = _
    congr 2
    rw [show x - m = -(m - x) by ring]
    field_simp
    norm_num

/-- An object's columns after a cut are beginnings of its columns. -/
theorem cut_cols (o o' : Obj) (hs : o.Sound) (i : ℕ) (hc : o.cut i = some o') :
    ∃ k l, o'.input = o.input.take k ∧ o'.ti = o.ti.take l ∧ o'.ind = o.ind ∧ (o.ti.idx = o.input.idx → k = l) := by
  have hlt : i < o.ti.len := by
    by_contra hcon
    rw [cut_none o i (by omega)] at hc
    cases hc
  obtain ⟨d, -, -, h3⟩ := cut_eq o hs i hlt
  rw [h3] at hc
  simp only [Option.some.injEq] at hc
  subst hc
  exact ⟨_, _, rfl, rfl, rfl, fun h => by rw [h]⟩

/-- C77: so with a period of 1, 2 or 3 the commodity channel index never gives a signal, whatever the prices: the signals ask
for values beyond 100 and -100. This holds for the object and for every day of a simulation. -/
theorem C77_channel_hold (hB : BuiltOn E c f fill o AnyPrices) (n : ℕ) (ho : o.ind = .commodityChannelIndex n) (hn : n ≤ 3)
    (o' : Obj) (hc : o' = o ∨ ∃ i, o.cut i = some o') : o'.getTiSignal = .ok .hold := by
  obtain ⟨hs, -, -⟩ := construct_sound E c f fill o hB.wf hB.ok
  obtain ⟨F, x, hg, hlen, -, h1, -, -, -, ht, -, -⟩ := construct_days E c f fill o _ hB.wf hB.ok hB.rows
  have hb : ∀ i, val (o.ti.col "cci") i = .nan ∨ ∃ q, val (o.ti.col "cci") i = .fin q ∧ |q| ≤ 100 := fun i => by
    by_cases hi : i < f.idx.length
    · rcases C77_channel_bound hB n ho i hi with h | ⟨q, h, hq⟩
      · exact .inl h
      · refine .inr ⟨q, h, hq.trans ?_⟩
        have : roundQ 4 (100 * n / 3) ≤ roundQ 4 100 := roundQ_mono 4 (by
          have : (n : ℚ) ≤ 3 := by exact_mod_cast hn
          linarith)
        simpa using this
    · left
      have hl : (o.ti.col "cci").length = o.ti.len := hs.shaped.tcol _ (by rw [ho]; simp [Spec.columns])
      have hT : o.ti.len = F.len := by
        rw [ho] at ht
        rw [guard_ok ht]; rfl
      exact val_ge _ _ (by omega)
  obtain ⟨hi, hs', hb'⟩ : o'.ind = o.ind ∧ o'.Sound ∧
      ∀ i, val (o'.ti.col "cci") i = .nan ∨ ∃ q, val (o'.ti.col "cci") i = .fin q ∧ |q| ≤ 100 := by
    rcases hc with rfl | ⟨i, hc⟩
    · exact ⟨rfl, hs, hb⟩
    · obtain ⟨k, l, -, h2, h3, -⟩ := cut_cols o o' hs i hc
      refine ⟨h3, (cut_sound o o' hs i hc).1, fun j => ?_⟩
      rw [h2, Frame.take_col]
      by_cases hj : j < l
      · rw [val_take _ _ _ hj]; exact hb j
      · exact .inl (val_ge _ _ (by rw [List.length_take]; omega))
  unfold Obj.getTiSignal
  rw [hi, ho]
  show Ind.CommodityChannelIndex.signal o'.ti = _
  unfold Ind.CommodityChannelIndex.signal
  have hl : (o'.ti.col "cci").length = o'.ti.len := hs'.shaped.tcol _ (by rw [hi, ho]; simp [Spec.columns])
  by_cases h1 : o'.ti.len < 1
  · simp [h1]; rfl
  have e := iat_eq (o'.ti.col "cci") 1 le_rfl (by omega)
  have e' := iat_val le_rfl e
  rw [e]
  simp only [h1, if_false, ok_bind]
  rcases hb' ((o'.ti.col "cci").length - 1) with h | ⟨q, h, hq⟩
  · rw [e', h]; rfl
  · rw [e', h]
    rw [abs_le] at hq
    have a1 : (Val.fin q <ᵥ Val.fin (-100)) = false := decide_eq_false (by linarith)
    have a2 : (Val.fin 100 <ᵥ Val.fin q) = false := decide_eq_false (by linarith)
    rw [show (100 : Val) = Val.fin 100 from rfl]
    rw [a1, a2]
    rfl

/-- The hypotheses of `C77_channel_hold` on the sample. -/
example : (∃ o, BuiltOn demoEnv (.commodityChannelIndex (.int 2)) (sample 6) true o AnyPrices ∧ o.ind = .commodityChannelIndex 2 ∧
    o.getTiData.day "cci" 5 = .fin (-666667 / 10000)) :=
  sample_any 6 "cci" 5 _ (by decide +kernel) (by decide)

/-- C77: hence no simulation with it ever opens a position. -/
theorem C77_channel_never_trades (hB : BuiltOn E c f fill o AnyPrices) (n : ℕ) (ho : o.ind = .commodityChannelIndex n)
    (hn : n ≤ 3) (closes : InputArg) (m fac : PyArg) (r : SimResult) (hr : (o.getTiSimulation closes m fac).2.2 = .ok r) :
    (∀ (i : ℕ) (row : Sim.Row Val), r.rows[i]? = some (some row) → row.signal = .hold ∧ row.action = .none) ∧
    r.stats.buySignals = 0 ∧ r.stats.sellSignals = 0 ∧ r.stats.lastOpenLong = 0 ∧ r.stats.lastOpenShort = 0 :=
  hold_never_trades E c f fill o hB.wf hB.ok (fun i o' h => C77_channel_hold hB n ho hn o' (.inr ⟨i, h⟩)) closes m fac r hr

/-- Three quiet days and a rise by one cent. -/
def quietRise : RawFrame :=
  ⟨true, [1, 2, 3, 4], ["high", "low", "close"].map fun n => ⟨.str n, true, [.fin 50, .fin 50, .fin 50, .fin (5001 / 100)]⟩⟩

/-- C77: with four days the index does give signals: a rise by one cent after three quiet days is a sell signal (and the
hypotheses of `C77_channel_jump` hold there). With three days the same prices give none. -/
theorem C77_channel_witness (E : Env) :
    ((construct E (.commodityChannelIndex (.int 4)) (.frame quietRise) (.bool true)).2.map fun o =>
      (o.ind, o.getTiData.day "cci" 3, o.getTiSignal)) = .ok (.commodityChannelIndex 4, .fin (1333333 / 10000), .ok .sell) ∧
    (∀ t, 1 ≤ t → t < 4 → typical quietRise (3 - t) = 50) ∧ 50 < typical quietRise 3 ∧
    ((construct E (.commodityChannelIndex (.int 3)) (.frame quietRise) (.bool true)).2.map fun o =>
      (o.ind, o.getTiData.day "cci" 3, o.getTiSignal)) = .ok (.commodityChannelIndex 3, .fin 100, .ok .hold) := by
  have h4 : ∀ (x : InputArg), construct E (.commodityChannelIndex (.int 4)) x (.bool true) =
    construct demoEnv (.commodityChannelIndex (.int 4)) x (.bool true) := fun _ => rfl
  have h3 : ∀ (x : InputArg), construct E (.commodityChannelIndex (.int 3)) x (.bool true) =
    construct demoEnv (.commodityChannelIndex (.int 3)) x (.bool true) := fun _ => rfl
  rw [h4, h3]
  refine ⟨by decide +kernel, fun t h1 h2 => ?_, by decide +kernel, by decide +kernel⟩
  interval_cases t <;> decide +kernel

theorem sumLast_one (g : ℕ → ℚ) (i : ℕ) : sumLast 1 g i = g i := by simp [sumLast]
theorem meanLast_one (g : ℕ → ℚ) (i : ℕ) : meanLast 1 g i = g i := by simp [meanLast, sumLast_one]
theorem varianceLast_one (g : ℕ → ℚ) (i : ℕ) : varianceLast 1 g i = 0 := by simp [varianceLast, meanLast_one]
theorem smoothed_one (g : ℕ → ℚ) (i : ℕ) : smoothed 1 0 (g 0) g i = g i := by
  cases i with
  | zero => rfl
  | succ i => rw [smoothed, if_neg (by omega)]; ring
theorem ema_one (g : ℕ → ℚ) (i : ℕ) : ema 1 0 g i = g i := by
  unfold ema
  rw [show (2 : ℚ) / ((1 : ℕ) + 1) = 1 by norm_num, smoothed_one]
theorem wilder_one (g : ℕ → ℚ) (i : ℕ) : wilderAverage 1 0 g i = g i := by
  unfold wilderAverage
  rw [show (1 : ℚ) / (1 : ℕ) = 1 by norm_num, meanLast_one, smoothed_one]

/-- C77: an average of one day is the close, rounded to four decimals; so are all three Bollinger bands of one day. -/
theorem C77_one_day (hB : BuiltOn E c f fill o AnyPrices) (hE : E.sq 0 = 0) (name : String) (hn : name ∈ oneDayColumns o.ind)
    (i : ℕ) (hi : i < f.idx.length) : o.getTiData.day name i = to4 (close f i) := by
  unfold oneDayColumns at hn
  split at hn <;> simp only [List.mem_cons, List.not_mem_nil, or_false] at hn
  all_goals rename_i ho
  · subst hn; rw [C52_simple hB 1 ho i hi, meanLast_one]; rfl
  · subst hn; rw [C52_exponential hB 1 ho i hi, ema_one]; rfl
  · subst hn; rw [C52_triangular hB 1 ho i hi, meanLast_one, meanLast_one]; rfl
  · subst hn
    rw [C52_double_exponential hB 1 ho i hi, ema_one, show 1 - 1 = 0 from rfl, ema_one, ema_one]
    show to4 _ = _; congr 1; ring
  · subst hn
    rw [C52_triple_exponential hB 1 ho i hi]
    simp only [show 1 - 1 = 0 from rfl, ema_one]
    show to4 _ = _; congr 1; ring
  · subst hn; rw [C52_wilders_smoothing hB 1 ho i hi, wilder_one]; rfl
  · obtain ⟨h1, h2, h3⟩ := C54_bollinger hB 1 _ ho i hi
    rw [meanLast_one] at h1 h2 h3
    rw [varianceLast_one, hE, mul_zero] at h2 h3
    rw [add_zero] at h2
    rw [sub_zero] at h3
    rcases hn with rfl | rfl | rfl
    · rw [h1]; rfl
    · rw [h2]; show Val.fin _ = Val.fin _; rw [roundQ_idem]
    · rw [h3]; show Val.fin _ = Val.fin _; rw [roundQ_idem]

/-- The hypotheses of `C77_one_day` on the sample. -/
example : demoEnv.sq 0 = 0 ∧
    (∃ o, BuiltOn demoEnv (.bollingerBands (.int 1) (.int 2)) (sample 6) true o AnyPrices ∧ o.ind = .bollingerBands 1 (.fin 2) ∧
      o.getTiData.day "upper_band" 4 = .fin 56) ∧
    (∃ o, BuiltOn demoEnv (.tripleExponentialMovingAverage (.int 1)) (sample 6) true o AnyPrices ∧
      o.ind = .tripleExponentialMovingAverage 1 ∧ o.getTiData.day "tema" 4 = .fin 56) :=
  ⟨by decide +kernel, sample_any 6 "upper_band" 4 _ (by decide +kernel) (by decide), sample_any 6 "tema" 4 _ (by decide +kernel) (by decide)⟩

theorem less_self (v : Val) : (v <ᵥ v) = false := by cases v <;> simp [Val.lt]

/-- C77: so if the closes have at most four decimals, none of these indicators ever gives a signal with a period of one day,
on the whole data or on a day of a simulation. -/
theorem C77_one_day_hold (hB : BuiltOn E c f fill o AnyPrices) (hE : E.sq 0 = 0) (hn : oneDayColumns o.ind ≠ [])
    (h4 : ∀ i < f.idx.length, FourDecimals (close f i)) (o' : Obj) (hc : o' = o ∨ ∃ i, o.cut i = some o') :
    o'.getTiSignal = .ok .hold := by
  obtain ⟨hs, -, -⟩ := construct_sound E c f fill o hB.wf hB.ok
  obtain ⟨F, x, hg, hlen, -, h1, h2, h3, -, ht, hin, -⟩ := construct_days E c f fill o _ hB.wf hB.ok hB.rows
  have hreq : "close" ∈ o.ind.required ∧ "close" ∈ inputColumns o.ind ∧ o.ind.inputAfter F = F ∧ (∀ name ∈ oneDayColumns o.ind, name ∈ Spec.columns o.ind) ∧
      o.ti.len = o.input.len := by
    have hrows := hs.shaped.rowsEq
    generalize o.ind = ind at hn hrows
    unfold oneDayColumns at hn
    split at hn <;> first | exact absurd rfl hn | exact ⟨by simp [Ind.required], by simp [inputColumns, Ind.required], rfl, by simp [oneDayColumns, Spec.columns], hrows (by simp)⟩
  obtain ⟨hr, hinc, hF, hcols, hl⟩ := hreq
  rw [hF] at hin
  have hcl : ∀ name ∈ oneDayColumns o.ind, o.ti.col name = o.input.col "close" := by
    intro name hname
    have l1 := hs.shaped.tcol name (hcols name hname)
    rw [hin] at hl ⊢
    refine List.ext_getElem (by rw [l1, h1 _ hr, hl]) fun i a b => ?_
    rw [← val_lt _ _ a, ← val_lt _ _ b, h2 _ hr i (by rw [← h1 _ hr]; exact b)]
    have hi : i < f.idx.length := by rw [← hlen, ← h1 _ hr]; exact b
    have e := C77_one_day hB hE name hname i hi
    have e1 : close f i = x "close" i := by
      show number (f.day "close" i) = _
      rw [h3 _ hr i (by omega)]; rfl
    obtain ⟨m, hm⟩ := h4 i hi
    have e2 : roundQ 4 (close f i) = close f i := by
      rw [hm]
      have := roundQ_div 4 m
      norm_num at this
      exact this
    refine e.trans ?_
    unfold to4
    rw [e2, e1]
  have hidx : o.ti.idx = o.input.idx := by
    rw [hs.dates, hl]; exact List.take_length
  obtain ⟨hi, hs', hcl', hl'⟩ : o'.ind = o.ind ∧ o'.Sound ∧ (∀ name ∈ oneDayColumns o.ind, o'.ti.col name = o'.input.col "close") ∧
      o'.ti.len = o'.input.len := by
    rcases hc with rfl | ⟨i, hc⟩
    · exact ⟨rfl, hs, hcl, hl⟩
    · obtain ⟨k, l, a1, a2, a3, a4⟩ := cut_cols o o' hs i hc
      obtain rfl := a4 hidx
      refine ⟨a3, (cut_sound o o' hs i hc).1, fun name hname => ?_, ?_⟩
      · rw [a1, a2, Frame.take_col, Frame.take_col, hcl name hname]
      · rw [a1, a2, Frame.take_len, Frame.take_len, hl]
  have hfl : (o'.input.col "close").length = o'.input.len :=
    hs'.shaped.fcol _ (by rw [hi]; exact hinc)
  unfold Obj.getTiSignal
  rw [hi]
  generalize o'.ti = T at *
  generalize o'.input = G at *
  generalize o.ind = ind at *
  have i1 : ¬ T.len < 1 → iat (G.col "close") 1 = .ok (last 1 (G.col "close")) := fun h => iat_eq _ _ le_rfl (by omega)
  have i2 : ¬ T.len < 2 → iat (G.col "close") 2 = .ok (last 2 (G.col "close")) := fun h => iat_eq _ _ (by omega) (by omega)
  unfold oneDayColumns at hn hcl'
  split at hn
  · show Ind.MovingAverage.signal .simple G T = _
    unfold Ind.MovingAverage.signal
    by_cases hlt : T.len < 1
    · simp [hlt]; rfl
    rw [show Ind.MaType.column .simple = "ma-simple" from rfl]
    simp only [hcl' "ma-simple" (by simp), i1 hlt, hlt, if_false, less_self, bind, Except.bind, pure, Except.pure]
    rfl
  · show Ind.MovingAverage.signal .exponential G T = _
    unfold Ind.MovingAverage.signal
    by_cases hlt : T.len < 1
    · simp [hlt]; rfl
    rw [show Ind.MaType.column .exponential = "ma-exponential" from rfl]
    simp only [hcl' "ma-exponential" (by simp), i1 hlt, hlt, if_false, less_self, bind, Except.bind, pure, Except.pure]
    rfl
  · show Ind.MovingAverage.signal .triangular G T = _
    unfold Ind.MovingAverage.signal
    by_cases hlt : T.len < 1
    · simp [hlt]; rfl
    rw [show Ind.MaType.column .triangular = "ma-triangular" from rfl]
    simp only [hcl' "ma-triangular" (by simp), i1 hlt, hlt, if_false, less_self, bind, Except.bind, pure, Except.pure]
    rfl
  · show Ind.DoubleExponentialMovingAverage.signal G T = _
    unfold Ind.DoubleExponentialMovingAverage.signal
    by_cases hlt : T.len < 1
    · simp [hlt]; rfl
    simp only [hcl' "dema" (by simp), i1 hlt, hlt, if_false, less_self, bind, Except.bind, pure, Except.pure]
    rfl
  · show Ind.TripleExponentialMovingAverage.signal G T = _
    unfold Ind.TripleExponentialMovingAverage.signal
    by_cases hlt : T.len < 1
    · simp [hlt]; rfl
    simp only [hcl' "tema" (by simp), i1 hlt, hlt, if_false, less_self, bind, Except.bind, pure, Except.pure]
    rfl
  · show Ind.WildersSmoothing.signal G T = _
    unfold Ind.WildersSmoothing.signal priceCrossSignal
    by_cases hlt : T.len < 2
    · simp [hlt]; rfl
    simp only [hcl' "ws" (by simp), i1 (by omega), i2 hlt, hlt, if_false, less_self, Bool.and_false, Bool.false_and, bind, Except.bind, pure, Except.pure]
    rfl
  · show Ind.BollingerBands.signal G T = _
    unfold Ind.BollingerBands.signal bandSignal
    by_cases hlt : T.len < 1
    · simp [hlt]; rfl
    simp only [hcl' "upper_band" (by simp), hcl' "lower_band" (by simp), i1 hlt, hlt, if_false, less_self, bind, Except.bind, pure, Except.pure]
    rfl
  · exact absurd rfl hn

/-- The hypotheses of `C77_one_day_hold` on the sample, with a day of a simulation. -/
example : (∃ o, BuiltOn demoEnv (.wildersSmoothing (.int 1)) (sample 6) true o AnyPrices ∧ o.ind = .wildersSmoothing 1 ∧
      o.getTiData.day "ws" 4 = .fin 56) ∧ (∀ i < (sample 6).idx.length, FourDecimals (close (sample 6) i)) ∧
    ((construct demoEnv (.wildersSmoothing (.int 1)) (.frame (sample 6)) (.bool true)).2.map fun o =>
      (o.cut 3).map fun o' => (o'.getTiData.len, o'.getTiSignal)) = .ok (some (4, .ok .hold)) := by
  refine ⟨sample_any 6 "ws" 4 _ (by decide +kernel) (by decide), fun i hi => ⟨(close (sample 6) i * 10000).num, ?_⟩, by decide +kernel⟩
  have hi' : i < 6 := hi
  interval_cases i <;> decide +kernel

/-- C77: hence no simulation with them ever opens a position. -/
theorem C77_one_day_never_trades (hB : BuiltOn E c f fill o AnyPrices) (hE : E.sq 0 = 0) (hn : oneDayColumns o.ind ≠ [])
    (h4 : ∀ i < f.idx.length, FourDecimals (close f i)) (closes : InputArg) (m fac : PyArg) (r : SimResult)
    (hr : (o.getTiSimulation closes m fac).2.2 = .ok r) :
    (∀ (i : ℕ) (row : Sim.Row Val), r.rows[i]? = some (some row) → row.signal = .hold ∧ row.action = .none) ∧
    r.stats.buySignals = 0 ∧ r.stats.sellSignals = 0 ∧ r.stats.lastOpenLong = 0 ∧ r.stats.lastOpenShort = 0 :=
  hold_never_trades E c f fill o hB.wf hB.ok (fun i o' h => C77_one_day_hold hB hE hn h4 o' (.inr ⟨i, h⟩)) closes m fac r hr

/-- Two closes with five decimals. -/
def fiveDecimals : RawFrame := ⟨true, [1, 2], [⟨.str "close", true, [.fin (14 / 100000), .fin (24 / 100000)]⟩]⟩

/-- C77: with more decimals the comparison is with a rounded close, and there are signals that mean nothing. -/
theorem C77_one_day_witness (E : Env) :
    ((construct E (.movingAverage (.int 1) (.str "simple")) (.frame fiveDecimals) (.bool true)).2.map fun o =>
      (o.ind, o.getTiData.day "ma-simple" 1, o.getTiSignal)) = .ok (.movingAverage 1 .simple, .fin (2 / 10000), .ok .buy) := by
  have hE : ∀ (x : InputArg), construct E (.movingAverage (.int 1) (.str "simple")) x (.bool true) =
    construct demoEnv (.movingAverage (.int 1) (.str "simple")) x (.bool true) := fun _ => rfl
  rw [hE]
  decide +kernel

/-- C77: standard deviation of one day is 0 on every day. -/
theorem C77_one_day_deviation (hB : BuiltOn E c f fill o AnyPrices) (hE : E.sq 0 = 0) (ho : o.ind = .standardDeviation 1) (i : ℕ)
    (hi : i < f.idx.length) : o.getTiData.day "sd" i = .fin 0 := by
  rw [C54_standard_deviation hB 1 ho i hi, varianceLast_one, hE]
  simp [since, to4]

/-- The hypotheses of `C77_one_day_deviation` on the sample. -/
example : demoEnv.sq 0 = 0 ∧ ∃ o, BuiltOn demoEnv (.standardDeviation (.int 1)) (sample 6) true o AnyPrices ∧
    o.ind = .standardDeviation 1 ∧ o.getTiData.day "sd" 4 = .fin 0 :=
  ⟨by decide +kernel, sample_any 6 "sd" 4 _ (by decide +kernel) (by decide)⟩

/-- C77: the commodity channel index of one day has no value on any day. -/
theorem C77_one_day_channel (hB : BuiltOn E c f fill o AnyPrices) (ho : o.ind = .commodityChannelIndex 1) (i : ℕ)
    (hi : i < f.idx.length) : o.getTiData.day "cci" i = .nan := by
  rw [C58_commodity_channel hB 1 ho i hi]
  simp [since, meanLast_one, quotient]

/-- The hypotheses of `C77_one_day_channel` on the sample. -/
example : ∃ o, BuiltOn demoEnv (.commodityChannelIndex (.int 1)) (sample 6) true o AnyPrices ∧ o.ind = .commodityChannelIndex 1 ∧
    o.getTiData.day "cci" 4 = .nan := sample_any 6 "cci" 4 _ (by decide +kernel) (by decide)

/-- C77: the vertical horizontal filter of one day is 0, or missing on the first day and when the close did not move. -/
theorem C77_one_day_filter (hB : BuiltOn E c f fill o AnyPrices) (ho : o.ind = .verticalHorizontalFilter 1) (i : ℕ)
    (hi : i < f.idx.length) :
    o.getTiData.day "vhf" i = if i = 0 ∨ close f i = close f (i - 1) then .nan else .fin 0 := by
  rw [C55_vertical_horizontal hB 1 ho i hi, sumLast_one]
  have h1 : highest 1 (close f) i = close f i := by simp [highest]
  have h2 : lowest 1 (close f) i = close f i := by simp [lowest]
  rw [h1, h2, sub_self]
  unfold since quotient
  by_cases h0 : i = 0
  · simp [h0]
  · by_cases h : close f i = close f (i - 1)
    · simp [h0, h]
    · have : |close f i - close f (i - 1)| ≠ 0 := by rw [abs_ne_zero]; exact sub_ne_zero.2 h
      rw [if_neg (by omega), if_pos this, if_neg (by simp [h0, h])]
      simp [Val.round]

/-- The hypotheses of `C77_one_day_filter` on the sample. -/
example : ∃ o, BuiltOn demoEnv (.verticalHorizontalFilter (.int 1)) (sample 6) true o AnyPrices ∧
    o.ind = .verticalHorizontalFilter 1 ∧ o.getTiData.day "vhf" 4 = .fin 0 := sample_any 6 "vhf" 4 _ (by decide +kernel) (by decide)

/-- C77: Chande's momentum of one day is 100 after a rise, -100 after a fall, and missing otherwise. -/
theorem C77_one_day_momentum (hB : BuiltOn E c f fill o AnyPrices) (ho : o.ind = .chandeMomentumOscillator 1) (i : ℕ)
    (hi : i < f.idx.length) :
    o.getTiData.day "cmo" i = if i = 0 then .nan else if close f (i - 1) < close f i then .fin 100
      else if close f i < close f (i - 1) then .fin (-100) else .nan := by
  rw [C55_chande hB 1 ho i hi]
  unfold since chande
  rw [sumLast_one, sumLast_one]
  unfold gain loss
  by_cases h0 : i = 0
  · simp [h0]
  rw [if_neg (by omega), if_neg h0]
  rcases lt_trichotomy (close f (i - 1)) (close f i) with h | h | h
  · rw [if_pos h, max_eq_left (by linarith), max_eq_right (by linarith), sub_zero, add_zero]
    have : close f i - close f (i - 1) ≠ 0 := by linarith
    unfold quotient
    rw [if_pos this, mul_div_assoc, div_self this, mul_one]
    show Val.fin _ = _
    rw [show (100 : ℚ) = ((100 : ℤ) : ℚ) by norm_num, roundQ_intCast]
  · simp [h, quotient]
  · rw [if_neg (by linarith), if_pos h, max_eq_right (by linarith), max_eq_left (by linarith), zero_sub, zero_add]
    have : close f (i - 1) - close f i ≠ 0 := by linarith
    unfold quotient
    rw [if_pos this, mul_neg, neg_div, mul_div_assoc, div_self this, mul_one]
    show Val.fin _ = _
    rw [roundQ_neg_hundred]

/-- The hypotheses of `C77_one_day_momentum` on the sample. -/
example : ∃ o, BuiltOn demoEnv (.chandeMomentumOscillator (.int 1)) (sample 6) true o AnyPrices ∧
    o.ind = .chandeMomentumOscillator 1 ∧ o.getTiData.day "cmo" 5 = .fin (-100) :=
  sample_any 6 "cmo" 5 _ (by decide +kernel) (by decide)

/-- C77: the intraday momentum of one day is 100 after a rise from open to close, 0 after a fall, and missing otherwise. -/
theorem C77_one_day_intraday (hB : BuiltOn E c f fill o AnyPrices) (ho : o.ind = .intradayMomentumIndex 1) (i : ℕ)
    (hi : i < f.idx.length) :
    o.getTiData.day "imi" i = if opening f i < close f i then .fin 100 else if close f i < opening f i then .fin 0 else .nan := by
  rw [C55_intraday_momentum hB 1 ho i hi]
  unfold since
  rw [sumLast_one, sumLast_one, if_neg (by omega)]
  rcases lt_trichotomy (opening f i) (close f i) with h | h | h
  · rw [if_pos h, max_eq_left (by linarith), max_eq_right (by linarith), add_zero]
    have : close f i - opening f i ≠ 0 := by linarith
    unfold quotient
    rw [if_pos this, mul_div_assoc, div_self this, mul_one]
    show Val.fin _ = _
    rw [show (100 : ℚ) = ((100 : ℤ) : ℚ) by norm_num, roundQ_intCast]
  · simp [h, quotient]
  · rw [if_neg (by linarith), if_pos h, max_eq_right (by linarith), max_eq_left (by linarith), zero_add, mul_zero]
    have : opening f i - close f i ≠ 0 := by linarith
    unfold quotient
    rw [if_pos this, zero_div]
    simp [Val.round]

/-- The hypotheses of `C77_one_day_intraday` on the sample. -/
example : ∃ o, BuiltOn demoEnv (.intradayMomentumIndex (.int 1)) (sample 6) true o AnyPrices ∧
    o.ind = .intradayMomentumIndex 1 ∧ o.getTiData.day "imi" 4 = .fin 100 :=
  sample_any 6 "imi" 4 _ (by decide +kernel) (by decide)

end TTI.Props
