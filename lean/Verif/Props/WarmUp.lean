import Verif.Lemmas.WarmUpSig
import Verif.Lemmas.Params
import Verif.Props.Constant
import Verif.Props.FormulaAverages
import Verif.Props.FormulaBands
import Verif.Props.FormulaMomentum
import Verif.Props.FormulaOscillators
import Verif.Props.FormulaPrices
import Verif.Props.FormulaProjection
import Verif.Props.FormulaRange
import Verif.Props.FormulaRange2
import Verif.Props.FormulaVolume
import Verif.Props.Identities
import Verif.Props.Regression
import Verif.Props.Sar
import Verif.Props.Volume

set_option autoImplicit false

/-!
# C76: the days before an indicator has a value or gives a signal

Specification: `Verif/Spec/WarmUp.lean`.
-/

namespace TTI.Props

open TTI.Spec

/-- C76: whatever the data, a column is missing on its first `warmUp` days. -/
theorem C76_missing (E : Env) (c : Call) (x : InputArg) (fill : PyArg) (o : Obj)
    (h : (construct E c x fill).2 = .ok o) (name : String) (i : ℕ) (hi : i < warmUp o.ind name) :
    o.getTiData.day name i = .nan := by
  obtain ⟨b, rfl⟩ : ∃ b, fill = .bool b := by
    unfold construct at h
    cases hc : c.check with
    | error e => rw [hc] at h; cases h
    | ok ind =>
      rw [hc] at h
      cases fill <;> first | exact ⟨_, rfl⟩ | cases h
  obtain ⟨ind, F, T, hc, -, ht, rfl⟩ := (construct_ok_iff _ _ _ _ _).1 h
  exact blank_calcTi E ind F T (check_pos c ind hc) ht name i hi

/-- The hypotheses of `C76_missing` on three and on four bars: the momentum oscillator of 3 days needs a fourth. -/
example : ((construct demoEnv (.chandeMomentumOscillator (.int 3)) (.frame (sample 4)) (.bool true)).2.map fun o =>
      (o.ind, warmUp o.ind "cmo", (List.range 4).map (o.getTiData.day "cmo"))) =
    .ok (.chandeMomentumOscillator 3, 3, [.nan, .nan, .nan, .fin (138889 / 2500)]) := by decide +kernel

/-- C76: so on data with no more rows than that the column has no value at all, although the data were accepted. -/
theorem C76_all_missing (E : Env) (c : Call) (x : InputArg) (fill : PyArg) (o : Obj)
    (h : (construct E c x fill).2 = .ok o) (name : String) (hn : (o.getTiData.col name).length ≤ warmUp o.ind name) :
    ∀ v ∈ o.getTiData.col name, v = .nan := by
  intro v hv
  obtain ⟨j, hj, rfl⟩ := List.getElem_of_mem hv
  have := C76_missing E c x fill o h name j (by omega)
  unfold Frame.day at this
  rwa [List.getD_eq_getElem _ _ hj] at this

/-- Three bars are accepted, and there is no value. -/
example : ((construct demoEnv (.chandeMomentumOscillator (.int 3)) (.frame (sample 3)) (.bool true)).2.map fun o =>
      ((o.getTiData.col "cmo").length, warmUp o.ind "cmo", o.getTiData.col "cmo")) = .ok (3, 3, [.nan, .nan, .nan]) := by
  decide +kernel

theorem rolling_short (w v m : ℕ) (agg : List ℚ → Val) (xs : List Val) (i : ℕ) (hw : i < w) (hv : i < v) :
    val (rolling w m agg xs) i = val (rolling v m agg xs) i := by
  by_cases hi : i < xs.length
  · rw [val_rolling _ _ _ _ _ hi, val_rolling _ _ _ _ _ hi]
    simp only [show min w (i + 1) = i + 1 by omega, show min v (i + 1) = i + 1 by omega, show i + 1 - w = 0 by omega,
      show i + 1 - v = 0 by omega]
  · rw [val_ge _ _ (by simpa [rolling] using hi), val_ge _ _ (by simpa [rolling] using hi)]

/-- The object built on a data frame, and its cuts, are blank at the beginning. -/
theorem warm_object (E : Env) (c : Call) (f : RawFrame) (fill : Bool) (o : Obj) (hw : WF f)
    (h : (construct E c (.frame f) (.bool fill)).2 = .ok o) :
    o.Sound ∧ o.ind.Pos ∧ (∀ name, Blank (warmUp o.ind name) (o.ti.col name)) ∧
    (∀ n, o.ind = .medianPrice n → Blank (n - 1) (o.input.col "close_ema")) ∧
    (o.ind = .ichimokuCloud → ∀ i < 9, val (o.ti.col "tenkan_sen") i = val (o.ti.col "kijun_sen") i) := by
  obtain ⟨hs, hc, -⟩ := construct_sound E c f fill o hw h
  obtain ⟨ind, F, T, hc', hv, ht, rfl⟩ := (construct_ok_iff _ _ _ _ _).1 h
  have hp := check_pos c ind hc'
  refine ⟨hs, hp, fun name => blank_calcTi E ind F T hp ht name, ?_, ?_⟩
  swap
  · rintro rfl i hi
    obtain rfl := Except.ok.inj ht
    show val (roundS 4 (Ind.IchimokuCloud.middle 9 F)) i = val (roundS 4 (Ind.IchimokuCloud.middle 26 F)) i
    rw [val_roundS, val_roundS]
    unfold Ind.IchimokuCloud.middle
    rw [val_map _ rfl, val_map _ rfl, val_addS, val_addS, rolling_short 9 26 1 aggMax _ i (by omega) (by omega),
      rolling_short 9 26 1 aggMin _ i (by omega) (by omega)]
  intro n hn
  dsimp only at hn
  subst hn
  obtain ⟨hg, hi⟩ := validated_good f _ _ _ hw hv
  have hnot : F.cols.find? (fun c => c.1 == "close_ema") = none := by
    rw [List.find?_eq_none]
    intro p hp
    have := hg.only _ (List.mem_map_of_mem hp)
    simp only [Ind.required, List.mem_cons, List.not_mem_nil, or_false] at this
    rcases this with h | h | h <;> simp [h]
  have hcol : ((Ind.medianPrice n).inputAfter F).col "close_ema" = ewm n n (F.col "close") := by
    simp only [Ind.inputAfter, Ind.MedianPrice.inputAfter, Frame.col, List.find?_append, hnot, Option.none_or]
    rfl
  show Blank (n - 1) (((Ind.medianPrice n).inputAfter F).col "close_ema")
  rw [hcol]
  have := (Blank.any (F.col "close")).ewm n (m := n) hp
  rwa [zero_add] at this

/-- C76: an object with fewer than `firstSignal` rows of indicator data neither buys nor sells. -/
theorem C76_signal (E : Env) (c : Call) (f : RawFrame) (fill : Bool) (o : Obj) (hw : WF f)
    (h : (construct E c (.frame f) (.bool fill)).2 = .ok o) (s : Signal) (hs : o.getTiSignal = .ok s)
    (hn : o.getTiData.len < firstSignal o.ind) : s = .hold := by
  obtain ⟨hso, hp, hb, hm, hc⟩ := warm_object E c f fill o hw h
  exact blank_signal o.ind o.input o.ti s hp hso.shaped hb
    (fun n ho => ⟨hm n ho, hso.shaped.fcol "close_ema" (by rw [ho]; simp [inputColumns])⟩) hc hn hs

/-- The hypotheses of `C76_signal`, and the first signal on the very next row. -/
example : WF (sample 6) ∧ WF (sample 7) ∧
    ((construct demoEnv (.tripleExponentialMovingAverage (.int 3)) (.frame (sample 6)) (.bool true)).2.map fun o =>
      (o.getTiData.len, firstSignal o.ind, o.getTiSignal)) = .ok (6, 7, .ok .hold) ∧
    ((construct demoEnv (.tripleExponentialMovingAverage (.int 3)) (.frame (sample 7)) (.bool true)).2.map fun o =>
      (o.getTiData.len, firstSignal o.ind, o.getTiSignal)) = .ok (7, 7, .ok .sell) :=
  ⟨sample_wf 6, sample_wf 7, by decide +kernel, by decide +kernel⟩

/-- Eleven days: high at first, then low, then quiet, then high. -/
def noCloud : RawFrame :=
  let low : List ℚ := [50, 1, 10, 10, 10, 10, 10, 10, 10, 10, 60]
  ⟨true, [1, 2, 3, 4, 5, 6, 7, 8, 9, 10, 11], [⟨.str "high", true, low.map fun x => .fin (x + 1)⟩,
    ⟨.str "low", true, low.map .fin⟩, ⟨.str "close", true, low.map .fin⟩]⟩

/-- C76: the first signal of an Ichimoku cloud can come before there is a cloud: on these 11 rows `senkou_a` and `senkou_b` are
missing on every day, and the signal, which should say that the prices are above the cloud, is buy. -/
theorem C76_ichimoku_witness (E : Env) :
    ((construct E .ichimokuCloud (.frame noCloud) (.bool true)).2.map fun o =>
      (o.getTiData.len, (List.range 11).all fun i => o.getTiData.day "senkou_a" i == .nan && o.getTiData.day "senkou_b" i == .nan,
        o.getTiSignal)) = .ok (11, true, .ok .buy) := by
  have hE : ∀ (x : InputArg), construct E .ichimokuCloud x (.bool true) = construct demoEnv .ichimokuCloud x (.bool true) :=
    fun _ => rfl
  rw [hE]
  decide +kernel

/-- C76: a simulation (dates all different) has the signal hold and no action on all days before that. -/
theorem C76_simulation (E : Env) (c : Call) (f : RawFrame) (fill : Bool) (o : Obj) (hw : WF f) (hd : f.idx.Nodup)
    (h : (construct E c (.frame f) (.bool fill)).2 = .ok o) (close : InputArg) (m fac : PyArg) (r : SimResult)
    (hr : (o.getTiSimulation close m fac).2.2 = .ok r) (i : ℕ) (hi : i + 1 < firstSignal o.ind) (row : Sim.Row Val)
    (hrow : r.rows[i]? = some (some row)) : row.signal = .hold ∧ row.action = .none := by
  obtain ⟨hso, hp, hb, hm, hc⟩ := warm_object E c f fill o hw h
  obtain ⟨-, -, hidx, -⟩ := construct_sound E c f fill o hw h
  obtain ⟨-, hlen, hrows, S, sig, -, hsig, st, hst, hstats, hget⟩ := C23_rounds E c f fill o hw h close m fac r hr
  have hil : i < f.idx.length := by
    rw [← hlen]; exact (List.getElem?_eq_some_iff.1 hrow).1
  have hi' := (hrows i hil).1 ⟨row, hrow⟩
  obtain ⟨row', h1, h2⟩ := hget i hi'
  rw [hrow] at h2
  obtain rfl := Option.some.inj (Option.some.inj h2)
  have hlt : o.input.idx.Pairwise (· < ·) := by
    have hn : o.input.idx.Nodup := by rw [hidx]; exact (sortIdx_perm _).nodup_iff.2 hd
    exact (hso.sorted.and hn).imp fun h => lt_of_le_of_ne h.1 h.2
  have hhold : sig i = .hold := by
    obtain ⟨o', c1, c2⟩ := hsig i hi'
    obtain ⟨hs', hind, -⟩ := cut_sound o o' hso i c1
    obtain ⟨d, d1, d2, d3⟩ := cut_eq o hso i hi'
    rw [d3] at c1
    have c1' := Option.some.inj c1
    have hrt : rowsUpTo d o.ti.idx = i + 1 := by
      refine rowsUpTo_getElem _ ?_ i d d2
      rw [hso.dates]
      exact hlt.sublist (List.take_sublist _ _)
    subst c1'
    refine blank_signal _ _ _ (sig i) hp hs'.shaped (fun name => ?_) (fun n ho => ⟨?_, ?_⟩) (fun ho j hj => ?_) ?_ c2
    · rw [Frame.take_col]; exact (hb name).take _
    · rw [Frame.take_col]; exact (hm n ho).take _
    · exact hs'.shaped.fcol "close_ema" (by dsimp only at ho ⊢; rw [ho]; simp [inputColumns])
    · rw [Frame.take_col, Frame.take_col]
      by_cases hj' : j < rowsUpTo d o.ti.idx
      · rw [val_take _ _ _ hj', val_take _ _ _ hj', hc ho j hj]
      · rw [val_ge _ _ (by rw [List.length_take]; omega), val_ge _ _ (by rw [List.length_take]; omega)]
    · simp only [Frame.take_len, hrt]
      omega
  subst hst
  have hday := Sim.row_day _ _ _ _ h1
  have hs1 : row.signal = .hold := by
    rw [List.getElem?_map, List.getElem?_range hi'] at hday
    have := congrArg Prod.snd (Option.some.inj hday)
    exact this.symm.trans hhold
  obtain ⟨a1, a2⟩ := action_matches _ _ _ _ h1
  refine ⟨hs1, ?_⟩
  cases ha : row.action
  · rfl
  · have := a2 ha; rw [hs1] at this; simp at this
  · have := a1 ha; rw [hs1] at this; simp at this

/-- The hypotheses of `C76_simulation`: rows 0 to 5 hold, and row 6 is the first with a signal. -/
example : WF (sample 7) ∧ (sample 7).idx.Nodup ∧
    ((construct demoEnv (.tripleExponentialMovingAverage (.int 3)) (.frame (sample 7)) (.bool true)).2.map fun o =>
      (o.getTiSimulation (.frame (sample 7)) .none (.float (.fin 1))).2.2.map fun r =>
        r.rows.map (Option.map fun x => (x.signal, x.action))) =
      .ok (.ok (List.replicate 6 (some (.hold, .none)) ++ [some (.sell, .short)])) :=
  ⟨sample_wf 7, by decide +kernel, by decide +kernel⟩

variable {E : Env} {c : Call} {f : RawFrame} {fill : Bool} {o : Obj}

theorem since_number {k i : ℕ} {v : Val} (h : k ≤ i) (hv : ∃ q, v = .fin q) : ∃ q, since k i v = .fin q := by
  unfold since; rw [if_neg (by omega)]; exact hv

theorem to4_number (q : ℚ) : ∃ r, to4 q = .fin r := ⟨_, rfl⟩

theorem forecast_object (hB : BuiltOn E c f fill o AnyPrices) (n : ℕ) (hn : 2 ≤ n) (ho : o.ind = .movingAverage n .timeSeries) :
    ∃ o', BuiltOn E (.timeSeriesForecast (.int n)) f fill o' AnyPrices ∧ o'.ind = .timeSeriesForecast n := by
  obtain ⟨ind, F, T, hc, hv, ht, rfl⟩ := (construct_ok_iff _ _ _ _ _).1 hB.ok
  dsimp only at ho
  subst ho
  replace ht : Ind.MovingAverage.calcTi n .timeSeries F = .ok _ := ht
  have h2 : ∃ T', (Ind.timeSeriesForecast n).calcTi E F = .ok T' := by
    show ∃ T', Ind.TimeSeriesForecast.calcTi n F = .ok T'
    unfold Ind.MovingAverage.calcTi at ht
    unfold Ind.TimeSeriesForecast.calcTi
    by_cases hlt : F.len < n
    · simp [hlt, bind, Except.bind, throw, throwThe, MonadExceptOf.throw] at ht
    cases hf : Ind.TimeSeriesForecast.forecast n F with
    | error e => simp [hlt, hf, bind, Except.bind, pure, Except.pure] at ht
    | ok t => simp [hlt, bind, Except.bind, pure, Except.pure]
  obtain ⟨T', hT'⟩ := h2
  have hck : (Call.timeSeriesForecast (.int n)).check = .ok (.timeSeriesForecast n) := by
    show (do let p ← intAbove 1 (.int n); return Ind.timeSeriesForecast p : Except Err Ind) = _
    simp only [intAbove, PyArg.asInt]
    rw [if_pos (by omega)]
    rfl
  exact ⟨⟨.timeSeriesForecast n, F, T'⟩, ⟨hB.wf, (construct_ok_iff _ _ _ _ _).2 ⟨_, F, T', hck, hv, hT', rfl⟩, hB.rows⟩, rfl⟩

/-- C76: the numbers of days are exact. With numbers in the data these columns are numbers on every day from `warmUp` on. -/
theorem C76_numbers (hB : BuiltOn E c f fill o AnyPrices) (hk : alwaysNumbers o.ind) (name : String)
    (hn : name ∈ columns o.ind) (i : ℕ) (h1 : warmUp o.ind name ≤ i) (h2 : i < o.getTiData.len) :
    ∃ q, o.getTiData.day name i = .fin q := by
  obtain ⟨-, -, -, hlen, -⟩ := construct_sound E c f fill o hB.wf hB.ok
  obtain ⟨-, -, -, -, -, hp, -⟩ := hB.cols
  replace h2 : i < rowsOut f.idx.length o.ind := by rw [← hlen]; exact h2
  have hi : i < f.idx.length := lt_of_lt_of_le h2 (rowsOut_le _ _)
  have hls : ∀ n, 2 ≤ n → n ≤ i + 1 → "close" ∈ o.ind.required → ∃ a b, LeastSquares f n i a b := by
    intro n hn1 hn2 hr
    obtain ⟨a, b, h, -⟩ := C42_one_line f n i hn1 hn2 fun j hj => by
      obtain ⟨ind, F, T, -, hv, -, e⟩ := (construct_ok_iff _ _ _ _ _).1 hB.ok
      have er : o.ind.required = ind.required := by rw [e]
      have hrow := hB.rows
      rw [er] at hr hrow
      obtain ⟨x, hx, -⟩ := eachRow_validated f _ _ _ fill F hB.wf hv (fun n hn => hn) hrow j (by
        have := (validated_good f _ _ _ hB.wf hv).2
        unfold Frame.len
        rw [this, (sortIdx_perm _).length_eq]
        omega)
      refine ⟨x "close", ?_⟩
      rw [← validated_day f _ _ fill F hB.wf hv hrow "close" hr j]
      exact hx "close" hr
    exact ⟨a, b, h⟩
  have hbs : ∀ (g : ℕ → ℚ) n, 2 ≤ n → n ≤ i + 1 → ∃ b, BestSlope g n i b := by
    intro g n hn1 hn2
    obtain ⟨a, b, h, -⟩ := C61_one_line g n i hn1 hn2
    exact ⟨b, a, h⟩
  cases ho : o.ind <;> rw [ho] at hk hn h1 h2 hp hls <;> simp only [alwaysNumbers] at hk <;>
    simp only [columns, List.mem_cons, List.not_mem_nil, or_false] at hn <;> simp only [Ind.Pos] at hp
  case averageTrueRange => subst hn; rw [C57_average_true_range hB ho i hi]; exact since_number h1 (to4_number _)
  case bollingerBands n s =>
    obtain ⟨q, rfl⟩ := hk
    obtain ⟨e1, e2, e3⟩ := C54_bollinger hB n q ho i hi
    rcases hn with rfl | rfl | rfl
    · rw [e1]; exact since_number h1 (to4_number _)
    · rw [e2]; exact since_number h1 (to4_number _)
    · rw [e3]; exact since_number h1 (to4_number _)
  case detrendedPriceOscillator n =>
    subst hn
    simp only [rowsOut] at h2
    rw [(C56_detrended hB n ho i (by omega)).1]; exact since_number h1 (to4_number _)
  case doubleExponentialMovingAverage n =>
    subst hn; rw [C52_double_exponential hB n ho i hi]; exact since_number h1 (to4_number _)
  case envelopes n s =>
    obtain ⟨e1, e2⟩ := C54_envelopes hB n s ho i hi
    rcases hn with rfl | rfl
    · rw [e1]; exact since_number h1 (to4_number _)
    · rw [e2]; exact since_number h1 (to4_number _)
  case fibonacciRetracement =>
    have e := fun level => C54_fibonacci hB ho i hi name level
    rcases hn with rfl | rfl | rfl | rfl | rfl | rfl
    · rw [e 0 (by simp)]; exact to4_number _
    · rw [e (236 / 1000) (by simp)]; exact to4_number _
    · rw [e (382 / 1000) (by simp)]; exact to4_number _
    · rw [e (1 / 2) (by simp)]; exact to4_number _
    · rw [e (618 / 1000) (by simp)]; exact to4_number _
    · rw [e 1 (by simp)]; exact to4_number _
  case ichimokuCloud =>
    obtain ⟨e1, e2, e3, e4⟩ := C56_ichimoku hB ho i hi
    rcases hn with rfl | rfl | rfl | rfl
    · rw [e1]; exact to4_number _
    · rw [e2]; exact to4_number _
    · rw [e3]; exact since_number h1 (to4_number _)
    · rw [e4]; exact since_number h1 (to4_number _)
  case linearRegressionIndicator n =>
    subst hn
    simp only [warmUp] at h1
    obtain ⟨a, b, h⟩ := hls n hp (by omega) (by simp [Ind.required])
    exact ⟨_, C42_end_value E c f fill o hB.wf hB.ok hB.rows n ho hp i (by omega) hi a b h⟩
  case linearRegressionSlope n =>
    subst hn
    simp only [warmUp] at h1
    obtain ⟨a, b, h⟩ := hls n hk (by omega) (by simp [Ind.required])
    exact ⟨_, C42_slope E c f fill o hB.wf hB.ok hB.rows n ho hk i (by omega) hi a b h⟩
  case medianPrice n => subst hn; rw [C56_median_price hB n ho i hi]; exact to4_number _
  case movingAverage n t =>
    cases t
    case simple =>
      simp only [columns, List.mem_cons, List.not_mem_nil, or_false] at hn
      subst hn; rw [C52_simple hB n ho i hi]; exact since_number h1 (to4_number _)
    case exponential =>
      simp only [columns, List.mem_cons, List.not_mem_nil, or_false] at hn
      subst hn; rw [C52_exponential hB n ho i hi]; exact since_number h1 (to4_number _)
    case triangular =>
      simp only [columns, List.mem_cons, List.not_mem_nil, or_false] at hn
      subst hn; rw [C52_triangular hB n ho i hi]; exact since_number h1 (to4_number _)
    case variableType => exact absurd rfl hk
    case timeSeries =>
      simp only [columns, List.mem_cons, List.not_mem_nil, or_false] at hn
      subst hn
      have hp2 := hp.2 rfl
      simp only [warmUp] at h1
      obtain ⟨o', hB', ho'⟩ := forecast_object hB n hp2 ho
      rw [C65_time_series hB.ok hB'.ok n ho ho' i]
      obtain ⟨a, b, h⟩ := hls n hp2 (by omega) (by simp [Ind.required])
      exact ⟨_, (C42_forecast E _ f fill o' hB'.wf hB'.ok hB'.rows n ho' hp2 i (by omega) hi a b h).1⟩
  case movingAverageConvergenceDivergence =>
    obtain ⟨e1, e2⟩ := C53_macd hB ho i hi
    rcases hn with rfl | rfl
    · rw [e1]; exact since_number h1 (to4_number _)
    · rw [e2]; exact since_number h1 (to4_number _)
  case onBalanceVolume => subst hn; exact ⟨_, C43_on_balance_volume E c f fill o hB.wf hB.ok hB.rows ho i hi⟩
  case parabolicSAR =>
    subst hn
    obtain ⟨D, -, h⟩ := C46_run E c f fill o hB.wf hB.ok hB.rows ho
    exact ⟨_, h i hi⟩
  case priceChannel n =>
    obtain ⟨e1, e2⟩ := C54_price_channel hB n ho i hi
    rcases hn with rfl | rfl
    · rw [e1]; exact since_number h1 (to4_number _)
    · rw [e2]; exact since_number h1 (to4_number _)
  case projectionBands n =>
    have hni : n ≤ i + 1 := by simp only [warmUp] at h1; omega
    obtain ⟨bh, hbh⟩ := hbs (high f) n hp hni
    obtain ⟨bl, hbl⟩ := hbs (low f) n hp hni
    obtain ⟨e1, e2⟩ := C61_projection_bands hB n ho i hi bh bl hbh hbl
    rcases hn with rfl | rfl
    · rw [e1]; exact since_number h1 (to4_number _)
    · rw [e2]; exact since_number h1 (to4_number _)
  case qstick n => subst hn; rw [C55_qstick hB n ho i hi]; exact since_number h1 (to4_number _)
  case rangeIndicator n m => subst hn; rw [C58_range_indicator hB n m ho i hi]; exact since_number h1 (to4_number _)
  case standardDeviation n => subst hn; rw [C54_standard_deviation hB n ho i hi]; exact since_number h1 (to4_number _)
  case timeSeriesForecast n =>
    subst hn
    simp only [warmUp] at h1
    obtain ⟨a, b, h⟩ := hls n hp (by omega) (by simp [Ind.required])
    exact ⟨_, (C42_forecast E c f fill o hB.wf hB.ok hB.rows n ho hp i (by omega) hi a b h).1⟩
  case tripleExponentialMovingAverage n =>
    subst hn; rw [C52_triple_exponential hB n ho i hi]; exact since_number h1 (to4_number _)
  case typicalPrice n => subst hn; rw [C56_typical_price hB n ho i hi]; exact to4_number _
  case volumeOscillator a b => subst hn; rw [C53_volume_oscillator hB a b ho i hi]; exact since_number h1 (to4_number _)
  case weightedClose => subst hn; rw [C56_weighted_close hB ho i hi]; exact to4_number _
  case wildersSmoothing n => subst hn; rw [C52_wilders_smoothing hB n ho i hi]; exact since_number h1 (to4_number _)
  case williamsAccumulationDistribution => subst hn; rw [C59_williams hB ho i hi]; exact since_number h1 (to4_number _)

/-- The hypotheses of `C76_numbers` on the sample: the value of the first day. -/
example : (∃ o, BuiltOn demoEnv (.tripleExponentialMovingAverage (.int 2)) (sample 5) true o AnyPrices ∧
      o.ind = .tripleExponentialMovingAverage 2 ∧ o.getTiData.day "tema" 3 = .fin (595967 / 10000)) ∧
    alwaysNumbers (.tripleExponentialMovingAverage 2) ∧ warmUp (.tripleExponentialMovingAverage 2) "tema" = 3 :=
  ⟨sample_any 5 "tema" 3 _ (by decide +kernel) (by decide), trivial, rfl⟩

theorem quotient_number (a b : ℚ) (hb : b ≠ 0) : ∃ q, round4 (quotient a b) = .fin q := by
  unfold quotient; rw [if_pos hb]; exact ⟨_, rfl⟩

theorem highest_ge (w : ℕ) (g : ℕ → ℚ) (i : ℕ) : g i ≤ highest w g i := by
  unfold highest
  generalize List.range w = l
  generalize hm : g i = m
  have : ∀ (l : List ℕ) (m : ℚ), m ≤ l.foldl (fun m t => max m (g (i - t))) m := by
    intro l
    induction l with
    | nil => exact fun m => le_refl m
    | cons t l ih => exact fun m => le_trans (le_max_left _ _) (ih _)
  exact this l m

theorem lowest_le (w : ℕ) (g : ℕ → ℚ) (i : ℕ) : lowest w g i ≤ g i := by
  unfold lowest
  generalize List.range w = l
  generalize hm : g i = m
  have : ∀ (l : List ℕ) (m : ℚ), l.foldl (fun m t => min m (g (i - t))) m ≤ m := by
    intro l
    induction l with
    | nil => exact fun m => le_refl m
    | cons t l ih => exact fun m => le_trans (ih _) (min_le_left _ _)
  exact this l m

theorem sumLast_pos {w : ℕ} {g : ℕ → ℚ} {i : ℕ} (hw : 1 ≤ w) (h : ∀ j ≤ i, 0 < g j) : 0 < sumLast w g i :=
  Finset.sum_pos (fun t _ => h _ (Nat.sub_le _ _)) ⟨0, Finset.mem_range.2 (by omega)⟩

theorem meanLast_pos {w : ℕ} {g : ℕ → ℚ} {i : ℕ} (hw : 1 ≤ w) (h : ∀ j ≤ i, 0 < g j) : 0 < meanLast w g i :=
  div_pos (sumLast_pos hw h) (by exact_mod_cast hw)

theorem smoothed_pos {a seed : ℚ} {s : ℕ} {g : ℕ → ℚ} (ha : 0 ≤ a) (ha' : a ≤ 1) (hs : 0 < seed) (i : ℕ)
    (h : ∀ j ≤ i, 0 < g j) : 0 < smoothed a s seed g i := by
  induction i with
  | zero => exact hs
  | succ i ih =>
    rw [smoothed]
    split_ifs
    · exact hs
    · have h1 := ih fun j hj => h j (by omega)
      have h2 := h (i + 1) le_rfl
      show 0 < smoothed a s seed g i + a * (g (i + 1) - smoothed a s seed g i)
      rcases eq_or_lt_of_le ha' with rfl | hlt
      · linarith
      · nlinarith [mul_pos (sub_pos.2 hlt) h1, mul_nonneg ha h2.le]

theorem ema_pos' {n s : ℕ} {g : ℕ → ℚ} (hn : 1 ≤ n) (i : ℕ) (hs : 0 < g s) (h : ∀ j ≤ i, 0 < g j) : 0 < ema n s g i := by
  have : (1 : ℚ) ≤ n := by exact_mod_cast hn
  refine smoothed_pos (by positivity) ?_ hs i h
  rw [div_le_one (by linarith)]
  linarith

theorem ema_pos {n s : ℕ} {g : ℕ → ℚ} (hn : 1 ≤ n) (i : ℕ) (hs : s ≤ i) (h : ∀ j ≤ i, 0 < g j) : 0 < ema n s g i :=
  ema_pos' hn i (h s hs) h

theorem running_pos {s : ℕ} {seed : ℚ} {step : ℚ → ℚ → ℚ} {g : ℕ → ℚ} (hs : 0 < seed)
    (hstep : ∀ b x, 0 < b → 0 < x → 0 < step b x) (i : ℕ) (h : ∀ j ≤ i, 0 < g j) : 0 < running s seed step g i := by
  induction i with
  | zero => exact hs
  | succ i ih =>
    rw [running]
    split_ifs
    · exact hs
    · exact hstep _ _ (ih fun j hj => h j (by omega)) (h (i + 1) le_rfl)

/-- What an ordinary day means for the columns the indicator needs. -/
theorem ordinary_days (hB : BuiltOn E c f fill o Ordinary) : BuiltOn E c f fill o AnyPrices ∧
    ∀ j < f.idx.length,
      ("close" ∈ o.ind.required → "low" ∈ o.ind.required → 0 < close f j) ∧
      ("low" ∈ o.ind.required → "high" ∈ o.ind.required → low f j < high f j) ∧
      ("volume" ∈ o.ind.required → 0 < volume f j) ∧ ("close" ∈ o.ind.required → 0 < close f j) := by
  refine ⟨⟨hB.wf, hB.ok, fun j hj => ?_⟩, ?_⟩
  · obtain ⟨x, hx, -⟩ := hB.rows j hj
    exact ⟨x, hx, trivial⟩
  · obtain ⟨F, hl, -, hx, -⟩ := hB.cols
    intro j hj
    obtain ⟨x, hx, p1, p2, p3, p4, p5⟩ := hx j (by omega)
    have hc : "close" ∈ o.ind.required → 0 < close f j := fun h => by
      show 0 < price f "close" j
      rw [← hx _ h]; linarith
    refine ⟨fun h _ => hc h, fun h h' => ?_, fun h => ?_, hc⟩
    · show price f "low" j < price f "high" j
      rw [← hx _ h, ← hx _ h']; exact p2
    · show 0 < price f "volume" j
      rw [← hx _ h]; exact p5

/-- C76: the same for the columns that divide by prices, volumes or ranges, if every day of the data is ordinary. -/
theorem C76_numbers_ordinary (hB : BuiltOn E c f fill o Ordinary) (name : String) (hk : numbersIfOrdinary o.ind name)
    (hn : name ∈ columns o.ind) (i : ℕ) (h1 : warmUp o.ind name ≤ i) (h2 : i < o.getTiData.len) :
    ∃ q, o.getTiData.day name i = .fin q := by
  obtain ⟨-, -, -, hlen, -⟩ := construct_sound E c f fill o hB.wf hB.ok
  obtain ⟨-, -, -, -, -, hp, -⟩ := hB.cols
  obtain ⟨hA, hord⟩ := ordinary_days hB
  replace h2 : i < rowsOut f.idx.length o.ind := by rw [← hlen]; exact h2
  have hi : i < f.idx.length := lt_of_lt_of_le h2 (rowsOut_le _ _)
  have hcl : "close" ∈ o.ind.required → ∀ j ≤ i, 0 < close f j := fun h j hj => (hord j (by omega)).2.2.2 h
  have hvo : "volume" ∈ o.ind.required → ∀ j ≤ i, 0 < volume f j := fun h j hj => (hord j (by omega)).2.2.1 h
  have hra : "low" ∈ o.ind.required → "high" ∈ o.ind.required → ∀ j ≤ i, 0 < dayRange f j :=
    fun h h' j hj => sub_pos.2 ((hord j (by omega)).2.1 h h')
  have hrh : "low" ∈ o.ind.required → "high" ∈ o.ind.required → ∀ w, ∀ j ≤ i, 0 < rangeHeight f w j := fun h h' w j hj => by
    have h3 := highest_ge w (high f) j
    have h4 := lowest_le w (low f) j
    have h5 := hra h h' j hj
    unfold dayRange at h5
    unfold rangeHeight
    linarith
  have hne : "low" ∈ o.ind.required → "high" ∈ o.ind.required → ∀ j < f.idx.length, high f j ≠ low f j :=
    fun h h' j hj => ((hord j hj).2.1 h h').ne'
  have hrows := hB.rows
  have hnz : "close" ∈ o.ind.required → f.EachRow o.ind.required NonzeroClose := fun h j hj => by
    obtain ⟨x, hx, p1, p2, p3, -⟩ := hB.rows j hj
    exact ⟨x, hx, (lt_of_lt_of_le p1 p3).ne'⟩
  have hok := hB.ok
  have hwf := hB.wf
  cases ho : o.ind <;> rw [ho] at hk hn h1 h2 hp hcl hvo hra hrh hne hnz <;> simp only [numbersIfOrdinary] at hk <;>
    simp only [columns, List.mem_cons, List.not_mem_nil, or_false] at hn <;> simp only [Ind.Pos] at hp <;>
    simp only [Ind.required, List.mem_cons, List.not_mem_nil, or_false, or_true, true_or, forall_const, String.reduceEq,
      forall_true_left, false_or, forall_false, or_self] at hcl hvo hra hrh hne
  case accumulationDistributionLine =>
    subst hn; exact ⟨_, C59_accumulation_distribution hA ho hne i hi⟩
  case chaikinMoneyFlow n =>
    subst hn
    rw [C59_chaikin_money_flow hA n ho i hi (fun j hj _ => hne j (by omega))]
    exact since_number h1 (quotient_number _ _ (sumLast_pos hp hvo).ne')
  case chaikinOscillator =>
    subst hn; rw [C59_chaikin_oscillator hA ho hne i hi]; exact since_number h1 (to4_number _)
  case directionalMovementIndex =>
    have htr : ∀ j ≤ i, 0 < trueRange f j := fun j hj => by
      have h := hra j hj
      unfold dayRange at h
      unfold trueRange
      split_ifs with h0
      · rw [h0] at h; exact h
      · exact lt_of_lt_of_le h (le_trans (le_max_left _ _) (le_max_left _ _))
    have h14 : 14 ≤ i := by rcases hk with rfl | rfl <;> exact h1
    have ht : 0 < total14 (trueRange f) i := running_pos
      (Finset.sum_pos (fun t ht => htr _ (by have := Finset.mem_range.1 ht; omega)) ⟨0, by simp⟩)
      (fun b x hb hx => by linarith [div_le_self hb.le (show (1 : ℚ) ≤ 14 by norm_num)]) i htr
    obtain ⟨e1, e2⟩ := C57_directional_lines hA ho i hi
    rcases hk with rfl | rfl
    · rw [e1]; exact since_number h14 (quotient_number _ _ ht.ne')
    · rw [e2]; exact since_number h14 (quotient_number _ _ ht.ne')
  case easeOfMovement n =>
    rcases hn with rfl | rfl
    · rw [C59_ease_of_movement hA n ho i hi (hvo i le_rfl).ne']; exact since_number h1 (to4_number _)
    · rw [C59_ease_of_movement_mean hA n ho i hi (fun j hj _ => (hvo j hj).ne')]; exact since_number h1 (to4_number _)
  case forecastOscillator n =>
    subst hn
    simp only [warmUp] at h1
    obtain ⟨a, b, h, -⟩ := C61_one_line (close f) n (i - 1) hp (by omega)
    rw [C61_forecast_oscillator hA n ho i hi a b h]
    exact since_number h1 (quotient_number _ _ (hcl i le_rfl).ne')
  case klingerOscillator =>
    subst hn
    have hrun : ∀ j, j ≤ i → 1 ≤ j → 0 < rangeRun f j := by
      intro j
      induction j with
      | zero => omega
      | succ j ih =>
        intro hj _
        have h3 := hra (j + 1) hj
        have h4 := hra j (by omega)
        rw [rangeRun]
        split_ifs with h0
        · have := ih (by omega) (by have := h0.1; omega)
          linarith
        · linarith
    rw [C59_klinger hA ho i hi (fun j hj hj1 => (hrun j hj hj1).ne')]
    exact since_number h1 (to4_number _)
  case marketFacilitationIndex =>
    subst hn; rw [C59_market_facilitation hA ho i hi]
    unfold quotient; rw [if_pos (hvo i le_rfl).ne']; exact ⟨_, rfl⟩
  case massIndex =>
    subst hn
    have h3 : ∀ j ≤ i, 0 < rangeAverage f j := fun j hj => ema_pos (by norm_num) j (by omega) fun t ht => hra t (by omega)
    rw [C58_mass_index hA ho i hi (fun j hj _ h16 => (ema_pos (by norm_num) j (by omega) fun t ht => h3 t (by omega)).ne')]
    exact since_number h1 (to4_number _)
  case momentum n =>
    subst hn; rw [C53_momentum hA n ho i hi]; exact since_number h1 (quotient_number _ _ (hcl _ (Nat.sub_le _ _)).ne')
  case negativeVolumeIndex =>
    subst hn
    exact ⟨_, C43_negative_volume_index E c f fill o hwf hok (by rw [ho]; exact hnz (by simp [Ind.required])) ho i hi⟩
  case performance b target =>
    obtain ⟨e1, e2⟩ := C53_performance hA b target ho i hi
    have e3 := quotient_number (close f i - close f 0) (close f 0) (hcl 0 (by omega)).ne'
    cases b
    · simp only [columns, List.mem_cons, List.not_mem_nil, or_false] at hn
      rcases hn with rfl | rfl
      · rw [e1]; exact e3
      · rcases hk with hk | ⟨q, rfl⟩
        · simp at hk
        · exact ⟨_, e2⟩
    · simp only [columns, List.mem_cons, List.not_mem_nil, or_false] at hn
      rcases hn with rfl | rfl
      · rw [e1]; exact e3
      · rcases hk with hk | ⟨q, rfl⟩
        · simp at hk
        · exact ⟨_, e2⟩
  case positiveVolumeIndex =>
    subst hn
    exact ⟨_, C43_positive_volume_index E c f fill o hwf hok (by rw [ho]; exact hnz (by simp [Ind.required])) ho i hi⟩
  case priceAndVolumeTrend =>
    subst hn
    exact ⟨_, C43_price_and_volume_trend E c f fill o hwf hok (by rw [ho]; exact hnz (by simp [Ind.required])) ho i hi⟩
  case priceOscillator long short =>
    subst hn; rw [C53_price_oscillator hA long short ho i hi]
    exact since_number h1 (quotient_number _ _ (meanLast_pos (by omega) hcl).ne')
  case priceRateOfChange n =>
    subst hn; rw [C53_price_rate_of_change hA n ho i hi]
    exact since_number h1 (quotient_number _ _ (hcl _ (Nat.sub_le _ _)).ne')
  case stochasticMomentumIndex n s d =>
    subst hn; rw [C55_stochastic_momentum hA n s d ho i hi]
    simp only [warmUp] at h1
    refine since_number h1 (quotient_number _ _ (div_pos (?_ : (0 : ℚ) < _) (by norm_num)).ne')
    refine ema_pos (by omega) i (by omega) fun j hj => ?_
    exact ema_pos' (by omega) j (hrh n _ (by omega)) fun t ht => hrh n t (by omega)
  case stochasticOscillator k s d simple =>
    rcases hn with rfl | rfl
    · rw [C55_stochastic_k hA k s d simple ho i hi]
      exact since_number h1 (quotient_number _ _ (sumLast_pos (by omega) (hrh k)).ne')
    · obtain rfl := hk rfl
      rw [C55_stochastic_d hA k s d ho i hi fun j hj _ _ => (sumLast_pos (by omega) fun t ht => hrh k t (by omega)).ne']
      exact since_number h1 (to4_number _)
  case swingIndex =>
    subst hn; rw [C58_swing_index hA ho i hi]
    have h3 : swingRange f i ≠ 0 := by
      have h := hra i le_rfl
      unfold dayRange at h
      unfold swingRange
      have h4 := le_max_right (swingReach f i) (high f i - low f i)
      have h5 := abs_nonneg (close f (i - 1) - opening f (i - 1))
      have : 0 < max (swingReach f i) (high f i - low f i) + |close f (i - 1) - opening f (i - 1)| / 4 := by linarith
      exact this.ne'
    rw [if_neg h3]
    exact since_number h1 (to4_number _)
  case ultimateOscillator =>
    subst hn
    have h3 : ∀ j ≤ i, 0 < span f j := fun j hj => by
      have h := hra j hj
      unfold dayRange at h
      have h4 := le_max_left (high f j) (close f (j - 1))
      have h5 := min_le_left (low f j) (close f (j - 1))
      unfold span trueHigh trueLow
      linarith
    rw [C58_ultimate hA ho i hi fun w hw => (sumLast_pos (by
      simp only [List.mem_cons, List.not_mem_nil, or_false] at hw; omega) h3).ne']
    exact since_number h1 (to4_number _)
  case volatilityChaikins n m =>
    subst hn; rw [C58_chaikin_volatility hA n m ho i hi]
    exact since_number h1 (quotient_number _ _ (ema_pos (by omega) _ (by omega) fun j hj => hra j (by omega)).ne')
  case volumeRateOfChange n =>
    subst hn; rw [C53_volume_rate_of_change hA n ho i hi]
    exact since_number h1 (quotient_number _ _ (hvo _ (Nat.sub_le _ _)).ne')
  case williamsR n =>
    subst hn; rw [C55_williams_r hA n ho i hi]
    exact since_number h1 (quotient_number _ _ (hrh n i le_rfl).ne')

/-- The hypotheses of `C76_numbers_ordinary` on the sample. -/
example : (∃ o, BuiltOn demoEnv (.priceRateOfChange (.int 2)) (sample 5) true o Ordinary ∧ o.ind = .priceRateOfChange 2 ∧
      o.getTiData.day "prc" 2 = .fin 6) ∧ numbersIfOrdinary (.priceRateOfChange 2) "prc" ∧
      warmUp (.priceRateOfChange 2) "prc" = 2 :=
  ⟨sample_built 5 "prc" 2 _ (by decide +kernel) (by decide) fun x h => ⟨h.2.1, h.2.2.1, h.1.2.2.1, h.1.2.2.2.1, h.2.2.2⟩,
    trivial, rfl⟩

end TTI.Props
