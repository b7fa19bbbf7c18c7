import Verif.Lemmas.FloatFlat
import Verif.Lemmas.FloatSample

set_option autoImplicit false

/-!
# Days without a change leave no rounding noise: C90

The running sums of pandas carry rounding errors of earlier days. On a window of equal values they do not show: pandas then
answers with the value itself. The statements need nothing of the arithmetic `A` but that zero is not rounded.
-/

namespace TTI.Props

open Spec Flt

variable {A : Arith} {E : Env} {c : Call} {f : RawFrame} {fill : Bool} {o : Obj}

/-! ## Windows -/

/-- C90: the mean of a window of equal numbers is that number, whatever came before. -/
theorem C90_window_mean (A : Arith) (before : List Val) (w m : ℕ) (hw : 1 ≤ w) (hm : m ≤ w) (v : ℚ) :
    (A.rollMean w m (before ++ List.replicate w (.fin v))).getLast? = some (.fin v) := by
  have hl : (before ++ List.replicate w (Val.fin v)).length = before.length + w := by simp
  have h := flat_mean A w m hw hm (before ++ List.replicate w (.fin v)) v (before.length + w - 1) (by omega) (by omega) fun t ht => by
    unfold val
    rw [List.getD_eq_getElem _ _ (by omega), List.getElem_append_right (by omega), List.getElem_replicate]
  have hl2 : (A.rollMean w m (before ++ List.replicate w (Val.fin v))).length = before.length + w := by simp [Arith.rollMean]
  rw [List.getLast?_eq_getElem?, hl2, val_getElem? _ _ (by omega), h]

/-- C90: the sum of a window of equal numbers is the rounded multiple of that number, whatever came before. -/
theorem C90_window_sum (A : Arith) (before : List Val) (w m : ℕ) (hw : 1 ≤ w) (hm : m ≤ w) (v : ℚ) :
    (A.rollSum w m (before ++ List.replicate w (.fin v))).getLast? = some (.fin (A.fl (v * w))) := by
  have hl : (before ++ List.replicate w (Val.fin v)).length = before.length + w := by simp
  have h := flat_sum A w m hw hm (before ++ List.replicate w (.fin v)) v (before.length + w - 1) (by omega) (by omega) fun t ht => by
    unfold val
    rw [List.getD_eq_getElem _ _ (by omega), List.getElem_append_right (by omega), List.getElem_replicate]
  have hl2 : (A.rollSum w m (before ++ List.replicate w (Val.fin v))).length = before.length + w := by simp [Arith.rollSum]
  rw [List.getLast?_eq_getElem?, hl2, val_getElem? _ _ (by omega), h]

/-- C90: a mean does not have the wrong sign: of numbers that are not negative it is not negative, of negative numbers it is not
positive, whatever came before. -/
theorem C90_mean_sign (A : Arith) (before win : List Val) (hne : win ≠ []) (m : ℕ) (q : ℚ)
    (hq : (A.rollMean win.length m (before ++ win)).getLast? = some (.fin q)) :
    ((∀ x, Val.fin x ∈ win → 0 ≤ x) → 0 ≤ q) ∧ ((∀ x, Val.fin x ∈ win → x < 0) → q ≤ 0) := by
  have hl2 : (A.rollMean win.length m (before ++ win)).length = before.length + win.length := by simp [Arith.rollMean]
  rcases Nat.eq_zero_or_pos (before.length + win.length) with h0 | hp
  · rw [List.length_eq_zero_iff.1 (hl2.trans h0)] at hq
    simp at hq
  rw [List.getLast?_eq_getElem?, hl2, val_getElem? _ _ (by omega), Option.some.injEq] at hq
  have hw : 1 ≤ win.length := List.length_pos_iff.2 hne
  have hwin : inWindow win.length (before ++ win) (before.length + win.length - 1) = finVals win := by
    unfold inWindow window
    rw [show before.length + win.length - 1 + 1 = (before ++ win).length by simp; omega, List.take_length]
    simp
  obtain ⟨h1, h2⟩ := mean_sign A win.length m hw (before ++ win) (before.length + win.length - 1) (by simp; omega) q hq
  rw [hwin] at h1 h2
  have mem : ∀ x, x ∈ finVals win → Val.fin x ∈ win := by
    intro x hx
    unfold finVals at hx
    rw [List.mem_filterMap] at hx
    obtain ⟨a, ha, hb⟩ := hx
    cases a <;> simp_all
  exact ⟨fun h => h1 fun x hx => h x (mem x hx), fun h => h2 fun x hx => h x (mem x hx)⟩

/-- In float64: after rows of very different size the window still answers exactly. -/
example : doubleArith.rollMean 2 2 [.fin (10 ^ 20), .fin (1 / 10), .fin (1 / 10)] ≠ (exactArith.rollMean 2 2 [.fin (10 ^ 20), .fin (1 / 10), .fin (1 / 10)]) ∧
    (doubleArith.rollMean 2 2 ([.fin (10 ^ 20)] ++ List.replicate 2 (.fin (1 / 10)))).getLast? = some (.fin (1 / 10)) := by
  refine ⟨by decide +kernel, C90_window_mean _ _ 2 2 (by decide) (by decide) _⟩

/-! ## Averages of an unchanged price -/

/-- C90: after `n` days with the same close the simple moving average reports that close. -/
theorem C90_simple (hB : FloatBuilt A E c f fill o AnyPrices) (n : ℕ) (ho : o.ind = .movingAverage n .simple) (i : ℕ)
    (hi : i < f.idx.length) (hs : Still n (close f) i) : o.getTiData.day "ma-simple" i = A.round 4 (.fin (close f i)) := by
  obtain ⟨F, hl, hn, ht, hp, -⟩ := hB.on ho (by simp [Ind.required])
  have hcl : Nums F.len 0 (close f) (F.col "close") := hn _ (by simp [Ind.required])
  have hp : 1 ≤ n := hp.1
  rw [guard_ok ht]
  show val (A.roundS 4 (A.rollMean n n (F.col "close"))) i = _
  rw [val_fround, hcl.flat_mean A n hp i (by omega) hs (by have := hs.1; omega)]

/-- C90: after `2n-1` days with the same close the triangular moving average reports that close. -/
theorem C90_triangular (hB : FloatBuilt A E c f fill o AnyPrices) (n : ℕ) (ho : o.ind = .movingAverage n .triangular) (i : ℕ)
    (hi : i < f.idx.length) (hs : Still (n + n - 1) (close f) i) :
    o.getTiData.day "ma-triangular" i = A.round 4 (.fin (close f i)) := by
  obtain ⟨F, hl, hn, ht, hp, -⟩ := hB.on ho (by simp [Ind.required])
  have hcl : Nums F.len 0 (close f) (F.col "close") := hn _ (by simp [Ind.required])
  have hp : 1 ≤ n := hp.1
  rw [guard_ok ht]
  show val (A.roundS 4 (A.rollMean n n (A.rollMean n n (F.col "close")))) i = _
  have hlen : (A.rollMean n n (F.col "close")).length = F.len := by simp [Arith.rollMean, hcl.len]
  have h1 := hs.1
  rw [val_fround, flat_mean A n n hp (le_refl _) _ (close f i) i (by omega) (by omega) fun t ht => ?_]
  obtain ⟨h2, h3⟩ := hs.back hp t ht
  rw [hcl.flat_mean A n hp (i - t) (by omega) h2 (by have := h2.1; omega), h3]

/-- C90: after `n` days with the same close the envelopes are that close times `1 + shift` and `1 - shift`. -/
theorem C90_envelopes (hB : FloatBuilt A E c f fill o AnyPrices) (n : ℕ) (s : ℚ) (ho : o.ind = .envelopes n s) (i : ℕ)
    (hi : i < f.idx.length) (hs : Still n (close f) i) :
    o.getTiData.day "upper_band" i = A.round 4 (.fin (A.fl (A.fl (1 + s) * close f i))) ∧
    o.getTiData.day "lower_band" i = A.round 4 (.fin (A.fl (A.fl (1 - s) * close f i))) := by
  obtain ⟨F, hl, hn, ht, hp, -⟩ := hB.on ho (by simp [Ind.required])
  have hcl : Nums F.len 0 (close f) (F.col "close") := hn _ (by simp [Ind.required])
  have hp : 1 ≤ n := hp.1
  rw [guard_ok ht]
  have key := hcl.flat_mean A n hp i (by omega) hs (by have := hs.1; omega)
  constructor
  · show val (A.roundS 4 (A.scaleS (A.fl (1 + s)) (A.rollMean n n (F.col "close")))) i = _
    rw [val_fround, val_fscale, key]; simp [Arith.mul, Arith.rd]
  · show val (A.roundS 4 (A.scaleS (A.fl (1 - s)) (A.rollMean n n (F.col "close")))) i = _
    rw [val_fround, val_fscale, key]; simp [Arith.mul, Arith.rd]

/-! ## Differences of averages are exactly zero -/

/-- C90: after `long` days with the same volume the volume oscillator is exactly 0. -/
theorem C90_volume_oscillator (h0 : A.fl 0 = 0) (hB : FloatBuilt A E c f fill o AnyPrices) (long short : ℕ)
    (ho : o.ind = .volumeOscillator long short) (i : ℕ) (hi : i < f.idx.length) (hs : Still long (volume f) i) :
    o.getTiData.day "vosc" i = .fin 0 := by
  obtain ⟨F, hl, hn, ht, hp, -⟩ := hB.on ho (by simp [Ind.required])
  have hv : Nums F.len 0 (volume f) (F.col "volume") := hn _ (by simp [Ind.required])
  simp only [Ind.Pos] at hp
  rw [guard_ok ht]
  show val (A.roundS 4 (A.subS (A.rollMean short short (F.col "volume")) (A.rollMean long long (F.col "volume")))) i = _
  have h1 := hs.1
  rw [val_fround, val_fsub, hv.flat_mean A short (by omega) i (by omega) (hs.mono (by omega)) (by omega),
    hv.flat_mean A long (by omega) i (by omega) hs (by omega)]
  simp [Arith.sub, Arith.rd, h0, round_zero]

/-- C90: after `long` days with the same close, not 0, the price oscillator is exactly 0. -/
theorem C90_price_oscillator (h0 : A.fl 0 = 0) (hB : FloatBuilt A E c f fill o AnyPrices) (long short : ℕ)
    (ho : o.ind = .priceOscillator long short) (i : ℕ) (hi : i < f.idx.length) (hs : Still long (close f) i) (hne : close f i ≠ 0) :
    o.getTiData.day "posc" i = .fin 0 := by
  obtain ⟨F, hl, hn, ht, hp, -⟩ := hB.on ho (by simp [Ind.required])
  have hv : Nums F.len 0 (close f) (F.col "close") := hn _ (by simp [Ind.required])
  simp only [Ind.Pos] at hp
  rw [guard_ok ht]
  show val (A.roundS 4 (A.divS (A.scaleS 100 (A.subS (A.rollMean short short (F.col "close")) (A.rollMean long long (F.col "close"))))
    (A.rollMean long long (F.col "close")))) i = _
  have h1 := hs.1
  rw [val_fround, val_fdiv, val_fscale, val_fsub, hv.flat_mean A short (by omega) i (by omega) (hs.mono (by omega)) (by omega),
    hv.flat_mean A long (by omega) i (by omega) hs (by omega)]
  rw [fl_sub, sub_self, h0, fl_mul, mul_zero, h0, fl_div _ _ _ hne, zero_div, h0, round_zero A h0]

/-- C90: the detrended price oscillator of a day is exactly 0 if the close has not changed on the `n` days up to `n/2+1` days
later. -/
theorem C90_detrended (h0 : A.fl 0 = 0) (hB : FloatBuilt A E c f fill o AnyPrices) (n : ℕ)
    (ho : o.ind = .detrendedPriceOscillator n) (i : ℕ) (hi : i + (1 + n / 2) < f.idx.length)
    (hs : Still n (close f) (i + (1 + n / 2))) (he : close f i = close f (i + (1 + n / 2))) : o.getTiData.day "dpo" i = .fin 0 := by
  obtain ⟨F, hl, hn, ht, hp, -⟩ := hB.on ho (by simp [Ind.required])
  have hv : Nums F.len 0 (close f) (F.col "close") := hn _ (by simp [Ind.required])
  simp only [Ind.Pos] at hp
  rw [guard_ok ht]
  show val (A.roundS 4 ((A.subS (F.col "close") (shiftBack (1 + n / 2) (A.rollMean n n (F.col "close")))).take
    (F.len - (1 + n / 2)))) i = _
  have h1 := hs.1
  have hlen : (A.rollMean n n (F.col "close")).length = F.len := by simp [Arith.rollMean, hv.len]
  rw [val_fround, val_take _ _ _ (by omega), val_fsub, val_shiftBack _ _ _ (by omega), hv.fin (by omega) (by omega),
    hv.flat_mean A n (by omega) _ (by omega) hs (by omega), he]
  simp [Arith.sub, Arith.rd, h0, round_zero]

/-- C90: MACD and its signal line are exactly 0 as long as the close has never changed. -/
theorem C90_macd (h0 : A.fl 0 = 0) (hB : FloatBuilt A E c f fill o AnyPrices) (ho : o.ind = .movingAverageConvergenceDivergence)
    (i : ℕ) (hi : i < f.idx.length) (hs : ∀ j ≤ i, close f j = close f i) :
    (25 ≤ i → o.getTiData.day "macd" i = .fin 0) ∧ (33 ≤ i → o.getTiData.day "signal_line" i = .fin 0) := by
  obtain ⟨F, hl, hn, ht, hp, -⟩ := hB.on ho (by simp [Ind.required])
  have hv : Nums F.len 0 (close f) (F.col "close") := hn _ (by simp [Ind.required])
  rw [guard_ok ht]
  have e26 := (hv.fewm A 26 26 (by omega)).fround A 4
  have e12 := (hv.fewm A 12 12 (by omega)).fround A 4
  have macd := e12.fsub A e26
  have m0 : ∀ j, j ≤ i → A.fl (A.roundNum 4 (A.ema 12 0 (close f) j) - A.roundNum 4 (A.ema 26 0 (close f) j)) = 0 := by
    intro j hj
    have hc : ∀ k, 0 ≤ k → k ≤ j → close f k = close f j := fun k _ hk => by rw [hs k (by omega), hs j hj]
    rw [ema_still A 12 0 _ j (by omega) hc, ema_still A 26 0 _ j (by omega) hc, sub_self, h0]
  constructor
  · intro h
    show val (A.roundS 4 (A.subS (A.roundS 4 (A.ewm 12 12 (F.col "close"))) (A.roundS 4 (A.ewm 26 26 (F.col "close"))))) i = _
    rw [val_fround, macd.fin (by omega) (by omega), m0 i (le_refl _), round_zero A h0]
  · intro h
    show val (A.roundS 4 (A.ewm 9 9 (A.subS (A.roundS 4 (A.ewm 12 12 (F.col "close"))) (A.roundS 4 (A.ewm 26 26 (F.col "close")))))) i = _
    rw [val_fround, (macd.fewm A 9 9 (by omega)).fin (by omega) (by omega), ema_still A 9 _ _ i (by omega) fun j _ hj => ?_,
      m0 i (le_refl _), round_zero A h0]
    rw [m0 j hj, m0 i (le_refl _)]

/-- C90: after `n` days that closed where they opened qstick is exactly 0. -/
theorem C90_qstick (h0 : A.fl 0 = 0) (hB : FloatBuilt A E c f fill o AnyPrices) (n : ℕ) (ho : o.ind = .qstick n) (i : ℕ)
    (hi : i < f.idx.length) (hn1 : n ≤ i + 1) (hs : ∀ t < n, close f (i - t) = price f "open" (i - t)) :
    o.getTiData.day "qstick" i = .fin 0 := by
  obtain ⟨F, hl, hn, ht, hp, -⟩ := hB.on ho (by simp [Ind.required])
  have hv : Nums F.len 0 (close f) (F.col "close") := hn _ (by simp [Ind.required])
  have hw : Nums F.len 0 (price f "open") (F.col "open") := hn _ (by simp [Ind.required])
  simp only [Ind.Pos] at hp
  rw [guard_ok ht]
  show val (A.roundS 4 ((A.rollSum n n (A.subS (F.col "close") (F.col "open"))).map fun x => A.div x (.fin n))) i = _
  have hd := hv.fsub A hw
  have z : ∀ t < n, A.fl (close f (i - t) - price f "open" (i - t)) = 0 := fun t ht => by rw [hs t ht, sub_self, h0]
  have z0 := z 0 (by omega)
  rw [Nat.sub_zero] at z0
  rw [val_fround, val_map _ (by rfl), hd.flat_sum A n (by omega) i (by omega) ⟨hn1, fun t ht => by simp only [z t ht, z0]⟩ (by omega), z0]
  have hn0 : (n : ℚ) ≠ 0 := by exact_mod_cast (by omega : n ≠ 0)
  rw [zero_mul, h0, fl_div _ _ _ hn0, zero_div, h0, round_zero A h0]

/-! ## No value instead of noise divided by noise -/

theorem round_nan (A : Arith) (k : ℕ) : A.round k .nan = .nan := rfl

/-- C90: after `n` days without a change of the close the Chande momentum oscillator has no value. -/
theorem C90_cmo (h0 : A.fl 0 = 0) (hB : FloatBuilt A E c f fill o AnyPrices) (n : ℕ) (ho : o.ind = .chandeMomentumOscillator n)
    (i : ℕ) (hi : i < f.idx.length) (hs : Still (n + 1) (close f) i) : o.getTiData.day "cmo" i = .nan := by
  obtain ⟨F, hl, hn, ht, hp, -⟩ := hB.on ho (by simp [Ind.required])
  have hv : Nums F.len 0 (close f) (F.col "close") := hn _ (by simp [Ind.required])
  simp only [Ind.Pos] at hp
  rw [guard_ok ht]
  have hc := hv.fsub A (hv.shift 1)
  have h1 := hs.1
  have z : ∀ t < n, A.fl (close f (i - t) - close f (i - t - 1)) = 0 := fun t ht => by
    rw [hs.2 t (by omega), show i - t - 1 = i - (t + 1) by omega, hs.2 (t + 1) (by omega), sub_self, h0]
  have z0 := z 0 (by omega)
  rw [Nat.sub_zero] at z0
  have up := hc.zeroBelow.flat_sum A n (by omega) i (by omega) ⟨by omega, fun t ht => by simp only [z t ht, z0]⟩ (by omega)
  have dn := hc.zeroAbove.flat_sum A n (by omega) i (by omega) ⟨by omega, fun t ht => by simp only [z t ht, z0]⟩ (by omega)
  simp only [z0, max_self, min_self, zero_mul, h0] at up dn
  show val (A.roundS 4 (A.divS (A.scaleS 100 (A.subS (A.rollSum n n (zeroBelow (A.subS (F.col "close") (shift 1 (F.col "close")))))
    ((A.rollSum n n (zeroAbove (A.subS (F.col "close") (shift 1 (F.col "close"))))).map Val.abs)))
    (A.addS (A.rollSum n n (zeroBelow (A.subS (F.col "close") (shift 1 (F.col "close")))))
    ((A.rollSum n n (zeroAbove (A.subS (F.col "close") (shift 1 (F.col "close"))))).map Val.abs)))) i = _
  rw [val_fround, val_fdiv, val_fscale, val_fsub, val_fadd, val_map _ (by rfl), up, dn]
  simp [fl_sub, fl_add, fl_mul, fl_zero_div_zero, h0, round_nan, Val.abs]

/-- C90: after `n` days that closed where they opened the intraday momentum index has no value. -/
theorem C90_imi (h0 : A.fl 0 = 0) (hB : FloatBuilt A E c f fill o AnyPrices) (n : ℕ) (ho : o.ind = .intradayMomentumIndex n)
    (i : ℕ) (hi : i < f.idx.length) (hn1 : n ≤ i + 1) (hs : ∀ t < n, close f (i - t) = price f "open" (i - t)) :
    o.getTiData.day "imi" i = .nan := by
  obtain ⟨F, hl, hn, ht, hp, -⟩ := hB.on ho (by simp [Ind.required])
  have hv : Nums F.len 0 (close f) (F.col "close") := hn _ (by simp [Ind.required])
  have hw : Nums F.len 0 (price f "open") (F.col "open") := hn _ (by simp [Ind.required])
  simp only [Ind.Pos] at hp
  rw [guard_ok ht]
  have z : ∀ t < n, A.fl (close f (i - t) - price f "open" (i - t)) = 0 := fun t ht => by rw [hs t ht, sub_self, h0]
  have z' : ∀ t < n, A.fl (price f "open" (i - t) - close f (i - t)) = 0 := fun t ht => by rw [hs t ht, sub_self, h0]
  have z0 := z 0 (by omega)
  have z0' := z' 0 (by omega)
  rw [Nat.sub_zero] at z0 z0'
  have up := (hv.fsub A hw).zeroBelow.flat_sum A n (by omega) i (by omega) ⟨by omega, fun t ht => by simp only [z t ht, z0]⟩ (by omega)
  have dn := (hw.fsub A hv).zeroBelow.flat_sum A n (by omega) i (by omega) ⟨by omega, fun t ht => by simp only [z' t ht, z0']⟩ (by omega)
  simp only [z0, z0', max_self, zero_mul, h0] at up dn
  show val (A.roundS 4 (A.divS (A.scaleS 100 (A.rollSum n n (zeroBelow (A.subS (F.col "close") (F.col "open")))))
    (A.addS (A.rollSum n n (zeroBelow (A.subS (F.col "close") (F.col "open"))))
      (A.rollSum n n (zeroBelow (A.subS (F.col "open") (F.col "close"))))))) i = _
  rw [val_fround, val_fdiv, val_fscale, val_fadd, up, dn]
  simp [fl_add, fl_mul, fl_zero_div_zero, h0, round_nan]

/-- C90: after `n` days without a change of the close the vertical horizontal filter has no value. -/
theorem C90_vhf (h0 : A.fl 0 = 0) (hB : FloatBuilt A E c f fill o AnyPrices) (n : ℕ) (ho : o.ind = .verticalHorizontalFilter n)
    (i : ℕ) (hi : i < f.idx.length) (hs : Still (n + 1) (close f) i) : o.getTiData.day "vhf" i = .nan := by
  obtain ⟨F, hl, hn, ht, hp, -⟩ := hB.on ho (by simp [Ind.required])
  have hv : Nums F.len 0 (close f) (F.col "close") := hn _ (by simp [Ind.required])
  simp only [Ind.Pos] at hp
  rw [guard_ok ht]
  have h1 := hs.1
  have z : ∀ t < n, A.fl (close f (i - t) - close f (i - t - 1)) = 0 := fun t ht => by
    rw [hs.2 t (by omega), show i - t - 1 = i - (t + 1) by omega, hs.2 (t + 1) (by omega), sub_self, h0]
  have z0 := z 0 (by omega)
  rw [Nat.sub_zero] at z0
  have sum := ((hv.fsub A (hv.shift 1)).abs).flat_sum A n (by omega) i (by omega) ⟨by omega, fun t ht => by simp only [z t ht, z0]⟩ (by omega)
  simp only [z0, abs_zero, zero_mul, h0] at sum
  show val (A.roundS 4 (A.divS ((A.subS (rolling n n aggMax (F.col "close")) (rolling n n aggMin (F.col "close"))).map Val.abs)
    (A.rollSum n n ((A.subS (F.col "close") (shift 1 (F.col "close"))).map Val.abs)))) i = _
  rw [val_fround, val_fdiv, val_map _ (by rfl), val_fsub, (hv.rollMax n (by omega)).fin (by omega) (by omega),
    (hv.rollMin n (by omega)).fin (by omega) (by omega), highest_still (by omega) (hs.mono (by omega)),
    lowest_still (by omega) (hs.mono (by omega)), sum]
  simp [fl_sub, fl_zero_div_zero, h0, round_nan, Val.abs]

/-- C90: after `n` days with one and the same price the Williams %R has no value. -/
theorem C90_williams (h0 : A.fl 0 = 0) (hB : FloatBuilt A E c f fill o AnyPrices) (n : ℕ) (ho : o.ind = .williamsR n)
    (i : ℕ) (hi : i < f.idx.length) (hs : Still n (close f) i) (hh : ∀ t < n, high f (i - t) = close f (i - t))
    (hlo : ∀ t < n, low f (i - t) = close f (i - t)) : o.getTiData.day "wr" i = .nan := by
  obtain ⟨F, hl, hn, ht, hp, -⟩ := hB.on ho (by simp [Ind.required])
  have hv : Nums F.len 0 (close f) (F.col "close") := hn _ (by simp [Ind.required])
  have hH : Nums F.len 0 (high f) (F.col "high") := hn _ (by simp [Ind.required])
  have hL : Nums F.len 0 (low f) (F.col "low") := hn _ (by simp [Ind.required])
  have hp : 1 ≤ n := hp
  rw [guard_ok ht]
  have h1 := hs.1
  have eh : highest n (high f) i = close f i := by
    obtain ⟨-, t, ht, e⟩ := Nums.highest_spec n hp (high f) i
    rw [e, hh t ht, hs.2 t ht]
  have el : lowest n (low f) i = close f i := by
    obtain ⟨-, t, ht, e⟩ := Nums.lowest_spec n hp (low f) i
    rw [e, hlo t ht, hs.2 t ht]
  show val (A.roundS 4 (A.scaleS (-100) (A.divS (A.subS (rolling n n aggMax (F.col "high")) (F.col "close"))
    (A.subS (rolling n n aggMax (F.col "high")) (rolling n n aggMin (F.col "low")))))) i = _
  rw [val_fround, val_fscale, val_fdiv, val_fsub, val_fsub, (hH.rollMax n hp).fin (by omega) (by omega),
    (hL.rollMin n hp).fin (by omega) (by omega), hv.fin (by omega) (by omega), eh, el]
  simp only [fl_sub, sub_self, h0, fl_zero_div_zero]
  rfl

/-- C90: after `k + s - 1` days with one and the same price the stochastic oscillator (`k_periods` `k`, `k_slowing_periods` `s`)
has no %K. -/
theorem C90_stochastic (h0 : A.fl 0 = 0) (hB : FloatBuilt A E c f fill o AnyPrices) (k s d : ℕ)
    (ho : o.ind = .stochasticOscillator k s d true) (i : ℕ) (hi : i < f.idx.length) (hs : Still (k + s - 1) (close f) i)
    (hh : ∀ t < k + s - 1, high f (i - t) = close f (i - t)) (hlo : ∀ t < k + s - 1, low f (i - t) = close f (i - t)) :
    o.getTiData.day "%K" i = .nan := by
  obtain ⟨F, hl, hn, ht, hp, -⟩ := hB.on ho (by simp [Ind.required])
  have hv : Nums F.len 0 (close f) (F.col "close") := hn _ (by simp [Ind.required])
  have hH : Nums F.len 0 (high f) (F.col "high") := hn _ (by simp [Ind.required])
  have hL : Nums F.len 0 (low f) (F.col "low") := hn _ (by simp [Ind.required])
  simp only [Ind.Pos] at hp
  rw [guard_ok ht]
  have h1 := hs.1
  have eh : ∀ t < s, highest k (high f) (i - t) = close f (i - t) := fun t ht => by
    obtain ⟨-, u, hu, e⟩ := Nums.highest_spec k (by omega) (high f) (i - t)
    rw [e, show i - t - u = i - (t + u) by omega, hh (t + u) (by omega), hs.2 (t + u) (by omega), hs.2 t (by omega)]
  have el : ∀ t < s, lowest k (low f) (i - t) = close f (i - t) := fun t ht => by
    obtain ⟨-, u, hu, e⟩ := Nums.lowest_spec k (by omega) (low f) (i - t)
    rw [e, show i - t - u = i - (t + u) by omega, hlo (t + u) (by omega), hs.2 (t + u) (by omega), hs.2 t (by omega)]
  have num := hv.fsub A (hL.rollMin k (by omega))
  have den := (hH.rollMax k (by omega)).fsub A (hL.rollMin k (by omega))
  have zn : ∀ t < s, A.fl (close f (i - t) - lowest k (low f) (i - t)) = 0 := fun t ht => by rw [el t ht, sub_self, h0]
  have zd : ∀ t < s, A.fl (highest k (high f) (i - t) - lowest k (low f) (i - t)) = 0 := fun t ht => by
    rw [el t ht, eh t ht, sub_self, h0]
  have zn0 := zn 0 (by omega)
  have zd0 := zd 0 (by omega)
  rw [Nat.sub_zero] at zn0 zd0
  have sn := num.flat_sum A s (by omega) i (by omega) ⟨by omega, fun t ht => by simp only [zn t ht, zn0]⟩ (by omega)
  have sd := den.flat_sum A s (by omega) i (by omega) ⟨by omega, fun t ht => by simp only [zd t ht, zd0]⟩ (by omega)
  rw [zn0, zero_mul, h0] at sn
  rw [zd0, zero_mul, h0] at sd
  show val (A.roundS 4 (A.divS (A.scaleS 100 (A.rollSum s s (A.subS (F.col "close") (rolling k k aggMin (F.col "low")))))
    (A.rollSum s s (A.subS (rolling k k aggMax (F.col "high")) (rolling k k aggMin (F.col "low")))))) i = _
  rw [val_fround, val_fdiv, val_fscale, sn, sd]
  simp [fl_mul, fl_zero_div_zero, h0, round_nan]

/-- C90: after `n` days with the same high, low and close the commodity channel index has no value. -/
theorem C90_cci (h0 : A.fl 0 = 0) (hB : FloatBuilt A E c f fill o AnyPrices) (n : ℕ) (ho : o.ind = .commodityChannelIndex n)
    (i : ℕ) (hi : i < f.idx.length) (hc : Still n (close f) i) (hh : Still n (high f) i) (hlo : Still n (low f) i) :
    o.getTiData.day "cci" i = .nan := by
  obtain ⟨F, hl, hn, ht, hp, hF, -⟩ := hB.on ho (by simp [Ind.required])
  have hp : 1 ≤ n := hp
  have h1 := hc.1
  rw [guard_ok ht]
  have st : ∀ name ∈ ["high", "low", "close"], Nums F.len 0 (price f name) (F.col name) ∧ Still n (price f name) i := by
    intro name hm
    refine ⟨hn _ hm, ?_⟩
    simp only [List.mem_cons, List.not_mem_nil, or_false] at hm
    rcases hm with rfl | rfl | rfl
    · exact hh
    · exact hlo
    · exact hc
  have hcols : ∀ c ∈ F.cols, ∃ name ∈ ["high", "low", "close"], c.2 = F.col name := by
    intro c hc
    have := (hF.cols.mem_iff).1 hc
    simp only [List.mem_map] at this
    obtain ⟨name, hm, rfl⟩ := this
    exact ⟨name, hm, rfl⟩
  have hrow : ∀ j < F.len, val (F.rows.map fun r => A.div (A.total r) 3) j = A.div (A.total (F.cols.map fun c => c.2.getD j .nan)) 3 := by
    intro j hj
    unfold Frame.rows
    rw [List.map_map, val_lt _ _ (by simpa using hj)]
    simp
  have same : ∀ t < n, (F.cols.map fun c => c.2.getD (i - t) .nan) = F.cols.map fun c => c.2.getD i .nan := by
    intro t ht
    refine List.map_congr_left fun c hc => ?_
    obtain ⟨name, hm, e⟩ := hcols c hc
    obtain ⟨h2, h3⟩ := st name hm
    rw [e]
    show val (F.col name) (i - t) = val (F.col name) i
    rw [h2.fin (by omega) (by omega), h2.fin (by omega) (by omega), h3.2 t ht]
  obtain ⟨q, hq⟩ := total_fin A (F.cols.map fun c => c.2.getD i .nan) (by
    intro x hx
    simp only [List.mem_map] at hx
    obtain ⟨c, hc, rfl⟩ := hx
    obtain ⟨name, hm, e⟩ := hcols c hc
    exact ⟨_, by rw [e]; exact (st name hm).1.fin (by omega) (by omega)⟩)
  obtain ⟨tp, htp⟩ : ∃ tp, tp = F.rows.map fun r => A.div (A.total r) 3 := ⟨_, rfl⟩
  have htl : tp.length = F.len := by rw [htp]; simp [Frame.rows]
  have flat : ∀ t < n, val tp (i - t) = .fin (A.fl (q / 3)) := fun t ht => by
    rw [htp, hrow _ (by omega), same t ht, hq]
    exact fl_div A q 3 (by norm_num)
  have sma : val (A.rollMean n n tp) i = .fin (A.fl (q / 3)) :=
    flat_mean A n n hp (le_refl _) tp _ i (by omega) (by omega) flat
  have hsl : (A.rollMean n n tp).length = F.len := by simp [Arith.rollMean, htl]
  have now : val tp i = .fin (A.fl (q / 3)) := by have := flat 0 (by omega); rwa [Nat.sub_zero] at this
  have diff : val (differences A n ((A.rollMean n n tp).zip tp)) i = .fin 0 := by
    have hzl : ((A.rollMean n n tp).zip tp).length = F.len := by simp [hsl, htl]
    have hz : ∀ j (h : j < ((A.rollMean n n tp).zip tp).length), ((A.rollMean n n tp).zip tp)[j] = (val (A.rollMean n n tp) j, val tp j) := by
      intro j h
      rw [List.getElem_zip, val_lt _ _ (by omega), val_lt _ _ (by omega)]
    unfold differences
    rw [val_prefixMap' _ _ _ (by omega)]
    have hpl : (((A.rollMean n n tp).zip tp).take (i + 1)).length = i + 1 := by rw [List.length_take]; omega
    rw [if_neg (by omega)]
    have hlast : (window n (((A.rollMean n n tp).zip tp).take (i + 1))).getLast? = some (.fin (A.fl (q / 3)), .fin (A.fl (q / 3))) := by
      unfold window
      rw [List.getLast?_drop, if_neg (by omega), List.getLast?_eq_getElem?, hpl, Nat.add_sub_cancel,
        List.getElem?_take_of_lt (by omega), List.getElem?_eq_getElem (by omega), hz i (by omega), sma, now]
    simp only [hlast]
    have hall : ∀ r ∈ window n (((A.rollMean n n tp).zip tp).take (i + 1)), r.2 = .fin (A.fl (q / 3)) := by
      intro r hr
      unfold window at hr
      obtain ⟨k, hk, rfl⟩ := List.mem_iff_getElem.1 hr
      rw [List.length_drop, hpl] at hk
      rw [List.getElem_drop, List.getElem_take, hz]
      have := flat (n - 1 - k) (by omega)
      rw [show i - (n - 1 - k) = i + 1 - n + k by omega] at this
      simp only [hpl]
      exact this
    have e : (window n (((A.rollMean n n tp).zip tp).take (i + 1))).map (fun r => Val.abs (A.sub (.fin (A.fl (q / 3))) r.2)) =
        List.replicate (window n (((A.rollMean n n tp).zip tp).take (i + 1))).length (.fin 0) := by
      rw [List.eq_replicate_iff]
      refine ⟨by simp, fun b hb => ?_⟩
      simp only [List.mem_map] at hb
      obtain ⟨r, hr, rfl⟩ := hb
      rw [hall r hr, fl_sub, sub_self, h0]
      rfl
    rw [e]
    generalize (window n (((A.rollMean n n tp).zip tp).take (i + 1))).length = k
    induction k with
    | zero => rfl
    | succ k ih =>
      rw [List.replicate_succ, List.foldl_cons]
      have : A.add 0 (.fin 0) = 0 := by
        show A.add (.fin 0) (.fin 0) = .fin 0
        rw [fl_add, add_zero, h0]
      rw [this]; exact ih
  show val (A.roundS 4 (A.divS (A.subS (F.rows.map fun r => A.div (A.total r) 3) (A.rollMean n n (F.rows.map fun r => A.div (A.total r) 3)))
    ((differences A n ((A.rollMean n n (F.rows.map fun r => A.div (A.total r) 3)).zip (F.rows.map fun r => A.div (A.total r) 3))).map
      fun x => A.div (A.mul (.fin (A.fl (15 / 1000))) x) (.fin n)))) i = _
  rw [← htp, val_fround, val_fdiv, val_fsub, val_map _ (by rfl), diff, now, sma, fl_sub, sub_self, h0, fl_mul, mul_zero, h0,
    fl_div _ _ _ (by exact_mod_cast (by omega : n ≠ 0)), zero_div, h0, fl_zero_div_zero]
  rfl

/-! ## A table on which the hypotheses hold -/

/-- `s` days with other prices, then `n` days on which all prices are 12.5 and the volume is 700. -/
def pausedPrice (s k : ℕ) : ℚ := if k < s then 10 ^ 9 + (k : ℚ) / 10 else 25 / 2

def paused (s n : ℕ) : RawFrame :=
  let data (g : ℕ → ℚ) := (List.range (n + s)).map fun k => Val.fin (g k)
  ⟨true, (List.range (n + s)).map fun k => (k : ℤ),
    [⟨.str "open", true, data (pausedPrice s)⟩, ⟨.str "high", true, data (pausedPrice s)⟩, ⟨.str "low", true, data (pausedPrice s)⟩,
      ⟨.str "close", true, data (pausedPrice s)⟩, ⟨.str "volume", true, data fun k => 56 * pausedPrice s k⟩]⟩

theorem paused_built {c : Call} {ind : Ind} (s n : ℕ) (name : String) (i : ℕ) (v : Val)
    (h : ((Flt.construct doubleArith demoEnv c (.frame (paused s n)) (.bool true)).2.map fun o => (o.ind, o.getTiData.day name i)) = .ok (ind, v))
    (hn : ∀ m ∈ ind.required, m ∈ ["open", "high", "low", "close", "volume"]) :
    ∃ o, FloatBuilt doubleArith demoEnv c (paused s n) true o AnyPrices ∧ o.ind = ind ∧ o.getTiData.day name i = v := by
  cases hc : (Flt.construct doubleArith demoEnv c (.frame (paused s n)) (.bool true)).2 with
  | error e => rw [hc] at h; simp [Except.map] at h
  | ok o =>
    rw [hc] at h
    simp only [Except.map, Except.ok.injEq, Prod.mk.injEq] at h
    obtain ⟨h1, h2⟩ := h
    refine ⟨o, ⟨fun c hc => ?_, hc, ?_⟩, h1, h2⟩
    · simp only [paused, List.mem_cons, List.not_mem_nil, or_false] at hc
      rcases hc with rfl | rfl | rfl | rfl | rfl <;> simp [paused]
    rw [h1]
    intro j hj
    have hj' : j < n + s := by simpa [paused] using hj
    refine ⟨fun m => if m = "volume" then 56 * pausedPrice s j else pausedPrice s j, fun m hm => ?_, trivial⟩
    have := hn m hm
    simp only [List.mem_cons, List.not_mem_nil, or_false] at this
    have e1 : "open".toLower = "open" := by decide +kernel
    have e2 : "high".toLower = "high" := by decide +kernel
    have e3 : "low".toLower = "low" := by decide +kernel
    have e4 : "close".toLower = "close" := by decide +kernel
    have e5 : "volume".toLower = "volume" := by decide +kernel
    rcases this with rfl | rfl | rfl | rfl | rfl <;>
      simp [RawFrame.cell, paused, Label.lower, e1, e2, e3, e4, e5, List.find?, hj']

instance (n : ℕ) (g : ℕ → ℚ) (i : ℕ) : Decidable (Still n g i) := by unfold Still; infer_instance

example : doubleArith.fl 0 = 0 := by decide +kernel

/-- Averages. -/
example : Still 3 (close (paused 2 4)) 5 ∧ (∃ o, FloatBuilt doubleArith demoEnv (.movingAverage (.int 3) (.str "simple")) (paused 2 4) true o AnyPrices ∧
    o.ind = .movingAverage 3 .simple ∧ o.getTiData.day "ma-simple" 5 = .fin (25 / 2)) :=
  ⟨by decide +kernel, paused_built 2 4 "ma-simple" 5 _ (by decide +kernel) (by decide)⟩

example : Still (2 + 2 - 1) (close (paused 2 4)) 5 ∧
    (∃ o, FloatBuilt doubleArith demoEnv (.movingAverage (.int 2) (.str "triangular")) (paused 2 4) true o AnyPrices ∧
    o.ind = .movingAverage 2 .triangular ∧ o.getTiData.day "ma-triangular" 5 = .fin (25 / 2)) :=
  ⟨by decide +kernel, paused_built 2 4 "ma-triangular" 5 _ (by decide +kernel) (by decide)⟩

example : Still 3 (close (paused 2 4)) 5 ∧
    (∃ o, FloatBuilt doubleArith demoEnv (.envelopes (.int 3) (.float (.fin (1 / 5)))) (paused 2 4) true o AnyPrices ∧
    o.ind = .envelopes 3 (1 / 5) ∧ o.getTiData.day "lower_band" 5 = .fin 10) :=
  ⟨by decide +kernel, paused_built 2 4 "lower_band" 5 _ (by decide +kernel) (by decide)⟩

/-- Differences. -/
example : Still 3 (volume (paused 2 4)) 5 ∧
    (∃ o, FloatBuilt doubleArith demoEnv (.volumeOscillator (.int 3) (.int 2)) (paused 2 4) true o AnyPrices ∧
    o.ind = .volumeOscillator 3 2 ∧ o.getTiData.day "vosc" 5 = .fin 0) :=
  ⟨by decide +kernel, paused_built 2 4 "vosc" 5 _ (by decide +kernel) (by decide)⟩

example : Still 3 (close (paused 2 4)) 5 ∧ close (paused 2 4) 5 ≠ 0 ∧
    (∃ o, FloatBuilt doubleArith demoEnv (.priceOscillator (.int 3) (.int 2)) (paused 2 4) true o AnyPrices ∧
    o.ind = .priceOscillator 3 2 ∧ o.getTiData.day "posc" 5 = .fin 0) :=
  ⟨by decide +kernel, by decide +kernel, paused_built 2 4 "posc" 5 _ (by decide +kernel) (by decide)⟩

example : Still 3 (close (paused 2 4)) (3 + (1 + 3 / 2)) ∧ close (paused 2 4) 3 = close (paused 2 4) (3 + (1 + 3 / 2)) ∧
    (∃ o, FloatBuilt doubleArith demoEnv (.detrendedPriceOscillator (.int 3)) (paused 2 4) true o AnyPrices ∧
    o.ind = .detrendedPriceOscillator 3 ∧ o.getTiData.day "dpo" 3 = .fin 0) :=
  ⟨by decide +kernel, by decide +kernel, paused_built 2 4 "dpo" 3 _ (by decide +kernel) (by decide)⟩

example : (∀ t < 3, close (paused 2 4) (5 - t) = price (paused 2 4) "open" (5 - t)) ∧
    (∃ o, FloatBuilt doubleArith demoEnv (.qstick (.int 3)) (paused 2 4) true o AnyPrices ∧
    o.ind = .qstick 3 ∧ o.getTiData.day "qstick" 5 = .fin 0) :=
  ⟨by decide +kernel, paused_built 2 4 "qstick" 5 _ (by decide +kernel) (by decide)⟩

example : (∀ j ≤ 33, close (paused 0 34) j = close (paused 0 34) 33) ∧
    (∃ o, FloatBuilt doubleArith demoEnv .movingAverageConvergenceDivergence (paused 0 34) true o AnyPrices ∧
    o.ind = .movingAverageConvergenceDivergence ∧ o.getTiData.day "signal_line" 33 = .fin 0) :=
  ⟨by decide +kernel, paused_built 0 34 "signal_line" 33 _ (by decide +kernel) (by decide)⟩

/-- Quotients. -/
example : Still (3 + 1) (close (paused 2 4)) 5 ∧
    (∃ o, FloatBuilt doubleArith demoEnv (.chandeMomentumOscillator (.int 3)) (paused 2 4) true o AnyPrices ∧
    o.ind = .chandeMomentumOscillator 3 ∧ o.getTiData.day "cmo" 5 = .nan) :=
  ⟨by decide +kernel, paused_built 2 4 "cmo" 5 _ (by decide +kernel) (by decide)⟩

example : (∀ t < 3, close (paused 2 4) (5 - t) = price (paused 2 4) "open" (5 - t)) ∧
    (∃ o, FloatBuilt doubleArith demoEnv (.intradayMomentumIndex (.int 3)) (paused 2 4) true o AnyPrices ∧
    o.ind = .intradayMomentumIndex 3 ∧ o.getTiData.day "imi" 5 = .nan) :=
  ⟨by decide +kernel, paused_built 2 4 "imi" 5 _ (by decide +kernel) (by decide)⟩

example : Still (3 + 1) (close (paused 2 4)) 5 ∧
    (∃ o, FloatBuilt doubleArith demoEnv (.verticalHorizontalFilter (.int 3)) (paused 2 4) true o AnyPrices ∧
    o.ind = .verticalHorizontalFilter 3 ∧ o.getTiData.day "vhf" 5 = .nan) :=
  ⟨by decide +kernel, paused_built 2 4 "vhf" 5 _ (by decide +kernel) (by decide)⟩

example : Still 3 (close (paused 2 4)) 5 ∧ (∀ t < 3, high (paused 2 4) (5 - t) = close (paused 2 4) (5 - t)) ∧
    (∀ t < 3, low (paused 2 4) (5 - t) = close (paused 2 4) (5 - t)) ∧
    (∃ o, FloatBuilt doubleArith demoEnv (.williamsR (.int 3)) (paused 2 4) true o AnyPrices ∧
    o.ind = .williamsR 3 ∧ o.getTiData.day "wr" 5 = .nan) :=
  ⟨by decide +kernel, by decide +kernel, by decide +kernel, paused_built 2 4 "wr" 5 _ (by decide +kernel) (by decide)⟩

example : Still (2 + 3 - 1) (close (paused 2 4)) 5 ∧ (∀ t < 2 + 3 - 1, high (paused 2 4) (5 - t) = close (paused 2 4) (5 - t)) ∧
    (∀ t < 2 + 3 - 1, low (paused 2 4) (5 - t) = close (paused 2 4) (5 - t)) ∧
    (∃ o, FloatBuilt doubleArith demoEnv (.stochasticOscillator (.int 2) (.int 3) (.int 2) (.str "simple")) (paused 2 4) true o AnyPrices ∧
    o.ind = .stochasticOscillator 2 3 2 true ∧ o.getTiData.day "%K" 5 = .nan) :=
  ⟨by decide +kernel, by decide +kernel, by decide +kernel, paused_built 2 4 "%K" 5 _ (by decide +kernel) (by decide)⟩

example : Still 3 (close (paused 2 4)) 5 ∧ Still 3 (high (paused 2 4)) 5 ∧ Still 3 (low (paused 2 4)) 5 ∧
    (∃ o, FloatBuilt doubleArith demoEnv (.commodityChannelIndex (.int 3)) (paused 2 4) true o AnyPrices ∧
    o.ind = .commodityChannelIndex 3 ∧ o.getTiData.day "cci" 5 = .nan) :=
  ⟨by decide +kernel, by decide +kernel, by decide +kernel, paused_built 2 4 "cci" 5 _ (by decide +kernel) (by decide)⟩

end TTI.Props
