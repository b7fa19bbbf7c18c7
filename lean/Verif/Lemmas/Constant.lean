import Verif.Lemmas.Regression
import Verif.Lemmas.NoDown
import Verif.Lemmas.Signal
import Verif.Lemmas.Params
import Verif.Spec.Constant

set_option autoImplicit false

/-!
# Columns that are missing up to a row and constant from there on
-/

namespace TTI

/-- `n` rows, missing before row `a`, then `K`. -/
structure Step (xs : List Val) (n a : ℕ) (K : ℚ) : Prop where
  len : xs.length = n
  val : ∀ i < n, TTI.val xs i = if i < a then .nan else .fin K

namespace Step

variable {xs ys : List Val} {n a b : ℕ} {K L : ℚ}

theorem round (h : Step xs n a K) (k : ℕ) : Step (roundS k xs) n a (roundQ k K) :=
  ⟨by simp [h.len], fun i hi => by rw [val_roundS, h.val i hi]; split <;> simp⟩

theorem sub (h : Step xs n a K) (h' : Step ys n b L) : Step (subS xs ys) n (max a b) (K - L) :=
  ⟨by simp [h.len, h'.len], fun i hi => by
    rw [val_subS, h.val i hi, h'.val i hi]
    split_ifs <;> first | omega | simp⟩

theorem scale (h : Step xs n a K) (c : ℚ) : Step (scaleS c xs) n a (c * K) :=
  ⟨by simp [h.len], fun i hi => by rw [val_scaleS, h.val i hi]; split <;> simp⟩

theorem div (h : Step xs n a K) (h' : Step ys n b L) (hL : L ≠ 0) : Step (divS xs ys) n (max a b) (K / L) :=
  ⟨by simp [h.len, h'.len], fun i hi => by
    rw [val_divS, h.val i hi, h'.val i hi]
    split_ifs <;> first | omega | simp [Val.fin_div _ _ hL]⟩

theorem shift (h : Step xs n a K) (k : ℕ) : Step (shift k xs) n (a + k) K :=
  ⟨by simp [h.len], fun i hi => by
    rw [val_shift _ _ _ (by rw [h.len]; exact hi)]
    split_ifs with h1 h2
    · rfl
    · omega
    · rw [h.val _ (by omega), if_pos (by omega)]
    · rw [h.val _ (by omega), if_neg (by omega)]⟩

theorem mask (h : Step xs n a K) (k : ℕ) : Step (maskBefore k xs) n (max a k) K :=
  ⟨by simp [h.len], fun i hi => by
    rw [val_maskBefore, h.val i hi]
    split_ifs <;> first | omega | rfl⟩

theorem congr {a' : ℕ} {K' : ℚ} (h : Step xs n a K) (ha : a = a') (hK : K = K') : Step xs n a' K' := by subst ha hK; exact h

end Step

theorem finVals_append (xs ys : List Val) : finVals (xs ++ ys) = finVals xs ++ finVals ys := by
  simp [finVals, List.filterMap_append]

theorem finVals_step (s a k : ℕ) (K : ℚ) :
    finVals ((List.range k).map fun t => if s + t < a then Val.nan else .fin K) = List.replicate (k - (a - s)) K := by
  induction k with
  | zero => simp [finVals]
  | succ k ih =>
    rw [List.range_succ, List.map_append, finVals_append, ih]
    by_cases h : s + k < a
    · simp only [List.map_cons, List.map_nil, if_pos h]
      rw [show k - (a - s) = 0 by omega, show k + 1 - (a - s) = 0 by omega]
      simp [finVals]
    · simp only [List.map_cons, List.map_nil, if_neg h]
      rw [show k + 1 - (a - s) = (k - (a - s)) + 1 by omega, List.replicate_succ']
      simp [finVals]

theorem Step.rolling {xs : List Val} {n a : ℕ} {K : ℚ} (h : Step xs n a K) (p : ℕ) (hp : 1 ≤ p) (agg : List ℚ → Val) (L : ℚ)
    (hagg : agg (List.replicate p K) = .fin L) : Step (TTI.rolling p p agg xs) n (a + p - 1) L :=
  ⟨by simp [h.len], fun i hi => by
    rw [val_rolling _ _ _ _ _ (by rw [h.len]; exact hi)]
    have e : ((List.range (min p (i + 1))).map fun t => TTI.val xs (i + 1 - p + t)) =
        (List.range (min p (i + 1))).map fun t => if i + 1 - p + t < a then Val.nan else .fin K := by
      apply List.map_congr_left
      intro t ht
      rw [List.mem_range] at ht
      exact h.val _ (by omega)
    rw [e, finVals_step, List.length_replicate]
    split_ifs with h1 h2
    · omega
    · rw [show min p (i + 1) - (a - (i + 1 - p)) = p by omega, hagg]
    · rfl
    · omega⟩

theorem aggMean_replicate (p : ℕ) (hp : 1 ≤ p) (K : ℚ) : aggMean (List.replicate p K) = .fin K := by
  have hp0 : (p : ℚ) ≠ 0 := by
    have : (0 : ℚ) < p := by exact_mod_cast hp
    exact this.ne'
  unfold aggMean
  rw [if_neg (by simp; omega), List.sum_replicate, List.length_replicate, nsmul_eq_mul, mul_div_cancel_left₀ _ hp0]

theorem aggStd_replicate (sq : ℚ → ℚ) (p : ℕ) (hp : 1 ≤ p) (K : ℚ) : aggStd sq 0 (List.replicate p K) = .fin (sq 0) := by
  have hp0 : (p : ℚ) ≠ 0 := by
    have : (0 : ℚ) < p := by exact_mod_cast hp
    exact this.ne'
  have : variance 0 (List.replicate p K) = some 0 := by
    unfold variance
    rw [if_neg (by simp; omega)]
    simp only [List.map_replicate, List.sum_replicate, List.length_replicate, nsmul_eq_mul, mul_div_cancel_left₀ _ hp0]
    simp
  unfold aggStd
  rw [this]
  rfl

theorem Step.ewm {xs : List Val} {n a : ℕ} {K : ℚ} (h : Step xs n a K) (s m : ℕ) (hm : 1 ≤ m) :
    Step (TTI.ewm s m xs) n (a + m - 1) K :=
  ⟨by simp [h.len, TTI.ewm], fun i hi => by
    have key : ∀ k ≤ n, (xs.take k).foldl (ewmStep (2 / ((s : ℚ) + 1))) ⟨none, 0⟩ =
        if k ≤ a then ⟨none, 0⟩ else ⟨some (K, 1), k - a⟩ := by
      intro k
      induction k with
      | zero => intro _; simp
      | succ k ih =>
        intro hk
        rw [foldl_take_succ _ _ _ _ (by rw [h.len]; omega), ih (by omega), ← val_lt xs k (by rw [h.len]; omega), h.val k (by omega)]
        split_ifs with h1 h2 h3 h4
        · rfl
        · omega
        · omega
        · rw [show k + 1 - a = 1 by omega]; rfl
        · omega
        · omega
        · omega
        · rw [show k + 1 - a = k - a + 1 by omega]
          simp [ewmStep]
    unfold TTI.ewm ewmAlpha
    rw [val_prefixMap _ _ _ (by rw [h.len]; exact hi)]
    simp only
    rw [key (i + 1) (by omega)]
    by_cases h1 : i + 1 ≤ a
    · rw [if_pos h1, if_neg (show ¬ m ≤ 0 by omega), if_pos (by omega)]
    · rw [if_neg h1]
      by_cases h2 : i < a + m - 1
      · rw [if_pos h2, if_neg (show ¬ m ≤ i + 1 - a by omega)]
      · rw [if_neg h2, if_pos (show m ≤ i + 1 - a by omega)]; rfl⟩

theorem Step.wilder {xs : List Val} {n : ℕ} {K : ℚ} (h : Step xs n 0 K) (p : ℕ) (hp : 1 ≤ p) :
    Step (TTI.wilder 0 p xs) n (p - 1) K :=
  ⟨by simp [h.len], fun i hi => by
    have hp0 : (p : ℚ) ≠ 0 := by
      have : (0 : ℚ) < p := by exact_mod_cast hp
      exact this.ne'
    have hx : xs = List.replicate n (.fin K) := by
      apply List.ext_getElem
      · simp [h.len]
      · intro j h1 h2
        rw [← val_lt _ _ h1, h.val j (by simpa using h2)]
        simp
    unfold TTI.wilder
    rw [val_prefixMap _ _ _ (by rw [h.len]; exact hi), hx]
    simp only [List.take_replicate, List.drop_replicate, List.length_replicate]
    split_ifs with h1 h2
    · rfl
    · omega
    · omega
    · rw [show min p (min (i + 1) n - 0) = p by omega]
      have e : meanSkip (List.replicate p (Val.fin K)) = .fin K := by
        unfold meanSkip
        have ef : ((List.replicate p (Val.fin K)).filter fun x => !x.isNan) = (List.replicate p K).map Val.fin := by
          rw [List.filter_eq_self.2 (by intro x hx; rw [List.mem_replicate] at hx; rw [hx.2]; rfl)]; simp
        rw [ef]
        simp only
        rw [if_neg (by simp; omega), Val.zero_eq, TTI.foldl_add_fin, zero_add, List.sum_replicate, List.length_map,
          List.length_replicate, Val.fin_div _ _ hp0, nsmul_eq_mul, mul_div_cancel_left₀ _ hp0]
      rw [e]
      have ef : ∀ k, (List.replicate k (Val.fin K)).foldl
          (fun prev x => Val.add prev (Val.div (Val.sub x prev) (.fin (p : ℚ)))) (.fin K) = .fin K := by
        intro k
        induction k with
        | zero => rfl
        | succ k ih =>
          rw [List.replicate_succ, List.foldl_cons, Val.fin_sub, Val.fin_div _ _ hp0, Val.fin_add]
          simpa using ih
      exact ef _⟩

theorem slopeQ_const (K : ℚ) (s p : ℕ) : slopeQ (fun _ => K) s p = 0 := by
  unfold slopeQ
  rw [← Finset.mul_sum, Finset.sum_const, Finset.card_range, nsmul_eq_mul]
  rw [show (p : ℚ) * (K * ∑ i ∈ Finset.range p, ((s + i : ℕ) : ℚ)) - (∑ t ∈ Finset.range p, ((s + t : ℕ) : ℚ)) * (p * K) = 0 by ring]
  simp

theorem interceptQ_const (K : ℚ) (s p : ℕ) (hp : 1 ≤ p) : interceptQ (fun _ => K) s p = K := by
  have hp0 : (p : ℚ) ≠ 0 := by
    have : (0 : ℚ) < p := by exact_mod_cast hp
    exact this.ne'
  unfold interceptQ
  rw [slopeQ_const, Finset.sum_const, Finset.card_range, nsmul_eq_mul, zero_mul, sub_zero, mul_div_cancel_left₀ _ hp0]

theorem Step.add {xs ys : List Val} {n a b : ℕ} {K L : ℚ} (h : Step xs n a K) (h' : Step ys n b L) :
    Step (addS xs ys) n (max a b) (K + L) :=
  ⟨by simp [h.len, h'.len], fun i hi => by
    rw [val_addS, h.val i hi, h'.val i hi]
    split_ifs <;> first | omega | simp⟩

theorem Step.mapMul {xs : List Val} {n a : ℕ} {K : ℚ} (h : Step xs n a K) (q : ℚ) :
    Step (xs.map fun x => Val.mul x (.fin q)) n a (K * q) :=
  ⟨by simp [h.len], fun i hi => by rw [val_map _ rfl, h.val i hi]; split <;> simp⟩

/-- Values of a column that is a step. -/
theorem Step.cases {xs : List Val} {n a : ℕ} {K : ℚ} (h : Step xs n a K) (i : ℕ) : TTI.val xs i = .nan ∨ TTI.val xs i = .fin K := by
  by_cases hi : i < n
  · rw [h.val i hi]; split <;> simp
  · left; rw [val_ge _ _ (by rw [h.len]; omega)]

theorem constant_step (E : Env) (hE : E.sq 0 = 0) (ind : Ind) (hp : ind.Pos) (F T : Frame) (K : ℚ)
    (hc : Step (F.col "close") F.len 0 K) (ht : ind.calcTi E F = .ok T) (hK : Spec.DividesByClose ind → K ≠ 0)
    (e : Spec.Flat) (he : e ∈ Spec.onConstant K ind) : Step (T.col e.column) F.len e.first e.value := by
  have h0 : ∀ j < F.len, val (F.col "close") j = .fin K := fun j hj => by rw [hc.val j hj]; rfl
  have mean : ∀ p, 1 ≤ p → Step (rolling p p aggMean (F.col "close")) F.len (p - 1) K := fun p hp =>
    (hc.rolling p hp aggMean K (aggMean_replicate p hp K)).congr (by omega) rfl
  have ema : ∀ p, 1 ≤ p → Step (ewm p p (F.col "close")) F.len (p - 1) K := fun p hp =>
    (hc.ewm p p hp).congr (by omega) rfl
  have tsf : ∀ p, 2 ≤ p → ∀ T', Ind.TimeSeriesForecast.calcTi p F = .ok T' →
      Step (T'.col "tsf") F.len (p - 1) (roundQ 4 K) := by
    intro p hp2 T' hT
    have key := Ind.TimeSeriesForecast.exact p hp2 F T' (fun _ => K) hc.len h0 hT
    constructor
    · unfold Ind.TimeSeriesForecast.calcTi Ind.TimeSeriesForecast.forecast Ind.LinearRegressionSlope.calcTi
        Ind.LinearRegressionIndicator.calcTi at hT
      have e1 : (F.sub ["close"]).len = F.len := rfl
      have e2 : (F.sub ["close"]).col "close" = F.col "close" := Ind.sub_col_fin F _ _ (by simp) (fun _ => K) hc.len h0
      rw [e1, e2] at hT
      by_cases hlt : F.len < p
      · simp [hlt, bind, Except.bind, throw, throwThe, MonadExceptOf.throw] at hT
      simp only [hlt, if_false, pure, Except.pure, bind, Except.bind, Except.ok.injEq] at hT
      subst hT
      simp [Frame.col_single, sumRows, zipV, rollingOLS, fillna, hc.len, rowNumbers]
    · intro i hi
      rw [key i hi, slopeQ_const, interceptQ_const _ _ _ (by omega)]
      split_ifs <;> first | omega | simp
  cases ind <;> simp only [Spec.onConstant, List.not_mem_nil, List.mem_cons, or_false] at he
  case movingAverage p t =>
    replace ht : Ind.MovingAverage.calcTi p t F = .ok T := ht
    cases t <;> simp only [List.mem_cons, List.not_mem_nil, or_false] at he
    case timeSeries =>
      obtain ⟨hp1, hp2⟩ := hp
      subst he
      have hT : ∃ L, Ind.TimeSeriesForecast.calcTi p F = .ok ⟨F.idx, [("tsf", L)]⟩ ∧ T = ⟨F.idx, [("ma-time_series", L)]⟩ := by
        unfold Ind.MovingAverage.calcTi at ht
        unfold Ind.TimeSeriesForecast.calcTi
        by_cases hlt : F.len < p
        · simp [hlt, bind, Except.bind, throw, throwThe, MonadExceptOf.throw] at ht
        cases hf : Ind.TimeSeriesForecast.forecast p F with
        | error e => simp [hlt, hf, bind, Except.bind, pure, Except.pure] at ht
        | ok L =>
          simp [hlt, hf, bind, Except.bind, pure, Except.pure] at ht
          exact ⟨roundS 4 L, by simp [hlt, hf, bind, Except.bind, pure, Except.pure], ht.symm⟩
      obtain ⟨L, hL, rfl⟩ := hT
      have := tsf p (hp2 rfl) _ hL
      rw [Frame.col_single] at this ⊢
      exact this
    all_goals
      obtain ⟨hp1, -⟩ := hp
      subst he
      unfold Ind.MovingAverage.calcTi at ht
      by_cases hlt : F.len < p
      · simp [hlt, bind, Except.bind, throw, throwThe, MonadExceptOf.throw] at ht
      simp [hlt, bind, Except.bind, pure, Except.pure] at ht
      subst ht
      simp only [Ind.MaType.column, Ind.MaType.str]
    · exact (mean p hp1).round 4
    · exact (ema p hp1).round 4
    · exact (((mean p hp1).rolling p hp1 aggMean K (aggMean_replicate p hp1 K)).round 4).congr (by omega) rfl
  case doubleExponentialMovingAverage p =>
    replace ht : Ind.DoubleExponentialMovingAverage.calcTi p F = .ok T := ht
    unfold Ind.DoubleExponentialMovingAverage.calcTi at ht
    split at ht
    · simp at ht
    simp only [Except.ok.injEq] at ht
    subst ht he
    replace hp : 1 ≤ p := hp
    rw [Frame.col_single]
    exact ((((ema p hp).scale 2).sub ((ema p hp).ewm p p hp)).round 4).congr (by simp only; omega) (by simp only; congr 1; ring)
  case tripleExponentialMovingAverage p =>
    replace ht : Ind.TripleExponentialMovingAverage.calcTi p F = .ok T := ht
    unfold Ind.TripleExponentialMovingAverage.calcTi at ht
    split at ht
    · simp at ht
    simp only [Except.ok.injEq] at ht
    subst ht he
    replace hp : 1 ≤ p := hp
    rw [Frame.col_single]
    have e2 := (ema p hp).ewm p p hp
    exact (((((ema p hp).scale 3).sub (e2.scale 3)).add (e2.ewm p p hp)).round 4).congr (by simp only; omega)
      (by simp only; congr 1; ring)
  case wildersSmoothing p =>
    replace ht : Ind.WildersSmoothing.calcTi p F = .ok T := ht
    unfold Ind.WildersSmoothing.calcTi at ht
    split at ht
    · simp at ht
    simp only [Except.ok.injEq] at ht
    subst ht he
    rw [Frame.col_single]
    exact (hc.wilder p hp).round 4
  case linearRegressionIndicator p =>
    subst he
    replace hp : 2 ≤ p := hp
    have key := Ind.LinearRegressionIndicator.exact p (by omega) F T (fun _ => K) hc.len h0 ht
    constructor
    · replace ht : Ind.LinearRegressionIndicator.calcTi p F = .ok T := ht
      unfold Ind.LinearRegressionIndicator.calcTi at ht
      split at ht
      · simp at ht
      simp only [Except.ok.injEq] at ht
      subst ht
      simp [Frame.col_single, rollingOLS, fillna, hc.len]
    · intro i hi
      rw [key i hi, slopeQ_const, interceptQ_const _ _ _ (by omega)]
      simp only
      split_ifs <;> first | omega | simp
  case linearRegressionSlope p =>
    split at he
    · simp at he
    rw [List.mem_singleton] at he
    subst he
    replace hp : 1 ≤ p := hp
    have key := Ind.LinearRegressionSlope.exact p (by omega) F T (fun _ => K) hc.len h0 ht
    constructor
    · replace ht : Ind.LinearRegressionSlope.calcTi p F = .ok T := ht
      unfold Ind.LinearRegressionSlope.calcTi at ht
      split at ht
      · simp at ht
      simp only [Except.ok.injEq] at ht
      subst ht
      simp [Frame.col_single, hc.len, rowNumbers]
    · intro i hi
      rw [key i hi, slopeQ_const]
      simp only
      split_ifs <;> first | omega | simp
  case timeSeriesForecast p =>
    subst he
    exact tsf p hp T ht
  case movingAverageConvergenceDivergence =>
    replace ht : Ind.MovingAverageConvergenceDivergence.calcTi F = .ok T := ht
    unfold Ind.MovingAverageConvergenceDivergence.calcTi at ht
    split at ht
    · simp at ht
    simp only [Except.ok.injEq] at ht
    subst ht
    have hm : Step (subS (roundS 4 (ewm 12 12 (F.col "close"))) (roundS 4 (ewm 26 26 (F.col "close")))) F.len 25 0 :=
      (((ema 12 (by omega)).round 4).sub ((ema 26 (by omega)).round 4)).congr (by omega) (by ring)
    rcases he with rfl | rfl
    · exact (hm.round 4).congr rfl (by simp)
    · exact ((hm.ewm 9 9 (by omega)).round 4).congr rfl (by simp)
  case priceOscillator l s =>
    replace ht : Ind.PriceOscillator.calcTi l s F = .ok T := ht
    unfold Ind.PriceOscillator.calcTi at ht
    split at ht
    · simp at ht
    simp only [Except.ok.injEq] at ht
    subst ht he
    obtain ⟨h1, h2⟩ := hp
    rw [Frame.col_single]
    exact ((((((mean s h1).sub (mean l (by omega))).scale 100)).div (mean l (by omega)) (hK trivial)).round 4).congr (by simp only; omega)
      (by simp)
  case priceRateOfChange p =>
    replace ht : Ind.PriceRateOfChange.calcTi p F = .ok T := ht
    unfold Ind.PriceRateOfChange.calcTi at ht
    split at ht
    · simp at ht
    simp only [Except.ok.injEq] at ht
    subst ht he
    rw [Frame.col_single]
    exact ((((hc.sub (hc.shift p)).scale 100).div (hc.shift p) (hK trivial)).round 4).congr (by simp only; omega) (by simp)
  case momentum p =>
    replace ht : Ind.Momentum.calcTi p F = .ok T := ht
    unfold Ind.Momentum.calcTi at ht
    split at ht
    · simp at ht
    simp only [Except.ok.injEq] at ht
    subst ht he
    rw [Frame.col_single]
    exact ((((hc.scale 100).div (hc.shift p) (hK trivial)).mask p).round 4).congr (by simp only; omega)
      (by rw [mul_div_cancel_right₀ _ (hK trivial)]; simp)
  case standardDeviation p =>
    replace ht : Ind.StandardDeviation.calcTi E.sq p F = .ok T := ht
    unfold Ind.StandardDeviation.calcTi at ht
    split at ht
    · simp at ht
    simp only [Except.ok.injEq] at ht
    subst ht he
    rw [Frame.col_single]
    exact ((hc.rolling p hp _ _ (aggStd_replicate E.sq p hp K)).round 4).congr (by simp only; omega) (by rw [hE]; simp)
  case bollingerBands p s =>
    cases s <;> simp only [List.mem_cons, List.not_mem_nil, or_false] at he
    rename_i q
    obtain ⟨hp, -⟩ := hp
    replace ht : Ind.BollingerBands.calcTi E.sq p (.fin q) F = .ok T := ht
    unfold Ind.BollingerBands.calcTi at ht
    split at ht
    · simp at ht
    simp only [Except.ok.injEq] at ht
    subst ht
    have hsd := (hc.rolling p hp _ _ (aggStd_replicate E.sq p hp K)).mapMul q
    have hbb := (mean p hp).round 4
    rcases he with rfl | rfl | rfl
    · exact hbb
    · exact ((hbb.add hsd).round 4).congr (by simp only; omega) (by rw [hE]; simp [roundQ_idem])
    · exact ((hbb.sub hsd).round 4).congr (by simp only; omega) (by rw [hE]; simp [roundQ_idem])
  case envelopes p s =>
    obtain ⟨hp, -⟩ := hp
    replace ht : Ind.Envelopes.calcTi p s F = .ok T := ht
    unfold Ind.Envelopes.calcTi at ht
    split at ht
    · simp at ht
    simp only [Except.ok.injEq] at ht
    subst ht
    rcases he with rfl | rfl
    · exact ((mean p hp).scale _).round 4
    · exact ((mean p hp).scale _).round 4

/-! ### Signals -/

/-- Columns whose entries are missing or one fixed number. -/
def Const (xs : List Val) (K : ℚ) : Prop := ∀ x ∈ xs, x = .nan ∨ x = .fin K

theorem Step.const {xs : List Val} {n a : ℕ} {K : ℚ} (h : Step xs n a K) : Const xs K := by
  intro x hx
  obtain ⟨i, hi, rfl⟩ := List.getElem_of_mem hx
  rw [← val_lt _ _ hi]
  exact h.cases i

theorem Const.iat {xs : List Val} {K : ℚ} (h : Const xs K) (k : ℕ) (h1 : 1 ≤ k) (h2 : k ≤ xs.length) :
    ∃ x, TTI.iat xs k = .ok x ∧ (x = .nan ∨ x = .fin K) := by
  refine ⟨_, iat_eq xs k h1 h2, ?_⟩
  apply h
  have e := iat_eq xs k h1 h2
  unfold TTI.iat at e
  split at e
  · rename_i v hv
    simp only [Except.ok.injEq] at e
    rw [← e]
    unfold fromEnd at hv
    rw [if_pos h2] at hv
    exact List.mem_of_getElem? hv
  · simp at e

/-- Entries of two such columns are not once this way round and once the other way round. -/
theorem no_swap {a b c d : Val} {K L : ℚ} (ha : a = .nan ∨ a = .fin K) (hb : b = .nan ∨ b = .fin K) (hc : c = .nan ∨ c = .fin L)
    (hd : d = .nan ∨ d = .fin L) : (a <ᵥ c && d <ᵥ b) = false := by
  rcases ha with rfl | rfl <;> rcases hb with rfl | rfl <;> rcases hc with rfl | rfl <;> rcases hd with rfl | rfl <;>
    simp [Val.lt]
  intro h; exact h.le

theorem no_less {a b : Val} {K : ℚ} (ha : a = .nan ∨ a = .fin K) (hb : b = .nan ∨ b = .fin K) : (a <ᵥ b) = false := by
  rcases ha with rfl | rfl <;> rcases hb with rfl | rfl <;> simp [Val.lt]

theorem levelSignal_const (name : String) (L : ℚ) (u d : Signal) (T : Frame) (K : ℚ) (h : Const (T.col name) K)
    (hl : (T.col name).length = T.len) : levelSignal name (.fin L) (.fin L) u d T = .ok .hold := by
  unfold levelSignal
  by_cases h2 : T.len < 2
  · simp [h2]; rfl
  obtain ⟨a, ha, ha'⟩ := h.iat 2 (by omega) (by omega)
  obtain ⟨b, hb, hb'⟩ := h.iat 1 (by omega) (by omega)
  have e1 : crossUp (.fin L) a b = false := no_swap ha' hb' (.inr rfl) (.inr rfl)
  have e2 : crossDown (.fin L) a b = false := no_swap (.inr rfl) (.inr rfl) ha' hb'
  simp [h2, ha, hb, e1, e2, bind, Except.bind, pure, Except.pure]

theorem priceCrossSignal_const (name : String) (u d : Signal) (F T : Frame) (K L : ℚ) (h : Const (T.col name) L)
    (hl : (T.col name).length = T.len) (hF : Const (F.col "close") K) (hlF : (F.col "close").length = T.len) :
    priceCrossSignal name u d F T = .ok .hold := by
  unfold priceCrossSignal
  by_cases h2 : T.len < 2
  · simp [h2]; rfl
  obtain ⟨a, ha, ha'⟩ := h.iat 2 (by omega) (by omega)
  obtain ⟨b, hb, hb'⟩ := h.iat 1 (by omega) (by omega)
  obtain ⟨c, hc, hc'⟩ := hF.iat 2 (by omega) (by omega)
  obtain ⟨d, hd, hd'⟩ := hF.iat 1 (by omega) (by omega)
  have e1 : (a <ᵥ c && d <ᵥ b) = false := no_swap ha' hb' hc' hd'
  have e2 : (c <ᵥ a && b <ᵥ d) = false := no_swap hc' hd' ha' hb'
  simp only [h2, if_false, ha, hb, hc, hd, e1, e2, bind, Except.bind, pure, Except.pure]
  rfl

theorem trendSignal_const (name : String) (u d : Signal) (T : Frame) (K : ℚ) (h : Const (T.col name) K)
    (hl : (T.col name).length = T.len) : trendSignal name u d T = .ok .hold := by
  unfold trendSignal
  by_cases h2 : T.len < 3
  · simp [h2]; rfl
  obtain ⟨a, ha, ha'⟩ := h.iat 3 (by omega) (by omega)
  obtain ⟨b, hb, hb'⟩ := h.iat 2 (by omega) (by omega)
  have e1 : (b <ᵥ a) = false := no_less hb' ha'
  have e2 : (a <ᵥ b) = false := no_less ha' hb'
  obtain ⟨c, hc, hc'⟩ := h.iat 1 (by omega) (by omega)
  simp [h2, ha, hb, hc, e1, e2, bind, Except.bind, pure, Except.pure]

theorem val_take (k : ℕ) (xs : List Val) (i : ℕ) (h : i < k) : val (xs.take k) i = val xs i := by
  unfold val
  rw [List.getD_eq_getElem?_getD, List.getD_eq_getElem?_getD, List.getElem?_take_of_lt h]

theorem dpo_step (p : ℕ) (hp : 1 ≤ p) (F T : Frame) (K : ℚ) (hc : Step (F.col "close") F.len 0 K)
    (ht : Ind.DetrendedPriceOscillator.calcTi p F = .ok T) :
    Step (T.col "dpo") (F.len - (1 + p / 2)) (p - 2 - p / 2) 0 ∧ T.len = F.len - (1 + p / 2) := by
  unfold Ind.DetrendedPriceOscillator.calcTi at ht
  split at ht
  · simp at ht
  simp only [Except.ok.injEq] at ht
  subst ht
  rw [Frame.col_single]
  have mean := hc.rolling p hp aggMean K (aggMean_replicate p hp K)
  refine ⟨⟨by simp [hc.len], fun i hi => ?_⟩, by simp [Frame.len]⟩
  rw [val_roundS, val_take _ _ _ hi, val_subS, hc.val i (by omega), val_shiftBack _ _ _ (by rw [mean.len]; omega), mean.val _ (by omega)]
  split_ifs <;> first | omega | simp

theorem Step.mapAbs {xs : List Val} {n a : ℕ} {K : ℚ} (h : Step xs n a K) : Step (xs.map Val.abs) n a |K| :=
  ⟨by simp [h.len], fun i hi => by rw [val_map _ rfl, h.val i hi]; split <;> simp [Val.abs]⟩

theorem Step.zeroBelow {xs : List Val} {n a : ℕ} (h : Step xs n a 0) : Step (TTI.zeroBelow xs) n a 0 :=
  ⟨by simp [TTI.zeroBelow, h.len], fun i hi => by
    unfold TTI.zeroBelow; rw [val_map _ (by rfl), h.val i hi]; split <;> simp [Val.lt, Val.zero_eq]⟩

theorem Step.zeroAbove {xs : List Val} {n a : ℕ} (h : Step xs n a 0) : Step (TTI.zeroAbove xs) n a 0 :=
  ⟨by simp [TTI.zeroAbove, h.len], fun i hi => by
    unfold TTI.zeroAbove; rw [val_map _ (by rfl), h.val i hi]; split <;> simp [Val.lt, Val.zero_eq]⟩

theorem aggSum_zero (p : ℕ) : aggSum (List.replicate p 0) = .fin 0 := by
  simp [aggSum]

theorem cmo_constant (p : ℕ) (hp : 1 ≤ p) (F T : Frame) (K : ℚ) (hc : Step (F.col "close") F.len 0 K)
    (ht : Ind.ChandeMomentumOscillator.calcTi p F = .ok T) (i : ℕ) : val (T.col "cmo") i = .nan := by
  unfold Ind.ChandeMomentumOscillator.calcTi at ht
  split at ht
  · simp at ht
  simp only [Except.ok.injEq] at ht
  subst ht
  have hd : Step (diffS 1 (F.col "close")) F.len 1 0 := (hc.sub (hc.shift 1)).congr (by omega) (by ring)
  have hu := hd.zeroBelow.rolling p hp aggSum 0 (aggSum_zero p)
  have hdn := (hd.zeroAbove.rolling p hp aggSum 0 (aggSum_zero p)).mapAbs
  rw [Frame.col_single, val_roundS, val_divS, val_scaleS, val_subS, val_addS]
  rcases hu.cases i with e | e <;> rcases hdn.cases i with e' | e' <;> rw [e, e'] <;> simp [Val.div]

theorem variable_constant (p : ℕ) (F T : Frame) (K : ℚ) (hc : Step (F.col "close") F.len 0 K)
    (ht : Ind.MovingAverage.calcTi p .variableType F = .ok T) (i : ℕ) (hi : i < F.len) :
    val (T.col "ma-variable") i = if i = 21 then .fin (roundQ 4 K) else .nan := by
  have e1 : (F.sub ["close"]).len = F.len := rfl
  have e2 : (F.sub ["close"]).col "close" = F.col "close" :=
    Ind.sub_col_fin F _ _ (by simp) (fun _ => K) hc.len (fun j hj => by rw [hc.val j hj]; rfl)
  unfold Ind.MovingAverage.calcTi at ht
  by_cases hlt : F.len < 22
  · simp [hlt, bind, Except.bind, throw, throwThe, MonadExceptOf.throw] at ht
  cases hf : Ind.ChandeMomentumOscillator.calcTi 9 (F.sub ["close"]) with
  | error e => simp [hlt, hf, bind, Except.bind, pure, Except.pure] at ht
  | ok C =>
    simp [hlt, hf, bind, Except.bind, pure, Except.pure] at ht
    subst ht
    have hnan := cmo_constant 9 (by omega) _ C K (by rw [e1, e2]; exact hc) hf
    have hlen : (C.col "cmo").length = F.len := by
      unfold Ind.ChandeMomentumOscillator.calcTi at hf
      split at hf
      · simp at hf
      simp only [Except.ok.injEq] at hf
      subst hf
      rw [Frame.col_single]
      simp [e2, hc.len, zeroBelow, zeroAbove]
    have hrows : (F.col "close").zip ((C.col "cmo").map fun x => Val.abs (Val.div x 100)) =
        List.replicate F.len (Val.fin K, Val.nan) := by
      apply List.ext_getElem
      · simp [hc.len, hlen]
      · intro j h1 h2
        have h3 : j < F.len := by simpa using h2
        have hv := hnan j
        rw [val_lt _ _ (by omega)] at hv
        have hv' := hc.val j h3
        rw [val_lt _ _ (by rw [hc.len]; exact h3)] at hv'
        simp only [List.getElem_zip, List.getElem_map, hv, hv', List.getElem_replicate]
        rfl
    rw [hrows]
    show val (roundS 4 (Ind.MovingAverage.variableMa p _)) i = _
    have hfold : ∀ (k : ℕ) (v : Val), k ≠ 0 → (List.replicate k (Val.fin K, Val.nan)).foldl (fun prev r =>
        Val.add (Val.mul (Val.mul (.fin (2 / ((p : ℚ) + 1))) r.1) r.2)
          (Val.mul (Val.sub 1 (Val.mul (.fin (2 / ((p : ℚ) + 1))) r.2)) prev)) v = .nan := by
      intro k
      induction k with
      | zero => intro _ h; exact absurd rfl h
      | succ k ih =>
        intro v _
        rw [List.replicate_succ, List.foldl_cons]
        by_cases hk : k = 0
        · subst hk; simp [Val.add, Val.mul]
        · exact ih _ hk
    rw [val_roundS]
    unfold Ind.MovingAverage.variableMa
    unfold val
    simp only
    rw [List.getD_eq_getElem?_getD, prefixMap_getElem?_of_lt _ _ _ (by simpa using hi), Option.getD_some, List.take_replicate, List.drop_replicate, show min (i + 1) F.len = i + 1 by omega]
    by_cases h21 : i < 21
    · rw [show i + 1 - 21 = 0 by omega, if_neg (by omega)]; rfl
    · rw [show i + 1 - 21 = (i - 21) + 1 by omega, List.replicate_succ]
      by_cases h0 : i = 21
      · subst h0; rfl
      · rw [if_neg h0]
        simp only
        rw [hfold _ _ (by omega)]; rfl

theorem Step.take {xs : List Val} {n a : ℕ} {K : ℚ} (h : Step xs n a K) (k : ℕ) : Step (xs.take k) (min k n) a K :=
  ⟨by simp [h.len], fun i hi => by rw [val_take _ _ _ (by omega), h.val i (by omega)]⟩

/-- What the signals need to know about the data of an object on constant closes; it survives cutting the rows. -/
structure FlatData (K : ℚ) (ind : Ind) (F T : Frame) : Prop where
  close : Step (F.col "close") F.len 0 K
  cols : ∀ e ∈ Spec.onConstant K ind, Step (T.col e.column) T.len e.first e.value
  lrs : ∀ p, ind = .linearRegressionSlope p → ∃ L, Const (T.col "lrs") L
  dpo : ∀ p, ind = .detrendedPriceOscillator p → ∃ L, Const (T.col "dpo") L
  var : ∀ p, ind = .movingAverage p .variableType → Const (T.col "ma-variable") (roundQ 4 K)

theorem Const.take {xs : List Val} {K : ℚ} (h : Const xs K) (k : ℕ) : Const (xs.take k) K :=
  fun x hx => h x (List.mem_of_mem_take hx)

theorem FlatData.take {K : ℚ} {ind : Ind} {F T : Frame} (h : FlatData K ind F T) (k l : ℕ) :
    FlatData K ind (F.take k) (T.take l) where
  close := by rw [Frame.take_col, Frame.take_len]; exact h.close.take k
  cols e he := by rw [Frame.take_col, Frame.take_len]; exact (h.cols e he).take l
  lrs p hp := by obtain ⟨n, hn⟩ := h.lrs p hp; exact ⟨n, by rw [Frame.take_col]; exact hn.take l⟩
  dpo p hp := by obtain ⟨n, hn⟩ := h.dpo p hp; exact ⟨n, by rw [Frame.take_col]; exact hn.take l⟩
  var p hp := by have := h.var p hp; rw [Frame.take_col]; exact this.take l

theorem flatData (E : Env) (hE : E.sq 0 = 0) (ind : Ind) (hp : ind.Pos) (F T : Frame) (K : ℚ)
    (hc : Step (F.col "close") F.len 0 K) (ht : ind.calcTi E F = .ok T) (hK : Spec.DividesByClose ind → K ≠ 0)
    (hs : Shaped ind F T) : FlatData K ind F T where
  close := hc
  cols e he := by
    have := constant_step E hE ind hp F T K hc ht hK e he
    rwa [hs.rowsEq (by rintro p rfl; simp [Spec.onConstant] at he)]
  lrs p hi := by
    subst hi
    refine ⟨0, ?_⟩
    have key := Ind.LinearRegressionSlope.exact p hp F T (fun _ => K) hc.len (fun j hj => by rw [hc.val j hj]; rfl) ht
    have hl := hs.tcol "lrs" (by simp [Spec.columns])
    have hT := hs.rowsEq (by simp)
    intro x hx
    obtain ⟨i, hi, rfl⟩ := List.getElem_of_mem hx
    rw [← val_lt _ _ hi, key i (by omega), slopeQ_const]
    split_ifs <;> simp
  dpo p hi := by subst hi; exact ⟨0, (dpo_step p hp F T K hc ht).1.const⟩
  var p hi := by
    subst hi
    have key := variable_constant p F T K hc ht
    have hl := hs.tcol "ma-variable" (by simp [Spec.columns])
    have hT := hs.rowsEq (by simp)
    intro x hx
    obtain ⟨i, hi, rfl⟩ := List.getElem_of_mem hx
    rw [← val_lt _ _ hi, key i (by omega)]
    split <;> simp

theorem constant_signal (ind : Ind) (hp : ind.Pos) (F T : Frame) (K : ℚ) (fd : FlatData K ind F T) (hsh : Shaped ind F T)
    (hs : Spec.ComparesDays ind) : ind.signal F T = .ok .hold := by
  have hc := fd.close
  have st := fd.cols
  have hTc := hsh.tcol
  have hT := hsh.rowsEq
  cases ind <;> simp only [Spec.ComparesDays] at hs
  case detrendedPriceOscillator p =>
    obtain ⟨L, h1⟩ := fd.dpo p rfl
    exact levelSignal_const "dpo" 0 _ _ T L h1 (hTc _ (by simp [Spec.columns]))
  all_goals replace hT := hT (by simp)
  all_goals have hF : (F.col "close").length = F.len := hsh.fcol _ (by simp [inputColumns, Ind.required])
  case wildersSmoothing p =>
    have h1 := st _ (List.mem_cons_self)
    exact priceCrossSignal_const "ws" _ _ F T K _ h1.const (hTc _ (by simp [Spec.columns])) hc.const (by rw [hF]; exact hT.symm)
  case linearRegressionIndicator p =>
    have h1 := st _ (List.mem_cons_self)
    exact priceCrossSignal_const "lri" _ _ F T K _ h1.const (hTc _ (by simp [Spec.columns])) hc.const (by rw [hF]; exact hT.symm)
  case timeSeriesForecast p =>
    have h1 := st _ (List.mem_cons_self)
    exact priceCrossSignal_const "tsf" _ _ F T K _ h1.const (hTc _ (by simp [Spec.columns])) hc.const (by rw [hF]; exact hT.symm)
  case linearRegressionSlope p =>
    obtain ⟨L, h1⟩ := fd.lrs p rfl
    exact levelSignal_const "lrs" 0 _ _ T L h1 (hTc _ (by simp [Spec.columns]))
  case movingAverageConvergenceDivergence =>
    have h1 := st ⟨"macd", 25, 0⟩ (by simp [Spec.onConstant])
    have h2 := st ⟨"signal_line", 33, 0⟩ (by simp [Spec.onConstant])
    show Ind.MovingAverageConvergenceDivergence.signal T = _
    unfold Ind.MovingAverageConvergenceDivergence.signal
    by_cases hl : T.len < 2
    · simp [hl]; rfl
    obtain ⟨a, ha, ha'⟩ := h1.const.iat 2 (by omega) (by rw [h1.len]; omega)
    obtain ⟨b, hb, hb'⟩ := h1.const.iat 1 (by omega) (by rw [h1.len]; omega)
    obtain ⟨c, hc, hc'⟩ := h2.const.iat 2 (by omega) (by rw [h2.len]; omega)
    obtain ⟨d, hd, hd'⟩ := h2.const.iat 1 (by omega) (by rw [h2.len]; omega)
    simp only [] at ha hb hc hd ha' hb' hc' hd'
    have z : (0 : Val) = .nan ∨ (0 : Val) = .fin 0 := .inr rfl
    simp only [hl, if_false, ha, hb, hc, hd, no_less ha' z, no_less z ha', no_less ha' hc', no_less hc' ha', Bool.false_and,
      bind, Except.bind, pure, Except.pure]
    rfl
  case priceOscillator l s =>
    have h1 := st _ (List.mem_cons_self)
    exact levelSignal_const "posc" 0 _ _ T 0 h1.const (hTc _ (by simp [Spec.columns]))
  case priceRateOfChange p =>
    have h1 := st _ (List.mem_cons_self)
    exact trendSignal_const "prc" _ _ T 0 h1.const (hTc _ (by simp [Spec.columns]))
  case momentum p =>
    have h1 := st ⟨"mom", p, 100⟩ (List.mem_cons_self)
    have h2 := h1.ewm 9 9 (by omega)
    show Ind.Momentum.signal T = _
    unfold Ind.Momentum.signal
    by_cases hl : T.len < 9
    · simp [hl]; rfl
    simp only [] at h1 h2
    obtain ⟨a, ha, ha'⟩ := h1.const.iat 2 (by omega) (by rw [h1.len]; omega)
    obtain ⟨b, hb, hb'⟩ := h1.const.iat 1 (by omega) (by rw [h1.len]; omega)
    obtain ⟨c, hc, hc'⟩ := h2.const.iat 2 (by omega) (by rw [h2.len]; omega)
    obtain ⟨d, hd, hd'⟩ := h2.const.iat 1 (by omega) (by rw [h2.len]; omega)
    simp only [hl, if_false, ha, hb, hc, hd, no_less ha' hc', no_less hc' ha', Bool.false_and, bind, Except.bind, pure, Except.pure]
    rfl
  case standardDeviation p =>
    have h1 := st ⟨"sd", p - 1, 0⟩ (List.mem_cons_self)
    have h2 := (hc.rolling p hp aggMean K (aggMean_replicate p hp K)).round 4
    show Ind.StandardDeviation.signal p F T = _
    unfold Ind.StandardDeviation.signal
    by_cases hl : T.len < 1
    · simp [hl]; rfl
    simp only [] at h1
    obtain ⟨a, ha, ha'⟩ := hc.const.iat 1 (by omega) (by rw [hc.len]; omega)
    obtain ⟨b, hb, hb'⟩ := h2.const.iat 1 (by omega) (by rw [h2.len]; omega)
    obtain ⟨c, hc, hc'⟩ := h1.const.iat 1 (by omega) (by rw [h1.len]; omega)
    have e : ((2 : Val) <ᵥ c) = false := by rcases hc' with rfl | rfl <;> decide +kernel
    simp only [hl, if_false, ha, hb, hc, e, Bool.and_false, bind, Except.bind, pure, Except.pure]
    rfl

/-- A constant with at most 4 decimals. -/
theorem constant_level_signal (ind : Ind) (F T : Frame) (K : ℚ) (hK4 : roundQ 4 K = K) (fd : FlatData K ind F T)
    (hsh : Shaped ind F T) (hs : Spec.ComparesLevel ind) : ind.signal F T = .ok .hold := by
  have hc := fd.close
  have st := fd.cols
  have hTc := hsh.tcol
  have hT := hsh.rowsEq
  cases ind <;> simp only [Spec.ComparesLevel] at hs
  all_goals replace hT := hT (by simp)
  all_goals have hF : (F.col "close").length = F.len := hsh.fcol _ (by simp [inputColumns, Ind.required])
  case movingAverage p t =>
    have hcol : Const (T.col t.column) K ∧ (T.col t.column).length = T.len := by
      cases t
      case variableType =>
        have h1 := fd.var p rfl
        rw [hK4] at h1
        exact ⟨h1, hTc _ (by simp [Spec.columns, Ind.MaType.column, Ind.MaType.str])⟩
      all_goals
        have h1 := st _ (List.mem_cons_self)
        simp only [hK4] at h1
        exact ⟨h1.const, hTc _ (by simp [Spec.columns, Ind.MaType.column, Ind.MaType.str])⟩
    show Ind.MovingAverage.signal t F T = _
    unfold Ind.MovingAverage.signal
    by_cases hl : T.len < 1
    · simp [hl]; rfl
    obtain ⟨a, ha, ha'⟩ := hc.const.iat 1 (by omega) (by omega)
    obtain ⟨b, hb, hb'⟩ := hcol.1.iat 1 (by omega) (by rw [hcol.2]; omega)
    simp only [hl, if_false, ha, hb, no_less hb' ha', bind, Except.bind, pure, Except.pure]
    rfl
  case doubleExponentialMovingAverage p =>
    have h1 := st ⟨"dema", 2 * p - 2, roundQ 4 K⟩ (List.mem_cons_self)
    simp only [hK4] at h1
    show Ind.DoubleExponentialMovingAverage.signal F T = _
    unfold Ind.DoubleExponentialMovingAverage.signal
    by_cases hl : T.len < 1
    · simp [hl]; rfl
    obtain ⟨a, ha, ha'⟩ := hc.const.iat 1 (by omega) (by rw [hc.len]; omega)
    obtain ⟨b, hb, hb'⟩ := h1.const.iat 1 (by omega) (by rw [h1.len]; omega)
    simp only [hl, if_false, ha, hb, no_less ha' hb', bind, Except.bind, pure, Except.pure]
    rfl
  case tripleExponentialMovingAverage p =>
    have h1 := st ⟨"tema", 3 * p - 3, roundQ 4 K⟩ (List.mem_cons_self)
    simp only [hK4] at h1
    show Ind.TripleExponentialMovingAverage.signal F T = _
    unfold Ind.TripleExponentialMovingAverage.signal
    by_cases hl : T.len < 1
    · simp [hl]; rfl
    obtain ⟨a, ha, ha'⟩ := hc.const.iat 1 (by omega) (by rw [hc.len]; omega)
    obtain ⟨b, hb, hb'⟩ := h1.const.iat 1 (by omega) (by rw [h1.len]; omega)
    simp only [hl, if_false, ha, hb, no_less ha' hb', no_less hb' ha', bind, Except.bind, pure, Except.pure]
    rfl
  case bollingerBands p s =>
    cases s <;> simp only at hs
    rename_i q
    have h1 := st ⟨"upper_band", p - 1, roundQ 4 K⟩ (by simp [Spec.onConstant])
    have h2 := st ⟨"lower_band", p - 1, roundQ 4 K⟩ (by simp [Spec.onConstant])
    simp only [hK4] at h1 h2
    show bandSignal _ _ F T = _
    unfold bandSignal
    by_cases hl : T.len < 1
    · simp [hl]; rfl
    obtain ⟨a, ha, ha'⟩ := hc.const.iat 1 (by omega) (by rw [hc.len]; omega)
    obtain ⟨b, hb, hb'⟩ := h1.const.iat 1 (by omega) (by rw [h1.len]; omega)
    obtain ⟨c, hc, hc'⟩ := h2.const.iat 1 (by omega) (by rw [h2.len]; omega)
    simp only [hl, if_false, ha, hb, hc, no_less ha' hc', no_less hb' ha', bind, Except.bind, pure, Except.pure]
    rfl

end TTI
