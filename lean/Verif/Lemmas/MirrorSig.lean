import Verif.Lemmas.MirrorObj
import Verif.Lemmas.Rules

set_option autoImplicit false

/-!
# Signals on the mirrored market
-/

namespace TTI

open TTI.Spec

/-! ## Comparisons of mirrored values -/

section
variable (k : ℚ)

theorem rv_lt (a b : Val) : Val.lt (Val.sub (.fin k) a) (Val.sub (.fin k) b) = Val.lt b a := by
  cases a <;> cases b <;> simp [Val.sub, Val.add, Val.neg, Val.lt]
  constructor <;> intro h' <;> linarith

theorem rv_lt_fin (a : Val) (h : ℚ) : Val.lt (Val.sub (.fin k) a) (.fin h) = Val.lt (.fin (k - h)) a := by
  cases a <;> simp [Val.sub, Val.add, Val.neg, Val.lt]
  constructor <;> intro h' <;> linarith

theorem fin_lt_rv (a : Val) (h : ℚ) : Val.lt (.fin h) (Val.sub (.fin k) a) = Val.lt a (.fin (k - h)) := by
  cases a <;> simp [Val.sub, Val.add, Val.neg, Val.lt]
  constructor <;> intro h' <;> linarith

theorem rv_le_fin (a : Val) (h : ℚ) : Val.le (Val.sub (.fin k) a) (.fin h) = Val.le (.fin (k - h)) a := by
  cases a <;> simp [Val.sub, Val.add, Val.neg, Val.le]
  constructor <;> intro h' <;> linarith

theorem fin_le_rv (a : Val) (h : ℚ) : Val.le (.fin h) (Val.sub (.fin k) a) = Val.le a (.fin (k - h)) := by
  cases a <;> simp [Val.sub, Val.add, Val.neg, Val.le]
  constructor <;> intro h' <;> linarith

theorem crossUp_rv (h : ℚ) (a b : Val) : crossUp (.fin h) (Val.sub (.fin k) a) (Val.sub (.fin k) b) = crossDown (.fin (k - h)) a b := by
  unfold crossUp crossDown
  rw [rv_lt_fin, fin_lt_rv]

theorem crossDown_rv (h : ℚ) (a b : Val) : crossDown (.fin h) (Val.sub (.fin k) a) (Val.sub (.fin k) b) = crossUp (.fin (k - h)) a b := by
  unfold crossUp crossDown
  rw [rv_lt_fin, fin_lt_rv]
end

/-! ## Case distinctions -/

theorem bind_opp (x : Except Err Val) (m : Val → Val) (f g : Val → SigResult) (h : ∀ v, f (m v) = (g v).map opposite) :
    (m <$> x >>= f) = (x >>= g).map opposite := by
  cases x with
  | error e => rfl
  | ok v => exact h v

theorem bind_opp' (x : Except Err Val) (f g : Val → SigResult) (h : ∀ v, f v = (g v).map opposite) :
    (x >>= f) = (x >>= g).map opposite := by
  cases x with
  | error e => rfl
  | ok v => exact h v

theorem ite_opp (c : Prop) [Decidable c] (x y : SigResult) (h : x = y.map opposite) :
    (if c then pure .hold else x) = (if c then pure .hold else y : SigResult).map opposite := by
  split_ifs
  · rfl
  · exact h

theorem pick (p q p' q' : Bool) (s : Signal) (hp : p' = q) (hq : q' = p) (hx : p = true → q = true → False) :
    (if p' = true then pure s else if q' = true then pure (opposite s) else pure .hold : SigResult) =
      (if p = true then pure s else if q = true then pure (opposite s) else pure .hold : SigResult).map opposite := by
  subst hp hq
  cases h1 : p' <;> cases h2 : q'
  · rfl
  · cases s <;> rfl
  · cases s <;> rfl
  · exact (hx h2 h1).elim

theorem pick4 (p q r t p' q' r' t' : Bool) (s u : Signal) (hp : p' = q) (hq : q' = p) (hr : r' = t) (ht : t' = r)
    (hx : p = true → q = true → False) (hy : r = true → t = true → False) :
    (if p' = true then pure s else if q' = true then pure (opposite s) else if r' = true then pure u else
      if t' = true then pure (opposite u) else pure .hold : SigResult) =
      (if p = true then pure s else if q = true then pure (opposite s) else if r = true then pure u else
        if t = true then pure (opposite u) else pure .hold : SigResult).map opposite := by
  subst hp hq hr ht
  cases h1 : p' <;> cases h2 : q' <;> cases h3 : r' <;> cases h4 : t' <;>
    first
    | exact (hx h2 h1).elim
    | exact (hy h4 h3).elim
    | (cases s <;> cases u <;> rfl)

/-! ## Columns -/

theorem absent_col (T : Frame) (n : String) (h : n ∉ T.cols.map (·.1)) : T.col n = [] := by
  unfold Frame.col
  rw [List.find?_eq_none.2]
  · rfl
  · intro c hc hn
    exact h (List.mem_map.2 ⟨c, hc, by simpa using hn⟩)

theorem reflected_col' (m : Val → Val) (T : Frame) (n : String)
    (h : n ∈ T.cols.map (·.1) ↔ partner n ∈ T.cols.map (·.1)) : (reflected m T).col n = (T.col (partner n)).map m := by
  by_cases hn : n ∈ T.cols.map (·.1)
  · have hc : ∀ l : List (String × List Val), n ∈ l.map (·.1) →
        ((l.map fun c => (c.1, (T.col (partner c.1)).map m)).find? fun c => c.1 == n) = some (n, (T.col (partner n)).map m) := by
      intro l
      induction l with
      | nil => intro h; cases h
      | cons c l ih =>
        intro hn
        rw [List.map_cons, List.find?_cons]
        by_cases h : c.1 = n
        · subst h; simp
        · have : (c.1 == n) = false := by simpa using h
          simp only [this]
          rcases List.mem_cons.1 hn with h2 | h2
          · exact absurd h2.symm h
          · exact ih h2
    show (((T.cols.map fun c => (c.1, (T.col (partner c.1)).map m)).find? fun c => c.1 == n).map (·.2)).getD [] = _
    rw [hc _ hn]
    rfl
  · rw [absent_col T _ (fun h' => hn (h.2 h')), absent_col]
    · rfl
    · simpa [reflected, List.map_map, Function.comp_def] using hn

theorem reflected_same (m : Val → Val) (T : Frame) (n : String) (h : partner n = n) : (reflected m T).col n = (T.col n).map m := by
  rw [reflected_col' m T n (by rw [h]), h]

theorem reflected_len (m : Val → Val) (T : Frame) : (reflected m T).len = T.len := rfl

/-! ## Common shapes -/

theorem level_turn (k : ℚ) (n : String) (hi lo : ℚ) (up : Signal) (T : Frame) (hn : partner n = n) (h1 : k - hi = lo)
    (h2 : lo ≤ hi) :
    levelSignal n (.fin hi) (.fin lo) up (opposite up) (reflected (Val.sub (.fin k)) T) =
      (levelSignal n (.fin hi) (.fin lo) up (opposite up) T).map opposite := by
  unfold levelSignal
  rw [reflected_same _ _ _ hn, reflected_len, iat_map, iat_map]
  refine ite_opp _ _ _ (bind_opp _ _ _ _ fun a => bind_opp _ _ _ _ fun b => ?_)
  refine pick _ _ _ _ up (by rw [crossUp_rv, h1]) (by rw [crossDown_rv, ← h1, sub_sub_cancel]) ?_
  unfold crossUp crossDown
  simp only [Bool.and_eq_true]
  rintro ⟨-, h3⟩ ⟨-, h4⟩
  have := Val.lt_trans _ _ _ h3 h4
  simp [Val.lt] at this
  linarith

theorem trend_turn (n : String) (f : Signal) (T : Frame) (hn : partner n = n) :
    trendSignal n f (opposite f) (reflected (Val.sub (.fin 0)) T) = (trendSignal n f (opposite f) T).map opposite := by
  unfold trendSignal
  rw [reflected_same _ _ _ hn, reflected_len]
  simp only [iat_map]
  refine ite_opp _ _ _ (bind_opp _ _ _ _ fun a => bind_opp _ _ _ _ fun b => bind_opp _ _ _ _ fun c => ?_)
  refine pick _ _ _ _ f (by rw [rv_lt, rv_lt]) (by rw [rv_lt, rv_lt]) ?_
  simp only [Bool.and_eq_true]
  rintro ⟨h1, -⟩ ⟨h2, -⟩
  rw [Val.lt_asymm _ _ h1] at h2
  cases h2

theorem cross_turn (n : String) (s : Signal) (F T : Frame) (hn : partner n = n) :
    priceCrossSignal n s (opposite s) F.flip (reflected (Val.sub (.fin 0)) T) = (priceCrossSignal n s (opposite s) F T).map opposite := by
  unfold priceCrossSignal
  rw [reflected_same _ _ _ hn, reflected_len, flip_close, zero_sub_val]
  simp only [iat_map, iat_ngl]
  refine ite_opp _ _ _ (bind_opp _ _ _ _ fun a => bind_opp _ _ _ _ fun b => bind_opp _ _ _ _ fun c => bind_opp _ _ _ _ fun d => ?_)
  refine pick _ _ _ _ s (by rw [ng_lt, ng_lt]) (by rw [ng_lt, ng_lt]) ?_
  simp only [Bool.and_eq_true]
  rintro ⟨h1, -⟩ ⟨h2, -⟩
  rw [Val.lt_asymm _ _ h1] at h2
  cases h2

theorem iat_last (xs : List Val) (v : Val) (h : iat xs 1 = .ok v) : xs.getLast? = some v := by
  unfold iat at h
  cases h1 : fromEnd 1 xs with
  | none => rw [h1] at h; cases h
  | some w =>
    rw [h1] at h
    cases h
    unfold fromEnd at h1
    rw [List.getLast?_eq_getElem?]
    exact (show 1 ≤ xs.length ∧ xs[xs.length - 1]? = some v by simpa using h1).2

theorem iat_index (xs : List Val) (n : ℕ) (e : Err) (h : iat xs n = .error e) : e = .indexError := by
  unfold iat at h
  split at h
  · cases h
  · cases h; rfl

theorem band_turn (u l : String) (F T : Frame) (hu : partner u = l) (hl : partner l = u)
    (hT : u ∈ T.cols.map (·.1) ↔ l ∈ T.cols.map (·.1))
    (ho : ∀ x y, (T.col u).getLast? = some x → (T.col l).getLast? = some y → Val.lt x y = false) :
    bandSignal u l F.flip (reflected (Val.sub (.fin 0)) T) = (bandSignal u l F T).map opposite := by
  unfold bandSignal
  rw [reflected_col' _ _ u (by rw [hu]; exact hT), reflected_col' _ _ l (by rw [hl]; exact hT.symm), hu, hl, reflected_len, flip_close,
    zero_sub_val]
  simp only [iat_map, iat_ngl]
  refine ite_opp _ _ _ (bind_opp _ _ _ _ fun c => ?_)
  cases h1 : iat (T.col u) 1 with
  | error e =>
    cases h2 : iat (T.col l) 1 with
    | error e' => rw [iat_index _ _ _ h1, iat_index _ _ _ h2]; rfl
    | ok y => rfl
  | ok x =>
    cases h2 : iat (T.col l) 1 with
    | error e' => rfl
    | ok y =>
      have := ho x y (iat_last _ _ h1) (iat_last _ _ h2)
      refine pick _ _ _ _ .sell (ng_lt _ _) (ng_lt _ _) ?_
      intro h3 h4
      rw [Val.lt_trans _ _ _ h3 h4] at this
      cases this

theorem lastIndex_map (p : Val → Bool) (m : Val → Val) (xs : List Val) :
    Ind.WilliamsR.lastIndex p (xs.map m) = Ind.WilliamsR.lastIndex (fun x => p (m x)) xs := by
  unfold Ind.WilliamsR.lastIndex
  have : (xs.map m).zipIdx = xs.zipIdx.map fun q => (m q.1, q.2) := by
    rw [List.zipIdx_map]; rfl
  rw [this, List.filter_map, List.getLast?_map]
  have hf : (xs.zipIdx.filter ((fun q : Val × ℕ => p q.1) ∘ fun q : Val × ℕ => (m q.1, q.2))) =
      xs.zipIdx.filter fun q => p (m q.1) := rfl
  rw [hf]
  cases (xs.zipIdx.filter fun q => p (m q.1)).getLast? <;> rfl

theorem not_both {a b : Val} (h1 : Val.lt a b = true) (h2 : Val.lt b a = true) : False := by
  rw [Val.lt_asymm _ _ h1] at h2; cases h2

theorem bands_exclude (u l c : Val) (h : Val.lt u l = false)
    (h1 : Val.lt (Val.sub u c) (Val.mul (.fin (15 / 100)) (Val.sub u l)) = true)
    (h2 : Val.lt (Val.sub c l) (Val.mul (.fin (15 / 100)) (Val.sub u l)) = true) : False := by
  cases u <;> cases l <;> cases c <;>
    simp [Val.sub, Val.add, Val.neg, Val.mul, Val.lt, Val.infMul] at h h1 h2
  linarith

/-- The signals of the classes `signalTurns` turn into the opposite ones. -/
theorem signal_turns (ind : Ind) (ht : signalTurns ind = true) (m : Val → Val) (hm : reflect 0 ind = some m) (F T : Frame)
    (hT : T.cols.map (·.1) = columns ind) (ho : BandsInOrder ind T) :
    ind.signal F.flip (reflected m T) = (ind.signal F T).map opposite := by
  cases ind <;> try (simp [signalTurns] at ht; done)
  all_goals
    simp only [reflect, Option.some.injEq] at hm
    subst hm
    simp only [Ind.signal]
  case accumulationDistributionLine =>
    unfold Ind.AccumulationDistributionLine.signal
    rw [reflected_same _ _ _ rfl, reflected_len, flip_close]
    simp only [iat_map, iat_ngl]
    refine ite_opp _ _ _ (bind_opp _ _ _ _ fun a => bind_opp _ _ _ _ fun b => bind_opp _ _ _ _ fun c => ?_)
    refine pick _ _ _ _ .buy (by simp only [ng_sub, ng_lt_zero, zero_lt_ng]) (by simp only [ng_sub, ng_lt_zero, zero_lt_ng]) ?_
    simp only [Bool.and_eq_true, Bool.or_eq_true]
    rintro (⟨-, h1⟩ | ⟨-, h1⟩) (⟨-, h2⟩ | ⟨-, h2⟩) <;> exact not_both h1 h2
  case bollingerBands p s =>
    exact band_turn _ _ _ _ rfl rfl (by rw [hT]; simp [columns]) ho
  case chaikinMoneyFlow p =>
    unfold Ind.ChaikinMoneyFlow.signal
    rw [reflected_same _ _ _ rfl, reflected_len, flip_close]
    simp only [iat_map, iat_ngl]
    refine ite_opp _ _ _ (bind_opp _ _ _ _ fun a => bind_opp _ _ _ _ fun b => bind_opp _ _ _ _ fun c => bind_opp _ _ _ _ fun d =>
      bind_opp _ _ _ _ fun e => ?_)
    refine pick _ _ _ _ .sell (by simp only [ng_pmax, ng_lt]) (by simp only [ng_pmin, ng_lt]) ?_
    simp only [Bool.and_eq_true]
    rintro ⟨h1, -⟩ ⟨h2, -⟩
    exact not_both h1 h2
  case chaikinOscillator =>
    unfold Ind.ChaikinOscillator.signal
    rw [reflected_same _ _ _ rfl, reflected_len, flip_close]
    simp only [iat_map, iat_ngl, ngl_window, meanSkip_ngl]
    refine ite_opp _ _ _ (bind_opp _ _ _ _ fun a => bind_opp _ _ _ _ fun b => bind_opp _ _ _ _ fun c => ?_)
    refine pick _ _ _ _ .buy (by simp only [ng_lt, ng_lt_zero]) (by simp only [ng_lt, zero_lt_ng]) ?_
    simp only [Bool.and_eq_true]
    rintro ⟨h1, -⟩ ⟨h2, -⟩
    exact not_both h1 h2
  case chandeMomentumOscillator p => rw [← zero_sub_val]; exact level_turn 0 _ 50 (-50) .sell T rfl (by norm_num) (by norm_num)
  case commodityChannelIndex p =>
    unfold Ind.CommodityChannelIndex.signal
    rw [reflected_same _ _ _ rfl, reflected_len, ← zero_sub_val]
    simp only [iat_map]
    refine ite_opp _ _ _ (bind_opp _ _ _ _ fun a => ?_)
    refine pick _ _ _ _ .buy (by rw [rv_lt_fin]; norm_num; rfl) (by rw [show (100 : Val) = .fin 100 from rfl, fin_lt_rv]; norm_num) ?_
    intro h1 h2
    have := Val.lt_trans _ _ _ h2 h1
    revert this
    decide +kernel
  case detrendedPriceOscillator p => rw [← zero_sub_val]; exact level_turn 0 _ 0 0 .buy T rfl (by norm_num) (by norm_num)
  case directionalMovementIndex =>
    unfold Ind.DirectionalMovementIndex.signal
    rw [reflected_same _ _ "adxr" rfl, reflected_col' _ _ "+di" (by rw [hT]; simp [columns, partner]),
      reflected_col' _ _ "-di" (by rw [hT]; simp [columns, partner]), reflected_len]
    simp only [List.map_id, partner, String.reduceEq, if_true, if_false]
    refine ite_opp _ _ _ ?_
    generalize iat (T.col "adxr") 1 = r
    cases h1 : iat (T.col "+di") 2 with
    | error e1 =>
      rw [iat_index _ _ _ h1]
      cases h2 : iat (T.col "-di") 2 with
      | error e2 => rw [iat_index _ _ _ h2]; rfl
      | ok x2 => rfl
    | ok x1 =>
      cases h2 : iat (T.col "-di") 2 with
      | error e2 => rfl
      | ok x2 =>
        cases h3 : iat (T.col "+di") 1 with
        | error e3 =>
          rw [iat_index _ _ _ h3]
          cases h4 : iat (T.col "-di") 1 with
          | error e4 => rw [iat_index _ _ _ h4]; rfl
          | ok x4 => rfl
        | ok x3 =>
          cases h4 : iat (T.col "-di") 1 with
          | error e4 => rfl
          | ok x4 =>
            change (r >>= fun a => _) = Except.map opposite (r >>= fun a => _)
            refine bind_opp' _ _ _ fun a => ?_
            refine pick _ _ _ _ .sell rfl rfl ?_
            simp only [Bool.and_eq_true]
            rintro ⟨⟨h1, -⟩, -⟩ ⟨⟨h2, -⟩, -⟩
            exact not_both h1 h2
  case easeOfMovement p => rw [← zero_sub_val]; exact level_turn 0 _ 0 0 .buy T rfl (by norm_num) (by norm_num)
  case intradayMomentumIndex p => exact level_turn 100 _ 70 30 .sell T rfl (by norm_num) (by norm_num)
  case linearRegressionIndicator p => exact cross_turn _ .buy F T rfl
  case linearRegressionSlope p => rw [← zero_sub_val]; exact level_turn 0 _ 0 0 .sell T rfl (by norm_num) (by norm_num)
  case massIndex =>
    unfold Ind.MassIndex.signal
    rw [reflected_same _ _ _ rfl, reflected_len, List.map_id, show F.flip.col "9_ema" = ngl (F.col "9_ema") from flip_col F "9_ema"]
    refine ite_opp _ _ _ ?_
    split_ifs
    · simp only [iat_ngl]
      refine bind_opp _ _ _ _ fun a => bind_opp _ _ _ _ fun b => ?_
      exact pick _ _ _ _ .sell (ng_lt _ _) (ng_lt _ _) fun h1 h2 => not_both h1 h2
    · rfl
  case medianPrice p =>
    unfold Ind.MedianPrice.signal
    rw [reflected_same _ _ _ rfl, reflected_len, zero_sub_val, show F.flip.col "close_ema" = ngl (F.col "close_ema") from flip_col F "close_ema"]
    simp only [iat_map, iat_ngl]
    refine ite_opp _ _ _ (bind_opp _ _ _ _ fun a => bind_opp _ _ _ _ fun b => bind_opp _ _ _ _ fun c => bind_opp _ _ _ _ fun d => ?_)
    refine pick _ _ _ _ .buy (by simp only [ng_lt]) (by simp only [ng_lt]) ?_
    simp only [Bool.and_eq_true]
    rintro ⟨h1, -⟩ ⟨h2, -⟩
    exact not_both h1 h2
  case movingAverageConvergenceDivergence =>
    unfold Ind.MovingAverageConvergenceDivergence.signal
    rw [reflected_same _ _ "macd" rfl, reflected_same _ _ "signal_line" rfl, reflected_len]
    simp only [iat_map]
    refine ite_opp _ _ _ (bind_opp _ _ _ _ fun a => bind_opp _ _ _ _ fun b => bind_opp _ _ _ _ fun c => bind_opp _ _ _ _ fun d => ?_)
    refine pick4 _ _ _ _ _ _ _ _ .buy .sell (by simp only [ng_lt_zero, zero_lt_ng]) (by simp only [ng_lt_zero, zero_lt_ng])
      (by simp only [ng_lt]) (by simp only [ng_lt]) ?_ ?_
    all_goals
      simp only [Bool.and_eq_true]
      rintro ⟨h1, -⟩ ⟨h2, -⟩
      exact not_both h1 h2
  case onBalanceVolume => rw [← zero_sub_val]; exact trend_turn _ .buy T rfl
  case priceChannel p => exact band_turn _ _ _ _ rfl rfl (by rw [hT]; simp [columns]) ho
  case projectionBands p =>
    unfold Ind.ProjectionBands.signal
    rw [reflected_col' _ _ "upper_band" (by rw [hT]; simp [columns, partner]),
      reflected_col' _ _ "lower_band" (by rw [hT]; simp [columns, partner]), reflected_len, flip_close, zero_sub_val]
    simp only [partner, String.reduceEq, if_true, if_false, iat_map, iat_ngl]
    refine ite_opp _ _ _ ?_
    cases h1 : iat (T.col "upper_band") 1 with
    | error e =>
      cases h2 : iat (T.col "lower_band") 1 with
      | error e' => rw [iat_index _ _ _ h1, iat_index _ _ _ h2]; rfl
      | ok y => rfl
    | ok x =>
      cases h2 : iat (T.col "lower_band") 1 with
      | error e' => rfl
      | ok y =>
        have hxy := ho x y (iat_last _ _ h1) (iat_last _ _ h2)
        change (Val.neg <$> iat (F.col "close") 1 >>= fun a => _) = Except.map opposite (iat (F.col "close") 1 >>= fun a => _)
        refine bind_opp _ _ _ _ fun c => ?_
        refine pick _ _ _ _ .sell (by rw [ng_sub', ng_sub']) (by rw [ng_sub', ng_sub']) fun h3 h4 => ?_
        exact bands_exclude x y c hxy h3 h4
  case projectionOscillator p =>
    unfold Ind.ProjectionOscillator.signal
    rw [reflected_same _ _ "posc" rfl, reflected_same _ _ "trigger_line" rfl, reflected_len]
    simp only [iat_map]
    refine ite_opp _ _ _ (bind_opp _ _ _ _ fun a => bind_opp _ _ _ _ fun b => bind_opp _ _ _ _ fun c => bind_opp _ _ _ _ fun d =>
      bind_opp _ _ _ _ fun e => bind_opp _ _ _ _ fun f => bind_opp _ _ _ _ fun g => bind_opp _ _ _ _ fun h => ?_)
    have h85 : (85 : Val) = .fin 85 := rfl
    have h15 : (15 : Val) = .fin 15 := rfl
    refine pick4 _ _ _ _ _ _ _ _ .buy .buy (by simp only [h15, h85, rv_lt_fin, fin_lt_rv]; norm_num)
      (by simp only [h15, h85, rv_lt_fin, fin_lt_rv]; norm_num)
      (by simp only [rv_lt]) (by simp only [rv_lt]) ?_ ?_
    · simp only [Bool.and_eq_true]
      rintro ⟨h1, -⟩ ⟨h2, -⟩
      have := Val.lt_trans _ _ _ h2 h1
      revert this
      decide +kernel
    · simp only [Bool.and_eq_true]
      rintro ⟨⟨⟨h1, -⟩, -⟩, -⟩ ⟨⟨⟨h2, -⟩, -⟩, -⟩
      exact not_both h1 h2
  case qstick p =>
    unfold Ind.Qstick.signal
    rw [reflected_same _ _ _ rfl, reflected_len]
    simp only [iat_map]
    refine ite_opp _ _ _ (bind_opp _ _ _ _ fun a => bind_opp _ _ _ _ fun b => bind_opp _ _ _ _ fun c => bind_opp _ _ _ _ fun d => ?_)
    refine pick _ _ _ _ .buy (by simp only [ng_lt, ng_lt_zero, zero_lt_ng]) (by simp only [ng_lt, ng_lt_zero, zero_lt_ng]) ?_
    simp only [Bool.and_eq_true]
    rintro ⟨⟨⟨h1, -⟩, -⟩, -⟩ ⟨⟨⟨h2, -⟩, -⟩, -⟩
    exact not_both h1 h2
  case relativeStrengthIndex p => exact level_turn 100 _ 70 30 .sell T rfl (by norm_num) (by norm_num)
  case relativeVolatilityIndex p => exact level_turn 100 _ 60 40 .sell T rfl (by norm_num) (by norm_num)
  case standardDeviation p =>
    unfold Ind.StandardDeviation.signal
    rw [reflected_same _ _ _ rfl, reflected_len, flip_close, List.map_id, mean_ngl, roundS_ngl]
    simp only [iat_ngl]
    refine ite_opp _ _ _ (bind_opp _ _ _ _ fun a => bind_opp _ _ _ _ fun b => bind_opp' _ _ _ fun c => ?_)
    refine pick _ _ _ _ .sell (by simp only [ng_lt]) (by simp only [ng_lt]) ?_
    simp only [Bool.and_eq_true]
    rintro ⟨h1, -⟩ ⟨h2, -⟩
    exact not_both h1 h2
  case stochasticMomentumIndex => rw [← zero_sub_val]; exact level_turn 0 _ 40 (-40) .sell T rfl (by norm_num) (by norm_num)
  case swingIndex => rw [← zero_sub_val]; exact level_turn 0 _ 0 0 .sell T rfl (by norm_num) (by norm_num)
  case timeSeriesForecast p => exact cross_turn _ .buy F T rfl
  case tripleExponentialMovingAverage p =>
    unfold Ind.TripleExponentialMovingAverage.signal
    rw [reflected_same _ _ _ rfl, reflected_len, flip_close, zero_sub_val]
    simp only [iat_ngl, iat_map]
    refine ite_opp _ _ _ (bind_opp _ _ _ _ fun a => bind_opp _ _ _ _ fun b => ?_)
    exact pick _ _ _ _ .buy (ng_lt _ _) (ng_lt _ _) fun h1 h2 => not_both h1 h2
  case weightedClose => exact cross_turn _ .buy F T rfl
  case wildersSmoothing p => exact cross_turn _ .buy F T rfl
  case williamsR p =>
    unfold Ind.WilliamsR.signal
    rw [reflected_same _ _ _ rfl, reflected_len]
    simp only [iat_map, ← List.map_dropLast, lastIndex_map, rv_le_fin, fin_le_rv]
    refine ite_opp _ _ _ (bind_opp _ _ _ _ fun a => bind_opp _ _ _ _ fun b => ?_)
    rw [show (-100 - -80 : ℚ) = -20 by norm_num, show (-100 - -20 : ℚ) = -80 by norm_num, crossUp_rv, crossDown_rv,
      show (-100 - -50 : ℚ) = -50 by norm_num]
    generalize Ind.WilliamsR.lastIndex (fun x => x ≤ᵥ .fin (-80)) (T.col "wr").dropLast = lo
    generalize Ind.WilliamsR.lastIndex (fun x => Val.fin (-20) ≤ᵥ x) (T.col "wr").dropLast = hi
    have e : (hi = -1 ∧ lo = -1) ↔ (lo = -1 ∧ hi = -1) := and_comm
    simp only [e]
    refine ite_opp _ _ _ ?_
    by_cases h1 : hi < lo
    · have h2 : ¬ lo < hi := by omega
      simp only [h1, h2, true_and, false_and, if_false]
      cases crossUp (.fin (-50)) a b <;> rfl
    · by_cases h2 : lo < hi
      · simp only [h1, h2, true_and, false_and, if_false]
        cases crossDown (.fin (-50)) a b <;> rfl
      · simp only [h1, h2, false_and, if_false]
        rfl

/-- The signals of the classes `signalStays` do not look at the prices' direction. -/
theorem signal_stays (ind : Ind) (ht : signalStays ind = true) (m : Val → Val) (hm : reflect 0 ind = some m) (F T : Frame) :
    ind.signal F.flip (reflected m T) = ind.signal F T := by
  cases ind <;> try (simp [signalStays] at ht; done)
  all_goals
    simp only [reflect, Option.some.injEq] at hm
    subst hm
    simp only [Ind.signal]
  · unfold Ind.MarketFacilitationIndex.signal
    simp only [reflected_same _ _ "mfi" rfl, reflected_len, List.map_id]
  · unfold Ind.VolatilityChaikins.signal trendSignal
    simp only [reflected_same _ _ "vch" rfl, reflected_len, List.map_id]
  · unfold Ind.VolumeOscillator.signal
    simp only [reflected_same _ _ "vosc" rfl, reflected_len, List.map_id]
  · unfold Ind.VolumeRateOfChange.signal trendSignal
    simp only [reflected_same _ _ "vrc" rfl, reflected_len, List.map_id]

end TTI
