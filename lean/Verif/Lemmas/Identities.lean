import Verif.Lemmas.Built
import Verif.Lemmas.Regression
import Verif.Lemmas.Unit
import Verif.Props.Validate2

set_option autoImplicit false

/-!
# Two objects of the same data
-/

namespace TTI

/-- Two objects made from the same data share the validated frame if their classes need the same columns. -/
theorem shared {E : Env} {c c' : Call} {data : InputArg} {fill : Bool} {o o' : Obj}
    (ho : (construct E c data (.bool fill)).2 = .ok o) (ho' : (construct E c' data (.bool fill)).2 = .ok o')
    (hr : o.ind.required = o'.ind.required) :
    ∃ F, (validateInputData data o.ind.required fill).2 = .ok F ∧ o.ind.calcTi E F = .ok o.getTiData ∧
      o'.ind.calcTi E F = .ok o'.getTiData := by
  obtain ⟨ind, F, T, -, hv, ht, rfl⟩ := (construct_ok_iff _ _ _ _ _).1 ho
  obtain ⟨ind', F', T', -, hv', ht', rfl⟩ := (construct_ok_iff _ _ _ _ _).1 ho'
  simp only at hr
  rw [← hr, hv, Except.ok.injEq] at hv'
  subst hv'
  exact ⟨F, hv, ht, ht'⟩

/-- The columns of a validated and filled frame stay as they are when they are filled again. -/
theorem sub_col_filled {f : RawFrame} {required : List String} {F : Frame}
    (h : (validateInputData (.frame f) required true).2 = .ok F) (names : List String) (n : String) (hn : n ∈ names) :
    (F.sub names).col n = F.col n := by
  obtain ⟨-, hF⟩ := valid_of_ok f required true F h
  rw [Frame.sub_col F names n hn]
  simp only [if_true] at hF
  have : ∃ xs, F.col n = bfill (ffill xs) := by
    refine ⟨(f.kept required).sortIndex.col n, ?_⟩
    rw [hF]
    unfold Frame.col fillMissingValues
    simp only [List.find?_map]
    have e : ((fun c : String × List Val => c.1 == n) ∘ fun c : String × List Val => (c.1, bfill (ffill c.2))) =
        fun c => c.1 == n := rfl
    rw [e]
    cases List.find? (fun c => c.1 == n) (f.kept required).sortIndex.cols <;> rfl
  obtain ⟨xs, hx⟩ := this
  rw [hx, Props.fill_fill]

theorem rint_add_even (q : ℚ) (n : ℤ) (hn : n % 2 = 0) : rint (q + n) = rint q + n := by
  unfold rint
  have hf : ⌊q + (n : ℚ)⌋ = ⌊q⌋ + n := Int.floor_add_intCast q n
  simp only [hf]
  have e : q + (n : ℚ) - ((⌊q⌋ + n : ℤ) : ℚ) = q - (⌊q⌋ : ℚ) := by push_cast; ring
  simp only [e]
  have h2 : (⌊q⌋ + n) % 2 = ⌊q⌋ % 2 := by omega
  simp only [h2]
  split_ifs <;> omega

/-- Rounding to at least one decimal commutes with adding an integer. -/
theorem roundQ_add_int (k : ℕ) (hk : 1 ≤ k) (q : ℚ) (n : ℤ) : roundQ k (q + n) = roundQ k q + n := by
  unfold roundQ
  have h10 : (10 : ℚ) ^ k ≠ 0 := by positivity
  have e : (q + n) * 10 ^ k = q * 10 ^ k + ((n * 10 ^ k : ℤ) : ℚ) := by push_cast; ring
  rw [e, rint_add_even]
  · push_cast; field_simp
  · obtain ⟨m, rfl⟩ : ∃ m, k = m + 1 := ⟨k - 1, by omega⟩
    have : n * 10 ^ (m + 1) = 2 * (n * 10 ^ m * 5) := by ring
    rw [this]; omega

theorem roundQ_sub (k : ℕ) (a b : ℚ) : roundQ k (roundQ k a - roundQ k b) = roundQ k a - roundQ k b := by
  have : roundQ k a - roundQ k b = ((rint (a * 10 ^ k) - rint (b * 10 ^ k) : ℤ) : ℚ) / 10 ^ k := by
    unfold roundQ; push_cast; ring
  rw [this]; exact roundQ_div k _

/-- Rounding a difference of rounded values changes nothing. -/
theorem round_sub_round (k : ℕ) (x y : Val) :
    Val.round k (Val.sub (Val.round k x) (Val.round k y)) = Val.sub (Val.round k x) (Val.round k y) := by
  cases x <;> cases y <;> simp [Val.round, Val.sub, Val.add, Val.neg, ← sub_eq_add_neg, roundQ_sub]

/-- A rounded number comes from a number that is not far away. -/
theorem round_fin {v : Val} {q : ℚ} (h : Val.round 4 v = .fin q) : ∃ a, v = .fin a ∧ q = roundQ 4 a ∧ |q - a| ≤ 1 / 20000 := by
  cases v with
  | fin a =>
    simp only [Val.fin_round, Val.fin.injEq] at h
    refine ⟨a, rfl, h.symm, ?_⟩
    rw [← h]
    have := roundQ_close 4 a
    norm_num at this ⊢
    exact this
  | nan => cases h
  | pinf => cases h
  | ninf => cases h

theorem round4_close (q : ℚ) : |roundQ 4 q - q| ≤ 1 / 20000 := by
  have := roundQ_close 4 q
  norm_num at this ⊢
  exact this

theorem add_fin {x y : Val} {q : ℚ} (h : Val.add x y = .fin q) : ∃ a b, x = .fin a ∧ y = .fin b ∧ q = a + b := by
  cases x <;> cases y <;> simp [Val.add] at h
  exact ⟨_, _, rfl, rfl, h.symm⟩

theorem sub_fin {x y : Val} {q : ℚ} (h : Val.sub x y = .fin q) : ∃ a b, x = .fin a ∧ y = .fin b ∧ q = a - b := by
  cases x <;> cases y <;> simp [Val.sub, Val.add, Val.neg] at h
  exact ⟨_, _, rfl, rfl, by rw [← h]; ring⟩

theorem mul_fin_left {c : ℚ} (hc : c ≠ 0) {y : Val} {q : ℚ} (h : Val.mul (.fin c) y = .fin q) : ∃ b, y = .fin b ∧ q = c * b := by
  cases y with
  | fin b => exact ⟨b, rfl, by simpa using h.symm⟩
  | nan => cases h
  | pinf => rcases lt_or_gt_of_ne hc with h0 | h0 <;> simp [Val.mul, Val.infMul, hc, h0, not_lt.2 h0.le] at h
  | ninf => rcases lt_or_gt_of_ne hc with h0 | h0 <;> simp [Val.mul, Val.infMul, hc, h0, not_lt.2 h0.le] at h

/-- A window aggregation that gives numbers is a number or missing. -/
theorem rolling_cases (w m : ℕ) (agg : List ℚ → Val) (hagg : ∀ v, agg v = .nan ∨ ∃ q, agg v = .fin q) (xs : List Val) (i : ℕ) :
    val (rolling w m agg xs) i = .nan ∨ ∃ q, val (rolling w m agg xs) i = .fin q := by
  by_cases hi : i < xs.length
  · rw [val_rolling _ _ _ _ _ hi]
    split
    · exact hagg _
    · exact Or.inl rfl
  · left; exact val_ge _ _ (by simp; omega)

theorem ofOption_cases (x : Option ℚ) : ofOption x = .nan ∨ ∃ q, ofOption x = .fin q := by
  cases x with
  | none => exact Or.inl rfl
  | some q => exact Or.inr ⟨q, rfl⟩

/-- The sum over a window of one row. -/
theorem rolling_one (xs : List Val) (i : ℕ) (q : ℚ) : val (rolling 1 1 aggSum xs) i = .fin q ↔ val xs i = .fin q := by
  by_cases hi : i < xs.length
  · rw [val_rolling _ _ _ _ _ hi]
    have e : min 1 (i + 1) = 1 := by omega
    rw [e]
    simp only [List.range_one, List.map_cons, List.map_nil, add_zero, Nat.add_sub_cancel]
    cases val xs i <;> simp [finVals, aggSum]
  · rw [val_ge _ _ (by simpa using hi), val_ge xs _ (by omega)]

/-- A full window is also a window with at least one row. -/
theorem rolling_full {w : ℕ} (hw : 1 ≤ w) (agg : List ℚ → Val) (xs : List Val) (i : ℕ) {q : ℚ}
    (h : val (rolling w w agg xs) i = .fin q) : val (rolling w 1 agg xs) i = .fin q := by
  by_cases hi : i < xs.length
  · rw [val_rolling _ _ _ _ _ hi] at h ⊢
    split at h
    · rw [if_pos (by omega)]; exact h
    · cases h
  · rw [val_ge _ _ (by simpa using hi)] at h; cases h

/-- What a finite quotient comes from. -/
theorem div_fin {x y : Val} {q : ℚ} (h : Val.div x y = .fin q) :
    ∃ a, x = .fin a ∧ ((∃ b, b ≠ 0 ∧ y = .fin b ∧ q = a / b) ∨ y = .pinf ∨ y = .ninf) := by
  cases x <;> cases y <;> simp [Val.div] at h ⊢ <;> split_ifs at h with h1
  · unfold Val.infMul at h; split_ifs at h
  · unfold Val.infMul at h; split_ifs at h
  · exact ⟨h1, (Val.fin.inj h).symm⟩

theorem val_fin_lt {xs : List Val} {i : ℕ} {q : ℚ} (h : val xs i = .fin q) : i < xs.length := by
  by_contra hn
  rw [val_ge _ _ (by omega)] at h; cases h

theorem rolling_early (w : ℕ) (agg : List ℚ → Val) (xs : List Val) (i : ℕ) (hi : i + 1 < w) : val (rolling w w agg xs) i = .nan := by
  by_cases h : i < xs.length
  · rw [val_rolling _ _ _ _ _ h, if_neg]
    have : ∀ l : List Val, (finVals l).length ≤ l.length := fun l => List.length_filterMap_le _ _
    have := this ((List.range (min w (i + 1))).map fun t => val xs (i + 1 - w + t))
    simp at this ⊢
    omega
  · exact val_ge _ _ (by simpa using h)

theorem val_shift_one {xs : List Val} {i : ℕ} {q : ℚ} (h : val (shift 1 xs) (i + 1) = .fin q) : val xs i = .fin q := by
  have hl := val_fin_lt h
  rw [shift_length] at hl
  rw [val_shift _ _ _ hl, if_neg (by omega)] at h
  exact h

/-- The data of an object. -/
theorem shared_input {E : Env} {c : Call} {data : InputArg} {fill : Bool} {o : Obj} {F : Frame}
    (ho : (construct E c data (.bool fill)).2 = .ok o) (hv : (validateInputData data o.ind.required fill).2 = .ok F) :
    o.input = o.ind.inputAfter F := by
  obtain ⟨ind, F', T, -, hv', -, rfl⟩ := (construct_ok_iff _ _ _ _ _).1 ho
  simp only at hv ⊢
  rw [hv, Except.ok.injEq] at hv'
  rw [hv']

/-! ## The columns, day by day -/

namespace Ind

theorem BollingerBands.days {sq : ℚ → ℚ} {n : ℕ} {s : Val} {F T : Frame} (h : calcTi sq n s F = .ok T) (i : ℕ) :
    T.day "middle_band" i = Val.round 4 (val (rolling n n aggMean (F.col "close")) i) ∧
    T.day "upper_band" i = Val.round 4 (Val.add (T.day "middle_band" i)
      (Val.mul (val (rolling n n (aggStd sq 0) (F.col "close")) i) s)) ∧
    T.day "lower_band" i = Val.round 4 (Val.sub (T.day "middle_band" i)
      (Val.mul (val (rolling n n (aggStd sq 0) (F.col "close")) i) s)) := by
  unfold calcTi at h
  split at h
  · cases h
  rw [← Except.ok.inj h]
  refine ⟨?_, ?_, ?_⟩
  · exact val_roundS _ _ _
  · show val (roundS 4 _) i = _
    rw [val_roundS, val_addS, val_map _ (Val.nan_mul s)]; rfl
  · show val (roundS 4 _) i = _
    rw [val_roundS, val_subS, val_map _ (Val.nan_mul s)]; rfl

theorem StandardDeviation.days {sq : ℚ → ℚ} {n : ℕ} {F T : Frame} (h : calcTi sq n F = .ok T) (i : ℕ) :
    T.day "sd" i = Val.round 4 (val (rolling n n (aggStd sq 0) (F.col "close")) i) := by
  unfold calcTi at h
  split at h
  · cases h
  rw [← Except.ok.inj h]
  exact val_roundS _ _ _

theorem MovingAverage.days_simple {n : ℕ} {F T : Frame} (h : calcTi n .simple F = .ok T) (i : ℕ) :
    T.day "ma-simple" i = Val.round 4 (val (rolling n n aggMean (F.col "close")) i) := by
  unfold calcTi at h
  by_cases hlt : F.len < n
  · simp [hlt, bind, Except.bind, throw, throwThe, MonadExceptOf.throw] at h
  simp [hlt, bind, Except.bind, pure, Except.pure] at h
  rw [← h]
  exact val_roundS _ _ _

theorem MovingAverage.days_exponential {n : ℕ} {F T : Frame} (h : calcTi n .exponential F = .ok T) (i : ℕ) :
    T.day "ma-exponential" i = Val.round 4 (val (ewm n n (F.col "close")) i) := by
  unfold calcTi at h
  by_cases hlt : F.len < n
  · simp [hlt, bind, Except.bind, throw, throwThe, MonadExceptOf.throw] at h
  simp [hlt, bind, Except.bind, pure, Except.pure] at h
  rw [← h]
  exact val_roundS _ _ _

theorem MovingAverageConvergenceDivergence.days {F T : Frame} (h : calcTi F = .ok T) (i : ℕ) :
    T.day "macd" i = Val.sub (Val.round 4 (val (ewm 12 12 (F.col "close")) i)) (Val.round 4 (val (ewm 26 26 (F.col "close")) i)) := by
  unfold calcTi at h
  split at h
  · cases h
  rw [← Except.ok.inj h]
  show val (roundS 4 _) i = _
  rw [val_roundS, val_subS, val_roundS, val_roundS, round_sub_round]

theorem Envelopes.days {n : ℕ} {s : ℚ} {F T : Frame} (h : calcTi n s F = .ok T) (i : ℕ) :
    T.day "upper_band" i = Val.round 4 (Val.mul (.fin (1 + s)) (val (rolling n n aggMean (F.col "close")) i)) ∧
    T.day "lower_band" i = Val.round 4 (Val.mul (.fin (1 - s)) (val (rolling n n aggMean (F.col "close")) i)) := by
  unfold calcTi at h
  split at h
  · cases h
  rw [← Except.ok.inj h]
  constructor
  · show val (roundS 4 _) i = _
    rw [val_roundS, val_scaleS]
  · show val (roundS 4 _) i = _
    rw [val_roundS, val_scaleS]

theorem Momentum.days {n : ℕ} {F T : Frame} (h : calcTi n F = .ok T) (i : ℕ) :
    T.day "mom" i = Val.round 4 (if i < n then .nan
      else Val.div (Val.mul (.fin 100) (val (F.col "close") i)) (val (shift n (F.col "close")) i)) := by
  unfold calcTi at h
  split at h
  · cases h
  rw [← Except.ok.inj h]
  show val (roundS 4 _) i = _
  rw [val_roundS, val_maskBefore, val_divS, val_scaleS]

theorem PriceRateOfChange.days {n : ℕ} {F T : Frame} (h : calcTi n F = .ok T) (i : ℕ) :
    T.day "prc" i = Val.round 4 (Val.div (Val.mul (.fin 100) (Val.sub (val (F.col "close") i) (val (shift n (F.col "close")) i)))
      (val (shift n (F.col "close")) i)) := by
  unfold calcTi at h
  split at h
  · cases h
  rw [← Except.ok.inj h]
  show val (roundS 4 _) i = _
  rw [val_roundS, val_divS, val_scaleS, val_subS]

theorem StochasticOscillator.days {w : ℕ → List ℚ} {k s d : ℕ} {b : Bool} {F T : Frame} (h : calcTi w k s d b F = .ok T) (i : ℕ) :
    T.day "%K" i = Val.round 4 (Val.div (Val.mul (.fin 100)
      (val (rolling s s aggSum (subS (F.col "close") (rolling k k aggMin (F.col "low")))) i))
      (val (rolling s s aggSum (subS (rolling k k aggMax (F.col "high")) (rolling k k aggMin (F.col "low")))) i)) := by
  unfold calcTi at h
  split at h
  · cases h
  rw [← Except.ok.inj h]
  show val (roundS 4 _) i = _
  rw [val_roundS, val_divS, val_scaleS]

theorem WilliamsR.days {n : ℕ} {F T : Frame} (h : calcTi n F = .ok T) (i : ℕ) :
    T.day "wr" i = Val.round 4 (Val.mul (.fin (-100)) (Val.div
      (Val.sub (val (rolling n n aggMax (F.col "high")) i) (val (F.col "close") i))
      (Val.sub (val (rolling n n aggMax (F.col "high")) i) (val (rolling n n aggMin (F.col "low")) i)))) := by
  unfold calcTi at h
  split at h
  · cases h
  rw [← Except.ok.inj h]
  show val (roundS 4 _) i = _
  rw [val_roundS, val_scaleS, val_divS, val_subS, val_subS]

theorem PriceChannel.days {n : ℕ} {F T : Frame} (h : calcTi n F = .ok T) (i : ℕ) :
    T.day "highest_high" i = Val.round 4 (val (shift 1 (rolling n n aggMax (F.col "high"))) i) ∧
    T.day "lowest_low" i = Val.round 4 (val (shift 1 (rolling n n aggMin (F.col "low"))) i) := by
  unfold calcTi at h
  split at h
  · cases h
  rw [← Except.ok.inj h]
  exact ⟨val_roundS _ _ _, val_roundS _ _ _⟩

theorem IchimokuCloud.days {F T : Frame} (h : calcTi F = .ok T) (i : ℕ) :
    T.day "tenkan_sen" i = Val.round 4 (Val.div (Val.add (val (rolling 9 1 aggMax (F.col "high")) i)
      (val (rolling 9 1 aggMin (F.col "low")) i)) 2) ∧
    T.day "kijun_sen" i = Val.round 4 (Val.div (Val.add (val (rolling 26 1 aggMax (F.col "high")) i)
      (val (rolling 26 1 aggMin (F.col "low")) i)) 2) := by
  unfold calcTi at h
  rw [← Except.ok.inj h]
  constructor
  · show val (roundS 4 (middle 9 F)) i = _
    rw [val_roundS, middle, val_map (fun x => Val.div x 2) rfl, val_addS]
  · show val (roundS 4 (middle 26 F)) i = _
    rw [val_roundS, middle, val_map (fun x => Val.div x 2) rfl, val_addS]

theorem LinearRegressionSlope.days {n : ℕ} {F T : Frame} (h : calcTi n F = .ok T) (i : ℕ) :
    ∃ v, T.day "lrs" i = Val.round 4 v ∧ (i + 1 < n → v = .nan) := by
  unfold calcTi at h
  split at h
  · cases h
  rw [← Except.ok.inj h]
  refine ⟨_, val_roundS _ _ _, fun hi => ?_⟩
  rw [val_divS, val_subS, val_scaleS, rolling_early _ _ _ _ hi, Val.mul_nan]; rfl

theorem LinearRegressionIndicator.days {n : ℕ} {F T : Frame} (h : calcTi n F = .ok T) (i : ℕ) :
    ∃ v, T.day "lri" i = Val.round 4 v := by
  unfold calcTi at h
  split at h
  · cases h
  rw [← Except.ok.inj h]
  show ∃ v, val (List.zipWith _ _ _) i = Val.round 4 v
  by_cases hi : i < (List.zipWith (fun (p : Val × Val) (i : ℕ) => Val.round 4 (Val.add p.1 (Val.mul (.fin (i : ℕ)) p.2)))
      (rollingOLS n (fillna 0 (F.col "close"))) (List.range F.len)).length
  · rw [val_lt _ _ hi, List.getElem_zipWith]; exact ⟨_, rfl⟩
  · rw [val_ge _ _ (by omega)]; exact ⟨.nan, rfl⟩

end Ind

end TTI
