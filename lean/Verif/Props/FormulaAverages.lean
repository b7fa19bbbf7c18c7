import Verif.Props.Sample
import Verif.Props.Constant

set_option autoImplicit false

/-!
# The moving averages are the textbook averages: C52

All statements are about every day of every frame of numbers; the value before the first full window is missing, later values
are exact and rounded once, to four decimals.
-/

namespace TTI.Props

open Spec

variable {E : Env} {c : Call} {f : RawFrame} {fill : Bool} {o : Obj}

/-- C52: what rounding to four decimals means: the nearest multiple of 1/10000, the even one of two equally near. -/
theorem C52_rounding (q : ℚ) : ∃ m : ℤ, to4 q = .fin (m / 10000) ∧ |q * 10000 - m| ≤ 1 / 2 ∧
    (|q * 10000 - m| = 1 / 2 → Even m) := by
  refine ⟨rint (q * 10000), ?_, ?_, ?_⟩
  · unfold to4 roundQ; norm_num
  · rw [abs_sub_comm]; exact rint_close _
  · intro h
    have h1 := Int.floor_le (q * 10000)
    have h2 := Int.lt_floor_add_one (q * 10000)
    unfold rint at h ⊢
    simp only at h ⊢
    split_ifs at h ⊢ with h3 h4 h5
    · rw [abs_of_nonneg (by linarith)] at h; linarith
    · push_cast at h; rw [abs_of_nonpos (by linarith)] at h; linarith
    · exact Int.even_iff.2 h5
    · rw [Int.even_iff]; omega

example : to4 (1 / 20000) = .fin 0 ∧ to4 (3 / 20000) = .fin (2 / 10000) ∧ to4 (-1 / 3) = .fin (-3333 / 10000) := by
  decide +kernel

/-- C52: the simple moving average of `n` periods is the mean of the last `n` closes. -/
theorem C52_simple (hB : BuiltOn E c f fill o AnyPrices) (n : ℕ) (ho : o.ind = .movingAverage n .simple) (i : ℕ)
    (hi : i < f.idx.length) : o.getTiData.day "ma-simple" i = since (n - 1) i (to4 (meanLast n (close f) i)) := by
  obtain ⟨F, hl, hn, -, ht, hp, -⟩ := hB.on ho
  have hcl : Nums F.len 0 (close f) (F.col "close") := hn _ (by simp [Ind.required])
  replace ht : Ind.MovingAverage.calcTi n .simple F = .ok _ := ht
  unfold Ind.MovingAverage.calcTi at ht
  by_cases hlt : F.len < n
  · simp [hlt, bind, Except.bind, throw, throwThe, MonadExceptOf.throw] at ht
  simp [hlt, bind, Except.bind, pure, Except.pure] at ht
  rw [← ht]
  exact (hcl.rollMean n hp.1).eq4 (hl ▸ hi) (by omega) fun _ => rfl

/-- The hypotheses of `C52_simple` on the sample. -/
example : ∃ o, BuiltOn demoEnv (.movingAverage (.int 3) (.str "simple")) (sample 6) true o AnyPrices ∧ o.ind = .movingAverage 3 .simple ∧
    o.getTiData.day "ma-simple" 4 = .fin (563333 / 10000) :=
  sample_any 6 "ma-simple" 4 _ (by decide +kernel) (by decide)

/-- C52: the exponential moving average of `n` periods starts with the first close and moves by `2 / (n + 1)` of the distance to
the new close; the first `n - 1` values are not reported. -/
theorem C52_exponential (hB : BuiltOn E c f fill o AnyPrices) (n : ℕ) (ho : o.ind = .movingAverage n .exponential) (i : ℕ)
    (hi : i < f.idx.length) : o.getTiData.day "ma-exponential" i = since (n - 1) i (to4 (ema n 0 (close f) i)) := by
  obtain ⟨F, hl, hn, -, ht, hp, -⟩ := hB.on ho
  have hcl : Nums F.len 0 (close f) (F.col "close") := hn _ (by simp [Ind.required])
  replace ht : Ind.MovingAverage.calcTi n .exponential F = .ok _ := ht
  unfold Ind.MovingAverage.calcTi at ht
  by_cases hlt : F.len < n
  · simp [hlt, bind, Except.bind, throw, throwThe, MonadExceptOf.throw] at ht
  simp [hlt, bind, Except.bind, pure, Except.pure] at ht
  rw [← ht]
  exact (hcl.ewm n n hp.1).eq4 (hl ▸ hi) (by omega) fun _ => rfl

/-- The hypotheses of `C52_exponential` on the sample. -/
example : ∃ o, BuiltOn demoEnv (.movingAverage (.int 3) (.str "exponential")) (sample 6) true o AnyPrices ∧ o.ind = .movingAverage 3 .exponential ∧
    o.getTiData.day "ma-exponential" 4 = .fin (901 / 16) :=
  sample_any 6 "ma-exponential" 4 _ (by decide +kernel) (by decide)

/-- C52: the triangular moving average is the mean of the last `n` simple moving averages. -/
theorem C52_triangular (hB : BuiltOn E c f fill o AnyPrices) (n : ℕ) (ho : o.ind = .movingAverage n .triangular) (i : ℕ)
    (hi : i < f.idx.length) :
    o.getTiData.day "ma-triangular" i = since (2 * n - 2) i (to4 (meanLast n (meanLast n (close f)) i)) := by
  obtain ⟨F, hl, hn, -, ht, hp, -⟩ := hB.on ho
  have hcl : Nums F.len 0 (close f) (F.col "close") := hn _ (by simp [Ind.required])
  replace ht : Ind.MovingAverage.calcTi n .triangular F = .ok _ := ht
  unfold Ind.MovingAverage.calcTi at ht
  by_cases hlt : F.len < n
  · simp [hlt, bind, Except.bind, throw, throwThe, MonadExceptOf.throw] at ht
  simp [hlt, bind, Except.bind, pure, Except.pure] at ht
  rw [← ht]
  exact ((hcl.rollMean n hp.1).rollMean n hp.1).eq4 (hl ▸ hi) (by have := hp.1; omega) fun _ => rfl

/-- The hypotheses of `C52_triangular` on the sample. -/
example : ∃ o, BuiltOn demoEnv (.movingAverage (.int 3) (.str "triangular")) (sample 6) true o AnyPrices ∧ o.ind = .movingAverage 3 .triangular ∧
    o.getTiData.day "ma-triangular" 5 = .fin (563333 / 10000) :=
  sample_any 6 "ma-triangular" 5 _ (by decide +kernel) (by decide)

theorem variable_rows (hB : BuiltOn E c f fill o AnyPrices) (n : ℕ) (ho : o.ind = .movingAverage n .variableType) :
    ∃ rows : List (Val × Val), rows.length = f.idx.length ∧
      o.getTiData.col "ma-variable" = roundS 4 (Ind.MovingAverage.variableMa n rows) ∧
      ∀ i (hi : i < rows.length), rows[i].1 = .fin (close f i) ∧ (9 ≤ i → rows[i].2 =
        Val.abs (Val.div (round4 (chande 9 (close f) i)) 100)) := by
  obtain ⟨F, hl, hn, -, ht, hp, -⟩ := hB.on ho
  have hcl : Nums F.len 0 (close f) (F.col "close") := hn _ (by simp [Ind.required])
  replace ht : Ind.MovingAverage.calcTi n .variableType F = .ok _ := ht
  unfold Ind.MovingAverage.calcTi at ht
  by_cases hlt : F.len < 22
  · simp [hlt, bind, Except.bind, throw, throwThe, MonadExceptOf.throw] at ht
  have e1 : (F.sub ["close"]).len = F.len := rfl
  have hsub : Nums F.len 0 (close f) ((F.sub ["close"]).col "close") := Nums.ofSub (by simp) hcl
  have hc := hsub.cmo 9 (by omega)
  have hf : Ind.ChandeMomentumOscillator.calcTi 9 (F.sub ["close"]) = .ok ⟨(F.sub ["close"]).idx, [("cmo", _)]⟩ :=
    if_neg (by rw [e1]; omega)
  simp only [hlt, hf, bind, Except.bind, pure, Except.pure] at ht
  simp only [ne_eq, not_true, and_false, if_false, false_and, Except.ok.injEq] at ht
  refine ⟨_, ?_, by rw [← ht]; rfl, ?_⟩
  · rw [← hl]
    simp only [List.length_zip, List.length_map, hcl.len, Frame.col_single, hc.len, min_self]
  · intro i hi
    simp only [List.length_zip, List.length_map, hcl.len, Frame.col_single, hc.len, min_self] at hi
    simp only [List.getElem_zip, List.getElem_map, Frame.col_single]
    refine ⟨?_, fun h9 => ?_⟩
    · rw [← val_lt _ _ (by rw [hcl.len]; exact hi)]; exact hcl.fin hi (by omega)
    · rw [← val_lt _ _ (by rw [hc.len]; exact hi), hc.val _ hi, if_neg (by omega)]

theorem variableMa_step (n : ℕ) (rows : List (Val × Val)) (i : ℕ) (hi : i + 1 < rows.length) (h21 : 21 ≤ i) :
    val (Ind.MovingAverage.variableMa n rows) (i + 1) =
      Val.add (Val.mul (Val.mul (.fin (2 / ((n : ℚ) + 1))) rows[i + 1].1) rows[i + 1].2)
        (Val.mul (Val.sub 1 (Val.mul (.fin (2 / ((n : ℚ) + 1))) rows[i + 1].2)) (val (Ind.MovingAverage.variableMa n rows) i)) := by
  have key : ∀ m, (hm : m < rows.length) → 21 ≤ m → val (Ind.MovingAverage.variableMa n rows) m =
      ((rows.take (m + 1)).drop 22).foldl (fun prev r =>
        Val.add (Val.mul (Val.mul (.fin (2 / ((n : ℚ) + 1))) r.1) r.2)
          (Val.mul (Val.sub 1 (Val.mul (.fin (2 / ((n : ℚ) + 1))) r.2)) prev)) rows[21].1 := by
    intro m hm h
    unfold Ind.MovingAverage.variableMa
    simp only
    rw [val_prefixMap' _ _ _ hm]
    have e : (rows.take (m + 1)).drop 21 = rows[21] :: (rows.take (m + 1)).drop 22 := by
      rw [List.drop_eq_getElem_cons (by simp; omega)]; simp
    rw [e]
  rw [key (i + 1) hi (by omega), key i (by omega) h21, foldl_window_succ _ _ _ 22 (i + 1) (by omega) hi]

theorem variableMa_start (n : ℕ) (rows : List (Val × Val)) (hi : 21 < rows.length) :
    val (Ind.MovingAverage.variableMa n rows) 21 = rows[21].1 := by
  unfold Ind.MovingAverage.variableMa
  simp only
  rw [val_prefixMap' _ _ _ hi, List.drop_eq_getElem_cons (by simp; omega)]
  simp

theorem variableMa_before (n : ℕ) (rows : List (Val × Val)) (i : ℕ) (hi : i < rows.length) (h : i < 21) :
    val (Ind.MovingAverage.variableMa n rows) i = .nan := by
  unfold Ind.MovingAverage.variableMa
  simp only
  rw [val_prefixMap' _ _ _ hi, List.drop_eq_nil_of_le (by simp; omega)]

/-- C52: the variable moving average starts on the 22nd day with the close and then moves by a fraction of the distance to the
new close that is proportional to the 9-day Chande momentum; this holds as long as no nine days without a change occurred. -/
theorem C52_variable (hB : BuiltOn E c f fill o AnyPrices) (n : ℕ) (ho : o.ind = .movingAverage n .variableType) (i : ℕ)
    (hi : i < f.idx.length)
    (h0 : ∀ j ≤ i, 21 < j → sumLast 9 (gain (close f)) j + sumLast 9 (loss (close f)) j ≠ 0) :
    o.getTiData.day "ma-variable" i = since 21 i (to4 (variableAverage n (close f) i)) := by
  obtain ⟨rows, hlen, hcol, hrows⟩ := variable_rows hB n ho
  show val (o.getTiData.col "ma-variable") i = _
  rw [hcol, val_roundS]
  unfold since
  split
  · next h => rw [variableMa_before n rows i (by omega) h]; rfl
  · next h =>
    show Val.round 4 _ = Val.round 4 (.fin _)
    congr 1
    have key : ∀ t, 21 + t ≤ i → val (Ind.MovingAverage.variableMa n rows) (21 + t) = .fin (variableAverage n (close f) (21 + t)) := by
      intro t
      induction t with
      | zero =>
        intro _
        rw [variableMa_start n rows (by omega), (hrows 21 (by omega)).1, variableAverage, if_pos (by omega)]
      | succ t ih =>
        intro ht
        rw [← add_assoc, variableMa_step n rows (21 + t) (by omega) (by omega), ih (by omega), (hrows _ (by omega)).1,
          (hrows _ (by omega)).2 (by omega), chande, quotient_ne _ _ (h0 _ (by omega) (by omega)), variableAverage, if_neg (by omega)]
        show Val.add (Val.mul _ (Val.abs (Val.div (.fin (roundQ 4 _)) (.fin 100)))) (Val.mul (Val.sub (.fin 1) (Val.mul _ (Val.abs (Val.div (.fin (roundQ 4 _)) (.fin 100))))) _) = _
        rw [Val.fin_div _ _ (by norm_num), Val.fin_abs, Val.fin_mul, Val.fin_mul, Val.fin_mul, Val.fin_sub, Val.fin_mul, Val.fin_add]
        congr 1
        ring
    have := key (i - 21) (by omega)
    rwa [show 21 + (i - 21) = i by omega] at this

/-- The hypotheses of `C52_variable` on the sample. -/
example : (∃ o, BuiltOn demoEnv (.movingAverage (.int 3) (.str "variable")) (sample 25) true o AnyPrices ∧ o.ind = .movingAverage 3 .variableType ∧
    o.getTiData.day "ma-variable" 24 = .fin (539387 / 10000)) ∧
    (∀ j ≤ 24, 21 < j → sumLast 9 (gain (close (sample 25))) j + sumLast 9 (loss (close (sample 25))) j ≠ 0) :=
  ⟨sample_any 25 "ma-variable" 24 _ (by decide +kernel) (by decide), by decide +kernel⟩

/-- C52: after nine days without a change (ending later than the 22nd day) the variable moving average is missing for good. -/
theorem C52_variable_lost (hB : BuiltOn E c f fill o AnyPrices) (n : ℕ) (ho : o.ind = .movingAverage n .variableType) (i j : ℕ)
    (hi : i < f.idx.length) (hj : j ≤ i) (h21 : 21 < j)
    (h0 : ∀ t < 9, close f (j - t) = close f (j - t - 1)) :
    o.getTiData.day "ma-variable" i = .nan := by
  obtain ⟨rows, hlen, hcol, hrows⟩ := variable_rows hB n ho
  show val (o.getTiData.col "ma-variable") i = _
  rw [hcol, val_roundS]
  have key : ∀ t, j + t ≤ i → val (Ind.MovingAverage.variableMa n rows) (j + t) = .nan := by
    intro t
    induction t with
    | zero =>
      intro _
      obtain ⟨m, rfl⟩ : ∃ m, j = m + 1 := ⟨j - 1, by omega⟩
      have e1 : sumLast 9 (gain (close f)) (m + 1) = 0 := Finset.sum_eq_zero fun t ht => by
        simp [gain, h0 t (by simpa using ht)]
      have e2 : sumLast 9 (loss (close f)) (m + 1) = 0 := Finset.sum_eq_zero fun t ht => by
        simp [loss, h0 t (by simpa using ht)]
      rw [add_zero, variableMa_step n rows m (by omega) (by omega), (hrows _ (by omega)).2 (by omega), chande, e1, e2]
      simp [quotient, Val.abs]
    | succ t ih =>
      intro ht
      rw [← add_assoc, variableMa_step n rows (j + t) (by omega) (by omega), ih (by omega)]
      simp
  have := key (i - j) (by omega)
  rw [show j + (i - j) = i by omega] at this
  rw [this]; rfl

/-- The hypotheses of `C52_variable_lost`: a price that does not move for ten days, on a chart of 26 days. -/
def pausingCloses : RawFrame :=
  ⟨true, (List.range 26).map fun j => (j : ℤ),
    [⟨.str "close", true, (List.range 26).map fun j => .fin (if 14 ≤ j ∧ j ≤ 23 then 60 else 50 + ((7 * j) % 11 : ℕ))⟩]⟩

example : (∀ t < 9, close pausingCloses (23 - t) = close pausingCloses (23 - t - 1)) ∧ close pausingCloses 25 ≠ close pausingCloses 24 ∧
    (construct demoEnv (.movingAverage (.int 3) (.str "variable")) (.frame pausingCloses) (.bool true)).2.map
      (fun o => (o.ind, o.getTiData.day "ma-variable" 22, o.getTiData.day "ma-variable" 25)) =
      .ok (.movingAverage 3 .variableType, .fin 60, .nan) := by
  refine ⟨by decide +kernel, by decide +kernel, by decide +kernel⟩

/-- C52: the double exponential moving average is twice the exponential average minus the exponential average of it, the
latter started on the day the first one is reported. -/
theorem C52_double_exponential (hB : BuiltOn E c f fill o AnyPrices) (n : ℕ) (ho : o.ind = .doubleExponentialMovingAverage n)
    (i : ℕ) (hi : i < f.idx.length) :
    o.getTiData.day "dema" i =
      since (2 * n - 2) i (to4 (2 * ema n 0 (close f) i - ema n (n - 1) (ema n 0 (close f)) i)) := by
  obtain ⟨F, hl, hn, -, ht, hp, -⟩ := hB.on ho
  have hcl : Nums F.len 0 (close f) (F.col "close") := hn _ (by simp [Ind.required])
  replace hp : 1 ≤ n := hp
  rw [guard_ok ht]
  have h1 := (hcl.ewm n n hp).congr (k' := n - 1) (by omega) fun _ _ _ => rfl
  exact ((h1.scale 2).sub (h1.ewm n n hp)).eq4 (hl ▸ hi) (by omega) fun _ => rfl

/-- The hypotheses of `C52_double_exponential` on the sample. -/
example : ∃ o, BuiltOn demoEnv (.doubleExponentialMovingAverage (.int 2)) (sample 6) true o AnyPrices ∧ o.ind = .doubleExponentialMovingAverage 2 ∧
    o.getTiData.day "dema" 4 = .fin (28321 / 500) :=
  sample_any 6 "dema" 4 _ (by decide +kernel) (by decide)

/-- C52: the triple exponential moving average. -/
theorem C52_triple_exponential (hB : BuiltOn E c f fill o AnyPrices) (n : ℕ) (ho : o.ind = .tripleExponentialMovingAverage n)
    (i : ℕ) (hi : i < f.idx.length) :
    o.getTiData.day "tema" i =
      since (3 * n - 3) i (to4 (3 * ema n 0 (close f) i - 3 * ema n (n - 1) (ema n 0 (close f)) i +
        ema n (2 * n - 2) (ema n (n - 1) (ema n 0 (close f))) i)) := by
  obtain ⟨F, hl, hn, -, ht, hp, -⟩ := hB.on ho
  have hcl : Nums F.len 0 (close f) (F.col "close") := hn _ (by simp [Ind.required])
  replace hp : 1 ≤ n := hp
  rw [guard_ok ht]
  have h1 := (hcl.ewm n n hp).congr (k' := n - 1) (by omega) fun _ _ _ => rfl
  have h2 := (h1.ewm n n hp).congr (k' := 2 * n - 2) (by omega) fun _ _ _ => rfl
  exact (((h1.scale 3).sub (h2.scale 3)).add (h2.ewm n n hp)).eq4 (hl ▸ hi) (by omega) fun _ => rfl

/-- The hypotheses of `C52_triple_exponential` on the sample. -/
example : ∃ o, BuiltOn demoEnv (.tripleExponentialMovingAverage (.int 2)) (sample 6) true o AnyPrices ∧ o.ind = .tripleExponentialMovingAverage 2 ∧
    o.getTiData.day "tema" 4 = .fin (281797 / 5000) :=
  sample_any 6 "tema" 4 _ (by decide +kernel) (by decide)

/-- C52: Wilder's smoothing starts with the mean of the first `n` closes and moves by `1 / n` of the distance to the new close. -/
theorem C52_wilders_smoothing (hB : BuiltOn E c f fill o AnyPrices) (n : ℕ) (ho : o.ind = .wildersSmoothing n)
    (i : ℕ) (hi : i < f.idx.length) :
    o.getTiData.day "ws" i = since (n - 1) i (to4 (wilderAverage n 0 (close f) i)) := by
  obtain ⟨F, hl, hn, -, ht, hp, -⟩ := hB.on ho
  have hcl : Nums F.len 0 (close f) (F.col "close") := hn _ (by simp [Ind.required])
  replace hp : 1 ≤ n := hp
  rw [guard_ok ht]
  exact (hcl.wilder 0 n (le_refl _) hp).eq4 (hl ▸ hi) (by omega) fun _ => rfl

/-- The hypotheses of `C52_wilders_smoothing` on the sample. -/
example : ∃ o, BuiltOn demoEnv (.wildersSmoothing (.int 3)) (sample 6) true o AnyPrices ∧ o.ind = .wildersSmoothing 3 ∧
    o.getTiData.day "ws" 4 = .fin (557037 / 10000) :=
  sample_any 6 "ws" 4 _ (by decide +kernel) (by decide)

end TTI.Props
