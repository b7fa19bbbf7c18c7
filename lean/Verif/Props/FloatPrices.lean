import Verif.Props.Float

set_option autoImplicit false

/-!
# Price transforms, ranges, levels and rates in float64 arithmetic: C85
-/

namespace TTI.Props

open Spec Flt Sim

variable {R : Rounding} {A : Arith} {E : Env} {c : Call} {f : RawFrame} {fill : Bool} {o : Obj}

/-- C85: the median price. -/
theorem C85_median_price (hA : Rounded R A) (hB : FloatBuilt A E c f fill o AnyPrices) (n : ℕ) (ho : o.ind = .medianPrice n)
    (M : ℚ) (hH : AtMost f "high" M) (hL : AtMost f "low" M) (hu : 10000 * R.unit ≤ 1) (i : ℕ) (hi : i < f.idx.length) :
    NearSince 0 i (o.getTiData.day "mp" i) ((high f i + low f i) / 2) (1 / 20000 + 7 * R.unit * (M + 1)) := by
  obtain ⟨F, hl, hn, ht, -⟩ := hB.on ho (by simp [Ind.required])
  have hh : Nums F.len 0 (high f) (F.col "high") := hn _ (by simp [Ind.required])
  have hlo : Nums F.len 0 (low f) (F.col "low") := hn _ (by simp [Ind.required])
  have hu0 := R.nonneg
  have hM0 := atMost_nonneg hH hi
  have h1 : 0 ≤ R.unit * (M + 1) := by positivity
  rw [← Except.ok.inj ht]
  refine ((hh.fadd A hlo).fscale A (1 / 2)).report A hA.fl (hl ▸ hi) rfl (M := M) (K := 2) (fun _ => ?_) (by norm_num; linarith)
    (by norm_num; linarith) (by linarith)
  rw [hA.fl]
  have := (((near_of_abs (R := R) (hH i hi)).add (near_of_abs (hL i hi)) (le_refl _) (le_refl _)).scale (1 / 2) (by norm_num)).scope
    (B := M) (by linarith)
  rwa [show (1 : ℚ) / 2 * (price f "high" i + price f "low" i) = (high f i + low f i) / 2 by ring] at this

/-- The hypotheses of `C85_median_price` on the sample. -/
example : (∃ o, FloatBuilt doubleArith demoEnv (.medianPrice (.int 3)) (sample 6) true o AnyPrices ∧ o.ind = .medianPrice 3 ∧
      o.getTiData.day "mp" 4 = .fin (toDouble (111 / 2))) ∧
    AtMost (sample 6) "high" 63 ∧ AtMost (sample 6) "low" 63 ∧ 10000 * double.unit ≤ 1 :=
  ⟨sample_float 6 "mp" 4 _ (by decide +kernel) (by decide) fun _ _ => trivial, by unfold AtMost; decide +kernel,
    by unfold AtMost; decide +kernel, by decide +kernel⟩

/-- C85: the typical price, in whichever order the three prices are added up. -/
theorem C85_typical_price (hA : Rounded R A) (hB : FloatBuilt A E c f fill o AnyPrices) (n : ℕ) (ho : o.ind = .typicalPrice n)
    (M : ℚ) (hM : ∀ name ∈ ["high", "low", "close"], AtMost f name M) (hu : 10000 * R.unit ≤ 1) (i : ℕ) (hi : i < f.idx.length) :
    NearSince 0 i (o.getTiData.day "tp" i) (typical f i) (1 / 20000 + 8 * R.unit * (M + 1)) := by
  obtain ⟨F, hl, hn, ht, -, hF, -⟩ := hB.on ho (by simp [Ind.required])
  have hu0 := R.nonneg
  have hM0 := atMost_nonneg (hM "high" (by simp)) hi
  have h1 : 0 ≤ R.unit * (M + 1) := by positivity
  obtain ⟨gm, h2, h3⟩ := mean_row hA hF f hn (by simp [Ind.required]) M hM hl
  rw [← Except.ok.inj ht]
  refine h2.report A hA.fl (hl ▸ hi) rfl (M := M) (K := 3) (fun _ => ?_) (by norm_num; linarith)
    (by norm_num; linarith) (by linarith)
  have := h3 i (hl ▸ hi)
  simp only [Ind.required, List.map_cons, List.map_nil, List.sum_cons, List.sum_nil, List.length_cons, List.length_nil] at this
  norm_num at this
  unfold typical
  rwa [add_assoc]

/-- The hypotheses of `C85_typical_price` on the sample. -/
example : (∃ o, FloatBuilt doubleArith demoEnv (.typicalPrice (.int 3)) (sample 6) true o AnyPrices ∧ o.ind = .typicalPrice 3 ∧
      o.getTiData.day "tp" 4 = .fin (toDouble (556667 / 10000))) ∧
    (∀ name ∈ ["high", "low", "close"], AtMost (sample 6) name 63) ∧ 10000 * double.unit ≤ 1 :=
  ⟨sample_float 6 "tp" 4 _ (by decide +kernel) (by decide) fun _ _ => trivial, by unfold AtMost; decide +kernel, by decide +kernel⟩

/-- C85: the weighted close. -/
theorem C85_weighted_close (hA : Rounded R A) (hB : FloatBuilt A E c f fill o AnyPrices) (ho : o.ind = .weightedClose)
    (M : ℚ) (hM : ∀ name ∈ ["high", "low", "close"], AtMost f name M) (hu : 10000 * R.unit ≤ 1) (i : ℕ) (hi : i < f.idx.length) :
    NearSince 0 i (o.getTiData.day "wc" i) ((2 * close f i + high f i + low f i) / 4) (1 / 20000 + 9 * R.unit * (M + 1)) := by
  obtain ⟨F, hl, hn, ht, -⟩ := hB.on ho (by simp [Ind.required])
  have hcl : Nums F.len 0 (close f) (F.col "close") := hn _ (by simp [Ind.required])
  have hh : Nums F.len 0 (high f) (F.col "high") := hn _ (by simp [Ind.required])
  have hlo : Nums F.len 0 (low f) (F.col "low") := hn _ (by simp [Ind.required])
  have hu0 := R.nonneg
  have hH := hM "high" (by simp)
  have hL := hM "low" (by simp)
  have hC := hM "close" (by simp)
  have hM0 := atMost_nonneg hH hi
  have h1 : 0 ≤ R.unit * (M + 1) := by positivity
  rw [← Except.ok.inj ht]
  refine ((((hcl.fscale A 2).fadd A hh).fadd A hlo).fdivConst A 4 (by norm_num)).report A hA.fl (hl ▸ hi) rfl (M := M) (K := 4)
    (fun _ => ?_) (by norm_num; linarith) (by norm_num; linarith) (by linarith)
  rw [hA.fl]
  exact (((((near_of_abs (R := R) (hC i hi)).scale 2 (by norm_num)).add (near_of_abs (hH i hi)) (le_refl 1) (by omega)).add
    (near_of_abs (hL i hi)) (le_refl 2) (by omega)).div 4 (by norm_num)).scope (by linarith)

/-- The hypotheses of `C85_weighted_close` on the sample. -/
example : (∃ o, FloatBuilt doubleArith demoEnv .weightedClose (sample 6) true o AnyPrices ∧ o.ind = .weightedClose ∧
      o.getTiData.day "wc" 4 = .fin (toDouble (223 / 4))) ∧
    (∀ name ∈ ["high", "low", "close"], AtMost (sample 6) name 63) ∧ 10000 * double.unit ≤ 1 :=
  ⟨sample_float 6 "wc" 4 _ (by decide +kernel) (by decide) fun _ _ => trivial, by unfold AtMost; decide +kernel, by decide +kernel⟩

/-- C85: the price channel: the highest high and the lowest low of the `n` days before, rounded. -/
theorem C85_price_channel (hA : Rounded R A) (hB : FloatBuilt A E c f fill o AnyPrices) (n : ℕ) (ho : o.ind = .priceChannel n)
    (M : ℚ) (hH : AtMost f "high" M) (hL : AtMost f "low" M) (hu : 10000 * R.unit ≤ 1) (i : ℕ) (hi : i < f.idx.length) :
    NearSince n i (o.getTiData.day "highest_high" i) (highest n (high f) (i - 1)) (1 / 20000 + 4 * R.unit * (M + 1)) ∧
    NearSince n i (o.getTiData.day "lowest_low" i) (lowest n (low f) (i - 1)) (1 / 20000 + 4 * R.unit * (M + 1)) := by
  obtain ⟨F, hl, hn, ht, hp, -⟩ := hB.on ho (by simp [Ind.required])
  have hh : Nums F.len 0 (high f) (F.col "high") := hn _ (by simp [Ind.required])
  have hlo : Nums F.len 0 (low f) (F.col "low") := hn _ (by simp [Ind.required])
  replace hp : 1 ≤ n := hp
  have hu0 := R.nonneg
  have hM0 := atMost_nonneg hH hi
  have h1 : 0 ≤ R.unit * (M + 1) := by positivity
  rw [guard_ok ht]
  exact ⟨((hh.rollMax n hp).shift 1).report A hA.fl (hl ▸ hi) (by omega) (M := M) (K := 0)
      (fun _ => near_of_abs (highest_abs n hp _ _ M fun j hj => hH j (by omega))) (by norm_num) (by norm_num) (by linarith),
    ((hlo.rollMin n hp).shift 1).report A hA.fl (hl ▸ hi) (by omega) (M := M) (K := 0)
      (fun _ => near_of_abs (lowest_abs n hp _ _ M fun j hj => hL j (by omega))) (by norm_num) (by norm_num) (by linarith)⟩

/-- The hypotheses of `C85_price_channel` on the sample. -/
example : (∃ o, FloatBuilt doubleArith demoEnv (.priceChannel (.int 3)) (sample 6) true o AnyPrices ∧ o.ind = .priceChannel 3 ∧
      o.getTiData.day "lowest_low" 4 = .fin (toDouble (193 / 4))) ∧
    AtMost (sample 6) "high" 63 ∧ AtMost (sample 6) "low" 63 ∧ 10000 * double.unit ≤ 1 :=
  ⟨sample_float 6 "lowest_low" 4 _ (by decide +kernel) (by decide) fun _ _ => trivial, by unfold AtMost; decide +kernel,
    by unfold AtMost; decide +kernel, by decide +kernel⟩

/-- C85: the lines of the Ichimoku cloud. -/
theorem C85_ichimoku (hA : Rounded R A) (hB : FloatBuilt A E c f fill o AnyPrices) (ho : o.ind = .ichimokuCloud)
    (M : ℚ) (hH : AtMost f "high" M) (hL : AtMost f "low" M) (hu : 10000 * R.unit ≤ 1) (i : ℕ) (hi : i < f.idx.length) :
    NearSince 0 i (o.getTiData.day "tenkan_sen" i) (midRange f 9 i) (1 / 20000 + 7 * R.unit * (M + 1)) ∧
    NearSince 0 i (o.getTiData.day "kijun_sen" i) (midRange f 26 i) (1 / 20000 + 7 * R.unit * (M + 1)) ∧
    NearSince 26 i (o.getTiData.day "senkou_a" i) ((midRange f 9 (i - 26) + midRange f 26 (i - 26)) / 2)
      (1 / 20000 + 9 * R.unit * (M + 1)) ∧
    NearSince 26 i (o.getTiData.day "senkou_b" i) (midRange f 52 (i - 26)) (1 / 20000 + 7 * R.unit * (M + 1)) := by
  obtain ⟨F, hl, hn, ht, -⟩ := hB.on ho (by simp [Ind.required])
  have hh : Nums F.len 0 (high f) (F.col "high") := hn _ (by simp [Ind.required])
  have hlo : Nums F.len 0 (low f) (F.col "low") := hn _ (by simp [Ind.required])
  have hu0 := R.nonneg
  have hM0 := atMost_nonneg hH hi
  have h1 : 0 ≤ R.unit * (M + 1) := by positivity
  rw [← Except.ok.inj ht]
  have hm (w : ℕ) (hw : 1 ≤ w) : Nums F.len 0 (fun i => A.fl (A.fl (highest w (high f) i + lowest w (low f) i) / 2)) (Flt.middle A w F) :=
    ((hh.rollMax1 w hw).fadd A (hlo.rollMin1 w hw)).fdivConst A 2 (by norm_num)
  have nm (w : ℕ) (hw : 1 ≤ w) (j : ℕ) (hj : j ≤ i) :
      Sim.Near R 2 (A.fl (A.fl (highest w (high f) j + lowest w (low f) j) / 2)) (midRange f w j) M := by
    rw [hA.fl]
    exact (((near_of_abs (highest_abs w hw _ j M fun t ht => hH t (by omega))).add
      (near_of_abs (lowest_abs w hw _ j M fun t ht => hL t (by omega))) (le_refl 0) (le_refl 0)).div 2 (by norm_num)).scope (by linarith)
  refine ⟨(hm 9 (by norm_num)).report A hA.fl (hl ▸ hi) rfl (fun _ => nm 9 (by norm_num) i (le_refl _)) (by norm_num; linarith)
      (by norm_num; linarith) (by linarith),
    (hm 26 (by norm_num)).report A hA.fl (hl ▸ hi) rfl (fun _ => nm 26 (by norm_num) i (le_refl _)) (by norm_num; linarith)
      (by norm_num; linarith) (by linarith),
    ((((hm 9 (by norm_num)).fadd A (hm 26 (by norm_num))).fdivConst A 2 (by norm_num)).shift 26).report A hA.fl (hl ▸ hi) rfl
      (M := M) (K := 4) (fun _ => ?_) (by norm_num; linarith) (by norm_num; linarith) (by linarith),
    ((hm 52 (by norm_num)).shift 26).report A hA.fl (hl ▸ hi) rfl (fun _ => nm 52 (by norm_num) (i - 26) (by omega))
      (by norm_num; linarith) (by norm_num; linarith) (by linarith)⟩
  have := (((nm 9 (by norm_num) (i - 26) (by omega)).add (nm 26 (by norm_num) (i - 26) (by omega)) (le_refl 2) (le_refl 2)).div 2
    (by norm_num)).scope (B := M) (by linarith)
  rwa [← hA.fl] at this

/-- The hypotheses of `C85_ichimoku` on the sample. -/
example : (∃ o, FloatBuilt doubleArith demoEnv .ichimokuCloud (sample 30) true o AnyPrices ∧ o.ind = .ichimokuCloud ∧
      o.getTiData.day "senkou_a" 28 = .fin (toDouble (223 / 4))) ∧
    AtMost (sample 30) "high" 63 ∧ AtMost (sample 30) "low" 63 ∧ 10000 * double.unit ≤ 1 :=
  ⟨sample_float 30 "senkou_a" 28 _ (by decide +kernel) (by decide) fun _ _ => trivial, by unfold AtMost; decide +kernel,
    by unfold AtMost; decide +kernel, by decide +kernel⟩

/-- C85: the retracement levels. -/
theorem C85_fibonacci (hA : Rounded R A) (hB : FloatBuilt A E c f fill o AnyPrices) (ho : o.ind = .fibonacciRetracement)
    (M : ℚ) (hM : AtMost f "close" M) (hu : 10000 * R.unit ≤ 1) (i : ℕ) (hi : i < f.idx.length) (name : String) (level : ℚ)
    (hlev : (name, level) ∈ [("rl_0.0", (0 : ℚ)), ("rl_23.6", 236 / 1000), ("rl_38.2", 382 / 1000), ("rl_50.0", 1 / 2),
      ("rl_61.8", 618 / 1000), ("rl_100.0", 1)]) :
    NearSince 0 i (o.getTiData.day name i) (highest f.idx.length (close f) (f.idx.length - 1) -
      level * (highest f.idx.length (close f) (f.idx.length - 1) - lowest f.idx.length (close f) (f.idx.length - 1)))
      (1 / 20000 + 25 * R.unit * (M + 1)) := by
  obtain ⟨F, hl, hn, ht, -⟩ := hB.on ho (by simp [Ind.required])
  have hcl : Nums F.len 0 (close f) (F.col "close") := hn _ (by simp [Ind.required])
  have hu0 := R.nonneg
  have hM0 := atMost_nonneg hM hi
  have huM : 0 ≤ R.unit * (M + 1) := by positivity
  obtain ⟨hi', e1⟩ : ∃ x, x = highest f.idx.length (close f) (f.idx.length - 1) := ⟨_, rfl⟩
  obtain ⟨lo, e2⟩ : ∃ x, x = lowest f.idx.length (close f) (f.idx.length - 1) := ⟨_, rfl⟩
  have h1 : maxOf (F.col "close") = .fin hi' := by
    obtain ⟨j, hj, e, h⟩ := Ind.maxOf_spec (F.col "close") (close f) (by rw [hcl.len]; omega)
      fun j hj => hcl.fin (by rw [hcl.len] at hj; exact hj) (by omega)
    rw [hcl.len] at hj h
    rw [e, e1]
    congr 1
    obtain ⟨h4, t, ht, h5⟩ := Nums.highest_spec f.idx.length (by omega) (close f) (f.idx.length - 1)
    apply le_antisymm
    · have := h4 (f.idx.length - 1 - j) (by omega)
      rwa [show f.idx.length - 1 - (f.idx.length - 1 - j) = j by omega] at this
    · rw [h5]; exact h _ (by omega)
  have h2 : minOf (F.col "close") = .fin lo := by
    obtain ⟨j, hj, e, h⟩ := Ind.minOf_spec (F.col "close") (close f) (by rw [hcl.len]; omega)
      fun j hj => hcl.fin (by rw [hcl.len] at hj; exact hj) (by omega)
    rw [hcl.len] at hj h
    rw [e, e2]
    congr 1
    obtain ⟨h4, t, ht, h5⟩ := Nums.lowest_spec f.idx.length (by omega) (close f) (f.idx.length - 1)
    apply le_antisymm
    · rw [h5]; exact h _ (by omega)
    · have := h4 (f.idx.length - 1 - j) (by omega)
      rwa [show f.idx.length - 1 - (f.idx.length - 1 - j) = j by omega] at this
  have b1 : |hi'| ≤ M := by rw [e1]; exact highest_abs _ (by omega) _ _ M fun j hj => hM j (by omega)
  have b2 : |lo| ≤ M := by rw [e2]; exact lowest_abs _ (by omega) _ _ M fun j hj => hM j (by omega)
  have hlev0 : 0 ≤ level ∧ level ≤ 1 := by
    simp only [List.mem_cons, List.not_mem_nil, or_false, Prod.mk.injEq] at hlev
    rcases hlev with ⟨-, rfl⟩ | ⟨-, rfl⟩ | ⟨-, rfl⟩ | ⟨-, rfl⟩ | ⟨-, rfl⟩ | ⟨-, rfl⟩ <;> norm_num
  have hN : Sim.Near R 4 (R.fl (hi' - R.fl (R.fl level * R.fl (hi' - lo)))) (hi' - level * (hi' - lo)) (3 * M) := by
    have n1 := (((near_of_abs (R := R) b1).sub (near_of_abs b2) (le_refl 0) (le_refl 0)).factor level hlev0.1)
    refine ((near_of_abs (R := R) b1).sub n1 (by omega) (le_refl 3)).scope ?_
    nlinarith [hlev0.1, hlev0.2]
  have hday : o.getTiData.day name i = A.round 4 (.fin (R.fl (hi' - R.fl (R.fl level * R.fl (hi' - lo))))) := by
    replace ht : Except.ok (⟨F.idx, Ind.FibonacciRetracement.levels.map fun l =>
      (l.1, List.replicate F.len (A.round 4 (A.sub (maxOf (F.col "close")) (A.mul (.fin (A.fl l.2)) (A.sub (maxOf (F.col "close")) (minOf (F.col "close")))))))⟩ : Frame) = .ok o.getTiData := ht
    rw [h1, h2] at ht
    rw [← Except.ok.inj ht]
    have key : ∀ v : Val, (List.replicate F.len v).getD i .nan = v := fun v => by
      rw [List.getD_eq_getElem _ _ (by simp; omega)]; simp
    simp only [List.mem_cons, List.not_mem_nil, or_false, Prod.mk.injEq] at hlev
    rcases hlev with ⟨rfl, rfl⟩ | ⟨rfl, rfl⟩ | ⟨rfl, rfl⟩ | ⟨rfl, rfl⟩ | ⟨rfl, rfl⟩ | ⟨rfl, rfl⟩
    all_goals
      refine Eq.trans (key _) ?_
      simp only [Arith.sub, Arith.mul, Arith.rd, Val.fin_sub, Val.fin_mul, hA.fl]
  rw [hday]
  rw [← e1, ← e2]
  exact report_at A hA.fl 4 (k := 0) (i := i) rfl (fun _ => hN) (by norm_num; linarith) (by norm_num; nlinarith) (by linarith)

/-- The hypotheses of `C85_fibonacci` on the sample. -/
example : (∃ o, FloatBuilt doubleArith demoEnv .fibonacciRetracement (sample 6) true o AnyPrices ∧ o.ind = .fibonacciRetracement ∧
      o.getTiData.day "rl_38.2" 4 = .fin (toDouble (2809 / 50))) ∧
    AtMost (sample 6) "close" 60 ∧ 10000 * double.unit ≤ 1 :=
  ⟨sample_float 6 "rl_38.2" 4 _ (by decide +kernel) (by decide) fun _ _ => trivial, by unfold AtMost; decide +kernel, by decide +kernel⟩

/-! ## Rates -/

/-- C85: momentum; the error is relative. -/
theorem C85_momentum (hA : Rounded R A) (hB : FloatBuilt A E c f fill o AnyPrices) (n : ℕ) (ho : o.ind = .momentum n)
    (hu : 10000 * R.unit ≤ 1) (i : ℕ) (hi : i < f.idx.length) (h0 : 0 < close f (i - n)) :
    NearSince n i (o.getTiData.day "mom" i) (100 * close f i / close f (i - n))
      (1 / 20000 + 7 * R.unit * (|100 * close f i / close f (i - n)| + 1)) := by
  obtain ⟨F, hl, hn, ht, -⟩ := hB.on ho (by simp [Ind.required])
  have hcl : Nums F.len 0 (close f) (F.col "close") := hn _ (by simp [Ind.required])
  have hu0 := R.nonneg
  rw [guard_ok ht]
  show NearSince n i (TTI.val (A.roundS 4 _) i) _ _
  rw [val_fround, val_maskBefore, val_fdiv, val_fscale, hcl.fin (hl ▸ hi) (by omega), (hcl.shift n).since (hl ▸ hi)]
  refine report_at A hA.fl 4 (M := |100 * close f i / close f (i - n)|) (K := 2) (a := A.fl (A.fl (100 * close f i) / close f (i - n)))
    ?_ (fun _ => ?_) (by norm_num; linarith) ?_ (by linarith)
  · unfold Spec.since
    split_ifs <;> first | rfl | omega | skip
    simp only [Arith.mul, Arith.rd, Val.fin_mul, Arith.div, Val.fin_div _ _ h0.ne']
  · rw [hA.fl]
    have := ((near_exact R (close f i)).scale 100 (by norm_num)).div _ h0
    refine this.scope (le_of_eq ?_)
    rw [abs_div, abs_mul, abs_of_pos h0, abs_of_pos (show (0 : ℚ) < 100 by norm_num)]
  · have : 0 ≤ R.unit * (|100 * close f i / close f (i - n)| + 1) := by positivity
    norm_num
    linarith

/-- The hypotheses of `C85_momentum` on the sample. -/
example : (∃ o, FloatBuilt doubleArith demoEnv (.momentum (.int 2)) (sample 6) true o AnyPrices ∧ o.ind = .momentum 2 ∧
      o.getTiData.day "mom" 4 = .fin (toDouble (264151 / 2500))) ∧ 10000 * double.unit ≤ 1 ∧ 0 < close (sample 6) (4 - 2) :=
  ⟨sample_float 6 "mom" 4 _ (by decide +kernel) (by decide) fun _ _ => trivial, by decide +kernel, by decide +kernel⟩

/-- C85: the price rate of change. -/
theorem C85_price_rate_of_change (hA : Rounded R A) (hB : FloatBuilt A E c f fill o AnyPrices) (n : ℕ) (ho : o.ind = .priceRateOfChange n)
    (hu : 10000 * R.unit ≤ 1) (i : ℕ) (hi : i < f.idx.length) (h0 : 0 < close f (i - n)) :
    NearSince n i (o.getTiData.day "prc" i) (100 * (close f i - close f (i - n)) / close f (i - n))
      (1 / 20000 + 8 * R.unit * (|100 * (close f i - close f (i - n)) / close f (i - n)| + 1)) := by
  obtain ⟨F, hl, hn, ht, -⟩ := hB.on ho (by simp [Ind.required])
  have hcl : Nums F.len 0 (close f) (F.col "close") := hn _ (by simp [Ind.required])
  have hu0 := R.nonneg
  rw [guard_ok ht]
  show NearSince n i (TTI.val (A.roundS 4 _) i) _ _
  rw [val_fround, val_fdiv, val_fscale, val_fsub, hcl.fin (hl ▸ hi) (by omega), (hcl.shift n).since (hl ▸ hi)]
  refine report_at A hA.fl 4 (M := |100 * (close f i - close f (i - n)) / close f (i - n)|) (K := 3)
    (a := A.fl (A.fl (100 * A.fl (close f i - close f (i - n))) / close f (i - n)))
    ?_ (fun _ => ?_) (by norm_num; linarith) ?_ (by linarith)
  · unfold Spec.since
    split_ifs <;> first | omega | skip
    · simp [Arith.mul, Arith.rd, Arith.sub, Arith.div]
    · simp only [Arith.mul, Arith.rd, Val.fin_mul, Arith.sub, Val.fin_sub, Arith.div, Val.fin_div _ _ h0.ne']
  · rw [hA.fl]
    have := ((near_exact R (close f i - close f (i - n))).fl.scale 100 (by norm_num)).div _ h0
    refine this.scope (le_of_eq ?_)
    rw [abs_div, abs_mul, abs_of_pos h0, abs_of_pos (show (0 : ℚ) < 100 by norm_num)]
  · have : 0 ≤ R.unit * (|100 * (close f i - close f (i - n)) / close f (i - n)| + 1) := by positivity
    norm_num
    linarith

/-- The hypotheses of `C85_price_rate_of_change` on the sample. -/
example : (∃ o, FloatBuilt doubleArith demoEnv (.priceRateOfChange (.int 2)) (sample 6) true o AnyPrices ∧ o.ind = .priceRateOfChange 2 ∧
      o.getTiData.day "prc" 4 = .fin (toDouble (14151 / 2500))) ∧ 10000 * double.unit ≤ 1 ∧ 0 < close (sample 6) (4 - 2) :=
  ⟨sample_float 6 "prc" 4 _ (by decide +kernel) (by decide) fun _ _ => trivial, by decide +kernel, by decide +kernel⟩

/-- C85: the volume rate of change. -/
theorem C85_volume_rate_of_change (hA : Rounded R A) (hB : FloatBuilt A E c f fill o AnyPrices) (n : ℕ) (ho : o.ind = .volumeRateOfChange n)
    (hu : 10000 * R.unit ≤ 1) (i : ℕ) (hi : i < f.idx.length) (h0 : 0 < volume f (i - n)) :
    NearSince n i (o.getTiData.day "vrc" i) (100 * (volume f i - volume f (i - n)) / volume f (i - n))
      (1 / 20000 + 8 * R.unit * (|100 * (volume f i - volume f (i - n)) / volume f (i - n)| + 1)) := by
  obtain ⟨F, hl, hn, ht, -⟩ := hB.on ho (by simp [Ind.required])
  have hv : Nums F.len 0 (volume f) (F.col "volume") := hn _ (by simp [Ind.required])
  have hu0 := R.nonneg
  rw [guard_ok ht]
  show NearSince n i (TTI.val (A.roundS 4 _) i) _ _
  rw [val_fround, val_fscale, val_fdiv, val_fsub, hv.fin (hl ▸ hi) (by omega), (hv.shift n).since (hl ▸ hi)]
  refine report_at A hA.fl 4 (M := |100 * (volume f i - volume f (i - n)) / volume f (i - n)|) (K := 3)
    (a := A.fl (100 * A.fl (A.fl (volume f i - volume f (i - n)) / volume f (i - n))))
    ?_ (fun _ => ?_) (by norm_num; linarith) ?_ (by linarith)
  · unfold Spec.since
    split_ifs <;> first | omega | skip
    · simp [Arith.mul, Arith.rd, Arith.sub, Arith.div]
    · simp only [Arith.mul, Arith.rd, Val.fin_mul, Arith.sub, Val.fin_sub, Arith.div, Val.fin_div _ _ h0.ne']
  · rw [hA.fl]
    have := ((near_exact R (volume f i - volume f (i - n))).fl.div _ h0).scale 100 (by norm_num)
    rw [← mul_div_assoc] at this
    refine this.scope (le_of_eq ?_)
    rw [abs_div, abs_mul, abs_of_pos h0, abs_of_pos (show (0 : ℚ) < 100 by norm_num), mul_div_assoc]
  · have : 0 ≤ R.unit * (|100 * (volume f i - volume f (i - n)) / volume f (i - n)| + 1) := by positivity
    norm_num
    linarith

/-- The hypotheses of `C85_volume_rate_of_change` on the sample. -/
example : (∃ o, FloatBuilt doubleArith demoEnv (.volumeRateOfChange (.int 2)) (sample 6) true o AnyPrices ∧ o.ind = .volumeRateOfChange 2 ∧
      o.getTiData.day "vrc" 4 = .fin (toDouble (-133333 / 10000))) ∧ 10000 * double.unit ≤ 1 ∧ 0 < volume (sample 6) (4 - 2) :=
  ⟨sample_float 6 "vrc" 4 _ (by decide +kernel) (by decide) fun _ _ => trivial, by decide +kernel, by decide +kernel⟩

/-- C85: Williams %R. -/
theorem C85_williams_r (hA : Rounded R A) (hB : FloatBuilt A E c f fill o AnyPrices) (n : ℕ) (ho : o.ind = .williamsR n)
    (hu : 10000 * R.unit ≤ 1) (i : ℕ) (hi : i < f.idx.length) (h0 : 0 < rangeHeight f n i) :
    NearSince (n - 1) i (o.getTiData.day "wr" i) (-100 * (highest n (high f) i - close f i) / rangeHeight f n i)
      (1 / 20000 + 10 * R.unit * (|100 * (highest n (high f) i - close f i) / rangeHeight f n i| + 1)) := by
  obtain ⟨F, hl, hn, ht, hp, -⟩ := hB.on ho (by simp [Ind.required])
  have hcl : Nums F.len 0 (close f) (F.col "close") := hn _ (by simp [Ind.required])
  have hh : Nums F.len 0 (high f) (F.col "high") := hn _ (by simp [Ind.required])
  have hlo : Nums F.len 0 (low f) (F.col "low") := hn _ (by simp [Ind.required])
  replace hp : 1 ≤ n := hp
  have hu0 := R.nonneg
  rw [guard_ok ht]
  have h1 := hh.rollMax n hp
  show NearSince (n - 1) i (TTI.val (A.roundS 4 _) i) _ _
  have e1 := (h1.fsub A hcl).since (hl ▸ hi : i < F.len)
  have e2 := (h1.fsub A (hlo.rollMin n hp)).since (hl ▸ hi : i < F.len)
  rw [val_fround, val_fscale, val_fdiv, e1, e2]
  obtain ⟨q1, q2⟩ := near_quotient (R := R) (by linarith) (highest n (high f) i - close f i) _ h0
  refine report_at A hA.fl 4 (M := |100 * (highest n (high f) i - close f i) / rangeHeight f n i|) (K := 5)
    (a := A.fl (-100 * A.fl (A.fl (highest n (high f) i - close f i) / A.fl (rangeHeight f n i))))
    ?_ (fun _ => ?_) (by norm_num; linarith) ?_ (by linarith)
  · have hq : A.fl (highest n (high f) i - lowest n (low f) i) ≠ 0 := by rw [hA.fl]; exact q1.ne'
    unfold Spec.since
    split_ifs <;> first | omega | skip
    · simp [Arith.mul, Arith.rd, Arith.div]
    · simp only [Arith.mul, Arith.rd, Val.fin_mul, Arith.div, Val.fin_div _ _ hq]
      rfl
  · rw [hA.fl]
    have := q2.negScale 100 (by norm_num)
    rw [← mul_div_assoc] at this
    refine this.scope (le_of_eq ?_)
    rw [mul_div_assoc, abs_mul, abs_of_pos (show (0 : ℚ) < 100 by norm_num)]
  · have : 0 ≤ R.unit * (|100 * (highest n (high f) i - close f i) / rangeHeight f n i| + 1) := by positivity
    norm_num
    linarith

/-- The hypotheses of `C85_williams_r` on the sample. -/
example : (∃ o, FloatBuilt doubleArith demoEnv (.williamsR (.int 3)) (sample 6) true o AnyPrices ∧ o.ind = .williamsR 3 ∧
      o.getTiData.day "wr" 4 = .fin (toDouble (-29661 / 625))) ∧ 10000 * double.unit ≤ 1 ∧ 0 < rangeHeight (sample 6) 3 4 :=
  ⟨sample_float 6 "wr" 4 _ (by decide +kernel) (by decide) fun _ _ => trivial, by decide +kernel, by decide +kernel⟩

/-- C85: the performance since the first day. -/
theorem C85_performance (hA : Rounded R A) (hB : FloatBuilt A E c f fill o AnyPrices) (long : Bool) (target : Val)
    (ho : o.ind = .performance long target) (hu : 10000 * R.unit ≤ 1) (i : ℕ) (hi : i < f.idx.length) (h0 : 0 < close f 0) :
    NearSince 0 i (o.getTiData.day "prf" i) ((close f i - close f 0) / close f 0)
      (1 / 20000 + 7 * R.unit * (|(close f i - close f 0) / close f 0| + 1)) := by
  obtain ⟨F, hl, hn, ht, -⟩ := hB.on ho (by simp [Ind.required])
  have hcl : Nums F.len 0 (close f) (F.col "close") := hn _ (by simp [Ind.required])
  have hu0 := R.nonneg
  have hh : (F.col "close").head? = some (.fin (close f 0)) := by
    have := hcl.fin (i := 0) (by omega) (le_refl _)
    rw [List.head?_eq_getElem?, val_getElem? _ _ (by rw [hcl.len]; omega), this]
  unfold Flt.calcTi at ht
  simp only [hh, Except.ok.injEq] at ht
  rw [← ht]
  show NearSince 0 i (TTI.val (A.roundS 4 ((F.col "close").map _)) i) _ _
  rw [val_fround, val_map _ (by simp [Arith.div, Arith.sub, Arith.rd]), hcl.fin (hl ▸ hi) (by omega)]
  refine report_at A hA.fl 4 (M := |(close f i - close f 0) / close f 0|) (K := 2)
    (a := A.fl (A.fl (close f i - close f 0) / close f 0))
    ?_ (fun _ => ?_) (by norm_num; linarith) ?_ (by linarith)
  · simp only [Spec.since, Nat.not_lt_zero, if_false, Arith.rd, Arith.sub, Val.fin_sub, Arith.div, Val.fin_div _ _ h0.ne']
  · rw [hA.fl]
    have := (near_exact R (close f i - close f 0)).fl.div _ h0
    refine this.scope (le_of_eq ?_)
    rw [abs_div, abs_of_pos h0]
  · have : 0 ≤ R.unit * (|(close f i - close f 0) / close f 0| + 1) := by positivity
    norm_num
    linarith

/-- The hypotheses of `C85_performance` on the sample. -/
example : (∃ o, FloatBuilt doubleArith demoEnv (.performance (.str "LONG") (.float (.fin (1 / 10)))) (sample 6) true o AnyPrices ∧
      o.ind = .performance true (.fin (1 / 10)) ∧ o.getTiData.day "prf" 4 = .fin (toDouble (3 / 25))) ∧ 10000 * double.unit ≤ 1 ∧
      0 < close (sample 6) 0 :=
  ⟨sample_float 6 "prf" 4 _ (by decide +kernel) (by decide) fun _ _ => trivial, by decide +kernel, by decide +kernel⟩

/-- C85: the market facilitation index, to ten decimals. -/
theorem C85_market_facilitation (hA : Rounded R A) (hB : FloatBuilt A E c f fill o AnyPrices) (ho : o.ind = .marketFacilitationIndex)
    (hu : 10000 * R.unit ≤ 1) (i : ℕ) (hi : i < f.idx.length) (h0 : 0 < volume f i) :
    NearSince 0 i (o.getTiData.day "mfi" i) (dayRange f i / volume f i) (1 / 2 / 10 ^ 10 + 7 * R.unit * (|dayRange f i / volume f i| + 1)) := by
  obtain ⟨F, hl, hn, ht, -⟩ := hB.on ho (by simp [Ind.required])
  have hh : Nums F.len 0 (high f) (F.col "high") := hn _ (by simp [Ind.required])
  have hlo : Nums F.len 0 (low f) (F.col "low") := hn _ (by simp [Ind.required])
  have hv : Nums F.len 0 (volume f) (F.col "volume") := hn _ (by simp [Ind.required])
  have hu0 := R.nonneg
  rw [← Except.ok.inj ht]
  show NearSince 0 i (TTI.val (A.roundS 10 _) i) _ _
  rw [val_fround, val_fdiv, val_fsub, hv.fin (hl ▸ hi) (by omega), hh.fin (hl ▸ hi) (by omega), hlo.fin (hl ▸ hi) (by omega)]
  refine report_at A hA.fl 10 (M := |dayRange f i / volume f i|) (K := 2) (a := A.fl (A.fl (dayRange f i) / volume f i))
    ?_ (fun _ => ?_) (by norm_num; linarith) ?_ (by linarith)
  · simp only [Spec.since, Nat.not_lt_zero, if_false, Arith.rd, Arith.sub, Val.fin_sub, Arith.div, Val.fin_div _ _ h0.ne']
    rfl
  · rw [hA.fl]
    have := (near_exact R (dayRange f i)).fl.div _ h0
    refine this.scope (le_of_eq ?_)
    rw [abs_div, abs_of_pos h0]
  · have : 0 ≤ R.unit * (|dayRange f i / volume f i| + 1) := by positivity
    norm_num
    linarith

/-- The hypotheses of `C85_market_facilitation` on the sample. -/
example : (∃ o, FloatBuilt doubleArith demoEnv .marketFacilitationIndex (sample 6) true o AnyPrices ∧ o.ind = .marketFacilitationIndex ∧
      o.getTiData.day "mfi" 4 = .fin (toDouble (1 / 100))) ∧ 10000 * double.unit ≤ 1 ∧ 0 < volume (sample 6) 4 :=
  ⟨sample_float 6 "mfi" 4 _ (by decide +kernel) (by decide) fun _ _ => trivial, by decide +kernel, by decide +kernel⟩

end TTI.Props
