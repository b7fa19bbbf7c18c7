import Verif.Props.LastClose

set_option autoImplicit false

/-!
# What a higher last close does to the signal: bands and oscillators (C106)
-/

namespace TTI.Props

open Spec LastClose

variable {E : Env} {c : Call} {f g : RawFrame} {fill : Bool} {o p : Obj}

theorem since_num (k i : ℕ) (q : ℚ) : since k i (to4 q) = .nan ∨ ∃ x, since k i (to4 q) = .fin x := by
  unfold since to4
  split
  · exact .inl rfl
  · exact .inr ⟨_, rfl⟩

theorem since_pair {L k : ℕ} {a b : ℕ → Val} (hs : ∀ i, k ≤ i → i < L → b i = a i) (i : ℕ) (hl : i < L) :
    since k i (b i) = since k i (a i) := by
  unfold since
  split
  · rfl
  · rw [hs i (by omega) hl]

theorem rounded_average_facts {L : ℕ} (n : ℕ) (hn : 1 ≤ n) (u v : ℕ → ℚ) (hs : ∀ j, j < L → v j = u j) :
    (∀ i, n ≤ i → i < L → roundedAverage n v i = roundedAverage n u i) ∧
    (n ≤ L → u L ≤ v L → roundedAverage n u L ≤ roundedAverage n v L) := by
  have q0 : (0 : ℚ) < n := by exact_mod_cast hn
  have seed : n < L → meanLast n v n = meanLast n u n := fun hl => by
    unfold meanLast
    rw [sum_same (s := 0) (L := L) (fun j _ hj => hs j hj) n n (by omega) hl]
  have same : n < L → ∀ i, i < L → roundedAverage n v i = roundedAverage n u i := fun hl i => by
    unfold roundedAverage
    rw [seed hl]
    induction i with
    | zero => intro _; rfl
    | succ i ih =>
      intro hi
      simp only [running]
      split
      · rfl
      · rw [ih (by omega), hs (i + 1) hi]
  refine ⟨fun i hi hl => same (by omega) i hl, fun hL hl => ?_⟩
  rcases Nat.lt_or_ge n L with hlt | hge
  · obtain ⟨k, rfl⟩ : ∃ k, L = k + 1 := ⟨L - 1, by omega⟩
    have e := same hlt k (by omega)
    have step : ∀ w : ℕ → ℚ, roundedAverage n w (k + 1) = roundQ 4 (roundedAverage n w k + (w (k + 1) - roundedAverage n w k) / n) := fun w => by
      unfold roundedAverage
      simp only [running]
      rw [if_neg (by omega)]
    rw [step, step, e]
    exact roundQ_mono 4 (by gcongr)
  · obtain rfl : n = L := by omega
    have first : ∀ w : ℕ → ℚ, roundedAverage n w n = meanLast n w n := fun w => by
      unfold roundedAverage
      cases n with
      | zero => rfl
      | succ k => simp [running]
    rw [first, first]
    unfold meanLast
    rw [sum_last (s := 0) (fun j _ hj => hs j hj) n hn (by omega)]
    gcongr
    linarith

theorem rounded_average_rev {L : ℕ} (n : ℕ) (hn : 1 ≤ n) (u v : ℕ → ℚ) (hs : ∀ j, j < L → v j = u j) (hL : n ≤ L) (hl : v L ≤ u L) :
    roundedAverage n v L ≤ roundedAverage n u L :=
  (rounded_average_facts n hn v u fun j hj => (hs j hj).symm).2 hL hl

theorem rounded_average_nonneg (n : ℕ) (hn : 1 ≤ n) (u : ℕ → ℚ) (hu : ∀ j, 0 ≤ u j) (i : ℕ) : 0 ≤ roundedAverage n u i := by
  have q0 : (1 : ℚ) ≤ n := by exact_mod_cast hn
  have seed : 0 ≤ meanLast n u n := div_nonneg (Finset.sum_nonneg fun _ _ => hu _) (by linarith)
  unfold roundedAverage
  induction i with
  | zero => exact seed
  | succ i ih =>
    simp only [running]
    split
    · exact seed
    · refine roundQ_nonneg 4 ?_
      set b := running n (meanLast n u n) (fun b x => roundQ 4 (b + (x - b) / n)) u i
      have : b + (u (i + 1) - b) / n = (b * (n - 1) + u (i + 1)) / n := by field_simp; ring
      rw [this]
      exact div_nonneg (add_nonneg (mul_nonneg ih (by linarith)) (hu _)) (by linarith)

/-- Before the first day the bands are missing. -/
theorem projection_short (hB : BuiltOn E c f fill o AnyPrices) (n : ℕ) (hi : o.ind = .projectionBands n) (i : ℕ) (hl : i < f.idx.length)
    (hk : i < n - 1) : o.getTiData.day "upper_band" i = .nan ∧ o.getTiData.day "lower_band" i = .nan := by
  obtain ⟨F, hF, hn, -, ht, hp, -⟩ := hB.on hi
  have hh : Nums F.len 0 (high f) (F.col "high") := hn _ (by simp [Ind.required])
  have hlo : Nums F.len 0 (low f) (F.col "low") := hn _ (by simp [Ind.required])
  replace hp : 2 ≤ n := hp
  rw [guard_ok ht]
  have e1 := (hh.upperBand n (by omega)).eq4 (i := i) (q := 0) (hF ▸ hl) rfl fun h => by omega
  have e2 := (hlo.lowerBand n (by omega)).eq4 (i := i) (q := 0) (hF ▸ hl) rfl fun h => by omega
  rw [since, if_pos hk] at e1 e2
  exact ⟨e1, e2⟩

section
variable {s t : Signal} {L : ℕ} (ho : BuiltOn E c f fill o Quoted) (hp : BuiltOn E c g fill p Quoted) (h : Pair f g o p L)
  (h1 : o.getTiSignal = .ok s) (h2 : p.getTiSignal = .ok t)
include ho hp h h1 h2

/-! ## Bands -/

theorem last_envelopes (n : ℕ) (w : ℚ) (hi : o.ind = .envelopes n w) : TowardsBuy t s := by
  have hi' : p.ind = .envelopes n w := by rw [h.ind, hi]
  obtain ⟨hn, hw0, hw1⟩ : 1 ≤ n ∧ 0 < w ∧ w < 1 := pos_of ho hi
  have hq : (1 : ℚ) ≤ n := by exact_mod_cast hn
  have r := h.rows
  have r' := h.rows'
  obtain ⟨u1, l1⟩ := C54_envelopes (built_any ho) n w hi L (by omega)
  obtain ⟨u2, l2⟩ := C54_envelopes (built_any hp) n w hi' L (by omega)
  have hm : n - 1 ≤ L → Lift (n - 1) L ((close g L - close f L) / n) (meanLast n (close f)) (meanLast n (close g)) := fun hk => by
    have := h.lift.mean n hn (by omega)
    rwa [Nat.zero_add] at this
  have slow : ∀ a : ℚ, 0 ≤ a → a < n → n - 1 ≤ L → Slower (close f L) (close g L) (a * meanLast n (close f) L) (a * meanLast n (close g) L) :=
    fun a h0 ha hk => by
      have q1 := (hm hk).le
      have q2 := (hm hk).by_
      have hd : 0 ≤ close g L - close f L := by linarith [h.last]
      have q3 : a * ((close g L - close f L) / n) = a / n * (close g L - close f L) := by ring
      have q4 := mul_le_mul_of_nonneg_left q1 h0
      have q5 := mul_le_mul_of_nonneg_left q2 h0
      rw [mul_add, q3] at q5
      have q6 : a / n < 1 := by rw [div_lt_one (by linarith)]; exact ha
      refine ⟨q4, ?_⟩
      rcases h.last.lt_or_eq with h3 | h3
      · exact .inl (by nlinarith [mul_lt_mul_of_pos_right q6 (sub_pos.2 h3)])
      · rw [h3, sub_self, mul_zero, add_zero] at q5
        exact .inr (.inl (le_antisymm q5 q4))
  have hlow := line_nearer ho hp h h1 h2 (by rw [hi]; simp [Ind.required]) "lower_band" (by rw [hi]; simp [columns]) (n - 1) _ _ l1 l2
    (slow (1 - w) (by linarith) (by linarith))
  refine h.opposes h1 h2 hi rfl fun _ => outside_opposes ?_ hlow.above
  rcases Nat.lt_or_ge n 2 with h3 | h3
  · obtain rfl : n = 1 := by omega
    intro hx
    beta_reduce at hx
    rw [(h.ti "upper_band" (by rw [hi]; simp [columns]) 0 (by omega)).1, (h.px (by rw [hi]; simp [Ind.required]) 0 (by omega)).1, Nat.sub_zero, u1,
      since, if_neg (by omega)] at hx
    exfalso
    obtain ⟨hc, m, hm'⟩ := quoted_close ho (by rw [hi]; simp [Ind.required]) L (by omega)
    have e : meanLast 1 (close f) L = close f L := by simp [meanLast, sumLast]
    have q1 : close f L ≤ (1 + w) * meanLast 1 (close f) L := by rw [e]; nlinarith
    have q2 := roundQ_mono 4 q1
    have q3 : roundQ 4 (close f L) = close f L := by 
      have := roundQ_div 4 m
      rw [hm']
      norm_num at this ⊢
      exact this
    simp only [to4, Val.lt, decide_eq_true_eq] at hx
    linarith
  · have : (2 : ℚ) ≤ n := by exact_mod_cast h3
    exact (line_nearer ho hp h h1 h2 (by rw [hi]; simp [Ind.required]) "upper_band" (by rw [hi]; simp [columns]) (n - 1) _ _ u1 u2
      (slow (1 + w) (by linarith) (by linarith))).below

/-- Lines that do not read the close. -/
theorem line_fixed (hc : "close" ∈ o.ind.required) (column : String) (hn : column ∈ columns o.ind) (D : ℕ → Val)
    (hD : ∀ i, D i = .nan ∨ ∃ q, D i = .fin q)
    (e1 : ∀ i ≤ L, o.getTiData.day column i = D i) (e2 : ∀ i ≤ L, p.getTiData.day column i = D i) :
    Nearer (before 0 (o.ti.col column)) (before 0 (p.ti.col column)) (before 0 (o.input.col "close")) (before 0 (p.input.col "close")) ∧
    ∀ k, 1 ≤ k → before k (p.ti.col column) = before k (o.ti.col column) := by
  obtain ⟨a1, a2, a3⟩ := line_before ho hp h h1 h2 column hn D D e1 e2 fun _ _ => rfl
  refine ⟨?_, a3⟩
  rw [a1, a2, (h.px hc 0 (by omega)).1, (h.px hc 0 (by omega)).2, Nat.sub_zero]
  rcases hD L with e | ⟨q, e⟩ <;> rw [e]
  · exact ⟨fun h => by simp [Val.lt] at h, fun h => by simp [Val.lt] at h⟩
  · exact nearer_fin (by linarith [h.last])

theorem last_price_channel (n : ℕ) (hi : o.ind = .priceChannel n) : TowardsBuy t s := by
  have hi' : p.ind = .priceChannel n := by rw [h.ind, hi]
  have r := h.rows
  have r' := h.rows'
  have e1 := fun i hl => C54_price_channel (built_any ho) n hi i hl
  have e2 := fun i hl => C54_price_channel (built_any hp) n hi' i hl
  rw [h.high, h.low] at e2
  have hu := line_fixed ho hp h h1 h2 (by rw [hi]; simp [Ind.required]) "highest_high" (by rw [hi]; simp [columns])
    (fun i => since n i (to4 (highest n (high f) (i - 1)))) (fun i => since_num _ _ _)
    (fun i hl => (e1 i (by omega)).1) (fun i hl => (e2 i (by omega)).1)
  have hl := line_fixed ho hp h h1 h2 (by rw [hi]; simp [Ind.required]) "lowest_low" (by rw [hi]; simp [columns])
    (fun i => since n i (to4 (lowest n (low f) (i - 1)))) (fun i => since_num _ _ _)
    (fun i hl => (e1 i (by omega)).2) (fun i hl => (e2 i (by omega)).2)
  exact h.opposes h1 h2 hi rfl fun _ => outside_opposes hu.1.below hl.1.above

theorem last_sar (hi : o.ind = .parabolicSAR) : TowardsBuy s t := by
  have hi' : p.ind = .parabolicSAR := by rw [h.ind, hi]
  have r := h.rows
  have r' := h.rows'
  obtain ⟨D, d1, d2⟩ := C46_run E c f fill o ho.wf ho.ok (built_any ho).rows hi
  obtain ⟨D', b1, b2⟩ := C46_run E c g fill p hp.wf hp.ok (built_any hp).rows hi'
  have eh : highOf g = highOf f := h.high
  have el : lowOf g = lowOf f := h.low
  rw [eh, el, r'] at b1
  rw [r] at d1
  have hh := line_fixed ho hp h h1 h2 (by rw [hi]; simp [Ind.required]) "sar" (by rw [hi]; simp [columns])
    (fun i => .fin (roundQ 4 (D i).sar)) (fun i => .inr ⟨_, rfl⟩) (fun i hl => d2 i (by omega))
    (fun i hl => by rw [b2 i (by omega), C46_one_run _ _ _ _ _ b1 d1 i (by omega)])
  exact h.follows h1 h2 hi rfl fun hL => follow_follows (hh.2 1 le_rfl) (close_before ho hp h h1 h2 (by rw [hi]; simp [Ind.required]) (by
    change 2 ≤ L + 1 at hL; omega)) hh.1

theorem last_ichimoku (hi : o.ind = .ichimokuCloud) : TowardsBuy s t := by
  have hi' : p.ind = .ichimokuCloud := by rw [h.ind, hi]
  have r := h.rows
  have r' := h.rows'
  have e1 := fun i hl => C56_ichimoku (built_any ho) hi i hl
  have e2 := fun i hl => C56_ichimoku (built_any hp) hi' i hl
  have em : ∀ w i, midRange g w i = midRange f w i := fun w i => by unfold midRange; rw [h.high, h.low]
  simp only [em] at e2
  have tk := line_before ho hp h h1 h2 "tenkan_sen" (by rw [hi]; simp [columns]) _ _ (fun i hl => (e1 i (by omega)).1)
    (fun i hl => (e2 i (by omega)).1) fun _ _ => rfl
  have kj := line_before ho hp h h1 h2 "kijun_sen" (by rw [hi]; simp [columns]) _ _ (fun i hl => (e1 i (by omega)).2.1)
    (fun i hl => (e2 i (by omega)).2.1) fun _ _ => rfl
  have sa := line_before ho hp h h1 h2 "senkou_a" (by rw [hi]; simp [columns]) _ _ (fun i hl => (e1 i (by omega)).2.2.1)
    (fun i hl => (e2 i (by omega)).2.2.1) fun _ _ => rfl
  have sb := line_before ho hp h h1 h2 "senkou_b" (by rw [hi]; simp [columns]) _ _ (fun i hl => (e1 i (by omega)).2.2.2)
    (fun i hl => (e2 i (by omega)).2.2.2) fun _ _ => rfl
  obtain ⟨c1, c2⟩ := h.px (by rw [hi]; simp [Ind.required]) 0 (by omega)
  have hl := h.last
  have key : (AboveCloud (before 0 (o.input.col "close")) (before 0 (o.ti.col "senkou_a")) (before 0 (o.ti.col "senkou_b")) →
      AboveCloud (before 0 (p.input.col "close")) (before 0 (o.ti.col "senkou_a")) (before 0 (o.ti.col "senkou_b"))) ∧
      (BelowCloud (before 0 (p.input.col "close")) (before 0 (o.ti.col "senkou_a")) (before 0 (o.ti.col "senkou_b")) →
      BelowCloud (before 0 (o.input.col "close")) (before 0 (o.ti.col "senkou_a")) (before 0 (o.ti.col "senkou_b"))) := by
    rw [c1, c2, sa.1, sb.1, Nat.sub_zero]
    unfold since
    split
    · exact ⟨fun _ => .inr (.inr (.inl ⟨rfl, by simp [Val.le]⟩)), fun hb => by simp [BelowCloud, Val.le] at hb⟩
    · simp only [AboveCloud, BelowCloud, to4, Val.lt, Val.le, decide_eq_true_eq, reduceCtorEq, false_and, or_false, false_or]
      exact ⟨fun hb => ⟨by linarith [hb.1], by linarith [hb.2]⟩, fun hb => ⟨by linarith [hb.1], by linarith [hb.2]⟩⟩
  refine h.follows h1 h2 hi rfl fun _ => ?_
  simp only [rule, Overtakes]
  rw [tk.2.2 1 le_rfl, kj.2.2 1 le_rfl, sa.2.1, sb.2.1, tk.2.1, kj.2.1, ← tk.1, ← kj.1, ← sa.1, ← sb.1]
  exact ⟨fun hb => ⟨hb.1, key.1 hb.2.1, hb.2.2⟩, fun hb => ⟨hb.1, key.2 hb.2.1, hb.2.2⟩⟩

theorem last_projection_bands (n : ℕ) (hi : o.ind = .projectionBands n) : TowardsBuy t s := by
  have hi' : p.ind = .projectionBands n := by rw [h.ind, hi]
  have hn : 2 ≤ n := pos_of ho hi
  have r := h.rows
  have r' := h.rows'
  have hcol : ∀ column ∈ ["upper_band", "lower_band"], ∃ D : ℕ → Val, (∀ i, D i = .nan ∨ ∃ q, D i = .fin q) ∧
      o.getTiData.day column L = D L ∧ p.getTiData.day column L = D L := fun column hc => by
    rcases Nat.lt_or_ge L (n - 1) with hk | hk
    · refine ⟨fun _ => .nan, fun _ => .inl rfl, ?_⟩
      obtain ⟨q1, q2⟩ := projection_short (built_any ho) n hi L (by omega) hk
      obtain ⟨q3, q4⟩ := projection_short (built_any hp) n hi' L (by omega) hk
      simp only [List.mem_cons, List.not_mem_nil, or_false] at hc
      rcases hc with rfl | rfl
      · exact ⟨q1, q3⟩
      · exact ⟨q2, q4⟩
    · have b1 := (bestSlope_iff (high f) n L hn (by omega) _).2 rfl
      have b2 := (bestSlope_iff (low f) n L hn (by omega) _).2 rfl
      obtain ⟨q1, q2⟩ := C61_projection_bands (built_any ho) n hi L (by omega) _ _ b1 b2
      obtain ⟨q3, q4⟩ := C61_projection_bands (built_any hp) n hi' L (by omega) _ _ (by rw [h.high]; exact b1) (by rw [h.low]; exact b2)
      unfold upperProjection at q1 q3
      unfold lowerProjection at q2 q4
      rw [h.high] at q3
      rw [h.low] at q4
      simp only [List.mem_cons, List.not_mem_nil, or_false] at hc
      rcases hc with rfl | rfl
      · exact ⟨fun _ => _, fun i => since_num _ _ _, q1, q3⟩
      · exact ⟨fun _ => _, fun i => since_num _ _ _, q2, q4⟩
  obtain ⟨U, hU, u1, u2⟩ := hcol "upper_band" (by simp)
  obtain ⟨W, hW, w1, w2⟩ := hcol "lower_band" (by simp)
  obtain ⟨c1, c2⟩ := h.px (by rw [hi]; simp [Ind.required]) 0 (by omega)
  obtain ⟨x1, x2⟩ := h.ti "upper_band" (by rw [hi]; simp [columns]) 0 (by omega)
  obtain ⟨y1, y2⟩ := h.ti "lower_band" (by rw [hi]; simp [columns]) 0 (by omega)
  rw [Nat.sub_zero] at c1 c2 x1 x2 y1 y2
  have hl := h.last
  refine h.opposes h1 h2 hi rfl fun _ => ?_
  simp only [rule]
  rw [c1, c2, x1, x2, y1, y2, u1, u2, w1, w2]
  rcases hU L with e | ⟨q, e⟩ <;> rcases hW L with e' | ⟨q', e'⟩ <;> rw [e, e'] <;>
    simp only [Val.sub, Val.neg, Val.add, Val.mul, Val.lt, decide_eq_true_eq, not_lt]
  · simp
  · simp
  · simp
  · exact ⟨fun hb => ⟨by linarith [hb.1], by linarith [hb.2]⟩, fun hb => by linarith⟩

/-! ## Shares of rises and falls -/

theorem last_extremes_from (column : String) (ind : Ind) (hi : o.ind = ind) (hn : column ∈ columns ind) (lo hi' : ℚ)
    (hr : ∀ F T : Frame, rule F T ind = extremes (.fin lo) (.fin hi') fun k => before k (T.col column)) (k : ℕ) (A B : ℕ → Val)
    (e1 : ∀ i < f.idx.length, o.getTiData.day column i = since k i (A i)) (e2 : ∀ i < g.idx.length, p.getTiData.day column i = since k i (B i))
    (hs : ∀ i, k ≤ i → i < L → B i = A i)
    (hl : k ≤ L → 1 ≤ L → since k (L - 1) (A (L - 1)) ≠ .nan → Pushed lo hi' (A L) (B L)) : TowardsBuy t s := by
  have r := h.rows
  have r' := h.rows'
  obtain ⟨x1, x2, x3⟩ := line_before ho hp h h1 h2 column (by rw [hi]; exact hn) _ _ (fun i hl => e1 i (by omega)) (fun i hl => e2 i (by omega))
    (since_pair hs)
  refine h.opposes h1 h2 hi (by rw [hr, hr]; rfl) fun hL => ?_
  rw [hr] at hL
  have hL1 : 1 ≤ L := by change 2 ≤ L + 1 at hL; omega
  rw [hr, hr]
  by_cases h0 : since k (L - 1) (A (L - 1)) = .nan
  · have y1 : before 1 (o.ti.col column) = .nan := by
      rw [(h.ti column (by rw [hi]; exact hn) 1 hL1).1, e1 _ (by omega), h0]
    simp only [extremes, Falls, Rises]
    rw [x3 1 le_rfl, y1]
    simp [Val.lt]
  · refine extremes_pushed (x3 1 le_rfl) ?_
    rw [x1, x2]
    exact pushed_since k L fun hk => hl hk hL1 h0

theorem last_extremes (column : String) (ind : Ind) (hi : o.ind = ind) (hn : column ∈ columns ind) (lo hi' : ℚ)
    (hr : ∀ F T : Frame, rule F T ind = extremes (.fin lo) (.fin hi') fun k => before k (T.col column)) (k : ℕ) (A B : ℕ → Val)
    (e1 : ∀ i < f.idx.length, o.getTiData.day column i = since k i (A i)) (e2 : ∀ i < g.idx.length, p.getTiData.day column i = since k i (B i))
    (hs : ∀ i, k ≤ i → i < L → B i = A i) (hl : k ≤ L → 1 ≤ L → Pushed lo hi' (A L) (B L)) : TowardsBuy t s :=
  last_extremes_from ho hp h h1 h2 column ind hi hn lo hi' hr k A B e1 e2 hs fun hk hL _ => hl hk hL

theorem gain_lift : (∀ j, j < L → gain (close g) j = gain (close f) j) ∧ (∀ j, j < L → loss (close g) j = loss (close f) j) ∧
    (1 ≤ L → gain (close f) L ≤ gain (close g) L ∧ loss (close g) L ≤ loss (close f) L) := by
  have hl := h.last
  refine ⟨fun j hj => ?_, fun j hj => ?_, fun hL => ?_⟩
  · unfold gain; rw [h.earlier j hj, h.earlier (j - 1) (by omega)]
  · unfold loss; rw [h.earlier j hj, h.earlier (j - 1) (by omega)]
  · unfold gain loss
    rw [h.earlier (L - 1) (by omega)]
    exact ⟨max_le_max (by linarith) le_rfl, max_le_max (by linarith) le_rfl⟩

theorem last_cmo (n : ℕ) (hi : o.ind = .chandeMomentumOscillator n) : TowardsBuy t s := by
  have hi' : p.ind = .chandeMomentumOscillator n := by rw [h.ind, hi]
  have hn : 1 ≤ n := pos_of ho hi
  obtain ⟨g1, g2, g3⟩ := gain_lift ho hp h h1 h2
  refine last_extremes ho hp h h1 h2 "cmo" _ hi (by simp [columns]) (-50) 50 (fun _ _ => rfl) n _ _ (C55_chande (built_any ho) n hi)
    (C55_chande (built_any hp) n hi') (fun i hk hl => ?_) fun hk hL => ?_
  · unfold chande
    rw [sum_same (s := 0) (L := L) (fun j _ hj => g1 j hj) n i (by omega) hl, sum_same (s := 0) (L := L) (fun j _ hj => g2 j hj) n i (by omega) hl]
  · obtain ⟨q1, q2⟩ := g3 hL
    unfold chande
    have s1 := sum_last (s := 0) (L := L) (fun j _ hj => g1 j hj) n hn (by omega)
    have s2 := sum_last (s := 0) (L := L) (fun j _ hj => g2 j hj) n hn (by omega)
    refine balance_raised (Finset.sum_nonneg fun _ _ => le_max_right _ _) (Finset.sum_nonneg fun _ _ => le_max_right _ _) ?_ ?_ (by norm_num) (by norm_num)
    · linarith
    · linarith

theorem last_imi (n : ℕ) (hi : o.ind = .intradayMomentumIndex n) : TowardsBuy t s := by
  have hi' : p.ind = .intradayMomentumIndex n := by rw [h.ind, hi]
  have hn : 1 ≤ n := pos_of ho hi
  have hl := h.last
  have e2 := C55_intraday_momentum (built_any hp) n hi'
  rw [h.opening] at e2
  have g1 : ∀ j, 0 ≤ j → j < L → max (close g j - opening f j) 0 = max (close f j - opening f j) 0 := fun j _ hj => by rw [h.earlier j hj]
  have g2 : ∀ j, 0 ≤ j → j < L → max (opening f j - close g j) 0 = max (opening f j - close f j) 0 := fun j _ hj => by rw [h.earlier j hj]
  refine last_extremes ho hp h h1 h2 "imi" _ hi (by simp [columns]) 30 70 (fun _ _ => rfl) (n - 1)
    (fun i => round4 (quotient (100 * sumLast n (fun j => max (close f j - opening f j) 0) i)
      (sumLast n (fun j => max (close f j - opening f j) 0) i + sumLast n (fun j => max (opening f j - close f j) 0) i)))
    (fun i => round4 (quotient (100 * sumLast n (fun j => max (close g j - opening f j) 0) i)
      (sumLast n (fun j => max (close g j - opening f j) 0) i + sumLast n (fun j => max (opening f j - close g j) 0) i)))
    (C55_intraday_momentum (built_any ho) n hi) e2 (fun i hk hl => ?_) fun hk hL => ?_
  · beta_reduce
    rw [sum_same (s := 0) (L := L) g1 n i (by omega) hl, sum_same (s := 0) (L := L) g2 n i (by omega) hl]
  · have s1 := sum_last (s := 0) (L := L) g1 n hn (by omega)
    have s2 := sum_last (s := 0) (L := L) g2 n hn (by omega)
    have m1 : max (close f L - opening f L) 0 ≤ max (close g L - opening f L) 0 := max_le_max (by linarith) le_rfl
    have m2 : max (opening f L - close g L) 0 ≤ max (opening f L - close f L) 0 := max_le_max (by linarith) le_rfl
    refine share_raised (Finset.sum_nonneg fun _ _ => le_max_right _ _) (Finset.sum_nonneg fun _ _ => le_max_right _ _) ?_ ?_ (by norm_num) (by norm_num)
    · linarith
    · linarith

theorem last_rsi (n : ℕ) (hi : o.ind = .relativeStrengthIndex n) : TowardsBuy t s := by
  have hi' : p.ind = .relativeStrengthIndex n := by rw [h.ind, hi]
  have hn : 1 ≤ n := pos_of ho hi
  obtain ⟨g1, g2, g3⟩ := gain_lift ho hp h h1 h2
  have a := rounded_average_facts n hn (fun j => roundQ 4 (gain (close f) j)) (fun j => roundQ 4 (gain (close g) j))
    fun j hj => by rw [g1 j hj]
  have b := rounded_average_facts n hn (fun j => roundQ 4 (loss (close f) j)) (fun j => roundQ 4 (loss (close g) j))
    fun j hj => by rw [g2 j hj]
  have b' := rounded_average_rev n hn (fun j => roundQ 4 (loss (close f) j)) (fun j => roundQ 4 (loss (close g) j))
    fun j hj => by rw [g2 j hj]
  refine last_extremes ho hp h h1 h2 "rsi" _ hi (by simp [columns]) 30 70 (fun _ _ => rfl) n _ _
    (C60_relative_strength (built_any ho) n hi) (C60_relative_strength (built_any hp) n hi') (fun i hk hl => ?_) fun hk hL => ?_
  · unfold risePart fallPart
    rw [a.1 i hk hl, b.1 i hk hl]
  · obtain ⟨q1, q2⟩ := g3 hL
    exact share_raised (rounded_average_nonneg n hn _ (fun _ => roundQ_nonneg 4 (le_max_right _ _)) L)
      (rounded_average_nonneg n hn _ (fun _ => roundQ_nonneg 4 (le_max_right _ _)) L)
      (a.2 hk (roundQ_mono 4 q1)) (b' hk (roundQ_mono 4 q2)) (by norm_num) (by norm_num)

end

end TTI.Props
