import Verif.Props.LastClose3

set_option autoImplicit false

/-!
# What a higher last close does to the signal: trends and volume (C106)
-/

namespace TTI.Props

open Spec LastClose

variable {E : Env} {c : Call} {f g : RawFrame} {fill : Bool} {o p : Obj}

theorem more_recent_same (a b : Val → Bool) (xs ys : List Val) (hl : ys.length = xs.length) (hs : ∀ k, 1 ≤ k → before k ys = before k xs)
    (h : MoreRecent a b xs) : MoreRecent a b ys := by
  obtain ⟨k, ⟨h1, h2, h3, h4⟩, h5⟩ := h
  exact ⟨k, ⟨h1, by omega, by rw [hs k h1]; exact h3, fun j j1 j2 => by rw [hs j j1]; exact h4 j j1 j2⟩,
    fun j j1 j2 => by rw [hs j j1]; exact h5 j j1 j2⟩

theorem before_nums {n k : ℕ} {u : ℕ → ℚ} {xs : List Val} (h : Nums n k u xs) (j : ℕ) (hj : j < n) :
    before j xs = since k (n - 1 - j) (.fin (u (n - 1 - j))) := by
  rw [before_val, h.len, if_pos hj, h.val _ (by omega)]
  rfl

section
variable {s t : Signal} {L : ℕ} (ho : BuiltOn E c f fill o Quoted) (hp : BuiltOn E c g fill p Quoted) (h : Pair f g o p L)
  (h1 : o.getTiSignal = .ok s) (h2 : p.getTiSignal = .ok t)
include ho hp h h1 h2

/-- A column against its own exponential average. -/
theorem own_average (column : String) (hn : column ∈ columns o.ind) (k a w : ℕ) (ha : 1 ≤ a) (hw : 2 ≤ w) (U V : ℕ → ℚ)
    (e1 : ∀ i < f.idx.length, o.getTiData.day column i = since k i (.fin (U i)))
    (e2 : ∀ i < g.idx.length, p.getTiData.day column i = since k i (.fin (V i)))
    (hs : ∀ i, k ≤ i → i < L → V i = U i) (hl : U L ≤ V L) :
    Nearer (before 0 (ewm a w (o.ti.col column))) (before 0 (ewm a w (p.ti.col column))) (before 0 (o.ti.col column)) (before 0 (p.ti.col column)) ∧
    (1 ≤ L → before 1 (ewm a w (p.ti.col column)) = before 1 (ewm a w (o.ti.col column))) ∧
    ∀ j, 1 ≤ j → before j (p.ti.col column) = before j (o.ti.col column) := by
  have r := h.rows
  have r' := h.rows'
  have n1 : Nums (L + 1) k U (o.ti.col column) := ⟨h.left.tiLen _ hn, fun j hj => by
    rw [h.left.tiVal _ hn j hj, e1 j (by omega)]; rfl⟩
  have hn' : column ∈ columns p.ind := by rw [h.ind]; exact hn
  have n2 : Nums (L + 1) k V (p.ti.col column) := ⟨h.right.tiLen _ hn', fun j hj => by
    rw [h.right.tiVal _ hn' j hj, e2 j (by omega)]; rfl⟩
  have m1 := n1.ewm a w (by omega)
  have m2 := n2.ewm a w (by omega)
  have ex : k < L → Exactly k L (2 / ((a : ℚ) + 1) * (V L - U L)) (ema a k U) (ema a k V) := fun hk =>
    Exactly.ema (e := V L - U L) ⟨hs, by ring⟩ a hk
  refine ⟨?_, fun hL => ?_, (line_before ho hp h h1 h2 column hn _ _ (fun i hl => e1 i (by omega)) (fun i hl => e2 i (by omega))
    (since_pair fun i a b => by rw [hs i a b])).2.2⟩
  · rw [before_nums m1 0 (by omega), before_nums m2 0 (by omega), before_nums n1 0 (by omega), before_nums n2 0 (by omega)]
    simp only [Nat.add_sub_cancel, Nat.sub_zero]
    refine nearer_since _ _ fun hk => ?_
    rw [since, since, if_neg (by omega), if_neg (by omega), (ex (by omega)).at_]
    refine nearer_fin ?_
    obtain ⟨a0, a1⟩ := LastClose.alpha_bounds a ha
    nlinarith [mul_le_mul_of_nonneg_right a1 (sub_nonneg.2 hl)]
  · rw [before_nums m1 1 (by omega), before_nums m2 1 (by omega)]
    simp only [Nat.add_sub_cancel]
    unfold since
    split
    · rfl
    · rw [(ex (by omega)).same _ (by omega) (by omega)]

theorem last_momentum (n : ℕ) (hi : o.ind = .momentum n) : TowardsBuy t s := by
  have hi' : p.ind = .momentum n := by rw [h.ind, hi]
  have hn : 1 ≤ n := pos_of ho hi
  have r := h.rows
  have r' := h.rows'
  have e1 : ∀ i < f.idx.length, o.getTiData.day "mom" i = since n i (.fin (roundQ 4 (100 * close f i / close f (i - n)))) := fun i hl => by
    rw [C53_momentum (built_any ho) n hi i hl, quotient, if_pos (quoted_close ho (by rw [hi]; simp [Ind.required]) (i - n) (by omega)).1.ne']
    rfl
  have e2 : ∀ i < g.idx.length, p.getTiData.day "mom" i = since n i (.fin (roundQ 4 (100 * close g i / close g (i - n)))) := fun i hl => by
    rw [C53_momentum (built_any hp) n hi' i hl, quotient, if_pos (quoted_close hp (by rw [hi']; simp [Ind.required]) (i - n) (by omega)).1.ne']
    rfl
  rcases Nat.lt_or_ge L 1 with hL0 | hL0
  · exact h.opposes h1 h2 hi rfl fun hL => by change 9 ≤ L + 1 at hL; omega
  have hd := quoted_close ho (by rw [hi]; simp [Ind.required]) (L - n) (by omega)
  obtain ⟨k1, k2, k3⟩ := own_average ho hp h h1 h2 "mom" (by rw [hi]; simp [columns]) n 9 9 (by norm_num) (by norm_num) _ _ e1 e2
    (fun i hk hl => by rw [h.earlier i hl, h.earlier (i - n) (by omega)])
    (roundQ_mono 4 (by
      rw [h.earlier (L - n) (by omega)]
      exact div_le_div_of_nonneg_right (by linarith [h.last]) hd.1.le))
  refine h.opposes h1 h2 hi rfl fun _ => ?_
  exact contrary_opposes (x := fun k => before k (ewm 9 9 (o.ti.col "mom"))) (y := fun k => before k (ewm 9 9 (p.ti.col "mom")))
    (c := fun k => before k (o.ti.col "mom")) (c' := fun k => before k (p.ti.col "mom")) (k2 hL0) (k3 1 le_rfl) k1

/-- Products of quotients of successive closes. -/
theorem chain_raised (hc : "close" ∈ o.ind.required) (P : ℕ → Prop) [DecidablePred P] :
    (∀ i < L, (∏ j ∈ (Finset.Ico 1 (i + 1)).filter P, close g j / close g (j - 1)) =
      ∏ j ∈ (Finset.Ico 1 (i + 1)).filter P, close f j / close f (j - 1)) ∧
    (∏ j ∈ (Finset.Ico 1 (L + 1)).filter P, close f j / close f (j - 1)) ≤
      ∏ j ∈ (Finset.Ico 1 (L + 1)).filter P, close g j / close g (j - 1) := by
  have r := h.rows
  have pos : ∀ j ≤ L, 0 < close f j := fun j hj => (quoted_close ho hc j (by omega)).1
  constructor
  · intro i hi
    refine Finset.prod_congr rfl fun j hj => ?_
    rw [Finset.mem_filter, Finset.mem_Ico] at hj
    rw [h.earlier j (by omega), h.earlier (j - 1) (by omega)]
  · refine Finset.prod_le_prod (fun j hj => ?_) fun j hj => ?_ <;> rw [Finset.mem_filter, Finset.mem_Ico] at hj
    · exact div_nonneg (pos j (by omega)).le (pos (j - 1) (by omega)).le
    · rw [h.earlier (j - 1) (by omega)]
      refine div_le_div_of_nonneg_right ?_ (pos (j - 1) (by omega)).le
      rcases Nat.lt_or_ge j L with hl | hl
      · rw [h.earlier j hl]
      · obtain rfl : j = L := by omega
        exact h.last

theorem last_nvi (hi : o.ind = .negativeVolumeIndex) : TowardsBuy s t := by
  have hi' : p.ind = .negativeVolumeIndex := by rw [h.ind, hi]
  have e1 := C43_negative_volume_index E c f fill o ho.wf ho.ok (built_nonzero ho) hi
  have e2 := C43_negative_volume_index E c g fill p hp.wf hp.ok (built_nonzero hp) hi'
  have hv : ∀ i, volumeFell g i = volumeFell f i := fun i => by unfold volumeFell; rw [h.volume]
  simp only [hv] at e2
  obtain ⟨c1, c2⟩ := chain_raised ho hp h h1 h2 (by rw [hi]; simp [Ind.required]) fun j => volume f j < volume f (j - 1)
  obtain ⟨k1, -, -⟩ := own_average ho hp h h1 h2 "nvi" (by rw [hi]; simp [columns]) 0 255 255 (by norm_num) (by norm_num)
    (fun i => roundQ 4 (1000 * ∏ j ∈ volumeFell f i, close f j / close f (j - 1)))
    (fun i => roundQ 4 (1000 * ∏ j ∈ volumeFell f i, close g j / close g (j - 1)))
    (fun i hl => by rw [e1 i hl]; simp [since]) (fun i hl => by rw [e2 i hl]; simp [since])
    (fun i _ hl => by unfold volumeFell; rw [c1 i hl]) (roundQ_mono 4 (mul_le_mul_of_nonneg_left c2 (by norm_num)))
  exact h.follows h1 h2 hi rfl fun _ => ⟨k1.below, fun hb => hb⟩

theorem last_pvi (hi : o.ind = .positiveVolumeIndex) : TowardsBuy s t := by
  have hi' : p.ind = .positiveVolumeIndex := by rw [h.ind, hi]
  have e1 := C43_positive_volume_index E c f fill o ho.wf ho.ok (built_nonzero ho) hi
  have e2 := C43_positive_volume_index E c g fill p hp.wf hp.ok (built_nonzero hp) hi'
  have hv : ∀ i, volumeRose g i = volumeRose f i := fun i => by unfold volumeRose; rw [h.volume]
  simp only [hv] at e2
  obtain ⟨c1, c2⟩ := chain_raised ho hp h h1 h2 (by rw [hi]; simp [Ind.required]) fun j => volume f (j - 1) < volume f j
  obtain ⟨k1, k2, k3⟩ := own_average ho hp h h1 h2 "pvi" (by rw [hi]; simp [columns]) 0 255 255 (by norm_num) (by norm_num)
    (fun i => roundQ 4 (1000 * ∏ j ∈ volumeRose f i, close f j / close f (j - 1)))
    (fun i => roundQ 4 (1000 * ∏ j ∈ volumeRose f i, close g j / close g (j - 1)))
    (fun i hl => by rw [e1 i hl]; simp [since]) (fun i hl => by rw [e2 i hl]; simp [since])
    (fun i _ hl => by unfold volumeRose; rw [c1 i hl]) (roundQ_mono 4 (mul_le_mul_of_nonneg_left c2 (by norm_num)))
  refine h.follows h1 h2 hi rfl fun hL => ?_
  exact follow_follows (x := fun k => before k (ewm 255 255 (o.ti.col "pvi"))) (y := fun k => before k (ewm 255 255 (p.ti.col "pvi")))
    (c := fun k => before k (o.ti.col "pvi")) (c' := fun k => before k (p.ti.col "pvi"))
    (k2 (by change 255 ≤ L + 1 at hL; omega)) (k3 1 le_rfl) k1

/-- A column of three values in a row. -/
theorem last_three (column : String) (ind : Ind) (hi : o.ind = ind) (hn : column ∈ columns ind)
    (hr : ∀ F T : Frame, rule F T ind = ⟨3, Down3 fun k => before k (T.col column), Up3 fun k => before k (T.col column)⟩) (k : ℕ) (A B : ℕ → Val)
    (e1 : ∀ i < f.idx.length, o.getTiData.day column i = since k i (A i)) (e2 : ∀ i < g.idx.length, p.getTiData.day column i = since k i (B i))
    (hs : ∀ i, k ≤ i → i < L → B i = A i) (hl : k ≤ L → 2 ≤ L → Raised (A L) (B L)) : TowardsBuy t s := by
  have r := h.rows
  have r' := h.rows'
  obtain ⟨x1, x2, x3⟩ := line_before ho hp h h1 h2 column (by rw [hi]; exact hn) _ _ (fun i hl => e1 i (by omega)) (fun i hl => e2 i (by omega))
    (since_pair hs)
  refine h.opposes h1 h2 hi (by rw [hr, hr]) fun hL => ?_
  rw [hr] at hL
  rw [hr, hr]
  refine down3_raised x3 ?_
  rw [x1, x2]
  exact raised_since k L fun hk => hl hk (by change 3 ≤ L + 1 at hL; omega)

theorem last_prc (n : ℕ) (hi : o.ind = .priceRateOfChange n) : TowardsBuy t s := by
  have hi' : p.ind = .priceRateOfChange n := by rw [h.ind, hi]
  have hn : 1 ≤ n := pos_of ho hi
  have r := h.rows
  refine last_three ho hp h h1 h2 "prc" _ hi (by simp [columns]) (fun _ _ => rfl) n _ _ (C53_price_rate_of_change (built_any ho) n hi)
    (C53_price_rate_of_change (built_any hp) n hi') (fun i hk hl => ?_) fun hk hL => ?_
  · rw [h.earlier i hl, h.earlier (i - n) (by omega)]
  · rw [h.earlier (L - n) (by omega)]
    exact raised_quotient (by linarith [h.last]) (quoted_close ho (by rw [hi]; simp [Ind.required]) (L - n) (by omega)).1.le

theorem closes_le (j : ℕ) (hj : j ≤ L) : close f j ≤ close g j := by
  rcases Nat.lt_or_ge j L with hl | hl
  · rw [h.earlier j hl]
  · obtain rfl : j = L := by omega
    exact h.last

theorem last_obv (hi : o.ind = .onBalanceVolume) : TowardsBuy t s := by
  have hi' : p.ind = .onBalanceVolume := by rw [h.ind, hi]
  have r := h.rows
  have e1 := C43_on_balance_volume E c f fill o ho.wf ho.ok (built_any ho).rows hi
  have e2 := C43_on_balance_volume E c g fill p hp.wf hp.ok (built_any hp).rows hi'
  rw [h.volume] at e2
  refine last_three ho hp h h1 h2 "obv" _ hi (by simp [columns]) (fun _ _ => rfl) 0
    (fun i => .fin ((∑ j ∈ closeRose f i, volume f j) - ∑ j ∈ closeFell f i, volume f j))
    (fun i => .fin ((∑ j ∈ closeRose g i, volume f j) - ∑ j ∈ closeFell g i, volume f j))
    (fun i hl => by rw [e1 i hl]; simp [since]) (fun i hl => by rw [e2 i hl]; simp [since]) (fun i hk hl => ?_) fun hk hL => ?_
  · have q1 : closeRose g i = closeRose f i := Finset.filter_congr fun j hj => by
      rw [Finset.mem_Ico] at hj
      rw [h.earlier j (by omega), h.earlier (j - 1) (by omega)]
    have q2 : closeFell g i = closeFell f i := Finset.filter_congr fun j hj => by
      rw [Finset.mem_Ico] at hj
      rw [h.earlier j (by omega), h.earlier (j - 1) (by omega)]
    beta_reduce
    rw [q1, q2]
  · refine raised_fin (sub_le_sub ?_ ?_)
    · refine Finset.sum_le_sum_of_subset_of_nonneg (fun j hj => ?_) fun j hj _ => ?_
      · unfold closeRose at hj ⊢
        rw [Finset.mem_filter, Finset.mem_Ico] at hj ⊢
        refine ⟨hj.1, ?_⟩
        rw [h.earlier (j - 1) (by omega)]
        exact hj.2.trans_le (closes_le ho hp h h1 h2 j (by omega))
      · unfold closeRose at hj
        rw [Finset.mem_filter, Finset.mem_Ico] at hj
        exact quoted_volume ho (by rw [hi]; simp [Ind.required]) j (by omega)
    · refine Finset.sum_le_sum_of_subset_of_nonneg (fun j hj => ?_) fun j hj _ => ?_
      · unfold closeFell at hj ⊢
        rw [Finset.mem_filter, Finset.mem_Ico] at hj ⊢
        refine ⟨hj.1, ?_⟩
        have := hj.2
        rw [h.earlier (j - 1) (by omega)] at this
        exact (closes_le ho hp h h1 h2 j (by omega)).trans_lt this
      · unfold closeFell at hj
        rw [Finset.mem_filter, Finset.mem_Ico] at hj
        exact quoted_volume ho (by rw [hi]; simp [Ind.required]) j (by omega)

theorem last_pvt (hi : o.ind = .priceAndVolumeTrend) : TowardsBuy t s := by
  have hi' : p.ind = .priceAndVolumeTrend := by rw [h.ind, hi]
  have r := h.rows
  have e1 := C43_price_and_volume_trend E c f fill o ho.wf ho.ok (built_nonzero ho) hi
  have e2 := C43_price_and_volume_trend E c g fill p hp.wf hp.ok (built_nonzero hp) hi'
  rw [h.volume] at e2
  refine last_three ho hp h h1 h2 "pvt" _ hi (by simp [columns]) (fun _ _ => rfl) 0
    (fun i => .fin (roundQ 4 (∑ j ∈ Finset.Ico 1 (i + 1), volume f j * ((close f j - close f (j - 1)) / close f (j - 1)))))
    (fun i => .fin (roundQ 4 (∑ j ∈ Finset.Ico 1 (i + 1), volume f j * ((close g j - close g (j - 1)) / close g (j - 1)))))
    (fun i hl => by rw [e1 i hl]; simp [since]) (fun i hl => by rw [e2 i hl]; simp [since]) (fun i hk hl => ?_) fun hk hL => ?_
  · have q : ∑ j ∈ Finset.Ico 1 (i + 1), volume f j * ((close g j - close g (j - 1)) / close g (j - 1)) =
        ∑ j ∈ Finset.Ico 1 (i + 1), volume f j * ((close f j - close f (j - 1)) / close f (j - 1)) :=
      Finset.sum_congr rfl fun j hj => by
        rw [Finset.mem_Ico] at hj
        rw [h.earlier j (by omega), h.earlier (j - 1) (by omega)]
    beta_reduce
    rw [q]
  · refine raised_fin (roundQ_mono 4 (Finset.sum_le_sum fun j hj => ?_))
    rw [Finset.mem_Ico] at hj
    rw [h.earlier (j - 1) (by omega)]
    have c1 := (quoted_close ho (by rw [hi]; simp [Ind.required]) (j - 1) (by omega)).1
    exact mul_le_mul_of_nonneg_left (div_le_div_of_nonneg_right (by linarith [closes_le ho hp h h1 h2 j (by omega)]) c1.le)
      (quoted_volume ho (by rw [hi]; simp [Ind.required]) j (by omega))

theorem last_performance (long : Bool) (target : Val) (hi : o.ind = .performance long target) : TowardsBuy t s := by
  have hi' : p.ind = .performance long target := by rw [h.ind, hi]
  have r := h.rows
  have r' := h.rows'
  have c1 := (quoted_close ho (by rw [hi]; simp [Ind.required]) 0 (by omega)).1
  have c2 := (quoted_close hp (by rw [hi']; simp [Ind.required]) 0 (by omega)).1
  obtain ⟨x1, x2⟩ := h.ti "prf" (by rw [hi]; cases long <;> simp [columns]) 0 (by omega)
  rw [Nat.sub_zero, (C53_performance (built_any ho) long target hi L (by omega)).1, quotient, if_pos c1.ne'] at x1
  rw [Nat.sub_zero, (C53_performance (built_any hp) long target hi' L (by omega)).1, quotient, if_pos c2.ne'] at x2
  have key : roundQ 4 ((close f L - close f 0) / close f 0) ≤ roundQ 4 ((close g L - close g 0) / close g 0) := by
    refine roundQ_mono 4 ?_
    rcases Nat.eq_zero_or_pos L with rfl | hL
    · simp
    · rw [h.earlier 0 hL]
      exact div_le_div_of_nonneg_right (by linarith [h.last]) c1.le
  refine h.opposes h1 h2 hi rfl fun _ => ?_
  simp only [rule]
  rw [x1, x2]
  simp only [round4, Val.fin_round]
  refine ⟨fun hb => ⟨hb.1, ?_⟩, fun hb => ⟨hb.1, ?_⟩⟩
  · have := hb.2
    cases target <;> simp only [Val.le, decide_eq_true_eq] at this ⊢
    · simp at this
    · simp at this
    · linarith
  · have := hb.2
    cases target <;> simp only [Val.le, decide_eq_true_eq] at this ⊢
    · simp at this
    · simp at this
    · linarith

/-! ## Following classes -/

theorem last_williams (n : ℕ) (hi : o.ind = .williamsR n) : TowardsBuy s t := by
  have hi' : p.ind = .williamsR n := by rw [h.ind, hi]
  have r := h.rows
  have r' := h.rows'
  have eR : rangeHeight g n = rangeHeight f n := by funext j; unfold rangeHeight; rw [h.high, h.low]
  have e1 := C55_williams_r (built_any ho) n hi
  have e2 := C55_williams_r (built_any hp) n hi'
  rw [eR, h.high] at e2
  have hin : "wr" ∈ columns o.ind := by rw [hi]; simp [columns]
  obtain ⟨x1, x2, x3⟩ := line_before ho hp h h1 h2 "wr" hin _ _ (fun i hl => e1 i (by omega)) (fun i hl => e2 i (by omega))
    (fun i hl => by rw [h.earlier i hl])
  have hR : 0 ≤ rangeHeight f n L := by
    have q1 := last_highest_ge n (high f) L
    have q2 := last_lowest_le n (low f) L
    have q3 := quoted_range ho (by rw [hi]; simp [Ind.required]) (by rw [hi]; simp [Ind.required]) L (by omega)
    unfold rangeHeight
    linarith
  have key : Raised (before 0 (o.ti.col "wr")) (before 0 (p.ti.col "wr")) := by
    rw [x1, x2]
    exact raised_since _ _ fun _ => raised_quotient (by linarith [h.last]) hR
  have hlen : (p.ti.col "wr").length = (o.ti.col "wr").length := by
    rw [h.left.tiLen _ hin, h.right.tiLen _ (by rw [h.ind]; exact hin)]
  refine h.follows h1 h2 hi rfl fun _ => ?_
  simp only [rule, Rises, Falls]
  rw [x3 1 le_rfl]
  exact ⟨fun hb => ⟨⟨hb.1.1, key.1 _ hb.1.2⟩, more_recent_same _ _ _ _ hlen x3 hb.2⟩,
    fun hb => ⟨⟨hb.1.1, key.2 _ hb.1.2⟩, more_recent_same _ _ _ _ hlen.symm (fun k hk => (x3 k hk).symm) hb.2⟩⟩

theorem last_qstick (n : ℕ) (hi : o.ind = .qstick n) : TowardsBuy s t := by
  have hi' : p.ind = .qstick n := by rw [h.ind, hi]
  have hn : 1 ≤ n := pos_of ho hi
  have r := h.rows
  have r' := h.rows'
  have e1 := C55_qstick (built_any ho) n hi
  have e2 := C55_qstick (built_any hp) n hi'
  rw [h.opening] at e2
  have hm : n - 1 ≤ L → Lift (n - 1) L ((close g L - close f L) / n) (meanLast n fun j => close f j - opening f j)
      (meanLast n fun j => close g j - opening f j) := fun hk => by
    have q := (h.lift.map (close g L - close f L) (fun j x => x - opening f j) (by linarith [h.last]) (by linarith)).mean n hn (by omega)
    rwa [Nat.zero_add] at q
  obtain ⟨x1, x2, x3⟩ := line_before ho hp h h1 h2 "qstick" (by rw [hi]; simp [columns])
    (fun i => since (n - 1) i (to4 (meanLast n (fun j => close f j - opening f j) i)))
    (fun i => since (n - 1) i (to4 (meanLast n (fun j => close g j - opening f j) i)))
    (fun i hl => e1 i (by omega)) (fun i hl => e2 i (by omega))
    (since_pair (a := fun i => to4 (meanLast n (fun j => close f j - opening f j) i))
      (b := fun i => to4 (meanLast n (fun j => close g j - opening f j) i)) fun i hk hl => by beta_reduce; rw [(hm (by omega)).same i hk hl])
  have key : Raised (before 0 (o.ti.col "qstick")) (before 0 (p.ti.col "qstick")) := by
    rw [x1, x2]
    exact raised_since _ _ fun hk => raised_to4 (hm hk).le
  refine h.follows h1 h2 hi rfl fun _ => ?_
  simp only [rule]
  rw [x3 1 le_rfl, x3 2 (by norm_num), x3 3 (by norm_num)]
  exact ⟨fun hb => ⟨hb.1, hb.2.1, hb.2.2.1, key.1 _ hb.2.2.2⟩, fun hb => ⟨hb.1, hb.2.1, hb.2.2.1, key.2 _ hb.2.2.2⟩⟩

theorem last_price_oscillator (long short : ℕ) (hi : o.ind = .priceOscillator long short) : TowardsBuy s t := by
  have hi' : p.ind = .priceOscillator long short := by rw [h.ind, hi]
  obtain ⟨hs1, hs2⟩ : 1 ≤ short ∧ short < long := pos_of ho hi
  have r := h.rows
  have r' := h.rows'
  obtain ⟨x1, x2, x3⟩ := line_before ho hp h h1 h2 "posc" (by rw [hi]; simp [columns]) _ _
    (fun i hl => C53_price_oscillator (built_any ho) long short hi i (by omega))
    (fun i hl => C53_price_oscillator (built_any hp) long short hi' i (by omega))
    (since_pair fun i hk hl => by
      have a1 := sum_same (s := 0) (L := L) (fun j _ hj => h.earlier j hj) short i (by omega) hl
      have a2 := sum_same (s := 0) (L := L) (fun j _ hj => h.earlier j hj) long i (by omega) hl
      unfold meanLast
      rw [a1, a2])
  have key : Raised (before 0 (o.ti.col "posc")) (before 0 (p.ti.col "posc")) := by
    rw [x1, x2]
    refine raised_since _ _ fun hk => ?_
    have pos : ∀ j ≤ L, 0 < close f j := fun j hj => (quoted_close ho (by rw [hi]; simp [Ind.required]) j (by omega)).1
    have a1 := sum_last (s := 0) (L := L) (fun j _ hj => h.earlier j hj) short hs1 (by omega)
    have a2 := sum_last (s := 0) (L := L) (fun j _ hj => h.earlier j hj) long (by omega) (by omega)
    have b1 : 0 < sumLast short (close f) L := Finset.sum_pos (fun j _ => pos _ (by omega)) ⟨0, by simp; omega⟩
    have b2 : sumLast short (close f) L ≤ sumLast long (close f) L :=
      Finset.sum_le_sum_of_subset_of_nonneg (Finset.range_subset_range.2 hs2.le) fun j _ _ => (pos _ (by omega)).le
    have hd : 0 ≤ close g L - close f L := by linarith [h.last]
    unfold meanLast
    rw [a1, a2]
    set S := sumLast short (close f) L
    set T := sumLast long (close f) L
    set d := close g L - close f L
    have s0 : (0 : ℚ) < short := by exact_mod_cast hs1
    have l0 : (0 : ℚ) < long := by exact_mod_cast (by omega : 0 < long)
    have T0 : 0 < T := by linarith
    unfold quotient
    rw [if_pos (by positivity), if_pos (by positivity)]
    simp only [round4, Val.fin_round]
    refine raised_fin (roundQ_mono 4 ?_)
    have e : ∀ S T : ℚ, 0 < T → 100 * (S / short - T / long) / (T / long) = 100 * (S / T * (long / short) - 1) := fun S T hT => by
      field_simp
    rw [e S T T0, e (S + d) (T + d) (by linarith)]
    have q : S / T ≤ (S + d) / (T + d) := by
      rw [div_le_div_iff₀ T0 (by linarith)]
      nlinarith
    have q2 := mul_le_mul_of_nonneg_right q (by positivity : (0 : ℚ) ≤ long / short)
    linarith
  exact h.follows h1 h2 hi rfl fun _ => zeroLine_raised (x3 1 le_rfl) key

end

end TTI.Props
