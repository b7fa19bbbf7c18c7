import Verif.Props.Forget
import Verif.Props.FormulaVolume
import Verif.Props.Table
import Verif.Props.TrendSignals

set_option autoImplicit false

/-!
# Where the history starts only moves the level of the running totals: C103

Two tables of the user agree on all days since `d` and may differ before, as in C98. The `k`-th common day (counted from 0) is
row `rowsBefore d f.idx + k` of the first and row `rowsBefore d g.idx + k` of the second.
-/

namespace TTI.Props

open Spec

variable {E : Env} {c : Call} {f g : RawFrame} {fill : Bool} {o p : Obj}

/-! ## Sums and products that agree from a day on -/

theorem total_level (u v : ℕ → ℚ) (a b : ℕ) (h : ∀ k, u (a + k + 1) = v (b + k + 1)) (k : ℕ) :
    (∑ j ∈ Finset.range (a + k + 1), u j) - ∑ j ∈ Finset.range (b + k + 1), v j =
      (∑ j ∈ Finset.range (a + 1), u j) - ∑ j ∈ Finset.range (b + 1), v j := by
  induction k with
  | zero => rfl
  | succ k ih =>
    rw [show a + (k + 1) + 1 = a + k + 1 + 1 by omega, show b + (k + 1) + 1 = b + k + 1 + 1 by omega,
      Finset.sum_range_succ u (a + k + 1), Finset.sum_range_succ v (b + k + 1), h k]
    linarith

theorem factor_level (u v : ℕ → ℚ) (a b : ℕ) (h : ∀ k, u (a + k + 1) = v (b + k + 1)) (hv : ∀ j ≤ b, v j ≠ 0) (k : ℕ) :
    ∏ j ∈ Finset.range (a + k + 1), u j =
      (∏ j ∈ Finset.range (a + 1), u j) / (∏ j ∈ Finset.range (b + 1), v j) * ∏ j ∈ Finset.range (b + k + 1), v j := by
  induction k with
  | zero =>
    have : ∏ j ∈ Finset.range (b + 1), v j ≠ 0 := Finset.prod_ne_zero_iff.2 fun j hj => hv j (by simp at hj; omega)
    simp only [Nat.add_zero]
    field_simp
  | succ k ih =>
    rw [show a + (k + 1) + 1 = a + k + 1 + 1 by omega, show b + (k + 1) + 1 = b + k + 1 + 1 by omega,
      Finset.prod_range_succ u (a + k + 1), Finset.prod_range_succ v (b + k + 1), h k, ih]
    ring

/-- What a day adds to the on balance volume, to the price and volume trend, and the factor of a day in a volume index. -/
def obvDay (f : RawFrame) (j : ℕ) : ℚ :=
  if close f (j - 1) < close f j then volume f j else if close f j < close f (j - 1) then -volume f j else 0
def pvtDay (f : RawFrame) (j : ℕ) : ℚ := volume f j * ((close f j - close f (j - 1)) / close f (j - 1))
def indexDay (f : RawFrame) (P : ℕ → Prop) [DecidablePred P] (j : ℕ) : ℚ := if P j then close f j / close f (j - 1) else 1

/-- Nothing on the first day. -/
def later (e : ℚ) (u : ℕ → ℚ) (j : ℕ) : ℚ := if j = 0 then e else u j

theorem range_later (i : ℕ) : Finset.range (i + 1) = insert 0 (Finset.Ico 1 (i + 1)) := by
  ext j; simp only [Finset.mem_range, Finset.mem_insert, Finset.mem_Ico]; omega

theorem sum_later (u : ℕ → ℚ) (i : ℕ) : ∑ j ∈ Finset.range (i + 1), later 0 u j = ∑ j ∈ Finset.Ico 1 (i + 1), u j := by
  rw [range_later, Finset.sum_insert (by simp), later, if_pos rfl, zero_add]
  refine Finset.sum_congr rfl fun j hj => ?_
  rw [Finset.mem_Ico] at hj
  exact if_neg (by omega)

theorem prod_later (u : ℕ → ℚ) (i : ℕ) : ∏ j ∈ Finset.range (i + 1), later 1 u j = ∏ j ∈ Finset.Ico 1 (i + 1), u j := by
  rw [range_later, Finset.prod_insert (by simp), later, if_pos rfl, one_mul]
  refine Finset.prod_congr rfl fun j hj => ?_
  rw [Finset.mem_Ico] at hj
  exact if_neg (by omega)

theorem obv_total (f : RawFrame) (i : ℕ) : (∑ j ∈ closeRose f i, volume f j) - ∑ j ∈ closeFell f i, volume f j =
    ∑ j ∈ Finset.range (i + 1), later 0 (obvDay f) j := by
  rw [sum_later]
  unfold closeRose closeFell
  rw [Finset.sum_filter, Finset.sum_filter, ← Finset.sum_sub_distrib]
  refine Finset.sum_congr rfl fun j _ => ?_
  unfold obvDay
  by_cases h1 : close f (j - 1) < close f j
  · rw [if_pos h1, if_pos h1, if_neg (by linarith)]; ring
  · rw [if_neg h1, if_neg h1]
    by_cases h2 : close f j < close f (j - 1)
    · rw [if_pos h2, if_pos h2]; ring
    · rw [if_neg h2, if_neg h2]; ring

theorem index_product (f : RawFrame) (P : ℕ → Prop) [DecidablePred P] (i : ℕ) :
    ∏ j ∈ (Finset.Ico 1 (i + 1)).filter P, close f j / close f (j - 1) =
    ∏ j ∈ Finset.range (i + 1), later 1 (indexDay f P) j := by
  rw [prod_later, Finset.prod_filter]
  rfl

/-! ## The values -/

/-- C103: on balance volume. The values of the common days differ by the same amount on all days. -/
theorem C103_on_balance_volume (hB : BuiltOn E c f fill o AnyPrices) (hB' : BuiltOn E c g fill p AnyPrices)
    (ho : o.ind = .onBalanceVolume) (d : ℤ) (hs : f.since d = g.since d) :
    ∃ C, ∀ k, rowsBefore d f.idx + k < f.idx.length → ∃ y, p.getTiData.day "obv" (rowsBefore d g.idx + k) = .fin y ∧
      o.getTiData.day "obv" (rowsBefore d f.idx + k) = .fin (y + C) := by
  have hcl : ∀ k, close f (rowsBefore d f.idx + k) = close g (rowsBefore d g.idx + k) := price_agree hB.wf hB'.wf hs "close"
  have hvo : ∀ k, volume f (rowsBefore d f.idx + k) = volume g (rowsBefore d g.idx + k) := price_agree hB.wf hB'.wf hs "volume"
  refine ⟨(∑ j ∈ Finset.range (rowsBefore d f.idx + 1), later 0 (obvDay f) j) -
    ∑ j ∈ Finset.range (rowsBefore d g.idx + 1), later 0 (obvDay g) j, fun k hk =>
    ⟨_, C43_on_balance_volume E c g fill p hB'.wf hB'.ok hB'.rows ((same_ind hB hB').trans ho) _ ((rows_agree hs k).1 hk), ?_⟩⟩
  rw [C43_on_balance_volume E c f fill o hB.wf hB.ok hB.rows ho _ hk, obv_total, obv_total]
  congr 1
  rw [← total_level _ _ (rowsBefore d f.idx) (rowsBefore d g.idx) ?_ k]
  · ring
  · intro k
    simp only [later, obvDay, Nat.add_eq_zero_iff, one_ne_zero, and_false, if_false, Nat.add_sub_cancel]
    rw [hcl k, show rowsBefore d f.idx + k + 1 = rowsBefore d f.idx + (k + 1) by omega, hcl (k + 1), hvo (k + 1)]
    rfl

/-- C103: price and volume trend. The values of the common days differ by the same amount, up to the rounding to four decimals. -/
theorem C103_price_and_volume_trend (hB : BuiltOn E c f fill o NonzeroClose) (hB' : BuiltOn E c g fill p NonzeroClose)
    (ho : o.ind = .priceAndVolumeTrend) (d : ℤ) (hs : f.since d = g.since d) :
    ∃ C, ∀ k, rowsBefore d f.idx + k < f.idx.length → ∃ x y, o.getTiData.day "pvt" (rowsBefore d f.idx + k) = .fin x ∧
      p.getTiData.day "pvt" (rowsBefore d g.idx + k) = .fin y ∧ |x - y - C| ≤ 1 / 10000 := by
  have hcl : ∀ k, close f (rowsBefore d f.idx + k) = close g (rowsBefore d g.idx + k) := price_agree hB.wf hB'.wf hs "close"
  have hvo : ∀ k, volume f (rowsBefore d f.idx + k) = volume g (rowsBefore d g.idx + k) := price_agree hB.wf hB'.wf hs "volume"
  refine ⟨(∑ j ∈ Finset.range (rowsBefore d f.idx + 1), later 0 (pvtDay f) j) -
    ∑ j ∈ Finset.range (rowsBefore d g.idx + 1), later 0 (pvtDay g) j, fun k hk =>
    ⟨_, _, C43_price_and_volume_trend E c f fill o hB.wf hB.ok hB.rows ho _ hk,
      C43_price_and_volume_trend E c g fill p hB'.wf hB'.ok hB'.rows ((same_ind hB hB').trans ho) _ ((rows_agree hs k).1 hk), ?_⟩⟩
  have e1 := sum_later (pvtDay f) (rowsBefore d f.idx + k)
  have e2 := sum_later (pvtDay g) (rowsBefore d g.idx + k)
  unfold pvtDay at e1 e2
  rw [← e1, ← e2, ← total_level _ _ (rowsBefore d f.idx) (rowsBefore d g.idx) ?_ k]
  · have h1 := roundQ_close 4 (∑ j ∈ Finset.range (rowsBefore d f.idx + k + 1), later 0 (pvtDay f) j)
    have h2 := roundQ_close 4 (∑ j ∈ Finset.range (rowsBefore d g.idx + k + 1), later 0 (pvtDay g) j)
    unfold pvtDay at *
    norm_num at h1 h2
    rw [abs_le] at *
    constructor <;> linarith [h1.1, h1.2, h2.1, h2.2]
  · intro k
    simp only [later, pvtDay, Nat.add_eq_zero_iff, one_ne_zero, and_false, if_false, Nat.add_sub_cancel]
    rw [hcl k, show rowsBefore d f.idx + k + 1 = rowsBefore d f.idx + (k + 1) by omega, hcl (k + 1), hvo (k + 1)]
    rfl

theorem ratio_close {r x y : ℚ} (hr : 0 < r) (h : x = r * y) : |roundQ 4 x - r * roundQ 4 y| ≤ (1 + r) / 20000 := by
  have h1 := roundQ_close 4 x
  have h2 := roundQ_close 4 y
  norm_num at h1 h2
  rw [abs_le] at *
  have h3 : r * (roundQ 4 y - y) ≤ r * (1 / 20000) := mul_le_mul_of_nonneg_left (by linarith [h2.2]) hr.le
  have h4 : r * (-(1 / 20000)) ≤ r * (roundQ 4 y - y) := mul_le_mul_of_nonneg_left (by linarith [h2.1]) hr.le
  constructor <;> nlinarith [h1.1, h1.2]

theorem positive_days {P : (String → ℚ) → Prop} (hB : BuiltOn E c f fill o P) (hin : "close" ∈ o.ind.required)
    (hP : ∀ x, P x → 0 < x "close") : ∀ j < f.idx.length, 0 < close f j := by
  intro j hj
  obtain ⟨F, v, hg, hlen, -, h1, h2, h3, h4, -⟩ := construct_days E c f fill o _ hB.wf hB.ok hB.rows
  have : close f j = v "close" j := by unfold close; rw [h3 _ hin j (by omega)]; rfl
  rw [this]
  exact hP _ (h4 j (by omega))

theorem eachRow_weaken {f : RawFrame} {names : List String} {P Q : (String → ℚ) → Prop} (h : f.EachRow names P) (hPQ : ∀ x, P x → Q x) :
    f.EachRow names Q := fun j hj => by
  obtain ⟨x, hx, hp⟩ := h j hj
  exact ⟨x, hx, hPQ x hp⟩

theorem index_positive (f : RawFrame) (P : ℕ → Prop) [DecidablePred P] (n : ℕ) (h : ∀ j ≤ n, 0 < close f j) :
    ∀ j ≤ n, 0 < later 1 (indexDay f P) j := by
  intro j hj
  unfold later indexDay
  split_ifs
  · norm_num
  · exact div_pos (h j hj) (h _ (by omega))
  · norm_num

theorem index_level {a b : ℕ} (P Q : ℕ → Prop) [DecidablePred P] [DecidablePred Q] (hf : ∀ j ≤ a, 0 < close f j)
    (hg : ∀ j ≤ b, 0 < close g j) (hcl : ∀ k, close f (a + k) = close g (b + k)) (hPQ : ∀ k, P (a + k + 1) ↔ Q (b + k + 1)) :
    ∃ r, 0 < r ∧ ∀ k, 1000 * ∏ j ∈ (Finset.Ico 1 (a + k + 1)).filter P, close f j / close f (j - 1) =
      r * (1000 * ∏ j ∈ (Finset.Ico 1 (b + k + 1)).filter Q, close g j / close g (j - 1)) := by
  have h1 := index_positive f P a hf
  have h2 := index_positive g Q b hg
  refine ⟨(∏ j ∈ Finset.range (a + 1), later 1 (indexDay f P) j) / ∏ j ∈ Finset.range (b + 1), later 1 (indexDay g Q) j,
    div_pos (Finset.prod_pos fun j hj => h1 j (by simp at hj; omega)) (Finset.prod_pos fun j hj => h2 j (by simp at hj; omega)),
    fun k => ?_⟩
  rw [index_product, index_product, factor_level (later 1 (indexDay f P)) (later 1 (indexDay g Q)) a b ?_ (fun j hj => (h2 j hj).ne') k]
  · ring
  · intro k
    simp only [later, indexDay, Nat.add_eq_zero_iff, one_ne_zero, and_false, if_false, Nat.add_sub_cancel, hPQ k]
    rw [hcl k, show a + k + 1 = a + (k + 1) by omega, hcl (k + 1)]
    rfl

/-- C103: the negative volume index. The values of the common days have the same ratio, up to the rounding to four decimals. -/
theorem C103_negative_volume_index (hB : BuiltOn E c f fill o fun x => 0 < x "close")
    (hB' : BuiltOn E c g fill p fun x => 0 < x "close") (ho : o.ind = .negativeVolumeIndex) (d : ℤ) (hs : f.since d = g.since d) :
    ∃ r, 0 < r ∧ ∀ k, rowsBefore d f.idx + k < f.idx.length → ∃ x y, o.getTiData.day "nvi" (rowsBefore d f.idx + k) = .fin x ∧
      p.getTiData.day "nvi" (rowsBefore d g.idx + k) = .fin y ∧ |x - r * y| ≤ (1 + r) / 20000 := by
  by_cases hne : rowsBefore d f.idx < f.idx.length
  · have hcl : ∀ k, close f (rowsBefore d f.idx + k) = close g (rowsBefore d g.idx + k) := price_agree hB.wf hB'.wf hs "close"
    have hvo : ∀ k, volume f (rowsBefore d f.idx + k) = volume g (rowsBefore d g.idx + k) := price_agree hB.wf hB'.wf hs "volume"
    have ho' := (same_ind hB hB').trans ho
    have hne' : rowsBefore d g.idx + 0 < g.idx.length := (rows_agree hs 0).1 hne
    have pf := positive_days hB (by rw [ho]; simp [Ind.required]) fun x h => h
    have pg := positive_days hB' (by rw [ho']; simp [Ind.required]) fun x h => h
    obtain ⟨r, hr, hk⟩ := index_level (f := f) (g := g) (fun j => volume f j < volume f (j - 1)) (fun j => volume g j < volume g (j - 1))
      (fun j hj => pf j (by omega)) (fun j hj => pg j (by omega)) hcl (fun k => by
        simp only [Nat.add_sub_cancel]
        rw [hvo k, show rowsBefore d f.idx + k + 1 = rowsBefore d f.idx + (k + 1) by omega, hvo (k + 1)]
        rfl)
    refine ⟨r, hr, fun k hlt => ⟨_, _, C43_negative_volume_index E c f fill o hB.wf hB.ok (eachRow_weaken hB.rows fun x h => h.ne') ho _ hlt,
      C43_negative_volume_index E c g fill p hB'.wf hB'.ok (eachRow_weaken hB'.rows fun x h => h.ne') ho' _ ((rows_agree hs k).1 hlt),
      ratio_close hr (hk k)⟩⟩
  · exact ⟨1, one_pos, fun k hk => absurd hk (by omega)⟩

/-- C103: the positive volume index. -/
theorem C103_positive_volume_index (hB : BuiltOn E c f fill o fun x => 0 < x "close")
    (hB' : BuiltOn E c g fill p fun x => 0 < x "close") (ho : o.ind = .positiveVolumeIndex) (d : ℤ) (hs : f.since d = g.since d) :
    ∃ r, 0 < r ∧ ∀ k, rowsBefore d f.idx + k < f.idx.length → ∃ x y, o.getTiData.day "pvi" (rowsBefore d f.idx + k) = .fin x ∧
      p.getTiData.day "pvi" (rowsBefore d g.idx + k) = .fin y ∧ |x - r * y| ≤ (1 + r) / 20000 := by
  by_cases hne : rowsBefore d f.idx < f.idx.length
  · have hcl : ∀ k, close f (rowsBefore d f.idx + k) = close g (rowsBefore d g.idx + k) := price_agree hB.wf hB'.wf hs "close"
    have hvo : ∀ k, volume f (rowsBefore d f.idx + k) = volume g (rowsBefore d g.idx + k) := price_agree hB.wf hB'.wf hs "volume"
    have ho' := (same_ind hB hB').trans ho
    have hne' : rowsBefore d g.idx + 0 < g.idx.length := (rows_agree hs 0).1 hne
    have pf := positive_days hB (by rw [ho]; simp [Ind.required]) fun x h => h
    have pg := positive_days hB' (by rw [ho']; simp [Ind.required]) fun x h => h
    obtain ⟨r, hr, hk⟩ := index_level (f := f) (g := g) (fun j => volume f (j - 1) < volume f j) (fun j => volume g (j - 1) < volume g j)
      (fun j hj => pf j (by omega)) (fun j hj => pg j (by omega)) hcl (fun k => by
        simp only [Nat.add_sub_cancel]
        rw [hvo k, show rowsBefore d f.idx + k + 1 = rowsBefore d f.idx + (k + 1) by omega, hvo (k + 1)]
        rfl)
    refine ⟨r, hr, fun k hlt => ⟨_, _, C43_positive_volume_index E c f fill o hB.wf hB.ok (eachRow_weaken hB.rows fun x h => h.ne') ho _ hlt,
      C43_positive_volume_index E c g fill p hB'.wf hB'.ok (eachRow_weaken hB'.rows fun x h => h.ne') ho' _ ((rows_agree hs k).1 hlt),
      ratio_close hr (hk k)⟩⟩
  · exact ⟨1, one_pos, fun k hk => absurd hk (by omega)⟩

/-- C103: performance. One plus the performance has the same ratio on all common days, that of the first closes, up to the rounding
to four decimals. -/
theorem C103_performance (hB : BuiltOn E c f fill o fun x => 0 < x "close")
    (hB' : BuiltOn E c g fill p fun x => 0 < x "close") (long : Bool) (target : Val) (ho : o.ind = .performance long target) (d : ℤ)
    (hs : f.since d = g.since d) (k : ℕ) (hk : rowsBefore d f.idx + k < f.idx.length) :
    ∃ x y, o.getTiData.day "prf" (rowsBefore d f.idx + k) = .fin x ∧ p.getTiData.day "prf" (rowsBefore d g.idx + k) = .fin y ∧
      |(1 + x) - close g 0 / close f 0 * (1 + y)| ≤ (1 + close g 0 / close f 0) / 20000 := by
  have hcl : close f (rowsBefore d f.idx + k) = close g (rowsBefore d g.idx + k) := price_agree hB.wf hB'.wf hs "close" k
  have ho' := (same_ind hB hB').trans ho
  have hk' := (rows_agree hs k).1 hk
  have pf := positive_days hB (by rw [ho]; simp [Ind.required]) (fun x h => h) 0 (by omega)
  have pg := positive_days hB' (by rw [ho']; simp [Ind.required]) (fun x h => h) 0 (by omega)
  have e1 := (C53_performance ⟨hB.wf, hB.ok, eachRow_weaken hB.rows fun _ _ => trivial⟩ long target ho _ hk).1
  have e2 := (C53_performance ⟨hB'.wf, hB'.ok, eachRow_weaken hB'.rows fun _ _ => trivial⟩ long target ho' _ hk').1
  rw [quotient_ne _ _ pf.ne'] at e1
  rw [quotient_ne _ _ pg.ne'] at e2
  refine ⟨_, _, e1, e2, ?_⟩
  have h1 := roundQ_close 4 ((close f (rowsBefore d f.idx + k) - close f 0) / close f 0)
  have h2 := roundQ_close 4 ((close g (rowsBefore d g.idx + k) - close g 0) / close g 0)
  generalize hx : roundQ 4 ((close f (rowsBefore d f.idx + k) - close f 0) / close f 0) = X at *
  generalize hy : roundQ 4 ((close g (rowsBefore d g.idx + k) - close g 0) / close g 0) = Y at *
  rw [hcl] at h1
  have hr : 0 < close g 0 / close f 0 := div_pos pg pf
  have hid : (close g (rowsBefore d g.idx + k) - close f 0) / close f 0 + 1 =
      close g 0 / close f 0 * (1 + (close g (rowsBefore d g.idx + k) - close g 0) / close g 0) := by
    field_simp
    ring
  norm_num at h1 h2
  generalize close g 0 / close f 0 = r at *
  generalize (close g (rowsBefore d g.idx + k) - close f 0) / close f 0 = u at *
  generalize (close g (rowsBefore d g.idx + k) - close g 0) / close g 0 = v at *
  rw [abs_le] at *
  have h3 : r * (Y - v) ≤ r * (1 / 20000) := mul_le_mul_of_nonneg_left (by linarith [h2.2]) hr.le
  have h4 : r * (-(1 / 20000)) ≤ r * (Y - v) := mul_le_mul_of_nonneg_left (by linarith [h2.1]) hr.le
  constructor <;> nlinarith [h1.1, h1.2]

theorem truncated_close (q : ℚ) : |truncated q - q| < 1 := by
  unfold truncated
  split_ifs with h
  · have h1 := Int.floor_le q
    have h2 := Int.lt_floor_add_one q
    rw [abs_lt]; constructor <;> linarith
  · have h1 := Int.floor_le (-q)
    have h2 := Int.lt_floor_add_one (-q)
    rw [abs_lt]; constructor <;> linarith

/-- C103: the accumulation distribution line of prices without a flat day. The values of the common days differ by the same
amount, up to the cut to an integer. -/
theorem C103_accumulation_distribution (hB : BuiltOn E c f fill o AnyPrices) (hB' : BuiltOn E c g fill p AnyPrices)
    (ho : o.ind = .accumulationDistributionLine) (h0 : ∀ j < f.idx.length, high f j ≠ low f j)
    (h0' : ∀ j < g.idx.length, high g j ≠ low g j) (d : ℤ) (hs : f.since d = g.since d) :
    ∃ C, ∀ k, rowsBefore d f.idx + k < f.idx.length → ∃ x y, o.getTiData.day "adl" (rowsBefore d f.idx + k) = .fin x ∧
      p.getTiData.day "adl" (rowsBefore d g.idx + k) = .fin y ∧ |x - y - C| < 2 := by
  have hcl : ∀ k, close f (rowsBefore d f.idx + k) = close g (rowsBefore d g.idx + k) := price_agree hB.wf hB'.wf hs "close"
  have hvo : ∀ k, volume f (rowsBefore d f.idx + k) = volume g (rowsBefore d g.idx + k) := price_agree hB.wf hB'.wf hs "volume"
  have hhi : ∀ k, high f (rowsBefore d f.idx + k) = high g (rowsBefore d g.idx + k) := price_agree hB.wf hB'.wf hs "high"
  have hlo : ∀ k, low f (rowsBefore d f.idx + k) = low g (rowsBefore d g.idx + k) := price_agree hB.wf hB'.wf hs "low"
  refine ⟨(∑ j ∈ Finset.range (rowsBefore d f.idx + 1), flow f j) - ∑ j ∈ Finset.range (rowsBefore d g.idx + 1), flow g j, fun k hk =>
    ⟨_, _, C59_accumulation_distribution hB ho h0 _ hk,
      C59_accumulation_distribution hB' ((same_ind hB hB').trans ho) h0' _ ((rows_agree hs k).1 hk), ?_⟩⟩
  rw [← total_level (flow f) (flow g) (rowsBefore d f.idx) (rowsBefore d g.idx) (fun k => ?_) k]
  · have h1 := truncated_close (∑ j ∈ Finset.range (rowsBefore d f.idx + k + 1), flow f j)
    have h2 := truncated_close (∑ j ∈ Finset.range (rowsBefore d g.idx + k + 1), flow g j)
    unfold flowLine
    rw [abs_lt] at *
    constructor <;> linarith [h1.1, h1.2, h2.1, h2.2]
  · unfold flow
    rw [show rowsBefore d f.idx + k + 1 = rowsBefore d f.idx + (k + 1) by omega, hcl (k + 1), hvo (k + 1), hhi (k + 1), hlo (k + 1)]
    rfl

/-! ## Signals -/

theorem whole_view {P : (String → ℚ) → Prop} (hB : BuiltOn E c f fill o P) (hm : ∀ F, o.ind.inputAfter F = F)
    (hd : ∀ n, o.ind ≠ .detrendedPriceOscillator n) : View f o o f.idx.length := by
  obtain ⟨m, hv⟩ := day_view hB hm hd (Or.inl rfl)
  obtain ⟨hs, -, hidx, -, -⟩ := construct_sound E c f fill o hB.wf hB.ok
  have h1 : o.ti.len = o.input.len := hs.shaped.rowsEq hd
  have h2 : o.input.len = f.idx.length := by
    unfold Frame.len
    rw [hidx, (sortIdx_perm _).length_eq]
  have h3 : o.ti.len = m := hv.rows
  rw [show f.idx.length = m by omega]
  exact hv

/-- Two objects whose buy and whose sell conditions are equivalent give the same signal. -/
theorem agreeing_signal {m n : ℕ} (h : View f o o m) (h' : View g p p n) (hne : ∀ p s, o.ind ≠ .rangeIndicator p s)
    (hmp : ∀ p, o.ind ≠ .medianPrice p) (hi : p.ind = o.ind) (hrows : (rule o.input o.ti o.ind).rows ≤ m)
    (hrows' : (rule p.input p.ti p.ind).rows ≤ n)
    (hb : (rule o.input o.ti o.ind).buy ↔ (rule p.input p.ti p.ind).buy)
    (hs : (rule o.input o.ti o.ind).sell ↔ (rule p.input p.ti p.ind).sell) : o.getTiSignal = p.getTiSignal := by
  obtain ⟨h1, h2⟩ := C47_signal_table o h.reach
  obtain ⟨h1', h2'⟩ := C47_signal_table p h'.reach
  rw [h.rows] at h1 h2
  rw [h'.rows] at h1' h2'
  by_cases b : (rule o.input o.ti o.ind).buy
  · rw [h1.2 ⟨hrows, b⟩, h1'.2 ⟨hrows', hb.1 b⟩]
  by_cases s : (rule o.input o.ti o.ind).sell
  · rw [h2.2 ⟨hrows, s⟩, h2'.2 ⟨hrows', hs.1 s⟩]
  rw [h.holds hne hmp (fun _ => b) (fun _ => s),
    h'.holds (hi ▸ hne) (hi ▸ hmp) (fun _ e => b (hb.2 e)) (fun _ e => s (hs.2 e))]

theorem common_last {d : ℤ} (hs : f.since d = g.since d) (k : ℕ) (hk : rowsBefore d f.idx + k < f.idx.length) :
    ∃ n, n < f.idx.length - rowsBefore d f.idx ∧ f.idx.length - 1 - k = rowsBefore d f.idx + (n - k) ∧
      g.idx.length - 1 - k = rowsBefore d g.idx + (n - k) ∧ k ≤ n := by
  have h1 : ∀ k, rowsBefore d f.idx + k < f.idx.length ↔ rowsBefore d g.idx + k < g.idx.length := rows_agree hs
  have h2 := h1 (f.idx.length - 1 - rowsBefore d f.idx)
  have h3 := h1 (f.idx.length - rowsBefore d f.idx)
  have h4 := h1 k
  refine ⟨f.idx.length - 1 - rowsBefore d f.idx, by omega, by omega, by omega, by omega⟩

/-- C103: the on balance volume signal is that of the common days, whatever came before, once three of them are there. -/
theorem C103_obv_signal (hB : BuiltOn E c f fill o AnyPrices) (hB' : BuiltOn E c g fill p AnyPrices)
    (ho : o.ind = .onBalanceVolume) (d : ℤ) (hs : f.since d = g.since d) (h3 : rowsBefore d f.idx + 2 < f.idx.length) :
    o.getTiSignal = p.getTiSignal := by
  have ho' := (same_ind hB hB').trans ho
  obtain ⟨C, hC⟩ := C103_on_balance_volume hB hB' ho d hs
  have v := whole_view hB (fun F => by rw [ho]; rfl) (fun n => by rw [ho]; simp)
  have v' := whole_view hB' (fun F => by rw [ho']; rfl) (fun n => by rw [ho']; simp)
  have h3' := (rows_agree hs 2).1 h3
  have key : ∀ k ≤ 2, ∃ y, before k (p.ti.col "obv") = .fin y ∧ before k (o.ti.col "obv") = .fin (y + C) := by
    intro k hk
    obtain ⟨n, hn, e1, e2, hkn⟩ := common_last hs k (by omega)
    obtain ⟨y, a, b⟩ := hC (n - k) (by omega)
    refine ⟨y, ?_, ?_⟩
    · rw [v'.ti _ (by rw [ho']; simp [columns]) k (by omega), e2, a]
    · rw [v.ti _ (by rw [ho]; simp [columns]) k (by omega), e1, b]
  obtain ⟨y0, a0, b0⟩ := key 0 (by omega)
  obtain ⟨y1, a1, b1⟩ := key 1 (by omega)
  obtain ⟨y2, a2, b2⟩ := key 2 (by omega)
  refine agreeing_signal v v' (fun p s => by rw [ho]; simp) (fun p => by rw [ho]; simp) (by rw [ho, ho']) ?_ ?_ ?_ ?_
  · rw [ho]; show 3 ≤ _; omega
  · rw [ho']; show 3 ≤ _; omega
  all_goals
    rw [ho, ho']
    simp [rule, Up3, Down3, a0, a1, a2, b0, b1, b2]

theorem roundQ_lt {x y : ℚ} (h : x + 1 / 10000 < y) : roundQ 4 x < roundQ 4 y := by
  have h1 := roundQ_close 4 x
  have h2 := roundQ_close 4 y
  norm_num at h1 h2
  rw [abs_le] at *
  linarith [h1.1, h1.2, h2.1, h2.2]

/-- A day that moves the trend by more than 1/10000 moves the rounded trend the same way. -/
theorem pvt_order (hB : BuiltOn E c f fill o NonzeroClose) (ho : o.ind = .priceAndVolumeTrend) (i : ℕ) (hi : i + 1 < f.idx.length)
    (hbig : 1 / 10000 < |pvtDay f (i + 1)|) : ∃ x y, o.getTiData.day "pvt" i = .fin x ∧ o.getTiData.day "pvt" (i + 1) = .fin y ∧
      (x < y ↔ 0 < pvtDay f (i + 1)) ∧ (y < x ↔ pvtDay f (i + 1) < 0) := by
  refine ⟨_, _, C43_price_and_volume_trend E c f fill o hB.wf hB.ok hB.rows ho _ (by omega),
    C43_price_and_volume_trend E c f fill o hB.wf hB.ok hB.rows ho _ hi, ?_⟩
  have e := Finset.sum_Ico_succ_top (show 1 ≤ i + 1 by omega) (pvtDay f)
  unfold pvtDay at *
  rw [e]
  generalize (∑ j ∈ Finset.Ico 1 (i + 1), volume f j * ((close f j - close f (j - 1)) / close f (j - 1))) = S at *
  generalize volume f (i + 1) * ((close f (i + 1) - close f (i + 1 - 1)) / close f (i + 1 - 1)) = D at *
  rcases lt_abs.1 hbig with h | h
  · have h1 : roundQ 4 S < roundQ 4 (S + D) := roundQ_lt (by linarith)
    have h2 : 0 < D := by linarith
    exact ⟨⟨fun _ => h2, fun _ => h1⟩, ⟨fun h => absurd h (by linarith), fun h => absurd h (by linarith)⟩⟩
  · have h1 : roundQ 4 (S + D) < roundQ 4 S := roundQ_lt (by linarith)
    have h2 : D < 0 := by linarith
    exact ⟨⟨fun h => absurd h (by linarith), fun h => absurd h (by linarith)⟩, ⟨fun _ => h2, fun _ => h1⟩⟩

/-- C103: the price and volume trend signal is that of the common days if each of the last two days moves the trend by more than
1/10000 (see `C103_pvt_signal_depends`). -/
theorem C103_pvt_signal (hB : BuiltOn E c f fill o NonzeroClose) (hB' : BuiltOn E c g fill p NonzeroClose)
    (ho : o.ind = .priceAndVolumeTrend) (d : ℤ) (hs : f.since d = g.since d) (h3 : rowsBefore d f.idx + 2 < f.idx.length)
    (hbig : ∀ j, f.idx.length - 2 ≤ j → j < f.idx.length →
      1 / 10000 < |volume f j * ((close f j - close f (j - 1)) / close f (j - 1))|) :
    o.getTiSignal = p.getTiSignal := by
  have ho' := (same_ind hB hB').trans ho
  have hcl : ∀ k, close f (rowsBefore d f.idx + k) = close g (rowsBefore d g.idx + k) := price_agree hB.wf hB'.wf hs "close"
  have hvo : ∀ k, volume f (rowsBefore d f.idx + k) = volume g (rowsBefore d g.idx + k) := price_agree hB.wf hB'.wf hs "volume"
  have v := whole_view hB (fun F => by rw [ho]; rfl) (fun n => by rw [ho]; simp)
  have v' := whole_view hB' (fun F => by rw [ho']; rfl) (fun n => by rw [ho']; simp)
  have h3' := (rows_agree hs 2).1 h3
  have key : ∀ k ≤ 1, ∃ x y x' y', before (k + 1) (o.ti.col "pvt") = .fin x ∧ before k (o.ti.col "pvt") = .fin y ∧
      before (k + 1) (p.ti.col "pvt") = .fin x' ∧ before k (p.ti.col "pvt") = .fin y' ∧ (x < y ↔ x' < y') ∧ (y < x ↔ y' < x') := by
    intro k hk
    obtain ⟨n, hn, e1, e2, hkn⟩ := common_last hs (k + 1) (by omega)
    have hd : pvtDay f (rowsBefore d f.idx + (n - (k + 1)) + 1) = pvtDay g (rowsBefore d g.idx + (n - (k + 1)) + 1) := by
      unfold pvtDay
      simp only [Nat.add_sub_cancel]
      rw [Nat.add_assoc, Nat.add_assoc, hcl, hcl, hvo]
    have hb := hbig (rowsBefore d f.idx + (n - (k + 1)) + 1) (by omega) (by omega)
    obtain ⟨x, y, a1, a2, a3, a4⟩ := pvt_order hB ho (rowsBefore d f.idx + (n - (k + 1))) (by omega) hb
    obtain ⟨x', y', b1, b2, b3, b4⟩ := pvt_order hB' ho' (rowsBefore d g.idx + (n - (k + 1))) (by omega) (by rw [← hd]; exact hb)
    refine ⟨x, y, x', y', ?_, ?_, ?_, ?_, a3.trans (by rw [hd, b3]), a4.trans (by rw [hd, b4])⟩
    · rw [v.ti _ (by rw [ho]; simp [columns]) _ (by omega), e1, a1]
    · rw [v.ti _ (by rw [ho]; simp [columns]) _ (by omega), ← a2]; congr 1; omega
    · rw [v'.ti _ (by rw [ho']; simp [columns]) _ (by omega), e2, b1]
    · rw [v'.ti _ (by rw [ho']; simp [columns]) _ (by omega), ← b2]; congr 1; omega
  obtain ⟨x1, x0, y1, y0, a1, a0, b1, b0, u0, w0⟩ := key 0 (by omega)
  obtain ⟨x2, x1', y2, y1', a2, a1', b2, b1', u1, w1⟩ := key 1 (by omega)
  simp only [Nat.zero_add, Nat.reduceAdd] at a1 b1 a2 b2 a1' b1'
  obtain rfl : x1 = x1' := by rw [a1] at a1'; simpa using a1'
  obtain rfl : y1 = y1' := by rw [b1] at b1'; simpa using b1'
  refine agreeing_signal v v' (fun p s => by rw [ho]; simp) (fun p => by rw [ho]; simp) (by rw [ho, ho']) ?_ ?_ ?_ ?_
  · rw [ho]; show 3 ≤ _; omega
  · rw [ho']; show 3 ≤ _; omega
  all_goals
    rw [ho, ho']
    simp [rule, Up3, Down3, a0, a1, a2, b0, b1, b2, u0, w0, u1, w1]

/-! ## Witnesses -/

/-- Days whose accumulation distribution flow is 0, after a first day that closes at the high (`q = 2`) or at the low (`q = 0`). -/
def firstDay (q : ℚ) (s : String) (j : ℕ) : ℚ :=
  if j = 0 then if s = "high" then 2 else if s = "low" then 0 else if s = "close" then q else 10
  else if s = "high" then j + 1 else if s = "low" then j - 1 else if s = "close" then j else 10

theorem firstDay_flow (q : ℚ) (n j : ℕ) (hj : j < n) : flow (table n (firstDay q)) j = if j = 0 then (q - 1) * 10 else 0 := by
  have h1 : close (table n (firstDay q)) j = _ := table_price n _ "close" (by simp [ohlcv]) j hj
  have h2 : high (table n (firstDay q)) j = _ := table_price n _ "high" (by simp [ohlcv]) j hj
  have h3 : low (table n (firstDay q)) j = _ := table_price n _ "low" (by simp [ohlcv]) j hj
  have h4 : volume (table n (firstDay q)) j = _ := table_price n _ "volume" (by simp [ohlcv]) j hj
  unfold flow
  rw [h1, h2, h3, h4]
  by_cases h : j = 0
  · simp [firstDay, h]; ring
  · simp [firstDay, h]

theorem firstDay_adl (q : ℚ) (n j : ℕ) (hj : j < n) : flowLine (table n (firstDay q)) j = truncated ((q - 1) * 10) := by
  unfold flowLine
  congr 1
  rw [Finset.sum_eq_single 0]
  · rw [firstDay_flow q n 0 (by omega), if_pos rfl]
  · intro b hb h0
    rw [firstDay_flow q n b (by simp at hb; omega), if_neg h0]
  · simp

theorem firstDay_built (E : Env) (q : ℚ) (n : ℕ) : ∃ o, BuiltOn E .accumulationDistributionLine (table (n + 2) (firstDay q)) true o AnyPrices ∧
    o.ind = .accumulationDistributionLine :=
  table_built E .accumulationDistributionLine .accumulationDistributionLine rfl (n + 2) (firstDay q) AnyPrices (by omega)
    (by simp [minRows]) (by simp [Ind.required, ohlcv]) (fun _ _ => trivial)

theorem firstDay_signal (E : Env) (q : ℚ) (n : ℕ) (o : Obj)
    (hB : BuiltOn E .accumulationDistributionLine (table (n + 2) (firstDay q)) true o AnyPrices)
    (ho : o.ind = .accumulationDistributionLine) (hn : 1 ≤ n) :
    (0 < truncated ((q - 1) * 10) → o.getTiSignal = .ok .buy) ∧ (truncated ((q - 1) * 10) < 0 → o.getTiSignal = .ok .sell) := by
  have v := whole_view hB (fun F => by rw [ho]; rfl) (fun n => by rw [ho]; simp)
  rw [table_length] at v
  have h0 : ∀ j < (table (n + 2) (firstDay q)).idx.length, high (table (n + 2) (firstDay q)) j ≠ low (table (n + 2) (firstDay q)) j := by
    intro j hj
    rw [table_length] at hj
    have h2 : high (table (n + 2) (firstDay q)) j = _ := table_price (n + 2) _ "high" (by simp [ohlcv]) j hj
    have h3 : low (table (n + 2) (firstDay q)) j = _ := table_price (n + 2) _ "low" (by simp [ohlcv]) j hj
    rw [h2, h3]
    by_cases h : j = 0
    · simp [firstDay, h]
    · simp only [firstDay, h]
      norm_num
      refine ⟨by decide, fun e => ?_⟩
      linarith
  have hv := C59_accumulation_distribution hB ho h0 (n + 1) (by rw [table_length]; omega)
  rw [firstDay_adl q (n + 2) (n + 1) (by omega)] at hv
  have e := v.ti "adl" (by rw [ho]; simp [columns]) 0 (by omega)
  rw [show n + 2 - 1 - 0 = n + 1 by omega, hv] at e
  have c0 := v.px "close" (by rw [ho]; simp [Ind.required]) 0 (by omega)
  have c1 := v.px "close" (by rw [ho]; simp [Ind.required]) 1 (by omega)
  rw [show n + 2 - 1 - 0 = n + 1 by omega, table_price (n + 2) _ "close" (by simp [ohlcv]) (n + 1) (by omega)] at c0
  rw [show n + 2 - 1 - 1 = n by omega, table_price (n + 2) _ "close" (by simp [ohlcv]) n (by omega)] at c1
  have hm : firstDay q "close" n ≠ firstDay q "close" (n + 1) := by
    simp [firstDay, show n ≠ 0 by omega]
  obtain ⟨h1, h2⟩ := C47_signal_table o v.reach
  rw [v.rows, ho] at h1 h2
  have hmoved : before 0 (o.input.col "close") <ᵥ before 1 (o.input.col "close") ∨
      before 1 (o.input.col "close") <ᵥ before 0 (o.input.col "close") := by
    rw [c0, c1]
    rcases lt_or_gt_of_ne hm with h | h
    · right; simpa using h
    · left; simpa using h
  refine ⟨fun h => h1.2 ⟨by show 2 ≤ _; omega, hmoved, ?_⟩, fun h => h2.2 ⟨by show 2 ≤ _; omega, hmoved, ?_⟩⟩
  · show (Val.fin 0) <ᵥ before 0 (o.ti.col "adl")
    rw [e]; simpa using h
  · show before 0 (o.ti.col "adl") <ᵥ (Val.fin 0)
    rw [e]; simpa using h

/-- C103: the accumulation distribution signal keeps the first day for ever: however many days two tables share, their signals
can be opposite. -/
theorem C103_adl_signal_depends (E : Env) (n : ℕ) (hn : 2 ≤ n) : ∃ f g : RawFrame, ∃ o p : Obj,
    BuiltOn E .accumulationDistributionLine f true o AnyPrices ∧ BuiltOn E .accumulationDistributionLine g true p AnyPrices ∧
    f.since 1 = g.since 1 ∧ rowsBefore 1 f.idx + n = f.idx.length ∧ o.getTiSignal = .ok .buy ∧ p.getTiSignal = .ok .sell := by
  obtain ⟨m, rfl⟩ : ∃ m, n = m + 1 := ⟨n - 1, by omega⟩
  obtain ⟨o, hB, ho⟩ := firstDay_built E 2 m
  obtain ⟨p, hB', hp⟩ := firstDay_built E 0 m
  have hb := table_before (m + 2) 1 (firstDay 2) (by omega)
  refine ⟨_, _, o, p, hB, hB', ?_, ?_, (firstDay_signal E 2 m o hB ho (by omega)).1 ?_,
    (firstDay_signal E 0 m p hB' hp (by omega)).2 ?_⟩
  · refine table_since (m + 2) 1 _ _ fun s j hj => ?_
    simp only [firstDay, show j ≠ 0 by omega, if_false]
  · rw [table_length]
    have : rowsBefore (1 : ℤ) (table (m + 2) (firstDay 2)).idx = 1 := hb
    omega
  · norm_num [truncated]
  · norm_num [truncated]

/-- Closes `q`, 2, 4, 8 with small volumes. -/
def smallDays (q : ℚ) (s : String) (j : ℕ) : ℚ :=
  if s = "close" then [q, 2, 4, 8].getD j 1 else if s = "volume" then [1, 6 / 100000, 8 / 100000, 8 / 100000].getD j 1 else 1

theorem pvt_of (q : ℚ) (hq : q ≠ 0) (s : Signal)
    (h : ((construct demoEnv .priceAndVolumeTrend (.frame (table 4 (smallDays q))) (.bool true)).2.map fun o => o.getTiSignal) =
      .ok (.ok s)) :
    ∃ o, BuiltOn demoEnv .priceAndVolumeTrend (table 4 (smallDays q)) true o NonzeroClose ∧ o.ind = .priceAndVolumeTrend ∧
      o.getTiSignal = .ok s := by
  obtain ⟨o, hB, ho⟩ := table_built demoEnv .priceAndVolumeTrend .priceAndVolumeTrend rfl 4 (smallDays q) NonzeroClose (by omega)
    (by simp [minRows]) (by simp [Ind.required, ohlcv]) (by
      intro j hj
      show smallDays q "close" j ≠ 0
      interval_cases j <;> simp [smallDays, hq])
  refine ⟨o, hB, ho, ?_⟩
  rw [hB.ok] at h
  simpa [Except.map] using h

/-- C103: when the last days move the price and volume trend by less than 1/10000, the rounding lets the signal depend on the
days before the common ones. -/
theorem C103_pvt_signal_depends : ∃ f g : RawFrame, ∃ o p : Obj,
    BuiltOn demoEnv .priceAndVolumeTrend f true o NonzeroClose ∧ BuiltOn demoEnv .priceAndVolumeTrend g true p NonzeroClose ∧
    f.since 1 = g.since 1 ∧ rowsBefore 1 f.idx + 2 < f.idx.length ∧ o.getTiSignal = .ok .hold ∧ p.getTiSignal = .ok .sell := by
  obtain ⟨o, hB, ho, h1⟩ := pvt_of 1 (by norm_num) .hold (by decide +kernel)
  obtain ⟨p, hB', hp, h2⟩ := pvt_of 2 (by norm_num) .sell (by decide +kernel)
  refine ⟨_, _, o, p, hB, hB', ?_, by decide +kernel, h1, h2⟩
  refine table_since 4 1 _ _ fun s j hj => ?_
  obtain ⟨k, rfl⟩ : ∃ k, j = k + 1 := ⟨j - 1, by omega⟩
  simp [smallDays]

/-! ## The hypotheses can be met -/

/-- Closes `q`, 2, 3, 5, 4, 6. -/
def mixedDays (q : ℚ) (s : String) (j : ℕ) : ℚ :=
  let c := [q, 2, 3, 5, 4, 6].getD j 1
  if s = "high" then c + 1 else if s = "low" then c - 1 else if s = "volume" then [10, 20, 15, 30, 25, 40].getD j 1 else c

theorem mixed_pair (c : Call) (ind : Ind) (hc : c.check = .ok ind) (hm : minRows ind ≤ 6) (hr : ∀ r ∈ ind.required, r ∈ ohlcv)
    (P : (String → ℚ) → Prop) (hP : ∀ j < 6, P (fun s => mixedDays 1 s j) ∧ P fun s => mixedDays 7 s j) :
    ∃ o p, BuiltOn demoEnv c (table 6 (mixedDays 1)) true o P ∧ BuiltOn demoEnv c (table 6 (mixedDays 7)) true p P ∧ o.ind = ind := by
  obtain ⟨o, hB, ho⟩ := table_built demoEnv c ind hc 6 (mixedDays 1) P (by omega) hm hr fun j hj => (hP j hj).1
  obtain ⟨p, hB', -⟩ := table_built demoEnv c ind hc 6 (mixedDays 7) P (by omega) hm hr fun j hj => (hP j hj).2
  exact ⟨o, p, hB, hB', ho⟩

/-- The hypotheses of the C103 theorems on six days of which the last five are common. -/
example : (table 6 (mixedDays 1)).since 1 = (table 6 (mixedDays 7)).since 1 ∧
    rowsBefore 1 (table 6 (mixedDays 1)).idx + 2 < (table 6 (mixedDays 1)).idx.length ∧
    (∃ o p, BuiltOn demoEnv .onBalanceVolume (table 6 (mixedDays 1)) true o AnyPrices ∧
      BuiltOn demoEnv .onBalanceVolume (table 6 (mixedDays 7)) true p AnyPrices ∧ o.ind = .onBalanceVolume) ∧
    (∃ o p, BuiltOn demoEnv .accumulationDistributionLine (table 6 (mixedDays 1)) true o AnyPrices ∧
      BuiltOn demoEnv .accumulationDistributionLine (table 6 (mixedDays 7)) true p AnyPrices ∧ o.ind = .accumulationDistributionLine) ∧
    (∃ o p, BuiltOn demoEnv .priceAndVolumeTrend (table 6 (mixedDays 1)) true o NonzeroClose ∧
      BuiltOn demoEnv .priceAndVolumeTrend (table 6 (mixedDays 7)) true p NonzeroClose ∧ o.ind = .priceAndVolumeTrend) ∧
    (∃ o p, BuiltOn demoEnv .negativeVolumeIndex (table 6 (mixedDays 1)) true o (fun x => 0 < x "close") ∧
      BuiltOn demoEnv .negativeVolumeIndex (table 6 (mixedDays 7)) true p (fun x => 0 < x "close") ∧ o.ind = .negativeVolumeIndex) ∧
    (∃ o p, BuiltOn demoEnv .positiveVolumeIndex (table 6 (mixedDays 1)) true o (fun x => 0 < x "close") ∧
      BuiltOn demoEnv .positiveVolumeIndex (table 6 (mixedDays 7)) true p (fun x => 0 < x "close") ∧ o.ind = .positiveVolumeIndex) ∧
    (∀ j < 6, high (table 6 (mixedDays 1)) j ≠ low (table 6 (mixedDays 1)) j) ∧
    (∀ j < 6, 6 - 2 ≤ j → 1 / 10000 < |volume (table 6 (mixedDays 1)) j * ((close (table 6 (mixedDays 1)) j -
      close (table 6 (mixedDays 1)) (j - 1)) / close (table 6 (mixedDays 1)) (j - 1))|) := by
  refine ⟨?_, by decide +kernel,
    mixed_pair _ _ rfl (by simp [minRows]) (by simp [Ind.required, ohlcv]) _ (fun _ _ => ⟨trivial, trivial⟩),
    mixed_pair _ _ rfl (by simp [minRows]) (by simp [Ind.required, ohlcv]) _ (fun _ _ => ⟨trivial, trivial⟩),
    mixed_pair _ _ rfl (by simp [minRows]) (by simp [Ind.required, ohlcv]) _ (by unfold NonzeroClose; decide +kernel),
    mixed_pair _ _ rfl (by simp [minRows]) (by simp [Ind.required, ohlcv]) _ (by decide +kernel),
    mixed_pair _ _ rfl (by simp [minRows]) (by simp [Ind.required, ohlcv]) _ (by decide +kernel), by decide +kernel, by decide +kernel⟩
  refine table_since 6 1 _ _ fun s j hj => ?_
  obtain ⟨k, rfl⟩ : ∃ k, j = k + 1 := ⟨j - 1, by omega⟩
  simp [mixedDays]

/-- What the two tables show: the on balance volumes 20 and -20 on the first common day, and 40 apart on the last. -/
example : (construct demoEnv .onBalanceVolume (.frame (table 6 (mixedDays 1))) (.bool true)).2.map
      (fun o => (o.getTiData.day "obv" 1, o.getTiData.day "obv" 5)) = .ok (.fin 20, .fin 80) ∧
    (construct demoEnv .onBalanceVolume (.frame (table 6 (mixedDays 7))) (.bool true)).2.map
      (fun o => (o.getTiData.day "obv" 1, o.getTiData.day "obv" 5)) = .ok (.fin (-20), .fin 40) := by
  decide +kernel

end TTI.Props
