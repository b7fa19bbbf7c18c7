import Verif.Props.FloatRange

set_option autoImplicit false

/-!
# Averages stay between the prices in float64: C93

A float computation of a mean can leave the range of its numbers. The averages of the package are rounded to four decimals
afterwards; on prices with at most four decimals that brings them back, to the bit.
-/

namespace TTI.Props

open Spec Flt Ind

variable {R : Rounding} {A : Arith} {E : Env} {c : Call} {f : RawFrame} {fill : Bool} {o : Obj}

/-- C93: a reported value that differs by less than a unit of the fourth decimal from a number between two stored prices with four
decimals lies between these stored prices. -/
theorem C93_between (hA : A.fl = R.fl) (hu : R.unit ≤ 1 / 10) {v : Val} (hv : IsReport A v) {k i : ℕ} {q e N : ℚ} (h : NearSince k i v q e)
    (a b : ℤ) (ha : |(a : ℚ)| ≤ N) (hb : |(b : ℚ)| ≤ N) (haq : R.fl (a / 10 ^ 4) ≤ q) (hqb : q ≤ R.fl (b / 10 ^ 4))
    (he : 10 ^ 4 * e + 4 * R.unit * (N + 1) < 1) (hk : k ≤ i) :
    ∃ r, v = .fin r ∧ R.fl (a / 10 ^ 4) ≤ r ∧ r ≤ R.fl (b / 10 ^ 4) := by
  unfold NearSince at h
  rw [if_neg (by omega)] at h
  obtain ⟨r, h1, h2⟩ := h
  obtain ⟨m, hm⟩ := hv r h1
  rw [hA] at hm
  have hu0 := R.nonneg
  have hN : 0 ≤ N := (abs_nonneg _).trans ha
  have ea := R.error (a / 10 ^ 4)
  have eb := R.error (b / 10 ^ 4)
  have em := R.error (m / 10 ^ 4)
  rw [← hm] at em
  rw [abs_div, abs_of_pos (by norm_num : (0 : ℚ) < 10 ^ 4)] at ea eb em
  have ha' := mul_le_mul_of_nonneg_left ha hu0
  have hb' := mul_le_mul_of_nonneg_left hb hu0
  have hum := mul_le_mul_of_nonneg_right hu (abs_nonneg (m : ℚ))
  have huN := mul_le_mul_of_nonneg_right hu hN
  have hmN : |(m : ℚ)| ≤ 2 * (N + 1) := by
    rw [abs_le] at *
    rcases le_total 0 (m : ℚ) with hp | hp
    · rw [abs_of_nonneg hp] at *
      constructor <;> linarith
    · rw [abs_of_nonpos hp] at *
      constructor <;> linarith
  have hm' := mul_le_mul_of_nonneg_left hmN hu0
  rw [abs_le] at ea eb em h2
  have c1 : a ≤ m := by
    have : (a : ℚ) < m + 1 := by linarith
    exact_mod_cast Int.lt_add_one_iff.1 (by exact_mod_cast this)
  have c2 : m ≤ b := by
    have : (m : ℚ) < b + 1 := by linarith
    exact_mod_cast Int.lt_add_one_iff.1 (by exact_mod_cast this)
  refine ⟨r, h1, ?_, ?_⟩
  · rw [hm]
    exact R.mono _ _ (div_le_div_of_nonneg_right (by exact_mod_cast c1) (by norm_num))
  · rw [hm]
    exact R.mono _ _ (div_le_div_of_nonneg_right (by exact_mod_cast c2) (by norm_num))

/-- The same for a number between two prices of a column with four decimals. -/
theorem between_stored (hA : A.fl = R.fl) (hu : R.unit ≤ 1 / 10) {v : Val} (hv : IsReport A v) {k i : ℕ} {q e N : ℚ} (h : NearSince k i v q e)
    {name name' : String} {z z' : ℕ → ℤ} (hs : Stored R.fl f name fun j => z j / 10 ^ 4) (hs' : Stored R.fl f name' fun j => z' j / 10 ^ 4)
    (hN : ∀ j < f.idx.length, |(z j : ℚ)| ≤ N ∧ |(z' j : ℚ)| ≤ N) {s t : ℕ} (hs1 : s < f.idx.length) (ht1 : t < f.idx.length)
    (hq : price f name s ≤ q ∧ q ≤ price f name' t) (he : 10 ^ 4 * e + 4 * R.unit * (N + 1) < 1) (hk : k ≤ i) :
    InRange (price f name s) (price f name' t) v := by
  obtain ⟨r, h1, h2, h3⟩ := C93_between hA hu hv h (z s) (z' t) (hN s hs1).1 (hN t ht1).2
    (by rw [← hs s hs1]; exact hq.1) (by rw [← hs' t ht1]; exact hq.2) he hk
  refine .inr ⟨r, h1, ?_, ?_⟩
  · rw [hs s hs1]; exact h2
  · rw [hs' t ht1]; exact h3

/-- A mean lies between the least and the greatest of its numbers. -/
theorem meanLast_between (n : ℕ) (hp : 1 ≤ n) (g : ℕ → ℚ) (i : ℕ) : lowest n g i ≤ meanLast n g i ∧ meanLast n g i ≤ highest n g i := by
  have hn : (0 : ℚ) < n := by exact_mod_cast hp
  have e1 : ∀ x : ℚ, x * n = ∑ _t ∈ Finset.range n, x := fun x => by simp [mul_comm]
  unfold meanLast sumLast
  rw [le_div_iff₀ hn, div_le_iff₀ hn, e1, e1]
  exact ⟨Finset.sum_le_sum fun t ht => (Nums.lowest_spec n hp g i).1 t (Finset.mem_range.1 ht),
    Finset.sum_le_sum fun t ht => (Nums.highest_spec n hp g i).1 t (Finset.mem_range.1 ht)⟩

/-- A moving average that starts between two bounds and moves towards numbers between them stays there. -/
theorem smoothed_between {a lo hi : ℚ} (ha0 : 0 ≤ a) (ha1 : a ≤ 1) (s : ℕ) (seed : ℚ) (g : ℕ → ℚ) (i : ℕ) (h0 : lo ≤ seed ∧ seed ≤ hi)
    (h : ∀ j ≤ i, lo ≤ g j ∧ g j ≤ hi) : lo ≤ smoothed a s seed g i ∧ smoothed a s seed g i ≤ hi := by
  induction i with
  | zero => exact h0
  | succ i ih =>
    have ih := ih fun j hj => h j (by omega)
    rw [smoothed]
    split_ifs
    · exact h0
    · obtain ⟨h1, h2⟩ := h (i + 1) (le_refl _)
      constructor
      · nlinarith
      · nlinarith

/-- C93: the simple moving average of prices with at most four decimals lies between the lowest and the highest price of its
window. -/
theorem C93_simple (hA : Rounded R A) (hB : FloatBuilt A E c f fill o AnyPrices) (n : ℕ) (ho : o.ind = .movingAverage n .simple)
    (z : ℕ → ℤ) (hs : Stored R.fl f "close" fun j => z j / 10 ^ 4) (M : ℚ) (hM : ∀ j < f.idx.length, |(z j : ℚ) / 10 ^ 4| ≤ M)
    (hu : 10 ^ 8 * R.unit * f.idx.length * (M + 1) ≤ 1) (i : ℕ) (hi : i < f.idx.length) (hk : n - 1 ≤ i) :
    InRange (lowest n (close f) i) (highest n (close f) i) (o.getTiData.day "ma-simple" i) := by
  have hu0 := R.nonneg
  have hM0 : 0 ≤ M := (abs_nonneg _).trans (hM i hi)
  have hL : (1 : ℚ) ≤ f.idx.length := by exact_mod_cast (by omega : 1 ≤ f.idx.length)
  have huLM : R.unit * (M + 1) ≤ R.unit * (M + 1) * f.idx.length := le_mul_of_one_le_right (by positivity) hL
  have huL : 0 ≤ R.unit * M * f.idx.length := by positivity
  have huL1 : 0 ≤ R.unit * f.idx.length := by positivity
  have huM : 0 ≤ R.unit * M := by positivity
  have hp : 1 ≤ n := by
    obtain ⟨F, -, -, -, hp, -⟩ := hB.on ho (by simp [Ind.required])
    exact hp.1
  have h1 := C86_simple hA hB n ho (2 * M) (stored_atMost hs hM (by linarith)) (by linarith) i hi
  obtain ⟨s, hs1, e1⟩ := (Nums.lowest_spec n hp (close f) i).2
  obtain ⟨t, ht1, e2⟩ := (Nums.highest_spec n hp (close f) i).2
  have hm := meanLast_between n hp (close f) i
  rw [e1, e2] at hm ⊢
  exact between_stored hA.fl (by linarith) (C91_four_decimals hB.ok (by rw [ho]; trivial) _ _) h1 hs hs (N := 10 ^ 4 * M) (fun j hj => by
    have := hM j hj
    rw [abs_div, abs_of_pos (by norm_num : (0 : ℚ) < 10 ^ 4), div_le_iff₀ (by norm_num)] at this
    exact ⟨by linarith, by linarith⟩) (by omega) (by omega) hm (by linarith) hk

/-- C93: the exponential moving average lies between any two prices of the table that enclose all prices so far. -/
theorem C93_exponential (hA : Rounded R A) (hB : FloatBuilt A E c f fill o AnyPrices) (n : ℕ) (ho : o.ind = .movingAverage n .exponential)
    (z : ℕ → ℤ) (hs : Stored R.fl f "close" fun j => z j / 10 ^ 4) (M : ℚ) (hM : ∀ j < f.idx.length, |(z j : ℚ) / 10 ^ 4| ≤ M)
    (hu : 10 ^ 8 * R.unit * (n + 1) * (M + 1) ≤ 1) (i : ℕ) (hi : i < f.idx.length) (hk : n - 1 ≤ i) :
    InRange (lowest (i + 1) (close f) i) (highest (i + 1) (close f) i) (o.getTiData.day "ma-exponential" i) := by
  have hu0 := R.nonneg
  have hM0 : 0 ≤ M := (abs_nonneg _).trans (hM i hi)
  have hn0 : (0 : ℚ) ≤ n := by positivity
  have huL : 0 ≤ R.unit * M * n := by positivity
  have huL1 : 0 ≤ R.unit * n := by positivity
  have huM : 0 ≤ R.unit * M := by positivity
  have hp : 1 ≤ n := by
    obtain ⟨F, -, -, -, hp, -⟩ := hB.on ho (by simp [Ind.required])
    exact hp.1
  have h1 := C85_exponential hA hB n ho (2 * M) (stored_atMost hs hM (by linarith)) (by linarith) i hi
  have l1 := Nums.lowest_spec (i + 1) (by omega) (close f) i
  have l2 := Nums.highest_spec (i + 1) (by omega) (close f) i
  have all : ∀ j ≤ i, lowest (i + 1) (close f) i ≤ close f j ∧ close f j ≤ highest (i + 1) (close f) i := fun j hj => by
    have a1 := l1.1 (i - j) (by omega)
    have a2 := l2.1 (i - j) (by omega)
    rw [show i - (i - j) = j by omega] at a1 a2
    exact ⟨a1, a2⟩
  have hm : lowest (i + 1) (close f) i ≤ ema n 0 (close f) i ∧ ema n 0 (close f) i ≤ highest (i + 1) (close f) i :=
    smoothed_between (by positivity) (by rw [div_le_one (by positivity)]; have : (1 : ℚ) ≤ n := by exact_mod_cast hp
                                         linarith) 0 _ _ i (all 0 (by omega)) all
  obtain ⟨s, hs1, e1⟩ := l1.2
  obtain ⟨t, ht1, e2⟩ := l2.2
  rw [e1, e2] at hm ⊢
  exact between_stored hA.fl (by linarith) (C91_four_decimals hB.ok (by rw [ho]; trivial) _ _) h1 hs hs (N := 10 ^ 4 * M) (fun j hj => by
    have := hM j hj
    rw [abs_div, abs_of_pos (by norm_num : (0 : ℚ) < 10 ^ 4), div_le_iff₀ (by norm_num)] at this
    exact ⟨by linarith, by linarith⟩) (by omega) (by omega) hm (by linarith) hk

/-- C93: Wilder's smoothing. -/
theorem C93_wilders_smoothing (hA : Rounded R A) (hB : FloatBuilt A E c f fill o AnyPrices) (n : ℕ) (ho : o.ind = .wildersSmoothing n)
    (z : ℕ → ℤ) (hs : Stored R.fl f "close" fun j => z j / 10 ^ 4) (M : ℚ) (hM : ∀ j < f.idx.length, |(z j : ℚ) / 10 ^ 4| ≤ M)
    (hu : 10 ^ 8 * R.unit * n * (M + 1) ≤ 1) (i : ℕ) (hi : i < f.idx.length) (hk : n - 1 ≤ i) :
    InRange (lowest (i + 1) (close f) i) (highest (i + 1) (close f) i) (o.getTiData.day "ws" i) := by
  have hp : 1 ≤ n := by
    obtain ⟨F, -, -, -, hp, -⟩ := hB.on ho (by simp [Ind.required])
    exact hp
  have hu0 := R.nonneg
  have hM0 : 0 ≤ M := (abs_nonneg _).trans (hM i hi)
  have hn1 : (1 : ℚ) ≤ n := by exact_mod_cast hp
  have huLM : R.unit * (M + 1) ≤ R.unit * (M + 1) * n := le_mul_of_one_le_right (by positivity) hn1
  have huL : 0 ≤ R.unit * M * n := by positivity
  have huL1 : 0 ≤ R.unit * n := by positivity
  have huM : 0 ≤ R.unit * M := by positivity
  have h1 := C85_wilders_smoothing hA hB n ho (2 * M) (stored_atMost hs hM (by linarith)) (by linarith) i hi
  have l1 := Nums.lowest_spec (i + 1) (by omega) (close f) i
  have l2 := Nums.highest_spec (i + 1) (by omega) (close f) i
  have all : ∀ j ≤ i, lowest (i + 1) (close f) i ≤ close f j ∧ close f j ≤ highest (i + 1) (close f) i := fun j hj => by
    have a1 := l1.1 (i - j) (by omega)
    have a2 := l2.1 (i - j) (by omega)
    rw [show i - (i - j) = j by omega] at a1 a2
    exact ⟨a1, a2⟩
  have hm : lowest (i + 1) (close f) i ≤ wilderAverage n 0 (close f) i ∧ wilderAverage n 0 (close f) i ≤ highest (i + 1) (close f) i := by
    refine smoothed_between (by positivity) (by rw [div_le_one (by positivity)]; linarith) _ _ _ i ?_ all
    obtain ⟨m1, m2⟩ := meanLast_between n hp (close f) (0 + n - 1)
    obtain ⟨s, hs1, e1⟩ := (Nums.lowest_spec n hp (close f) (0 + n - 1)).2
    obtain ⟨t, ht1, e2⟩ := (Nums.highest_spec n hp (close f) (0 + n - 1)).2
    rw [e1] at m1
    rw [e2] at m2
    exact ⟨(all _ (by omega)).1.trans m1, m2.trans (all _ (by omega)).2⟩
  obtain ⟨s, hs1, e1⟩ := l1.2
  obtain ⟨t, ht1, e2⟩ := l2.2
  rw [e1, e2] at hm ⊢
  exact between_stored hA.fl (by linarith) (C91_four_decimals hB.ok (by rw [ho]; trivial) _ _) h1 hs hs (N := 10 ^ 4 * M) (fun j hj => by
    have := hM j hj
    rw [abs_div, abs_of_pos (by norm_num : (0 : ℚ) < 10 ^ 4), div_le_iff₀ (by norm_num)] at this
    exact ⟨by linarith, by linarith⟩) (by omega) (by omega) hm (by linarith) hk

/-- C93: median price, typical price and weighted close lie between the low and the high of the day. -/
theorem C93_bar (hA : Rounded R A) (hB : FloatBuilt A E c f fill o Bar) (name : String) (zh zl zc : ℕ → ℤ)
    (ho : (name = "mp" ∧ ∃ n, o.ind = .medianPrice n) ∨ (name = "tp" ∧ ∃ n, o.ind = .typicalPrice n) ∨ (name = "wc" ∧ o.ind = .weightedClose))
    (hh : Stored R.fl f "high" fun j => zh j / 10 ^ 4) (hl : Stored R.fl f "low" fun j => zl j / 10 ^ 4)
    (hc : Stored R.fl f "close" fun j => zc j / 10 ^ 4) (M : ℚ)
    (hM : ∀ j < f.idx.length, |(zh j : ℚ) / 10 ^ 4| ≤ M ∧ |(zl j : ℚ) / 10 ^ 4| ≤ M ∧ |(zc j : ℚ) / 10 ^ 4| ≤ M)
    (hu : 10 ^ 8 * R.unit * (M + 1) ≤ 1) (i : ℕ) (hi : i < f.idx.length) :
    InRange (low f i) (high f i) (o.getTiData.day name i) := by
  have hB' : FloatBuilt A E c f fill o AnyPrices := ⟨hB.wf, hB.ok, fun j hj => by
    obtain ⟨x, h1, -⟩ := hB.rows j hj
    exact ⟨x, h1, trivial⟩⟩
  have hu0 := R.nonneg
  have hM0 : 0 ≤ M := (abs_nonneg _).trans (hM i hi).1
  have huM : 0 ≤ R.unit * M := by positivity
  have aH := stored_atMost hh (fun j hj => (hM j hj).1) (by linarith)
  have aL := stored_atMost hl (fun j hj => (hM j hj).2.1) (by linarith)
  have aC := stored_atMost hc (fun j hj => (hM j hj).2.2) (by linarith)
  have a3 : ∀ name ∈ ["high", "low", "close"], AtMost f name (2 * M) := by
    intro name hn
    simp only [List.mem_cons, List.not_mem_nil, or_false] at hn
    rcases hn with rfl | rfl | rfl
    · exact aH
    · exact aL
    · exact aC
  have bound : ∀ j < f.idx.length, |(zl j : ℚ)| ≤ 10 ^ 4 * M ∧ |(zh j : ℚ)| ≤ 10 ^ 4 * M := fun j hj => by
    obtain ⟨h1, h2, -⟩ := hM j hj
    rw [abs_div, abs_of_pos (by norm_num : (0 : ℚ) < 10 ^ 4), div_le_iff₀ (by norm_num)] at h1 h2
    exact ⟨by linarith, by linarith⟩
  rcases ho with ⟨rfl, n, ho⟩ | ⟨rfl, n, ho⟩ | ⟨rfl, ho⟩
  · obtain ⟨F, hl', -, -, -, -, -, hx⟩ := hB.on ho (by simp [Ind.required])
    obtain ⟨x, px, hx2⟩ := hx i (by omega)
    have h1 := C85_median_price hA hB' n ho (2 * M) aH aL (by linarith) i hi
    have p1 := px "high" (by simp [Ind.required])
    have p2 := px "low" (by simp [Ind.required])
    obtain ⟨b1, b2, b3, b4, -⟩ := hx2
    rw [p1] at b2
    rw [p2] at b1
    have b5 : low f i ≤ high f i := b1.trans b2
    exact between_stored hA.fl (by linarith) (C91_four_decimals hB.ok (by rw [ho]; trivial) _ _) h1 hl hh bound hi hi
      ⟨by show low f i ≤ _; linarith, by show _ ≤ high f i; linarith⟩ (by linarith) (by omega)
  · obtain ⟨F, hl', -, -, -, -, -, hx⟩ := hB.on ho (by simp [Ind.required])
    obtain ⟨x, px, hx2⟩ := hx i (by omega)
    have h1 := C85_typical_price hA hB' n ho (2 * M) a3 (by linarith) i hi
    have p1 := px "high" (by simp [Ind.required])
    have p2 := px "low" (by simp [Ind.required])
    have p3 := px "close" (by simp [Ind.required])
    obtain ⟨b1, b2, b3, b4, -⟩ := hx2
    rw [p1, p3] at b4
    rw [p2, p3] at b3
    have b4 : close f i ≤ high f i := b4
    have b3 : low f i ≤ close f i := b3
    exact between_stored hA.fl (by linarith) (C91_four_decimals hB.ok (by rw [ho]; trivial) _ _) h1 hl hh bound hi hi
      ⟨by show low f i ≤ _; unfold typical; linarith, by show _ ≤ high f i; unfold typical; linarith⟩ (by linarith) (by omega)
  · obtain ⟨F, hl', -, -, -, -, -, hx⟩ := hB.on ho (by simp [Ind.required])
    obtain ⟨x, px, hx2⟩ := hx i (by omega)
    have h1 := C85_weighted_close hA hB' ho (2 * M) a3 (by linarith) i hi
    have p1 := px "high" (by simp [Ind.required])
    have p2 := px "low" (by simp [Ind.required])
    have p3 := px "close" (by simp [Ind.required])
    obtain ⟨b1, b2, b3, b4, -⟩ := hx2
    rw [p1, p3] at b4
    rw [p2, p3] at b3
    have b4 : close f i ≤ high f i := b4
    have b3 : low f i ≤ close f i := b3
    exact between_stored hA.fl (by linarith) (C91_four_decimals hB.ok (by rw [ho]; trivial) _ _) h1 hl hh bound hi hi
      ⟨by show low f i ≤ _; linarith, by show _ ≤ high f i; linarith⟩ (by linarith) (by omega)

/-- Two days with the price 1.00004, stored in float64. -/
def fifthDecimal : RawFrame := ⟨true, [0, 1], [⟨.str "close", true, [.fin (toDouble (100004 / 100000)), .fin (toDouble (100004 / 100000))]⟩]⟩

/-- C93: four decimals are necessary: the average of two prices of 1.00004 is reported as 1. -/
theorem C93_five_decimals_witness : ∃ o, FloatBuilt doubleArith demoEnv (.movingAverage (.int 2) (.str "simple")) fifthDecimal true o AnyPrices ∧
    o.ind = .movingAverage 2 .simple ∧ o.getTiData.day "ma-simple" 1 = .fin 1 ∧ 1 < lowest 2 (close fifthDecimal) 1 := by
  obtain ⟨o, h1, h2, h3⟩ := float_built (A := doubleArith) (E := demoEnv) (c := .movingAverage (.int 2) (.str "simple")) (f := fifthDecimal)
    (fill := true) (ind := .movingAverage 2 .simple) "ma-simple" 1 (.fin 1) (by decide +kernel) (by decide +kernel) (by decide +kernel)
  exact ⟨o, h1, h2, h3, by decide +kernel⟩

/-- The hypotheses of `C93_simple`, `C93_exponential`, `C93_wilders_smoothing` and `C93_bar`. -/
example : Rounded double doubleArith ∧ (Stored double.fl (quoted 5) "close" fun j => ((100 * quotedClose j : ℤ) : ℚ) / 10 ^ 4) ∧
    (∀ j < (quoted 5).idx.length, |((100 * quotedClose j : ℤ) : ℚ) / 10 ^ 4| ≤ 11) ∧
    10 ^ 8 * double.unit * (quoted 5).idx.length * (11 + 1) ≤ 1 ∧
    (∃ o, FloatBuilt doubleArith demoEnv (.movingAverage (.int 3) (.str "simple")) (quoted 5) true o AnyPrices ∧
      o.ind = .movingAverage 3 .simple ∧ o.getTiData.day "ma-simple" 3 = .fin (toDouble (1005 / 100))) ∧
    (∃ o, FloatBuilt doubleArith demoEnv (.movingAverage (.int 3) (.str "exponential")) (quoted 5) true o AnyPrices ∧
      o.ind = .movingAverage 3 .exponential ∧ o.getTiData.day "ma-exponential" 2 = .fin (toDouble (100475 / 10000))) ∧
    (∃ o, FloatBuilt doubleArith demoEnv (.wildersSmoothing (.int 2)) (quoted 5) true o AnyPrices ∧
      o.ind = .wildersSmoothing 2 ∧ o.getTiData.day "ws" 1 = .fin (toDouble (10045 / 1000))) :=
  ⟨C85_double.1, by unfold Stored; decide +kernel, by decide +kernel, by decide +kernel,
    quoted_built 5 "ma-simple" 3 _ (by decide +kernel) (by decide), quoted_built 5 "ma-exponential" 2 _ (by decide +kernel) (by decide),
    quoted_built 5 "ws" 1 _ (by decide +kernel) (by decide)⟩

end TTI.Props
