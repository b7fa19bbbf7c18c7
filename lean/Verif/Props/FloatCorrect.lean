import Verif.Lemmas.FloatCorrect
import Verif.Props.FloatRoll
import Verif.Props.FloatPrices
import Verif.Props.FloatFlat
import Verif.Props.Volume

set_option autoImplicit false

/-!
# Correctly rounded results: C91

C85 and C86 bound the errors of the reported values. Here the reported value is named: it is the float next to the exact value with
four decimals, unless the exact value lies next to a tie between two such numbers.
-/

namespace TTI.Props

open Spec Flt Sim

variable {R : Rounding} {A : Arith} {E : Env} {c : Call} {f : RawFrame} {fill : Bool} {o : Obj}

/-- C91: in any arithmetic every number that the classes with four decimals report is the float next to a number with four
decimals. -/
theorem C91_four_decimals (h : (Flt.construct A E c (.frame f) (.bool fill)).2 = .ok o) (hi : ReportsFour o.ind) (name : String)
    (i : ℕ) : IsReport A (o.getTiData.day name i) := by
  obtain ⟨ind, F, T, hc, hv, ht, rfl⟩ := (Flt.construct_ok_iff _ _ _ _ _ _).1 h
  exact day_isReport A T (calcTi_reports A E F T ind hi ht) name i

/-- C91: a reported value that differs from `q` by little more than half a unit of the fourth decimal is the float next to `q`
rounded to four decimals, if `q` is not next to a tie. -/
theorem C91_report (hA : A.fl = R.fl) (hu : R.unit ≤ 1 / 2) {v : Val} (hv : IsReport A v) {k i : ℕ} {q e d : ℚ} (h : NearSince k i v q e)
    (hq : Clear d q) (he : 10 ^ 4 * e + 2 * R.unit * (10 ^ 4 * |q| + 1) ≤ 1 / 2 + d) :
    v = if i < k then .nan else .fin (R.fl (roundQ 4 q)) := by
  unfold NearSince at h
  split at h
  · rw [if_pos ‹_›]; exact h
  rw [if_neg ‹_›]
  obtain ⟨r, rfl, hr⟩ := h
  obtain ⟨z, hz⟩ := hv r rfl
  have hu0 := R.nonneg
  have hd : d < 1 / 2 := by
    have := hq ⌊q * 10 ^ 4⌋
    have h1 := Int.floor_le (q * 10 ^ 4)
    have h2 := Int.lt_floor_add_one (q * 10 ^ 4)
    generalize q * 10 ^ 4 = y at this h1 h2
    generalize ((⌊y⌋ : ℤ) : ℚ) = z at this h1 h2
    exact this.trans_le (abs_le.2 ⟨by linarith, by linarith⟩)
  have he0 : 0 ≤ e := (abs_nonneg _).trans hr
  have hz' : |r - (z : ℚ) / 10 ^ 4| ≤ R.unit * |(z : ℚ) / 10 ^ 4| := by rw [hz, hA]; exact R.error _
  obtain ⟨a, ha⟩ : ∃ a, a = (z : ℚ) / 10 ^ 4 := ⟨_, rfl⟩
  rw [← ha] at hz'
  have hra : |a| ≤ 2 * |r| := by
    have h1 : |a| ≤ |r| + |r - a| := by
      have := abs_sub_abs_le_abs_sub a r
      rw [abs_sub_comm] at this
      linarith
    have h2 : R.unit * |a| ≤ 1 / 2 * |a| := mul_le_mul_of_nonneg_right hu (abs_nonneg _)
    linarith
  have hrq : |r| ≤ |q| + e := by
    have := abs_sub_abs_le_abs_sub r q
    linarith
  have hdist : |a - q| ≤ 2 * R.unit * (|q| + e) + e := by
    have h1 : |a - q| ≤ |r - a| + |r - q| := by
      have := abs_sub_le a r q
      rw [abs_sub_comm a r] at this
      exact this
    have h2 : R.unit * |a| ≤ R.unit * (2 * (|q| + e)) := mul_le_mul_of_nonneg_left (by linarith) hu0
    linarith
  have hue : R.unit * (10 ^ 4 * e) ≤ R.unit * 1 := by
    apply mul_le_mul_of_nonneg_left _ hu0
    have : 0 ≤ R.unit * (10 ^ 4 * |q| + 1) := by positivity
    linarith
  have hk : |(z : ℚ) - q * 10 ^ 4| ≤ 1 / 2 + d := by
    have e1 : (z : ℚ) - q * 10 ^ 4 = 10 ^ 4 * (a - q) := by rw [ha]; ring
    rw [e1, abs_mul, abs_of_pos (by norm_num : (0 : ℚ) < 10 ^ 4)]
    have := mul_le_mul_of_nonneg_left hdist (by norm_num : (0 : ℚ) ≤ 10 ^ 4)
    linarith
  have hzr := rint_of_clear hq z hk
  rw [hz, hA, hzr]
  rfl

/-- C91: an object of a class with four decimals. -/
theorem C91_correct (hA : Rounded R A) (hB : FloatBuilt A E c f fill o AnyPrices) (hi : ReportsFour o.ind) (hu : R.unit ≤ 1 / 2)
    (name : String) {k i : ℕ} {q e d : ℚ} (h : NearSince k i (o.getTiData.day name i) q e) (hq : Clear d q)
    (he : 10 ^ 4 * e + 2 * R.unit * (10 ^ 4 * |q| + 1) ≤ 1 / 2 + d) :
    o.getTiData.day name i = if i < k then .nan else .fin (R.fl (roundQ 4 q)) :=
  C91_report hA.fl hu (C91_four_decimals hB.ok hi name i) h hq he

/-- A bound for another exact value nearby. -/
theorem NearSince.move {k i : ℕ} {v : Val} {q q' e e' : ℚ} (h : NearSince k i v q e) (hq : k ≤ i → |q - q'| ≤ e' - e) : NearSince k i v q' e' := by
  unfold NearSince at h ⊢
  split at h
  · rw [if_pos ‹_›]; exact h
  · rw [if_neg ‹_›]
    obtain ⟨r, hr, h1⟩ := h
    refine ⟨r, hr, ?_⟩
    have := hq (by omega)
    have h2 := abs_sub_le r q q'
    linarith

/-- A stored price is close to the price. -/
theorem stored_close {name : String} {p : ℕ → ℚ} {M : ℚ} (hs : Stored R.fl f name p) (hp : ∀ j < f.idx.length, |p j| ≤ M)
    {j : ℕ} (hj : j < f.idx.length) : |price f name j - p j| ≤ R.unit * M := by
  rw [hs j hj]
  exact (R.error _).trans (mul_le_mul_of_nonneg_left (hp j hj) R.nonneg)

theorem stored_atMost {name : String} {p : ℕ → ℚ} {M : ℚ} (hs : Stored R.fl f name p) (hp : ∀ j < f.idx.length, |p j| ≤ M)
    (hu : R.unit ≤ 1) : AtMost f name (2 * M) := by
  intro j hj
  have h1 := stored_close hs hp hj
  have h2 := hp j hj
  have h3 := abs_sub_abs_le_abs_sub (price f name j) (p j)
  have h4 : R.unit * M ≤ 1 * M := mul_le_mul_of_nonneg_right hu ((abs_nonneg _).trans h2)
  linarith

/-- C91: on prices in cents the median price is the float next to the decimal number `(high + low) / 2`. -/
theorem C91_median_price (hA : Rounded R A) (hB : FloatBuilt A E c f fill o AnyPrices) (n : ℕ) (ho : o.ind = .medianPrice n)
    (hc lc : ℕ → ℤ) (hh : Stored R.fl f "high" fun j => hc j / 100) (hl : Stored R.fl f "low" fun j => lc j / 100)
    (M : ℚ) (hM : ∀ j < f.idx.length, |(hc j : ℚ) / 100| ≤ M ∧ |(lc j : ℚ) / 100| ≤ M) (hu : 10 ^ 6 * R.unit * (M + 1) ≤ 1)
    (i : ℕ) (hi : i < f.idx.length) :
    o.getTiData.day "mp" i = .fin (R.fl (((hc i : ℚ) + lc i) / 200)) := by
  have hu0 := R.nonneg
  have hM0 : 0 ≤ M := (abs_nonneg _).trans (hM i hi).1
  have huM : 0 ≤ R.unit * M := by positivity
  have hu1 : R.unit ≤ 1 / 10 ^ 6 := by linarith
  have h1 := C85_median_price hA hB n ho (2 * M) (stored_atMost hh (fun j hj => (hM j hj).1) (by linarith))
    (stored_atMost hl (fun j hj => (hM j hj).2) (by linarith)) (by linarith) i hi
  have c1 := stored_close hh (fun j hj => (hM j hj).1) hi
  have c2 := stored_close hl (fun j hj => (hM j hj).2) hi
  have h2 := NearSince.move (q' := ((hc i : ℚ) + lc i) / 200) (e' := 1 / 20000 + 15 * R.unit * (M + 1)) h1 fun _ => by
    have e1 : (high f i + low f i) / 2 - ((hc i : ℚ) + lc i) / 200 = ((price f "high" i - hc i / 100) + (price f "low" i - lc i / 100)) / 2 := by
      show (price f "high" i + price f "low" i) / 2 - _ = _
      ring
    rw [e1, abs_div, abs_of_pos (by norm_num : (0 : ℚ) < 2)]
    have := abs_add_le (price f "high" i - hc i / 100) (price f "low" i - lc i / 100)
    linarith
  have hq : |((hc i : ℚ) + lc i) / 200| ≤ M := by
    have a1 := abs_le.1 (hM i hi).1
    have a2 := abs_le.1 (hM i hi).2
    exact abs_le.2 ⟨by linarith [a1.1, a2.1], by linarith [a1.2, a2.2]⟩
  have hqu := mul_le_mul_of_nonneg_left hq hu0
  have hr : ((hc i : ℚ) + lc i) / 200 = ((50 * (hc i + lc i) : ℤ) : ℚ) / 10 ^ 4 := by push_cast; ring
  have h3 := C91_correct hA hB (by rw [ho]; trivial) (by linarith) "mp" h2 (clear_decimals (d := 49 / 100) _ hr (by norm_num)) (by linarith)
  rw [h3, if_neg (by omega)]
  congr 2
  rw [hr]
  unfold roundQ
  rw [div_mul_cancel₀ _ (by norm_num), rint_intCast]

/-- C91: on prices in cents the weighted close is the float next to the decimal number `(2 close + high + low) / 4`. -/
theorem C91_weighted_close (hA : Rounded R A) (hB : FloatBuilt A E c f fill o AnyPrices) (ho : o.ind = .weightedClose)
    (hc lc cc : ℕ → ℤ) (hh : Stored R.fl f "high" fun j => hc j / 100) (hl : Stored R.fl f "low" fun j => lc j / 100)
    (hcl : Stored R.fl f "close" fun j => cc j / 100) (M : ℚ)
    (hM : ∀ j < f.idx.length, |(hc j : ℚ) / 100| ≤ M ∧ |(lc j : ℚ) / 100| ≤ M ∧ |(cc j : ℚ) / 100| ≤ M)
    (hu : 10 ^ 6 * R.unit * (M + 1) ≤ 1) (i : ℕ) (hi : i < f.idx.length) :
    o.getTiData.day "wc" i = .fin (R.fl ((2 * (cc i : ℚ) + hc i + lc i) / 400)) := by
  have hu0 := R.nonneg
  have hM0 : 0 ≤ M := (abs_nonneg _).trans (hM i hi).1
  have huM : 0 ≤ R.unit * M := by positivity
  have hu1 : R.unit ≤ 1 / 10 ^ 6 := by linarith
  have h1 := C85_weighted_close hA hB ho (2 * M) (by
    intro name hn
    simp only [List.mem_cons, List.not_mem_nil, or_false] at hn
    rcases hn with rfl | rfl | rfl
    · exact stored_atMost hh (fun j hj => (hM j hj).1) (by linarith)
    · exact stored_atMost hl (fun j hj => (hM j hj).2.1) (by linarith)
    · exact stored_atMost hcl (fun j hj => (hM j hj).2.2) (by linarith)) (by linarith) i hi
  have c1 := abs_le.1 (stored_close hh (fun j hj => (hM j hj).1) hi)
  have c2 := abs_le.1 (stored_close hl (fun j hj => (hM j hj).2.1) hi)
  have c3 := abs_le.1 (stored_close hcl (fun j hj => (hM j hj).2.2) hi)
  have h2 := NearSince.move (q' := (2 * (cc i : ℚ) + hc i + lc i) / 400) (e' := 1 / 20000 + 20 * R.unit * (M + 1)) h1 fun _ => by
    show |(2 * price f "close" i + price f "high" i + price f "low" i) / 4 - _| ≤ _
    exact abs_le.2 ⟨by linarith [c1.1, c2.1, c3.1], by linarith [c1.2, c2.2, c3.2]⟩
  have hq : |(2 * (cc i : ℚ) + hc i + lc i) / 400| ≤ M := by
    have a1 := abs_le.1 (hM i hi).1
    have a2 := abs_le.1 (hM i hi).2.1
    have a3 := abs_le.1 (hM i hi).2.2
    exact abs_le.2 ⟨by linarith [a1.1, a2.1, a3.1], by linarith [a1.2, a2.2, a3.2]⟩
  have hqu := mul_le_mul_of_nonneg_left hq hu0
  have hr : (2 * (cc i : ℚ) + hc i + lc i) / 400 = ((25 * (2 * cc i + hc i + lc i) : ℤ) : ℚ) / 10 ^ 4 := by push_cast; ring
  have h3 := C91_correct hA hB (by rw [ho]; trivial) (by linarith) "wc" h2 (clear_decimals (d := 49 / 100) _ hr (by norm_num)) (by linarith)
  rw [h3, if_neg (by omega)]
  congr 2
  rw [hr]
  unfold roundQ
  rw [div_mul_cancel₀ _ (by norm_num), rint_intCast]

/-- C91: the simple moving average is the float next to the decimal mean of the quoted prices with four decimals, unless that
mean is within 1/100 of a unit of the fourth decimal of a tie. -/
theorem C91_simple (hA : Rounded R A) (hB : FloatBuilt A E c f fill o AnyPrices) (n : ℕ) (ho : o.ind = .movingAverage n .simple)
    (p : ℕ → ℚ) (hs : Stored R.fl f "close" p) (M : ℚ) (hM : ∀ j < f.idx.length, |p j| ≤ M)
    (hu : 10 ^ 8 * R.unit * f.idx.length * (M + 1) ≤ 1) (i : ℕ) (hi : i < f.idx.length) (hq : Clear (1 / 100) (meanLast n p i)) :
    o.getTiData.day "ma-simple" i = if i < n - 1 then .nan else .fin (R.fl (roundQ 4 (meanLast n p i))) := by
  have hu0 := R.nonneg
  have hM0 : 0 ≤ M := (abs_nonneg _).trans (hM i hi)
  have hL : (1 : ℚ) ≤ f.idx.length := by exact_mod_cast (by omega : 1 ≤ f.idx.length)
  have huM : 0 ≤ R.unit * M := by positivity
  have huLM : R.unit * (M + 1) ≤ R.unit * (M + 1) * f.idx.length := le_mul_of_one_le_right (by positivity) hL
  have huL : 0 ≤ R.unit * M * f.idx.length := by positivity
  have hu1 : R.unit ≤ 1 / 10 ^ 8 := by linarith
  have hp : 1 ≤ n := by
    obtain ⟨F, -, -, -, hp, -⟩ := hB.on ho (by simp [Ind.required])
    exact hp.1
  have h1 := C86_simple hA hB n ho (2 * M) (stored_atMost hs hM (by linarith)) (by linarith) i hi
  have near : n - 1 ≤ i → |meanLast n (close f) i - meanLast n p i| ≤ R.unit * M ∧ |meanLast n p i| ≤ M := by
    intro hk
    have hn0 : (0 : ℚ) < n := by exact_mod_cast hp
    have sums : ∀ w ≤ n, |sumLast w (close f) i - sumLast w p i| ≤ w * (R.unit * M) ∧ |sumLast w p i| ≤ w * M := by
      intro w hw
      have e1 : ((w : ℚ)) = ∑ _t ∈ Finset.range w, (1 : ℚ) := by simp
      unfold sumLast
      rw [← Finset.sum_sub_distrib, e1, Finset.sum_mul, Finset.sum_mul]
      constructor
      · refine (Finset.abs_sum_le_sum_abs _ _).trans (Finset.sum_le_sum fun t ht => ?_)
        rw [one_mul]
        exact stored_close hs hM (by omega)
      · refine (Finset.abs_sum_le_sum_abs _ _).trans (Finset.sum_le_sum fun t ht => ?_)
        rw [one_mul]
        exact hM _ (by omega)
    obtain ⟨s1, s2⟩ := sums n (le_refl _)
    unfold meanLast
    rw [← sub_div, abs_div, abs_div, abs_of_pos hn0, div_le_iff₀ hn0, div_le_iff₀ hn0]
    exact ⟨by linarith, by linarith⟩
  rcases Nat.lt_or_ge i (n - 1) with hk | hk
  · rw [if_pos hk]
    unfold NearSince at h1
    rwa [if_pos hk] at h1
  have h2 := NearSince.move (q' := meanLast n p i) (e' := 1 / 20000 + 40 * R.unit * f.idx.length * (M + 1)) h1 fun _ => by
    have := (near hk).1
    have t1 : 0 ≤ R.unit * f.idx.length := by positivity
    have t2 : R.unit * M ≤ R.unit * M * f.idx.length := le_mul_of_one_le_right huM hL
    linarith
  have hqu := mul_le_mul_of_nonneg_left (near hk).2 hu0
  exact C91_correct hA hB (by rw [ho]; trivial) (by linarith) "ma-simple" h2 hq (by linarith)

/-- A third of a number of cents is never next to a tie. -/
theorem clear_thirds (s : ℤ) : Clear (1 / 10) ((s : ℚ) / 300) := by
  intro m
  have e1 : (s : ℚ) / 300 * 10 ^ 4 - (m + 1 / 2) = ((200 * s - 6 * m - 3 : ℤ) : ℚ) / 6 := by push_cast; ring
  rw [e1, abs_div, abs_of_pos (by norm_num : (0 : ℚ) < 6), lt_div_iff₀ (by norm_num)]
  have h1 : (1 : ℤ) ≤ |200 * s - 6 * m - 3| := Int.one_le_abs (by omega)
  have h2 : (1 : ℚ) ≤ |((200 * s - 6 * m - 3 : ℤ) : ℚ)| := by exact_mod_cast h1
  linarith

/-- C91: on prices in cents the typical price is the float next to the decimal number `(high + low + close) / 3` with four decimals:
no exception for ties is needed. -/
theorem C91_typical_price (hA : Rounded R A) (hB : FloatBuilt A E c f fill o AnyPrices) (n : ℕ) (ho : o.ind = .typicalPrice n)
    (hc lc cc : ℕ → ℤ) (hh : Stored R.fl f "high" fun j => hc j / 100) (hl : Stored R.fl f "low" fun j => lc j / 100)
    (hcl : Stored R.fl f "close" fun j => cc j / 100) (M : ℚ)
    (hM : ∀ j < f.idx.length, |(hc j : ℚ) / 100| ≤ M ∧ |(lc j : ℚ) / 100| ≤ M ∧ |(cc j : ℚ) / 100| ≤ M)
    (hu : 10 ^ 7 * R.unit * (M + 1) ≤ 1) (i : ℕ) (hi : i < f.idx.length) :
    o.getTiData.day "tp" i = .fin (R.fl (roundQ 4 (((hc i : ℚ) + lc i + cc i) / 300))) := by
  have hu0 := R.nonneg
  have hM0 : 0 ≤ M := (abs_nonneg _).trans (hM i hi).1
  have huM : 0 ≤ R.unit * M := by positivity
  have hu1 : R.unit ≤ 1 / 10 ^ 7 := by linarith
  have h1 := C85_typical_price hA hB n ho (2 * M) (by
    intro name hn
    simp only [List.mem_cons, List.not_mem_nil, or_false] at hn
    rcases hn with rfl | rfl | rfl
    · exact stored_atMost hh (fun j hj => (hM j hj).1) (by linarith)
    · exact stored_atMost hl (fun j hj => (hM j hj).2.1) (by linarith)
    · exact stored_atMost hcl (fun j hj => (hM j hj).2.2) (by linarith)) (by linarith) i hi
  have c1 := abs_le.1 (stored_close hh (fun j hj => (hM j hj).1) hi)
  have c2 := abs_le.1 (stored_close hl (fun j hj => (hM j hj).2.1) hi)
  have c3 := abs_le.1 (stored_close hcl (fun j hj => (hM j hj).2.2) hi)
  have h2 := NearSince.move (q' := ((hc i : ℚ) + lc i + cc i) / 300) (e' := 1 / 20000 + 20 * R.unit * (M + 1)) h1 fun _ => by
    show |(price f "high" i + price f "low" i + price f "close" i) / 3 - _| ≤ _
    exact abs_le.2 ⟨by linarith [c1.1, c2.1, c3.1], by linarith [c1.2, c2.2, c3.2]⟩
  have hq : |((hc i : ℚ) + lc i + cc i) / 300| ≤ M := by
    have a1 := abs_le.1 (hM i hi).1
    have a2 := abs_le.1 (hM i hi).2.1
    have a3 := abs_le.1 (hM i hi).2.2
    exact abs_le.2 ⟨by linarith [a1.1, a2.1, a3.1], by linarith [a1.2, a2.2, a3.2]⟩
  have hqu := mul_le_mul_of_nonneg_left hq hu0
  have hcl := clear_thirds (hc i + lc i + cc i)
  push_cast at hcl
  have h3 := C91_correct hA hB (by rw [ho]; trivial) (by linarith) "tp" h2 hcl (by linarith)
  rw [h3, if_neg (by omega)]

/-- C91: on prices in cents the price channel reports the stored prices themselves. -/
theorem C91_price_channel (hA : Rounded R A) (hB : FloatBuilt A E c f fill o AnyPrices) (n : ℕ) (ho : o.ind = .priceChannel n)
    (hc lc : ℕ → ℤ) (hh : Stored R.fl f "high" fun j => hc j / 100) (hl : Stored R.fl f "low" fun j => lc j / 100)
    (M : ℚ) (hM : ∀ j < f.idx.length, |(hc j : ℚ) / 100| ≤ M ∧ |(lc j : ℚ) / 100| ≤ M) (hu : 10 ^ 6 * R.unit * (M + 1) ≤ 1)
    (i : ℕ) (hi : i < f.idx.length) :
    (o.getTiData.day "highest_high" i = if i < n then .nan else .fin (highest n (high f) (i - 1))) ∧
    (o.getTiData.day "lowest_low" i = if i < n then .nan else .fin (lowest n (low f) (i - 1))) := by
  have hu0 := R.nonneg
  have hM0 : 0 ≤ M := (abs_nonneg _).trans (hM i hi).1
  have huM : 0 ≤ R.unit * M := by positivity
  have hu1 : R.unit ≤ 1 / 10 ^ 6 := by linarith
  have hp : 1 ≤ n := by
    obtain ⟨F, -, -, -, hp, -⟩ := hB.on ho (by simp [Ind.required])
    exact hp
  have h1 := C85_price_channel hA hB n ho (2 * M) (stored_atMost hh (fun j hj => (hM j hj).1) (by linarith))
    (stored_atMost hl (fun j hj => (hM j hj).2) (by linarith)) (by linarith) i hi
  have go : ∀ (name : String) (z : ℤ) (p : ℚ), |(z : ℚ) / 100| ≤ M → p = R.fl (z / 100) →
      NearSince n i (o.getTiData.day name i) p (1 / 20000 + 4 * R.unit * (2 * M + 1)) →
      o.getTiData.day name i = if i < n then .nan else .fin p := by
    rintro name z p hz rfl h
    have h2 := NearSince.move (q' := (z : ℚ) / 100) (e' := 1 / 20000 + 10 * R.unit * (M + 1)) h fun _ => by
      have := R.error ((z : ℚ) / 100)
      have h3 := mul_le_mul_of_nonneg_left hz hu0
      linarith
    have hqu := mul_le_mul_of_nonneg_left hz hu0
    have hr : (z : ℚ) / 100 = ((100 * z : ℤ) : ℚ) / 10 ^ 4 := by push_cast; ring
    have h3 := C91_correct hA hB (by rw [ho]; trivial) (by linarith) name h2 (clear_decimals (d := 49 / 100) _ hr (by norm_num)) (by linarith)
    rw [h3]
    have : roundQ 4 ((z : ℚ) / 100) = (z : ℚ) / 100 := by
      rw [hr]
      unfold roundQ
      rw [div_mul_cancel₀ _ (by norm_num), rint_intCast]
    rw [this]
  obtain ⟨-, t, ht, e1⟩ := Nums.highest_spec n hp (high f) (i - 1)
  obtain ⟨-, t', ht', e2⟩ := Nums.lowest_spec n hp (low f) (i - 1)
  exact ⟨go _ (hc (i - 1 - t)) _ (hM _ (by omega)).1 (e1.trans (hh _ (by omega))) h1.1,
    go _ (lc (i - 1 - t')) _ (hM _ (by omega)).2 (e2.trans (hl _ (by omega))) h1.2⟩

/-- C91: on-balance volume of whole numbers is exact as long as the volumes together stay below the whole numbers that the arithmetic
keeps (2^53 in float64): the object is the one that exact arithmetic gives. -/
theorem C91_on_balance_volume (hB : FloatBuilt A E c f fill o AnyPrices) (ho : o.ind = .onBalanceVolume) (N : ℚ)
    (hN : ∀ z : ℤ, |(z : ℚ)| ≤ N → A.fl z = z) (vz : ℕ → ℤ) (hv : ∀ j < f.idx.length, volume f j = vz j)
    (hs : ∑ j ∈ Finset.range f.idx.length, |volume f j| ≤ N) :
    (construct E c (.frame f) (.bool fill)).2 = .ok o := by
  obtain ⟨F, hc, hval, hl, hn, ht, hin⟩ := hB.validated
  rw [ho] at hc hval hn ht hin
  refine (construct_ok_iff _ _ _ _ _).2 ⟨.onBalanceVolume, F, o.getTiData, hc, hval, ?_, ?_⟩
  swap
  · rcases o with ⟨ind, input, T⟩
    simp only [Obj.getTiData] at *
    rw [hin, ho]
    rfl
  rw [← ht]
  show Except.ok _ = Except.ok _
  have hcl : Nums F.len 0 (close f) (F.col "close") := hn _ (by simp [Ind.required])
  have hvo : Nums F.len 0 (volume f) (F.col "volume") := hn _ (by simp [Ind.required])
  have h1 := hcl.shift 1
  obtain ⟨s, hs'⟩ : ∃ s : ℕ → ℤ, ∀ i < F.len,
      val (zip3 Ind.OnBalanceVolume.signedVolume (F.col "close") (shift 1 (F.col "close")) (F.col "volume")) i = .fin (s i) ∧
        |s i| ≤ |vz i| := by
    refine ⟨fun i => if i = 0 then 0 else if close f i < close f (i - 1) then -vz i else if close f (i - 1) < close f i then vz i else 0,
      fun i hi => ?_⟩
    rw [val_zip3 _ _ _ _ _ (by rw [hcl.len]; exact hi) (by rw [h1.len]; exact hi) (by rw [hvo.len]; exact hi), hcl.val i hi, h1.val i hi,
      hvo.val i hi, hv i (by omega)]
    simp only [Nat.not_lt_zero, if_false, zero_add, Nat.lt_one_iff]
    by_cases h0 : i = 0
    · simp [h0, Ind.OnBalanceVolume.signedVolume]
      rfl
    · simp only [h0, if_false]
      unfold Ind.OnBalanceVolume.signedVolume
      by_cases g1 : close f i < close f (i - 1)
      · simp [g1, Val.neg]
      · by_cases g2 : close f (i - 1) < close f i
        · simp [g1, g2]
        · simp [g1, g2]
          rfl
  have e1 : zip3 Ind.OnBalanceVolume.signedVolume (F.col "close") (shift 1 (F.col "close")) (F.col "volume") =
      ((List.range F.len).map s).map fun z : ℤ => Val.fin z := by
    apply val_ext
    · simp [hcl.len, hvo.len]
    intro i hi
    have hi' : i < F.len := by simpa [hcl.len, hvo.len] using hi
    rw [(hs' i hi').1, val_lt _ _ (by simpa using hi')]
    simp
  have e2 := cumsum_whole A N hN ((List.range F.len).map s) (by
    refine le_trans ?_ hs
    rw [← hl, List.map_map, ← List.sum_toFinset _ List.nodup_range, List.toFinset_range]
    refine Finset.sum_le_sum fun j hj => ?_
    have hj' : j < F.len := Finset.mem_range.1 hj
    rw [hv j (by omega)]
    show |((s j : ℤ) : ℚ)| ≤ _
    exact_mod_cast (hs' j hj').2)
  rw [e1, e2]

/-- C91: so on-balance volume in float64 is the volume of the days on which the close rose minus the volume of those on which it
fell, without an error. -/
theorem C91_on_balance_volume_double (hB : FloatBuilt doubleArith E c f fill o AnyPrices) (ho : o.ind = .onBalanceVolume)
    (vz : ℕ → ℤ) (hv : ∀ j < f.idx.length, volume f j = vz j) (hs : ∑ j ∈ Finset.range f.idx.length, |volume f j| ≤ 2 ^ 53)
    (i : ℕ) (hi : i < f.idx.length) :
    o.getTiData.day "obv" i = .fin ((∑ j ∈ closeRose f i, volume f j) - ∑ j ∈ closeFell f i, volume f j) :=
  C43_on_balance_volume E c f fill o hB.wf
    (C91_on_balance_volume hB ho (2 ^ 53) (fun z hz => toDouble_whole z (by exact_mod_cast hz)) vz hv hs) hB.rows ho i hi

/-! ## A table on which the hypotheses hold -/

/-- Quotations in cents. -/
def quotedHigh (k : ℕ) : ℤ := 1013 + ((7 * k) % 5 : ℕ)
def quotedLow (k : ℕ) : ℤ := 991 - ((3 * k) % 4 : ℕ)
def quotedClose (k : ℕ) : ℤ := 1001 + ((7 * k) % 10 : ℕ)

/-- `n` days with these prices, stored in float64, and whole volumes. -/
def quoted (n : ℕ) : RawFrame :=
  let data (g : ℕ → ℤ) := (List.range n).map fun k => Val.fin (toDouble (g k / 100))
  ⟨true, (List.range n).map fun k => (k : ℤ),
    [⟨.str "high", true, data quotedHigh⟩, ⟨.str "low", true, data quotedLow⟩, ⟨.str "close", true, data quotedClose⟩,
      ⟨.str "volume", true, (List.range n).map fun k : ℕ => Val.fin (1234567 + 1000 * (k : ℚ))⟩]⟩

theorem quoted_built {c : Call} {ind : Ind} (n : ℕ) (name : String) (i : ℕ) (v : Val)
    (h : ((Flt.construct doubleArith demoEnv c (.frame (quoted n)) (.bool true)).2.map fun o => (o.ind, o.getTiData.day name i)) = .ok (ind, v))
    (hn : ∀ m ∈ ind.required, m ∈ ["high", "low", "close", "volume"]) :
    ∃ o, FloatBuilt doubleArith demoEnv c (quoted n) true o AnyPrices ∧ o.ind = ind ∧ o.getTiData.day name i = v := by
  cases hc : (Flt.construct doubleArith demoEnv c (.frame (quoted n)) (.bool true)).2 with
  | error e => rw [hc] at h; simp [Except.map] at h
  | ok o =>
    rw [hc] at h
    simp only [Except.map, Except.ok.injEq, Prod.mk.injEq] at h
    obtain ⟨h1, h2⟩ := h
    refine ⟨o, ⟨fun c hc => ?_, hc, ?_⟩, h1, h2⟩
    · simp only [quoted, List.mem_cons, List.not_mem_nil, or_false] at hc
      rcases hc with rfl | rfl | rfl | rfl <;> simp [quoted]
    rw [h1]
    intro j hj
    have hj' : j < n := by simpa [quoted] using hj
    refine ⟨fun m => if m = "volume" then 1234567 + 1000 * (j : ℚ) else if m = "high" then toDouble (quotedHigh j / 100)
      else if m = "low" then toDouble (quotedLow j / 100) else toDouble (quotedClose j / 100), fun m hm => ?_, trivial⟩
    have := hn m hm
    simp only [List.mem_cons, List.not_mem_nil, or_false] at this
    have e2 : "high".toLower = "high" := by decide +kernel
    have e3 : "low".toLower = "low" := by decide +kernel
    have e4 : "close".toLower = "close" := by decide +kernel
    have e5 : "volume".toLower = "volume" := by decide +kernel
    rcases this with rfl | rfl | rfl | rfl <;>
      simp [RawFrame.cell, quoted, Label.lower, e2, e3, e4, e5, List.find?, hj']

theorem quoted_stored : (Stored double.fl (quoted 5) "high" fun j => quotedHigh j / 100) ∧
    (Stored double.fl (quoted 5) "low" fun j => quotedLow j / 100) ∧ (Stored double.fl (quoted 5) "close" fun j => quotedClose j / 100) ∧
    ∀ j < 5, |(quotedHigh j : ℚ) / 100| ≤ 11 ∧ |(quotedLow j : ℚ) / 100| ≤ 11 ∧ |(quotedClose j : ℚ) / 100| ≤ 11 := by
  refine ⟨?_, ?_, ?_, ?_⟩
  · unfold Stored; decide +kernel
  · unfold Stored; decide +kernel
  · unfold Stored; decide +kernel
  · decide +kernel

/-- The hypotheses of `C91_median_price`: 10.15 and 9.88 give 10.015. -/
example : (∃ o, FloatBuilt doubleArith demoEnv (.medianPrice (.int 3)) (quoted 5) true o AnyPrices ∧ o.ind = .medianPrice 3 ∧
      o.getTiData.day "mp" 1 = .fin (toDouble (10015 / 1000))) ∧ 10 ^ 6 * double.unit * (11 + 1) ≤ 1 :=
  ⟨quoted_built 5 "mp" 1 _ (by decide +kernel) (by decide), by decide +kernel⟩

/-- The hypotheses of `C91_weighted_close`. -/
example : (∃ o, FloatBuilt doubleArith demoEnv .weightedClose (quoted 5) true o AnyPrices ∧ o.ind = .weightedClose ∧
      o.getTiData.day "wc" 1 = .fin (toDouble (100475 / 10000))) :=
  quoted_built 5 "wc" 1 _ (by decide +kernel) (by decide)

/-- The hypotheses of `C91_typical_price`. -/
example : (∃ o, FloatBuilt doubleArith demoEnv (.typicalPrice (.int 3)) (quoted 5) true o AnyPrices ∧ o.ind = .typicalPrice 3 ∧
      o.getTiData.day "tp" 1 = .fin (toDouble (100367 / 10000))) ∧ 10 ^ 7 * double.unit * (11 + 1) ≤ 1 :=
  ⟨quoted_built 5 "tp" 1 _ (by decide +kernel) (by decide), by decide +kernel⟩

/-- The hypotheses of `C91_price_channel`. -/
example : (∃ o, FloatBuilt doubleArith demoEnv (.priceChannel (.int 3)) (quoted 5) true o AnyPrices ∧ o.ind = .priceChannel 3 ∧
      o.getTiData.day "highest_high" 4 = .fin (toDouble (1017 / 100))) :=
  quoted_built 5 "highest_high" 4 _ (by decide +kernel) (by decide)

/-- The hypotheses of `C91_simple`: the mean of 10.08, 10.05 and 10.02. -/
example : (∃ o, FloatBuilt doubleArith demoEnv (.movingAverage (.int 3) (.str "simple")) (quoted 5) true o AnyPrices ∧
      o.ind = .movingAverage 3 .simple ∧ o.getTiData.day "ma-simple" 3 = .fin (toDouble (1005 / 100))) ∧
    Clear (1 / 100) (meanLast 3 (fun j => (quotedClose j : ℚ) / 100) 3) ∧
    10 ^ 8 * double.unit * (quoted 5).idx.length * (11 + 1) ≤ 1 :=
  ⟨quoted_built 5 "ma-simple" 3 _ (by decide +kernel) (by decide), clear_decimals 100500 (by decide +kernel) (by norm_num), by decide +kernel⟩

/-- The hypotheses of `C91_on_balance_volume_double`. -/
example : (∃ o, FloatBuilt doubleArith demoEnv .onBalanceVolume (quoted 5) true o AnyPrices ∧ o.ind = .onBalanceVolume ∧
      o.getTiData.day "obv" 2 = .fin (-1000)) ∧ (∀ j < 5, volume (quoted 5) j = ((1234567 + 1000 * j : ℤ) : ℚ)) ∧
    ∑ j ∈ Finset.range (quoted 5).idx.length, |volume (quoted 5) j| ≤ 2 ^ 53 :=
  ⟨quoted_built 5 "obv" 2 _ (by decide +kernel) (by decide), by decide +kernel, by decide +kernel⟩

end TTI.Props
