import Verif.Lemmas.Rounding
import Verif.Lemmas.Double

set_option autoImplicit false

/-!
# C82: a simulation in rounded arithmetic

The other statements about the simulator are about exact numbers. Here each operation is followed by a rounding, as in float64
arithmetic (`Spec.double`; any `Spec.Rounding` will do). The ledger of a history (`Spec.realised`, `Spec.exposure`,
`Spec.numOpen`) is evaluated exactly, on the recorded actions and prices.
-/

namespace TTI.Props

open Sim Spec

variable (R : Rounding)

/-- The limit holds for the recorded exposures in rounded arithmetic too. -/
theorem C82_within_limit (m f : ℚ) (hm : 0 ≤ m) (hf : 0 < f) (ds : List (Day ℚ)) (hp : ∀ d ∈ ds, 0 ≤ d.1)
    (x : Row ℚ) (hx : x ∈ (roundedRun R ⟨some m, f⟩ ds).rows) : x.exposure ≤ m := by
  obtain ⟨i, hi⟩ := List.mem_iff_getElem?.1 hx
  exact (rounded_limit R ⟨some m, f⟩ hf ds hp m rfl hm i x hi).1

section bounds

variable (M : Option ℚ) (f : ℚ) (hf : 0 < f) (ds : List (Day ℚ)) (hp : ∀ d ∈ ds, 0 ≤ d.1) (ha : KeepsApart R f ds)
  (i : ℕ) (x : Row ℚ) (hx : (roundedRun R ⟨M, f⟩ ds).rows[i]? = some x)

include hf hp ha hx

/-- The recorded earnings are the realised profits, up to `i + 5` relative roundings of the turnover. -/
theorem C82_earnings : |x.earnings - realised ((roundedRun R ⟨M, f⟩ ds).rows.take (i + 1))| ≤
    ((1 + R.unit) ^ (i + 5) - 1) * turnover ((roundedRun R ⟨M, f⟩ ds).rows.take (i + 1)) :=
  (rounded_row R ⟨M, f⟩ hf ds hp ha i x hx).1.2

/-- The recorded exposure is the exposure of the open positions, up to `2 * i + 3` relative roundings of all its changes. -/
theorem C82_exposure : |x.exposure - exposure f ((roundedRun R ⟨M, f⟩ ds).rows.take (i + 1))| ≤
    ((1 + R.unit) ^ (2 * i + 3) - 1) * exposureFlow f ((roundedRun R ⟨M, f⟩ ds).rows.take (i + 1)) :=
  (rounded_row R ⟨M, f⟩ hf ds hp ha i x hx).2.2

/-- The recorded portfolio value is the price times the open long positions minus the open short positions, up to one rounding. -/
theorem C82_portfolio : |x.portfolio - x.stock * (numOpen .long ((roundedRun R ⟨M, f⟩ ds).rows.take (i + 1)) -
      numOpen .short ((roundedRun R ⟨M, f⟩ ds).rows.take (i + 1)))| ≤
    R.unit * (x.stock * (numOpen .long ((roundedRun R ⟨M, f⟩ ds).rows.take (i + 1)) +
      numOpen .short ((roundedRun R ⟨M, f⟩ ds).rows.take (i + 1)))) := by
  have := (rounded_balance R ⟨M, f⟩ hf ds hp ha i x hx).1.2
  rwa [pow_one, add_sub_cancel_left] at this

/-- The recorded balance. -/
theorem C82_balance : |x.balance - (x.stock * (numOpen .long ((roundedRun R ⟨M, f⟩ ds).rows.take (i + 1)) -
      numOpen .short ((roundedRun R ⟨M, f⟩ ds).rows.take (i + 1))) + realised ((roundedRun R ⟨M, f⟩ ds).rows.take (i + 1)))| ≤
    ((1 + R.unit) ^ (i + 6) - 1) * (x.stock * (numOpen .long ((roundedRun R ⟨M, f⟩ ds).rows.take (i + 1)) +
      numOpen .short ((roundedRun R ⟨M, f⟩ ds).rows.take (i + 1))) + turnover ((roundedRun R ⟨M, f⟩ ds).rows.take (i + 1))) := by
  obtain ⟨h1, h2⟩ := rounded_balance R ⟨M, f⟩ hf ds hp ha i x hx
  rw [h2]
  exact (h1.add (rounded_row R ⟨M, f⟩ hf ds hp ha i x hx).1 (m := i + 5) (by omega) (by omega)).2

end bounds

/-! ## Without a limit: the exact simulation -/

/-- What the ledger reads of a row. -/
def bare (r : Row ℚ) : Row ℚ := ⟨.hold, r.action, r.stock, 0, 0, 0, 0⟩

theorem closingPrice_bare (s : Side) (e : ℚ) (h : List (Row ℚ)) : closingPrice s e (h.map bare) = closingPrice s e h := by
  have : (h.map bare).map (·.stock) = h.map (·.stock) := by simp [bare, Function.comp_def]
  unfold closingPrice
  rw [this]

theorem ledger_bare (h : List (Row ℚ)) : realised (h.map bare) = realised h ∧ turnover (h.map bare) = turnover h ∧
    (∀ g, sumOpen g (h.map bare) = sumOpen g h) ∧ ∀ f, exposureFlow f (h.map bare) = exposureFlow f h := by
  induction h with
  | nil => simp
  | cons r h ih =>
    obtain ⟨h1, h2, h3, h4⟩ := ih
    have ha : (bare r).action = r.action := rfl
    have hs : (bare r).stock = r.stock := rfl
    refine ⟨?_, ?_, fun g => ?_, fun f => ?_⟩
    · simp only [List.map_cons, realised, ha, hs, closingPrice_bare, h1]
    · simp only [List.map_cons, turnover, ha, hs, closingPrice_bare, h2]
    · simp only [List.map_cons, sumOpen, ha, hs, closingPrice_bare, h3]
    · simp only [List.map_cons, exposureFlow, ha, hs, closingPrice_bare, h4]

theorem unlimited_bare {N : Num ℚ} (f : ℚ) (ds : List (Day ℚ)) (i : ℕ) :
    ((@run ℚ N ⟨none, f⟩ ds).rows[i]?).map bare = (ds[i]?).map fun d => bare ⟨.hold,
      if i = 0 then .none else match d.2 with | .buy => .long | .sell => .short | .hold => .none, d.1, 0, 0, 0, 0⟩ := by
  cases hd : ds[i]? with
  | none =>
    have : (@run ℚ N ⟨none, f⟩ ds).rows[i]? = none := by
      rw [List.getElem?_eq_none_iff] at hd ⊢
      rwa [@run_rows_length ℚ N]
    rw [this]; rfl
  | some d =>
    obtain ⟨x, hx, hs, hg⟩ := @row_exists ℚ N ⟨none, f⟩ ds i d hd
    rw [hx]
    simp only [Option.map_some, bare, hs]
    cases i with
    | zero => rw [@row_zero ℚ N _ _ _ hx]; rfl
    | succ i =>
      obtain ⟨prev, -, c, -, ex, -, hact, -⟩ := @row_succ ℚ N _ _ _ _ hx
      rw [hact, hg]
      cases d.2 <;> rfl

theorem unlimited_rows (f : ℚ) (ds : List (Day ℚ)) :
    (roundedRun R ⟨none, f⟩ ds).rows.map bare = (run ⟨none, f⟩ ds).rows.map bare := by
  apply List.ext_getElem?
  intro i
  rw [List.getElem?_map, List.getElem?_map, roundedRun, unlimited_bare, unlimited_bare]

theorem unlimited_take (f : ℚ) (ds : List (Day ℚ)) (n : ℕ) :
    ((roundedRun R ⟨none, f⟩ ds).rows.take n).map bare = ((run ⟨none, f⟩ ds).rows.take n).map bare := by
  rw [List.map_take, List.map_take, unlimited_rows]

/-- Without a limit the rounding changes no action, and the recorded earnings and the recorded exposure are those of the exact
simulation up to the roundings. -/
theorem C82_without_limit (f : ℚ) (hf : 0 < f) (ds : List (Day ℚ)) (hp : ∀ d ∈ ds, 0 ≤ d.1) (ha : KeepsApart R f ds) (i : ℕ)
    (x y : Row ℚ) (hx : (roundedRun R ⟨none, f⟩ ds).rows[i]? = some x) (hy : (run ⟨none, f⟩ ds).rows[i]? = some y) :
    x.action = y.action ∧
    |x.earnings - y.earnings| ≤ ((1 + R.unit) ^ (i + 5) - 1) * turnover ((run ⟨none, f⟩ ds).rows.take (i + 1)) ∧
    |x.exposure - y.exposure| ≤ ((1 + R.unit) ^ (2 * i + 3) - 1) * exposureFlow f ((run ⟨none, f⟩ ds).rows.take (i + 1)) := by
  obtain ⟨e1, e2⟩ := row_ledger ⟨none, f⟩ hf ds i y hy
  have hb := unlimited_take R f ds (i + 1)
  obtain ⟨a1, a2, a3, a4⟩ := ledger_bare ((roundedRun R ⟨none, f⟩ ds).rows.take (i + 1))
  obtain ⟨b1, b2, b3, b4⟩ := ledger_bare ((run ⟨none, f⟩ ds).rows.take (i + 1))
  rw [hb] at a1 a2 a3 a4
  refine ⟨?_, ?_, ?_⟩
  · have h := congrArg (·[i]?) (unlimited_rows R f ds)
    simp only [List.getElem?_map, hx, hy, Option.map_some, Option.some.injEq] at h
    have := congrArg Row.action h
    simpa [bare] using this
  · have := C82_earnings R none f hf ds hp ha i x hx
    rwa [← a1, ← a2, b1, b2, ← e2] at this
  · have := C82_exposure R none f hf ds hp ha i x hx
    rwa [exposure, ← a3, ← a4, b3, b4, ← exposure, ← e1] at this

/-! ## Float64 -/

theorem pow_bound (u : ℚ) (hu : 0 ≤ u) (k : ℕ) (hk : 2 * k * u ≤ 1) : (1 + u) ^ k - 1 ≤ 2 * k * u := by
  induction k with
  | zero => simp
  | succ k ih =>
    push_cast at hk ⊢
    have hk' : 2 * (k : ℚ) * u ≤ 1 := by nlinarith
    have := ih hk'
    rw [pow_succ]
    have h1 : (1 + u) ^ k * (1 + u) ≤ (1 + 2 * k * u) * (1 + u) := mul_le_mul_of_nonneg_right (by linarith) (by linarith)
    nlinarith [mul_le_mul_of_nonneg_right hk' hu]

theorem double_bound (k : ℕ) (hk : k ≤ 2 ^ 52) : (1 + double.unit) ^ k - 1 ≤ k / 2 ^ 52 := by
  have hk' : (k : ℚ) ≤ 2 ^ 52 := by exact_mod_cast hk
  have := pow_bound (1 / 2 ^ 53) (by positivity) k (by
    rw [mul_one_div, div_le_one (by positivity)]
    linarith)
  calc _ ≤ _ := this
    _ = _ := by ring

theorem turnover_nonneg (h : List (Row ℚ)) (hp : ∀ r ∈ h, 0 ≤ r.stock) : 0 ≤ turnover h := by
  induction h with
  | nil => simp [turnover]
  | cons r h ih =>
    have ih' := ih fun x hx => hp x (by simp [hx])
    simp only [turnover]
    split
    · simpa using ih'
    · rename_i p hc
      have h0 := hp r (by simp)
      have : 0 ≤ p := by
        have hmem : p ∈ h.map (·.stock) := by
          unfold closingPrice at hc
          split at hc
          · simp at hc
          · exact List.mem_of_find?_eq_some hc
          · exact List.mem_of_find?_eq_some hc
        obtain ⟨s, hs, rfl⟩ := List.mem_map.1 hmem
        exact hp s (by simp [hs])
      linarith

theorem rows_nonneg (P : Params ℚ) (ds : List (Day ℚ)) (hp : ∀ d ∈ ds, 0 ≤ d.1) (n : ℕ) :
    ∀ r ∈ (roundedRun R P ds).rows.take n, 0 ≤ r.stock := by
  intro r hr
  obtain ⟨d, hd, he⟩ := stock_of_row R P ds r (List.mem_of_mem_take hr)
  exact he ▸ hp d hd

/-- In float64 arithmetic the recorded earnings of row `i` miss the realised profits by at most `i + 5` times `1/2^52` of the
turnover. -/
theorem C82_double_earnings (M : Option ℚ) (f : ℚ) (hf : 0 < f) (ds : List (Day ℚ)) (hp : ∀ d ∈ ds, 0 ≤ d.1)
    (ha : KeepsApart double f ds) (i : ℕ) (hi : i + 5 ≤ 2 ^ 52) (x : Row ℚ)
    (hx : (roundedRun double ⟨M, f⟩ ds).rows[i]? = some x) :
    |x.earnings - realised ((roundedRun double ⟨M, f⟩ ds).rows.take (i + 1))| ≤
      (i + 5) / 2 ^ 52 * turnover ((roundedRun double ⟨M, f⟩ ds).rows.take (i + 1)) := by
  refine (C82_earnings double M f hf ds hp ha i x hx).trans ?_
  apply mul_le_mul_of_nonneg_right _ (turnover_nonneg _ (rows_nonneg double _ ds hp _))
  have := double_bound (i + 5) hi
  push_cast at this
  exact this

/-- Prices that are apart by more than two relative roundings are kept apart. -/
theorem C82_apart (f : ℚ) (hf : 0 < f) (ds : List (Day ℚ)) (hp : ∀ d ∈ ds, 0 ≤ d.1)
    (h : ∀ d ∈ ds, ∀ e ∈ ds, d.1 < e.1 → (1 + R.unit) * d.1 < (1 - R.unit) * e.1) : KeepsApart R f ds := by
  intro d hd e he hlt
  have hd0 := hp d hd
  have he0 := hp e he
  have h1 := abs_le.1 (R.error (f * d.1))
  have h2 := abs_le.1 (R.error (f * e.1))
  rw [abs_of_nonneg (mul_nonneg hf.le hd0)] at h1
  rw [abs_of_nonneg (mul_nonneg hf.le he0)] at h2
  have := mul_lt_mul_of_pos_left (h d hd e he hlt) hf
  linarith [h1.2, h2.1]

/-- The rounding can turn seven winning positions into a loss: seven longs at the float64 number of 7.84, closed at the next
float64 number. The realised profit is positive, the recorded earnings are negative. -/
theorem C82_negative_earnings :
    ∃ p q : ℚ, p = toDouble (784 / 100) ∧ toDouble q = q ∧ p < q ∧
      KeepsApart double (3 / 2) (List.replicate 8 (p, .buy) ++ [(q, .hold)]) ∧
      ((roundedRun double ⟨none, 3 / 2⟩ (List.replicate 8 (p, .buy) ++ [(q, .hold)])).rows.getLast?.map (·.earnings)) =
        some (-1 / 2 ^ 47) ∧
      0 < realised (roundedRun double ⟨none, 3 / 2⟩ (List.replicate 8 (p, .buy) ++ [(q, .hold)])).rows := by
  refine ⟨toDouble (784 / 100), toDouble (784 / 100) + 1 / 2 ^ 50, rfl, by decide +kernel, by decide +kernel, ?_,
    by decide +kernel, by decide +kernel⟩
  unfold KeepsApart double
  decide +kernel

/-- A limit of 38.01 lets in a long at 24.32 and a long at 13.69. As float64 numbers the two prices exceed the limit; their
rounded sum does not. -/
theorem C82_limit_exceeded :
    ∃ m p q : ℚ, m = toDouble (3801 / 100) ∧ p = toDouble (2432 / 100) ∧ q = toDouble (1369 / 100) ∧
      (roundedRun double ⟨some m, 3 / 2⟩ [(p, .hold), (p, .buy), (q, .buy)]).rows.map (·.action) = [.none, .long, .long] ∧
      m < exposure (3 / 2) (roundedRun double ⟨some m, 3 / 2⟩ [(p, .hold), (p, .buy), (q, .buy)]).rows ∧
      (run ⟨some m, 3 / 2⟩ [(p, .hold), (p, .buy), (q, .buy)]).rows.map (·.action) = [.none, .long, .none] :=
  ⟨_, _, _, rfl, rfl, rfl, by decide +kernel, by decide +kernel, by decide +kernel⟩

/-- A limit of 0.3 does not let in three longs at 0.1: the rounded sum is greater than the limit. -/
theorem C82_limit_short :
    ∃ m p : ℚ, m = toDouble (3 / 10) ∧ p = toDouble (1 / 10) ∧
      (roundedRun double ⟨some m, 3 / 2⟩ (List.replicate 4 (p, .buy))).rows.map (·.action) = [.none, .long, .long, .none] ∧
      (run (α := ℚ) ⟨some (3 / 10), 3 / 2⟩ (List.replicate 4 (1 / 10, .buy))).rows.map (·.action) = [.none, .long, .long, .long] :=
  ⟨_, _, rfl, rfl, by decide +kernel, by decide +kernel⟩

/-- `KeepsApart` is needed: a short at 57.21 is not closed by the next smaller float64 number, because the products with the
factor 1.5 are rounded to the same number. -/
theorem C82_short_kept_open :
    ∃ p q : ℚ, p = toDouble (5721 / 100) ∧ toDouble q = q ∧ q < p ∧ ¬ KeepsApart double (3 / 2) [(p, .hold), (q, .hold)] ∧
      ((statistics (run ⟨none, 3 / 2⟩ [(p, .hold), (p, .sell), (q, .hold)])).lastOpenShort = 0) ∧
      ((@statistics ℚ double.num (roundedRun double ⟨none, 3 / 2⟩ [(p, .hold), (p, .sell), (q, .hold)])).lastOpenShort = 1) := by
  refine ⟨toDouble (5721 / 100), toDouble (5721 / 100) - 1 / 2 ^ 47, rfl, by decide +kernel, by decide +kernel, ?_,
    by decide +kernel, by decide +kernel⟩
  unfold KeepsApart double
  decide +kernel

/-- The hypotheses are met by float64 prices with longs and shorts, and the recorded earnings differ from the realised
profits. -/
example : ∃ ds : List (Day ℚ), ds = [(toDouble (731 / 100), .hold), (toDouble (731 / 100), .buy), (toDouble (784 / 100), .sell),
      (toDouble (333 / 100), .buy), (toDouble (887 / 100), .hold)] ∧ (∀ d ∈ ds, 0 ≤ d.1) ∧ KeepsApart double (3 / 2) ds ∧
    (∀ d ∈ ds, ∀ e ∈ ds, d.1 < e.1 → (1 + double.unit) * d.1 < (1 - double.unit) * e.1) ∧
    (roundedRun double ⟨some (toDouble (261 / 10)), 3 / 2⟩ ds).rows.length = 5 ∧
    (roundedRun double ⟨some (toDouble (261 / 10)), 3 / 2⟩ ds).rows[4]?.map (·.earnings) ≠
      some (realised ((roundedRun double ⟨some (toDouble (261 / 10)), 3 / 2⟩ ds).rows.take 5)) := by
  refine ⟨_, rfl, by decide +kernel, ?_, by decide +kernel, by decide +kernel, by decide +kernel⟩
  unfold KeepsApart double
  decide +kernel

/-- The order matters in float64: eight values added in numpy's order and from left to right; 140 values. -/
example : @npSum ℚ double.num (1 :: List.replicate 7 (1 / 2 ^ 53)) = 1 + 3 / 2 ^ 52 ∧
    (1 :: List.replicate 7 (1 / 2 ^ 53 : ℚ)).foldl (@Num.add ℚ double.num) 0 = 1 ∧
    @npSum ℚ double.num (List.replicate 140 (toDouble (1 / 10))) ≠
      (List.replicate 140 (toDouble (1 / 10))).foldl (@Num.add ℚ double.num) 0 := by
  refine ⟨?_, ?_, ?_⟩ <;> decide +kernel

end TTI.Props
