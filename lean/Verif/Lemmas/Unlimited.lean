import Verif.Spec.Unlimited
import Verif.Lemmas.Identities
import Verif.Props.Table
import Verif.Props.FormulaAverages

set_option autoImplicit false

/-!
# Averages of a single number followed by zeros, and tables for C68
-/

namespace TTI.Past

open Spec Props

/-- The number `A` on day 0, then zeros. -/
def spike (A : ℚ) (j : ℕ) : ℚ := if j = 0 then A else 0

@[simp] theorem spike_zero (A : ℚ) : spike A 0 = A := rfl

theorem spike_later (A : ℚ) {j : ℕ} (h : 1 ≤ j) : spike A j = 0 := if_neg (by omega)

theorem spike_none (j : ℕ) : spike 0 j = 0 := by simp [spike]

/-- An average of zeros fades. -/
theorem smoothed_fade (a : ℚ) (s : ℕ) (seed : ℚ) (g : ℕ → ℚ) (i : ℕ) (hs : s ≤ i) (h : ∀ j, s < j → j ≤ i → g j = 0) :
    smoothed a s seed g i = (1 - a) ^ (i - s) * seed := by
  induction i, hs using Nat.le_induction with
  | base => rw [Nums.smoothed_start _ _ _ _ _ (le_refl _)]; simp
  | succ i hs ih =>
    rw [Nums.smoothed_next _ _ _ _ _ hs, ih fun j h1 h2 => h j h1 (by omega), h (i + 1) (by omega) (le_refl _),
      show i + 1 - s = (i - s) + 1 by omega]
    ring

/-- Two averages of the same later numbers. -/
theorem smoothed_apart (a : ℚ) (s : ℕ) (u v : ℚ) (g g' : ℕ → ℚ) (i : ℕ) (hs : s ≤ i) (h : ∀ j, s < j → j ≤ i → g j = g' j) :
    smoothed a s u g i - smoothed a s v g' i = (1 - a) ^ (i - s) * (u - v) := by
  induction i, hs using Nat.le_induction with
  | base => rw [Nums.smoothed_start _ _ _ _ _ (le_refl _), Nums.smoothed_start _ _ _ _ _ (le_refl _)]; simp
  | succ i hs ih =>
    have ih := ih fun j h1 h2 => h j h1 (by omega)
    rw [Nums.smoothed_next _ _ _ _ _ hs, Nums.smoothed_next _ _ _ _ _ hs, h (i + 1) (by omega) (le_refl _),
      show i + 1 - s = (i - s) + 1 by omega]
    linear_combination (1 - a) * ih

/-- An average of numbers above a bound is above the bound. -/
theorem smoothed_above {a M : ℚ} (h0 : 0 ≤ a) (h1 : a ≤ 1) (s : ℕ) (seed : ℚ) (g : ℕ → ℚ) (i : ℕ) (hs : s ≤ i) (hM : M ≤ seed)
    (h : ∀ j, s < j → j ≤ i → M ≤ g j) : M ≤ smoothed a s seed g i := by
  induction i, hs using Nat.le_induction with
  | base => rw [Nums.smoothed_start _ _ _ _ _ (le_refl _)]; exact hM
  | succ i hs ih =>
    have ih := ih fun j h1 h2 => h j h1 (by omega)
    have := h (i + 1) (by omega) (le_refl _)
    rw [Nums.smoothed_next _ _ _ _ _ hs]
    nlinarith

/-- The weight that a new number does not get. -/
theorem rest_pos {n : ℕ} (hn : 2 ≤ n) : 0 < 1 - 2 / ((n : ℚ) + 1) := by
  have : (2 : ℚ) ≤ n := by exact_mod_cast hn
  rw [sub_pos, div_lt_one (by linarith)]
  linarith

theorem weight_range {n : ℕ} (hn : 1 ≤ n) : 0 < 2 / ((n : ℚ) + 1) ∧ 2 / ((n : ℚ) + 1) ≤ 1 := by
  have : (1 : ℚ) ≤ n := by exact_mod_cast hn
  exact ⟨by positivity, by rw [div_le_one (by linarith)]; linarith⟩

theorem wilder_rest_pos {n : ℕ} (hn : 2 ≤ n) : 0 < 1 - 1 / (n : ℚ) := by
  have : (2 : ℚ) ≤ n := by exact_mod_cast hn
  rw [sub_pos, div_lt_one (by linarith)]
  linarith

theorem ema_fade (n s : ℕ) (g : ℕ → ℚ) (i : ℕ) (hs : s ≤ i) (h : ∀ j, s < j → j ≤ i → g j = 0) :
    ema n s g i = (1 - 2 / ((n : ℚ) + 1)) ^ (i - s) * g s := smoothed_fade _ _ _ _ _ hs h

theorem ema_spike (n : ℕ) (A : ℚ) (i : ℕ) : ema n 0 (spike A) i = (1 - 2 / ((n : ℚ) + 1)) ^ i * A := by
  rw [ema_fade n 0 _ i (Nat.zero_le _) fun j h _ => spike_later A h]; rfl

/-- Wilder's average of a number followed by zeros. -/
theorem wilder_fade (n s : ℕ) (hn : 1 ≤ n) (g : ℕ → ℚ) (i : ℕ) (hs : s + n - 1 ≤ i) (h : ∀ j, s < j → j ≤ i → g j = 0) :
    wilderAverage n s g i = (1 - 1 / (n : ℚ)) ^ (i - (s + n - 1)) * (g s / n) := by
  unfold wilderAverage
  rw [smoothed_fade _ _ _ _ _ hs fun j h1 h2 => h j (by omega) h2]
  congr 1
  unfold meanLast sumLast
  congr 1
  rw [Finset.sum_eq_single (n - 1)]
  · congr 1; omega
  · intro t ht hne
    rw [Finset.mem_range] at ht
    exact h _ (by omega) (by omega)
  · intro hne
    exact absurd (Finset.mem_range.2 (by omega)) hne

theorem wilder_zero (n s : ℕ) (hn : 1 ≤ n) (g : ℕ → ℚ) (i : ℕ) (hs : s + n - 1 ≤ i) (h : ∀ j, s ≤ j → j ≤ i → g j = 0) :
    wilderAverage n s g i = 0 := by
  rw [wilder_fade n s hn g i hs fun j h1 h2 => h j (by omega) h2, h s (le_refl _) (by omega)]
  simp

theorem ema_zero (n s : ℕ) (g : ℕ → ℚ) (i : ℕ) (hs : s ≤ i) (h : ∀ j, s ≤ j → j ≤ i → g j = 0) : ema n s g i = 0 := by
  rw [ema_fade n s g i hs fun j h1 h2 => h j (by omega) h2, h s (le_refl _) hs]
  simp

/-- The exponential average of the exponential average of a spike. -/
theorem ema_spike2 (n s : ℕ) (A : ℚ) (i : ℕ) (hs : s ≤ i) :
    ema n s (ema n 0 (spike A)) i =
      (1 - 2 / ((n : ℚ) + 1)) ^ i * A + (i - s : ℕ) * (2 / ((n : ℚ) + 1)) * (1 - 2 / ((n : ℚ) + 1)) ^ i * A := by
  have key : ∀ i, s ≤ i → ema n s (ema n 0 (spike A)) i =
      (1 - 2 / ((n : ℚ) + 1)) ^ i * A + (i - s : ℕ) * (2 / ((n : ℚ) + 1)) * (1 - 2 / ((n : ℚ) + 1)) ^ i * A := by
    intro i hs
    induction i, hs using Nat.le_induction with
    | base =>
      rw [ema, Nums.smoothed_start _ _ _ _ _ (le_refl _), ema_spike]
      simp
    | succ i hs ih =>
      have e : ema n s (ema n 0 (spike A)) (i + 1) = ema n s (ema n 0 (spike A)) i +
          2 / ((n : ℚ) + 1) * (ema n 0 (spike A) (i + 1) - ema n s (ema n 0 (spike A)) i) :=
        Nums.smoothed_next _ _ _ _ _ hs
      rw [e, ih, ema_spike, show i + 1 - s = (i - s) + 1 by omega]
      push_cast
      ring
  exact key i hs

/-- And once more. -/
theorem ema_spike3 (n u : ℕ) (A : ℚ) (q : ℕ) :
    ema n (2 * u) (ema n u (ema n 0 (spike A))) (2 * u + q) =
      (1 - 2 / ((n : ℚ) + 1)) ^ (2 * u + q) * A *
        (1 + u * (2 / ((n : ℚ) + 1)) + 2 / ((n : ℚ) + 1) * q * (1 + u * (2 / ((n : ℚ) + 1))) +
          (2 / ((n : ℚ) + 1)) ^ 2 * (q * (q + 1)) / 2) := by
  induction q with
  | zero =>
    rw [Nat.add_zero, ema, Nums.smoothed_start _ _ _ _ _ (le_refl _), ema_spike2 _ _ _ _ (by omega),
      show 2 * u - u = u by omega]
    push_cast
    ring
  | succ q ih =>
    have e : ema n (2 * u) (ema n u (ema n 0 (spike A))) (2 * u + q + 1) = ema n (2 * u) (ema n u (ema n 0 (spike A))) (2 * u + q) +
        2 / ((n : ℚ) + 1) * (ema n u (ema n 0 (spike A)) (2 * u + q + 1) - ema n (2 * u) (ema n u (ema n 0 (spike A))) (2 * u + q)) :=
      Nums.smoothed_next _ _ _ _ _ (by omega)
    rw [← Nat.add_assoc, e, ih, ema_spike2 _ _ _ _ (by omega), show 2 * u + q + 1 - u = u + q + 1 by omega]
    push_cast
    ring

/-! ## Tables -/

theorem required_ohlcv (ind : Ind) : ∀ r ∈ ind.required, r ∈ ohlcv := by
  cases ind <;> simp [Ind.required, ohlcv]

/-- The rows of a table. -/
theorem table_each (n : ℕ) (x : String → ℕ → ℚ) (ind : Ind) (P : (String → ℚ) → Prop) (hP : ∀ j < n, P fun s => x s j) :
    (table n x).EachRow ind.required P := by
  intro j hj
  rw [table_length] at hj
  exact ⟨fun s => x s j, fun s hs => table_cell n x s (required_ohlcv ind s hs) j hj, hP j hj⟩

/-- The prices of a table, as a function of the day. -/
theorem table_prices (n : ℕ) (x : String → ℕ → ℚ) (s : String) (hs : s ∈ ohlcv) (h : ∀ j, n ≤ j → x s j = 0) :
    price (table n x) s = x s := by
  funext j
  by_cases hj : j < n
  · exact table_price n x s hs j hj
  · rw [h j (by omega)]
    unfold price RawFrame.day RawFrame.inDateOrder
    rw [table_find n x s hs]
    simp only
    rw [List.getD_eq_default]
    · rfl
    · rw [List.length_map, sortRows, List.length_insertionSort, List.length_zip]
      simp [table]
      omega

/-- The object built on the table reports `v` in the column on the last day. -/
def Shows (E : Env) (c : Call) (ind : Ind) (column : String) (n : ℕ) (x : String → ℕ → ℚ) (v : Val) : Prop :=
  ∀ o, BuiltOn E c (table (n + 1) x) true o AnyPrices → o.ind = ind → o.getTiData.day column n = v

/-- The object built on the table reports a number in the column on the last day. -/
def Reports (E : Env) (c : Call) (ind : Ind) (column : String) (n : ℕ) (x : String → ℕ → ℚ) : Prop :=
  ∀ o, BuiltOn E c (table (n + 1) x) true o AnyPrices → o.ind = ind → ∃ q, o.getTiData.day column n = to4 q

/-- Two tables for every number of days are enough. -/
theorem neverForgets_of (E : Env) (c : Call) (ind : Ind) (hc : c.check = .ok ind) (column : String)
    (h : ∀ k, ∃ n d x y, minRows ind ≤ n + 1 ∧ k + d ≤ n + 1 ∧ (∀ s j, d ≤ j → x s j = y s j) ∧
      ∀ o p, BuiltOn E c (table (n + 1) x) true o AnyPrices → o.ind = ind → BuiltOn E c (table (n + 1) y) true p AnyPrices →
        p.ind = ind → o.getTiData.day column n ≠ p.getTiData.day column n) : NeverForgets E c column := by
  intro k
  obtain ⟨n, d, x, y, hm, hk, ha, hne⟩ := h k
  obtain ⟨o, ho, hoi⟩ := table_built E c ind hc (n + 1) x AnyPrices (by omega) hm (required_ohlcv ind) fun _ _ => trivial
  obtain ⟨p, hp, hpi⟩ := table_built E c ind hc (n + 1) y AnyPrices (by omega) hm (required_ohlcv ind) fun _ _ => trivial
  refine ⟨table (n + 1) x, table (n + 1) y, o, p, n, (d : ℤ), ho, hp, table_length _ _, table_length _ _,
    table_since _ d x y ha, ?_, hne o p ho hoi hp hpi⟩
  rw [since_length, table_length, table_before _ _ _ (by omega)]
  omega

theorem neverForgets (E : Env) (c : Call) (ind : Ind) (hc : c.check = .ok ind) (column : String)
    (h : ∀ k, ∃ n d x y v w, minRows ind ≤ n + 1 ∧ k + d ≤ n + 1 ∧ (∀ s j, d ≤ j → x s j = y s j) ∧ v ≠ w ∧
      Shows E c ind column n x v ∧ Shows E c ind column n y w) : NeverForgets E c column :=
  neverForgets_of E c ind hc column fun k => by
    obtain ⟨n, d, x, y, v, w, hm, hk, ha, hne, hx, hy⟩ := h k
    exact ⟨n, d, x, y, hm, hk, ha, fun o p ho hoi hp hpi => by rw [hx o ho hoi, hy p hp hpi]; exact hne⟩

/-- Or a number in the one table and no number in the other one. -/
theorem neverForgets_nan (E : Env) (c : Call) (ind : Ind) (hc : c.check = .ok ind) (column : String)
    (h : ∀ k, ∃ n d x y, minRows ind ≤ n + 1 ∧ k + d ≤ n + 1 ∧ (∀ s j, d ≤ j → x s j = y s j) ∧
      Reports E c ind column n x ∧ Shows E c ind column n y .nan) : NeverForgets E c column :=
  neverForgets_of E c ind hc column fun k => by
    obtain ⟨n, d, x, y, hm, hk, ha, hx, hy⟩ := h k
    refine ⟨n, d, x, y, hm, hk, ha, fun o p ho hoi hp hpi => ?_⟩
    obtain ⟨q, hq⟩ := hx o ho hoi
    rw [hq, hy p hp hpi]
    simp [to4]

/-- `A` in one column on day 0, zeros everywhere else. -/
def pulse (name : String) (A : ℚ) (s : String) (j : ℕ) : ℚ := if s = name then spike A j else 0

theorem pulse_agree (name : String) (A B : ℚ) : ∀ s j, 1 ≤ j → pulse name A s j = pulse name B s j := by
  intro s j hj
  simp only [pulse, spike_later _ hj]

theorem pulse_price (name : String) (A : ℚ) (n : ℕ) (s : String) (hs : s ∈ ohlcv) :
    price (table (n + 1) (pulse name A)) s = if s = name then spike A else fun _ => 0 := by
  rw [table_prices (n + 1) (pulse name A) s hs]
  · funext j
    simp only [pulse]
    split <;> rfl
  · intro j hj
    simp only [pulse, spike_later _ (show 1 ≤ j by omega), ite_self]

theorem to4_ne_nan (q : ℚ) : to4 q ≠ .nan := by simp [to4]

end TTI.Past
