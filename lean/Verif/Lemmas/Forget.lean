import Verif.Lemmas.Since
import Verif.Lemmas.Col
import Verif.Props.FloatBetween

set_option autoImplicit false

/-!
# Averages that forget: helper lemmas for C98
-/

namespace TTI

open Spec Props

theorem keepSince_days (d : ℤ) (idx : List ℤ) (xs : List Val) (h : xs.length = idx.length) :
    (sortRows ((idx.filter fun e => decide (d ≤ e)).zip (keepSince d idx xs))).map (·.2) =
      ((sortRows (idx.zip xs)).map (·.2)).drop (rowsBefore d idx) := by
  rw [zip_keepSince d idx xs h, ← sortRows_filter_of, filter_since_drop d _ (sortRows_sorted _), sortRows_map_fst,
    List.map_fst_zip (by omega), rowsBefore_sortIdx, List.map_drop]

theorem day_since (d : ℤ) (f : RawFrame) (hw : WF f) (name : String) (k : ℕ) :
    (f.since d).day name k = f.day name (rowsBefore d f.idx + k) := by
  unfold RawFrame.day RawFrame.inDateOrder
  have hfind : (f.since d).cols.find? (fun c => c.label.lower == some name) =
      (f.cols.find? fun c => c.label.lower == some name).map fun c => { c with data := keepSince d f.idx c.data } := by
    simp only [RawFrame.since, List.find?_map]
    rfl
  rw [hfind]
  cases hc : f.cols.find? (fun c => c.label.lower == some name) with
  | none => simp
  | some c =>
    simp only [Option.map_some, RawFrame.since]
    rw [keepSince_days d f.idx c.data (hw c (List.mem_of_find?_eq_some hc)), List.getD_eq_getElem?_getD,
      List.getD_eq_getElem?_getD, List.getElem?_drop]

theorem price_agree {f g : RawFrame} (hf : WF f) (hg : WF g) {d : ℤ} (hs : f.since d = g.since d) (name : String) (k : ℕ) :
    price f name (rowsBefore d f.idx + k) = price g name (rowsBefore d g.idx + k) := by
  unfold price
  rw [← day_since d f hf, ← day_since d g hg, hs]

theorem rows_agree {f g : RawFrame} {d : ℤ} (hs : f.since d = g.since d) (k : ℕ) :
    rowsBefore d f.idx + k < f.idx.length ↔ rowsBefore d g.idx + k < g.idx.length := by
  have h1 := since_length d f
  have h2 := since_length d g
  rw [hs] at h1
  have h3 := rowsBefore_le d f.idx
  have h4 := rowsBefore_le d g.idx
  omega

/-! ### The restricted table -/

theorem keepSince_eq (d : ℤ) (idx : List ℤ) (xs : List Val) (h : xs.length = idx.length) :
    keepSince d idx xs =
      ((List.range idx.length).filter fun j => decide (d ≤ idx.getD j 0)).map fun j => xs.getD j .nan := by
  induction idx generalizing xs with
  | nil => rfl
  | cons e idx ih =>
    cases xs with
    | nil => simp at h
    | cons x xs =>
      have := ih xs (by simpa using h)
      rw [List.length_cons, List.range_succ_eq_map]
      by_cases he : d ≤ e
      · rw [List.filter_cons_of_pos (by simpa using he), List.map_cons, List.filter_map, List.map_map]
        unfold keepSince at this ⊢
        rw [List.zip_cons_cons, List.filter_cons_of_pos (by simpa using he), List.map_cons, this]
        rfl
      · rw [List.filter_cons_of_neg (by simpa using he), List.filter_map, List.map_map]
        unfold keepSince at this ⊢
        rw [List.zip_cons_cons, List.filter_cons_of_neg (by simpa using he), this]
        rfl

theorem since_rowsLen (d : ℤ) (idx : List ℤ) :
    (idx.filter fun e => decide (d ≤ e)).length = ((List.range idx.length).filter fun j => decide (d ≤ idx.getD j 0)).length := by
  induction idx with
  | nil => rfl
  | cons e idx ih =>
    rw [List.length_cons, List.range_succ_eq_map]
    by_cases he : d ≤ e
    · rw [List.filter_cons_of_pos (by simpa using he), List.filter_cons_of_pos (by simpa using he), List.filter_map,
        List.length_cons, List.length_cons, List.length_map, ih]
      rfl
    · rw [List.filter_cons_of_neg (by simpa using he), List.filter_cons_of_neg (by simpa using he), List.filter_map,
        List.length_map, ih]
      rfl

theorem eachRow_since (d : ℤ) (f : RawFrame) (hw : WF f) (names : List String) (P : (String → ℚ) → Prop) (h : f.EachRow names P) :
    (f.since d).EachRow names P := by
  intro j hj
  have hj' : j < ((List.range f.idx.length).filter fun i => decide (d ≤ f.idx.getD i 0)).length := by
    rw [← since_rowsLen]; exact hj
  obtain ⟨i, hi⟩ : ∃ i, ((List.range f.idx.length).filter fun i => decide (d ≤ f.idx.getD i 0))[j]? = some i :=
    ⟨_, List.getElem?_eq_getElem hj'⟩
  have him : i < f.idx.length := by
    have := List.mem_of_getElem? hi
    rw [List.mem_filter, List.mem_range] at this
    exact this.1
  obtain ⟨x, hx, hp⟩ := h i him
  refine ⟨x, fun n hn => ?_, hp⟩
  rw [← hx n hn]
  unfold RawFrame.cell
  have hfind : (f.since d).cols.find? (fun c => c.label.lower == some n) =
      (f.cols.find? fun c => c.label.lower == some n).map fun c => { c with data := keepSince d f.idx c.data } := by
    simp only [RawFrame.since, List.find?_map]
    rfl
  rw [hfind]
  cases hc : f.cols.find? (fun c => c.label.lower == some n) with
  | none => simp
  | some c =>
    simp only [Option.map_some]
    rw [keepSince_eq d f.idx c.data (hw c (List.mem_of_find?_eq_some hc)), List.getD_eq_getElem?_getD, List.getElem?_map, hi]
    rfl

theorem rowsBefore_since (d : ℤ) (f : RawFrame) : rowsBefore d (f.since d).idx = 0 := by
  unfold rowsBefore RawFrame.since
  rw [List.length_eq_zero_iff, List.filter_eq_nil_iff]
  intro e he
  rw [List.mem_filter] at he
  simpa using he.2

theorem since_since (d : ℤ) (f : RawFrame) (hw : WF f) : (f.since d).since d = f.since d := by
  have hi : ((f.idx.filter fun e => decide (d ≤ e)).filter fun e => decide (d ≤ e)) = f.idx.filter fun e => decide (d ≤ e) :=
    List.filter_eq_self.2 fun e he => (List.mem_filter.1 he).2
  unfold RawFrame.since
  simp only [hi, List.map_map]
  congr 1
  apply List.map_congr_left
  intro c hc
  simp only [Function.comp]
  congr 1
  show ((((f.idx.filter fun e => decide (d ≤ e)).zip (keepSince d f.idx c.data)).filter fun r => decide (d ≤ r.1)).map (·.2)) = _
  rw [zip_keepSince d f.idx c.data (hw c hc), List.filter_filter]
  simp only [Bool.and_self]
  rfl

/-- Two averages that move alike towards numbers that differ by at most `e`: any `B` that satisfies the recursion bounds their
distance. -/
theorem smoothed_drift {a : ℚ} (ha0 : 0 ≤ a) (ha1 : a ≤ 1) {s s' : ℕ} {seed seed' : ℚ} {g g' : ℕ → ℚ} {r r' : ℕ} (hs : s ≤ r)
    (hs' : s' ≤ r') (B e : ℕ → ℚ) (h0 : |smoothed a s seed g r - smoothed a s' seed' g' r'| ≤ B 0) (m : ℕ)
    (hg : ∀ j < m, |g (r + j + 1) - g' (r' + j + 1)| ≤ e (j + 1)) (hB : ∀ j < m, (1 - a) * B j + a * e (j + 1) ≤ B (j + 1)) :
    |smoothed a s seed g (r + m) - smoothed a s' seed' g' (r' + m)| ≤ B m := by
  induction m with
  | zero => exact h0
  | succ m ih =>
    have ih := ih (fun j hj => hg j (by omega)) fun j hj => hB j (by omega)
    have h1 := hg m (by omega)
    have h2 := hB m (by omega)
    rw [show r + (m + 1) = r + m + 1 from rfl, show r' + (m + 1) = r' + m + 1 from rfl, Nums.smoothed_next _ _ _ _ _ (by omega),
      Nums.smoothed_next _ _ _ _ _ (by omega)]
    rw [abs_le] at ih h1 ⊢
    have ha : 0 ≤ 1 - a := by linarith
    constructor
    · nlinarith [mul_le_mul_of_nonneg_left ih.1 ha, mul_le_mul_of_nonneg_left h1.1 ha0]
    · nlinarith [mul_le_mul_of_nonneg_left ih.2 ha, mul_le_mul_of_nonneg_left h1.2 ha0]

theorem smoothed_forget {a : ℚ} (ha0 : 0 ≤ a) (ha1 : a ≤ 1) {s s' : ℕ} {seed seed' : ℚ} {g g' : ℕ → ℚ} {r r' : ℕ} (hs : s ≤ r)
    (hs' : s' ≤ r') (D : ℚ) (h0 : |smoothed a s seed g r - smoothed a s' seed' g' r'| ≤ D) (m : ℕ)
    (hg : ∀ j < m, g (r + j + 1) = g' (r' + j + 1)) :
    |smoothed a s seed g (r + m) - smoothed a s' seed' g' (r' + m)| ≤ (1 - a) ^ m * D := by
  refine smoothed_drift ha0 ha1 hs hs' (fun m => (1 - a) ^ m * D) (fun _ => 0) (by simpa using h0) m ?_ ?_
  · intro j hj
    rw [hg j hj]; simp
  · intro j _
    simp only [pow_succ]
    apply le_of_eq; ring

/-- The rate of the exponential average. -/
theorem rate_eq (n : ℕ) : 1 - 2 / ((n : ℚ) + 1) = (n - 1) / (n + 1) := by
  have : (n : ℚ) + 1 ≠ 0 := by positivity
  field_simp; ring

theorem alpha_bounds {n : ℕ} (hn : 1 ≤ n) : 0 ≤ 2 / ((n : ℚ) + 1) ∧ 2 / ((n : ℚ) + 1) ≤ 1 := by
  have h : (1 : ℚ) ≤ n := by exact_mod_cast hn
  exact ⟨by positivity, by rw [div_le_one (by positivity)]; linarith⟩

theorem rate_bounds {n : ℕ} (hn : 1 ≤ n) : 0 ≤ ((n : ℚ) - 1) / (n + 1) ∧ ((n : ℚ) - 1) / (n + 1) ≤ 1 := by
  obtain ⟨h1, h2⟩ := alpha_bounds hn
  rw [← rate_eq]; constructor <;> linarith

/-- On the first common day the averages are apart by at most the rate times the spread. -/
theorem ema_meet {n : ℕ} (hn : 1 ≤ n) {g : ℕ → ℚ} {r : ℕ} {lo hi : ℚ} (h : ∀ j ≤ r, lo ≤ g j ∧ g j ≤ hi) :
    ((n : ℚ) - 1) / (n + 1) * (lo - g r) ≤ ema n 0 g r - g r ∧ ema n 0 g r - g r ≤ ((n : ℚ) - 1) / (n + 1) * (hi - g r) := by
  obtain ⟨a0, a1⟩ := alpha_bounds hn
  obtain ⟨b0, b1⟩ := rate_bounds hn
  obtain ⟨h1, h2⟩ := h r (le_refl r)
  cases r with
  | zero =>
    have : ema n 0 g 0 = g 0 := rfl
    rw [this, sub_self]
    exact ⟨mul_nonpos_of_nonneg_of_nonpos b0 (by linarith), mul_nonneg b0 (by linarith)⟩
  | succ r =>
    obtain ⟨h3, h4⟩ := smoothed_between a0 a1 0 (g 0) g r (h 0 (by omega)) fun j hj => h j (by omega)
    have e : ema n 0 g (r + 1) - g (r + 1) = ((n : ℚ) - 1) / (n + 1) * (smoothed (2 / ((n : ℚ) + 1)) 0 (g 0) g r - g (r + 1)) := by
      unfold ema
      rw [Nums.smoothed_next _ _ _ _ _ (by omega), ← rate_eq]; ring
    rw [e]
    exact ⟨mul_le_mul_of_nonneg_left (by linarith) b0, mul_le_mul_of_nonneg_left (by linarith) b0⟩

/-- The exponential average forgets. -/
theorem ema_forget {n : ℕ} (hn : 1 ≤ n) {g g' : ℕ → ℚ} {r r' : ℕ} {lo hi : ℚ} (h : ∀ j ≤ r, lo ≤ g j ∧ g j ≤ hi)
    (h' : ∀ j ≤ r', lo ≤ g' j ∧ g' j ≤ hi) (m : ℕ) (hg : ∀ j ≤ m, g (r + j) = g' (r' + j)) :
    |ema n 0 g (r + m) - ema n 0 g' (r' + m)| ≤ (((n : ℚ) - 1) / (n + 1)) ^ (m + 1) * (hi - lo) := by
  obtain ⟨a0, a1⟩ := alpha_bounds hn
  have h0 : |ema n 0 g r - ema n 0 g' r'| ≤ ((n : ℚ) - 1) / (n + 1) * (hi - lo) := by
    obtain ⟨h1, h2⟩ := ema_meet hn h
    obtain ⟨h3, h4⟩ := ema_meet hn h'
    have e : g r = g' r' := hg 0 (by omega)
    rw [← e] at h3 h4
    rw [abs_le]
    constructor <;> linarith
  have := smoothed_forget (s := 0) (s' := 0) a0 a1 (Nat.zero_le r) (Nat.zero_le r') _ h0 m fun j hj => hg (j + 1) (by omega)
  rw [rate_eq] at this
  refine this.trans (le_of_eq ?_)
  ring

/-- Rounding to four decimals adds at most 0.0001 to a distance. -/
theorem round_apart {a b D : ℚ} (h : |a - b| ≤ D) : |roundQ 4 a - roundQ 4 b| ≤ D + 1 / 10000 := by
  have h1 := roundQ_close 4 a
  have h2 := roundQ_close 4 b
  norm_num at h1 h2
  rw [abs_le] at *
  constructor <;> linarith [h1.1, h1.2, h2.1, h2.2, h.1, h.2]

/-- `n` days of an `n`-day exponential average leave at most a fifth of the influence of the past. -/
theorem rate_fifth {n : ℕ} (hn : 1 ≤ n) : (((n : ℚ) - 1) / (n + 1)) ^ n ≤ 1 / 5 := by
  obtain rfl | hn2 : n = 1 ∨ 2 ≤ n := by omega
  · norm_num
  obtain ⟨m, rfl⟩ : ∃ m, n = m + 1 := ⟨n - 1, by omega⟩
  have hm : (1 : ℚ) ≤ m := by exact_mod_cast (by omega : 1 ≤ m)
  have key : ∀ (x : ℚ), 0 ≤ x → ∀ k : ℕ, 1 + k * x + k * (k - 1) / 2 * x ^ 2 ≤ (1 + x) ^ k := by
    intro x hx k
    induction k with
    | zero => simp
    | succ k ih =>
      rw [pow_succ (1 + x)]
      have h1 : (0 : ℚ) ≤ k * (k - 1) / 2 * x ^ 3 := by
        rcases k with _ | k
        · simp
        · push_cast
          have : (0 : ℚ) ≤ k := by positivity
          have e : ((k : ℚ) + 1) * (k + 1 - 1) / 2 * x ^ 3 = (k + 1) * k / 2 * x ^ 3 := by ring
          rw [e]; positivity
      have h2 := mul_le_mul_of_nonneg_right ih (by linarith : (0 : ℚ) ≤ 1 + x)
      push_cast
      nlinarith
  have hk := key (2 / m) (by positivity) (m + 1)
  have e1 : (((m + 1 : ℕ) : ℚ) - 1) / ((m + 1 : ℕ) + 1) = 1 / (1 + 2 / m) := by
    push_cast
    have : (m : ℚ) ≠ 0 := by positivity
    field_simp; ring
  rw [e1, div_pow, one_pow]
  apply div_le_div_of_nonneg_left (by norm_num) (by norm_num)
  refine le_trans ?_ hk
  push_cast
  have e2 : 1 + ((m : ℚ) + 1) * (2 / m) + (m + 1) * (m + 1 - 1) / 2 * (2 / m) ^ 2 = 5 + 4 / m := by
    have : (m : ℚ) ≠ 0 := by positivity
    field_simp; ring
  rw [e2]
  have : (0 : ℚ) ≤ 4 / m := by positivity
  linarith

theorem rate_fifths {n : ℕ} (hn : 1 ≤ n) (q k : ℕ) (hk : q * n ≤ k) :
    (((n : ℚ) - 1) / (n + 1)) ^ k ≤ 1 / 5 ^ q := by
  obtain ⟨b0, b1⟩ := rate_bounds hn
  calc (((n : ℚ) - 1) / (n + 1)) ^ k ≤ (((n : ℚ) - 1) / (n + 1)) ^ (n * q) :=
        pow_le_pow_of_le_one b0 b1 (by rw [Nat.mul_comm]; exact hk)
    _ = ((((n : ℚ) - 1) / (n + 1)) ^ n) ^ q := pow_mul _ _ _
    _ ≤ (1 / 5) ^ q := pow_le_pow_left₀ (pow_nonneg b0 _) (rate_fifth hn) _
    _ = 1 / 5 ^ q := by rw [div_pow, one_pow]

/-! ### Averages of averages -/

theorem ema_between {n : ℕ} (hn : 1 ≤ n) {s : ℕ} {g : ℕ → ℚ} {i : ℕ} (hs : s ≤ i) {lo hi : ℚ} (h : ∀ j ≤ i, lo ≤ g j ∧ g j ≤ hi) :
    lo ≤ ema n s g i ∧ ema n s g i ≤ hi := by
  obtain ⟨a0, a1⟩ := alpha_bounds hn
  exact smoothed_between a0 a1 s (g s) g i (h s hs) h

/-- The exponential average of the exponential average, which starts after `n - 1` days. -/
theorem ema2_between {n : ℕ} (hn : 1 ≤ n) {g : ℕ → ℚ} {i : ℕ} (hi' : n - 1 ≤ i) {lo hi : ℚ} (h : ∀ j ≤ i, lo ≤ g j ∧ g j ≤ hi) :
    lo ≤ ema n (n - 1) (ema n 0 g) i ∧ ema n (n - 1) (ema n 0 g) i ≤ hi :=
  ema_between hn hi' fun j hj => ema_between hn (Nat.zero_le j) fun l hl => h l (by omega)

theorem ema3_between {n : ℕ} (hn : 1 ≤ n) {g : ℕ → ℚ} {i : ℕ} (hi' : 2 * n - 2 ≤ i) {lo hi : ℚ} (h : ∀ j ≤ i, lo ≤ g j ∧ g j ≤ hi) :
    lo ≤ ema n (2 * n - 2) (ema n (n - 1) (ema n 0 g)) i ∧ ema n (2 * n - 2) (ema n (n - 1) (ema n 0 g)) i ≤ hi := by
  obtain ⟨a0, a1⟩ := alpha_bounds hn
  refine ema_between hn hi' fun j hj => ?_
  exact smoothed_between a0 a1 _ _ _ j (ema_between hn (Nat.zero_le _) fun l hl => h l (by omega))
    fun l hl => ema_between hn (Nat.zero_le _) fun t ht => h t (by omega)

theorem abs_sub_le_of_between {x y lo hi : ℚ} (h : lo ≤ x ∧ x ≤ hi) (h' : lo ≤ y ∧ y ≤ hi) : |x - y| ≤ hi - lo := by
  rw [abs_le]; constructor <;> linarith [h.1, h.2, h'.1, h'.2]

theorem ema2_forget {n : ℕ} (hn : 1 ≤ n) {g g' : ℕ → ℚ} {r r' : ℕ} {lo hi : ℚ} (h : ∀ j ≤ r + (n - 1), lo ≤ g j ∧ g j ≤ hi)
    (h' : ∀ j ≤ r' + (n - 1), lo ≤ g' j ∧ g' j ≤ hi) (m : ℕ) (hg : ∀ j ≤ n - 1 + m, g (r + j) = g' (r' + j)) :
    |ema n (n - 1) (ema n 0 g) (r + (n - 1) + m) - ema n (n - 1) (ema n 0 g') (r' + (n - 1) + m)| ≤
      (((n : ℚ) - 1) / (n + 1)) ^ m * (1 + 2 / ((n : ℚ) + 1) * m) * (hi - lo) := by
  obtain ⟨a0, a1⟩ := alpha_bounds hn
  obtain ⟨b0, b1⟩ := rate_bounds hn
  have hD : 0 ≤ hi - lo := by linarith [(h 0 (by omega)).1, (h 0 (by omega)).2]
  refine smoothed_drift a0 a1 (by omega) (by omega)
    (fun m => (((n : ℚ) - 1) / (n + 1)) ^ m * (1 + 2 / ((n : ℚ) + 1) * m) * (hi - lo))
    (fun j => (((n : ℚ) - 1) / (n + 1)) ^ (n - 1 + j + 1) * (hi - lo)) ?_ m ?_ ?_
  · simp only [pow_zero, Nat.cast_zero, mul_zero, add_zero, one_mul]
    exact abs_sub_le_of_between (ema2_between hn (by omega) h) (ema2_between hn (by omega) h')
  · intro j hj
    have := ema_forget hn (fun j hj => h j (by omega)) (fun j hj => h' j (by omega)) (n - 1 + (j + 1))
      fun l hl => hg l (by omega)
    rwa [show r + (n - 1 + (j + 1)) = r + (n - 1) + j + 1 by omega,
      show r' + (n - 1 + (j + 1)) = r' + (n - 1) + j + 1 by omega] at this
  · intro j _
    rw [rate_eq]
    have h1 : (((n : ℚ) - 1) / (n + 1)) ^ (n - 1 + (j + 1) + 1) ≤ (((n : ℚ) - 1) / (n + 1)) ^ (j + 1) :=
      pow_le_pow_of_le_one b0 b1 (by omega)
    have h2 : (((n : ℚ) - 1) / (n + 1)) * ((((n : ℚ) - 1) / (n + 1)) ^ j * (1 + 2 / ((n : ℚ) + 1) * j) * (hi - lo)) +
        2 / ((n : ℚ) + 1) * ((((n : ℚ) - 1) / (n + 1)) ^ (j + 1) * (hi - lo)) =
        (((n : ℚ) - 1) / (n + 1)) ^ (j + 1) * (1 + 2 / ((n : ℚ) + 1) * (j + 1 : ℕ)) * (hi - lo) := by
      push_cast; ring
    rw [← h2]
    have := mul_le_mul_of_nonneg_left (mul_le_mul_of_nonneg_right h1 hD) a0
    linarith

theorem ema3_forget {n : ℕ} (hn : 1 ≤ n) {g g' : ℕ → ℚ} {r r' : ℕ} {lo hi : ℚ} (h : ∀ j ≤ r + (2 * n - 2), lo ≤ g j ∧ g j ≤ hi)
    (h' : ∀ j ≤ r' + (2 * n - 2), lo ≤ g' j ∧ g' j ≤ hi) (m : ℕ) (hg : ∀ j ≤ 2 * n - 2 + m, g (r + j) = g' (r' + j)) :
    |ema n (2 * n - 2) (ema n (n - 1) (ema n 0 g)) (r + (2 * n - 2) + m) -
        ema n (2 * n - 2) (ema n (n - 1) (ema n 0 g')) (r' + (2 * n - 2) + m)| ≤
      (((n : ℚ) - 1) / (n + 1)) ^ m * (1 + 2 / ((n : ℚ) + 1) * m * (1 + 2 / ((n : ℚ) + 1) * (n - 1 + m : ℕ))) * (hi - lo) := by
  obtain ⟨a0, a1⟩ := alpha_bounds hn
  obtain ⟨b0, b1⟩ := rate_bounds hn
  have hD : 0 ≤ hi - lo := by linarith [(h 0 (by omega)).1, (h 0 (by omega)).2]
  refine smoothed_drift a0 a1 (by omega) (by omega)
    (fun m => (((n : ℚ) - 1) / (n + 1)) ^ m * (1 + 2 / ((n : ℚ) + 1) * m * (1 + 2 / ((n : ℚ) + 1) * (n - 1 + m : ℕ))) * (hi - lo))
    (fun j => (((n : ℚ) - 1) / (n + 1)) ^ (n - 1 + j) * (1 + 2 / ((n : ℚ) + 1) * (n - 1 + j : ℕ)) * (hi - lo)) ?_ m ?_ ?_
  · simp only [pow_zero, Nat.cast_zero, mul_zero, zero_mul, add_zero, one_mul]
    exact abs_sub_le_of_between (ema3_between hn (by omega) h) (ema3_between hn (by omega) h')
  · intro j hj
    have := ema2_forget hn (fun j hj => h j (by omega)) (fun j hj => h' j (by omega)) (n - 1 + (j + 1))
      fun l hl => hg l (by omega)
    rwa [show r + (n - 1) + (n - 1 + (j + 1)) = r + (2 * n - 2) + j + 1 by omega,
      show r' + (n - 1) + (n - 1 + (j + 1)) = r' + (2 * n - 2) + j + 1 by omega] at this
  · intro j _
    rw [rate_eq]
    have h1 : (((n : ℚ) - 1) / (n + 1)) ^ (n - 1 + (j + 1)) ≤ (((n : ℚ) - 1) / (n + 1)) ^ (j + 1) :=
      pow_le_pow_of_le_one b0 b1 (by omega)
    generalize ((n : ℚ) - 1) / (n + 1) = ρ at *
    generalize 2 / ((n : ℚ) + 1) = α at *
    have hc : ((n - 1 + (j + 1) : ℕ) : ℚ) = (n - 1 + j : ℕ) + 1 := by push_cast; ring
    rw [hc]
    have hx : (0 : ℚ) ≤ (n - 1 + j : ℕ) := Nat.cast_nonneg _
    generalize ((n - 1 + j : ℕ) : ℚ) = x at *
    have hj : (0 : ℚ) ≤ j := Nat.cast_nonneg _
    have hp : 0 ≤ ρ ^ (j + 1) := pow_nonneg b0 _
    have h2 : α * (ρ ^ (n - 1 + (j + 1)) * (1 + α * (x + 1)) * (hi - lo)) ≤ α * (ρ ^ (j + 1) * (1 + α * (x + 1)) * (hi - lo)) := by
      apply mul_le_mul_of_nonneg_left _ a0
      apply mul_le_mul_of_nonneg_right _ hD
      exact mul_le_mul_of_nonneg_right h1 (by positivity)
    have h3 : ρ ^ (j + 1) * (1 + α * (j + 1 : ℕ) * (1 + α * (x + 1))) * (hi - lo) -
        (ρ * (ρ ^ j * (1 + α * j * (1 + α * x)) * (hi - lo)) + α * (ρ ^ (j + 1) * (1 + α * (x + 1)) * (hi - lo))) =
        ρ ^ (j + 1) * (α * j * α) * (hi - lo) := by
      push_cast; ring
    have h4 : 0 ≤ ρ ^ (j + 1) * (α * j * α) * (hi - lo) := by positivity
    linarith

/-! ### Wilder's average -/

theorem wilder_between {n : ℕ} (hn : 1 ≤ n) {g : ℕ → ℚ} {i : ℕ} (hi' : n - 1 ≤ i) {lo hi : ℚ} (h : ∀ j ≤ i, lo ≤ g j ∧ g j ≤ hi) :
    lo ≤ wilderAverage n 0 g i ∧ wilderAverage n 0 g i ≤ hi := by
  have hq : (1 : ℚ) ≤ n := by exact_mod_cast hn
  refine smoothed_between (by positivity) (by rw [div_le_one (by linarith)]; exact hq) _ _ _ i ?_ h
  unfold meanLast sumLast
  rw [le_div_iff₀ (by linarith), div_le_iff₀ (by linarith)]
  have e1 : ∀ x : ℚ, x * n = ∑ _t ∈ Finset.range n, x := fun x => by simp [mul_comm]
  rw [e1, e1]
  exact ⟨Finset.sum_le_sum fun t ht => (h _ (by omega)).1, Finset.sum_le_sum fun t ht => (h _ (by omega)).2⟩

theorem wilder_forget {n : ℕ} (hn : 1 ≤ n) {g g' : ℕ → ℚ} {r r' : ℕ} {lo hi : ℚ} (h : ∀ j ≤ r + (n - 1), lo ≤ g j ∧ g j ≤ hi)
    (h' : ∀ j ≤ r' + (n - 1), lo ≤ g' j ∧ g' j ≤ hi) (m : ℕ) (hg : ∀ j < m, g (r + (n - 1) + j + 1) = g' (r' + (n - 1) + j + 1)) :
    |wilderAverage n 0 g (r + (n - 1) + m) - wilderAverage n 0 g' (r' + (n - 1) + m)| ≤ (1 - 1 / (n : ℚ)) ^ m * (hi - lo) := by
  have hq : (1 : ℚ) ≤ n := by exact_mod_cast hn
  exact smoothed_forget (by positivity) (by rw [div_le_one (by linarith)]; exact hq) (by omega) (by omega) _
    (abs_sub_le_of_between (wilder_between hn (by omega) h) (wilder_between hn (by omega) h')) m hg

/-! ### MACD -/

theorem macd_between {g : ℕ → ℚ} {i : ℕ} {lo hi : ℚ} (h : ∀ j ≤ i, lo ≤ g j ∧ g j ≤ hi) :
    -(hi - lo + 1 / 10000) ≤ macdLine g i ∧ macdLine g i ≤ hi - lo + 1 / 10000 := by
  have h1 := ema_between (n := 12) (by norm_num) (Nat.zero_le i) h
  have h2 := ema_between (n := 26) (by norm_num) (Nat.zero_le i) h
  exact abs_le.1 (round_apart (abs_sub_le_of_between h1 h2))

theorem macd_forget {g g' : ℕ → ℚ} {r r' : ℕ} {lo hi : ℚ} (h : ∀ j ≤ r, lo ≤ g j ∧ g j ≤ hi)
    (h' : ∀ j ≤ r', lo ≤ g' j ∧ g' j ≤ hi) (m : ℕ) (hg : ∀ j ≤ m, g (r + j) = g' (r' + j)) :
    |macdLine g (r + m) - macdLine g' (r' + m)| ≤ 2 * (25 / 27) ^ (m + 1) * (hi - lo) + 2 / 10000 := by
  have h1 := round_apart (ema_forget (n := 12) (by norm_num) h h' m hg)
  have h2 := round_apart (ema_forget (n := 26) (by norm_num) h h' m hg)
  have hD : 0 ≤ hi - lo := by linarith [(h 0 (by omega)).1, (h 0 (by omega)).2]
  have e : ((11 : ℚ) / 13) ^ (m + 1) ≤ (25 / 27) ^ (m + 1) := pow_le_pow_left₀ (by norm_num) (by norm_num) _
  have e' := mul_le_mul_of_nonneg_right e hD
  norm_num at h1 h2
  unfold macdLine
  rw [abs_le] at *
  constructor <;> linarith [h1.1, h1.2, h2.1, h2.2]

theorem macd_signal_forget {g g' : ℕ → ℚ} {r r' : ℕ} {lo hi : ℚ} (h : ∀ j ≤ r + 25, lo ≤ g j ∧ g j ≤ hi)
    (h' : ∀ j ≤ r' + 25, lo ≤ g' j ∧ g' j ≤ hi) (m : ℕ) (hg : ∀ j ≤ 25 + m, g (r + j) = g' (r' + j)) :
    |ema 9 25 (macdLine g) (r + 25 + m) - ema 9 25 (macdLine g') (r' + 25 + m)| ≤
      2 * (25 / 27) ^ m * (hi - lo) + 2 / 10000 := by
  have hD : 0 ≤ hi - lo := by linarith [(h 0 (by omega)).1, (h 0 (by omega)).2]
  have h1 := ema_between (n := 9) (g := macdLine g) (by norm_num) (by omega : 25 ≤ r + 25) fun j hj => macd_between fun l hl => h l (by omega)
  have h2 := ema_between (n := 9) (g := macdLine g') (by norm_num) (by omega : 25 ≤ r' + 25) fun j hj => macd_between fun l hl => h' l (by omega)
  have h3 := abs_sub_le_of_between h1 h2
  clear h1 h2
  unfold ema at h3 ⊢
  refine smoothed_drift (alpha_bounds (n := 9) (by norm_num)).1 (alpha_bounds (n := 9) (by norm_num)).2 (by omega) (by omega)
    (fun m => 2 * (25 / 27) ^ m * (hi - lo) + 2 / 10000) (fun j => 2 * (25 / 27) ^ (25 + j + 1) * (hi - lo) + 2 / 10000) ?_ m ?_ ?_
  · refine le_trans h3 ?_
    rw [pow_zero]
    linarith
  · intro j hj
    obtain ⟨t, ht⟩ : ∃ t, t = 25 + (j + 1) := ⟨_, rfl⟩
    have := macd_forget (fun j hj => h j (by omega)) (fun j hj => h' j (by omega)) t fun l hl => hg l (by omega)
    rw [show r + 25 + j + 1 = r + t by omega, show r' + 25 + j + 1 = r' + t by omega, show 25 + (j + 1) + 1 = t + 1 by omega]
    exact this
  · intro j _
    have h1 : (0 : ℚ) ≤ (25 / 27) ^ j * (hi - lo) := by positivity
    obtain ⟨z, hz⟩ : ∃ z : ℚ, z = (25 / 27) ^ 27 := ⟨_, rfl⟩
    have h2 : z ≤ 3 / 5 := by rw [hz]; norm_num
    have e : ((25 : ℚ) / 27) ^ (25 + (j + 1) + 1) = z * (25 / 27) ^ j := by rw [hz, ← pow_add]; congr 1; omega
    rw [e, pow_succ _ j]
    have h3 := mul_le_mul_of_nonneg_right h2 h1
    push_cast
    nlinarith

end TTI
