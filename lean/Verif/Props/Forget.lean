import Verif.Lemmas.Forget
import Verif.Lemmas.FloatSignal
import Verif.Lemmas.Identities
import Verif.Spec.Forget
import Verif.Props.FormulaAverages
import Verif.Props.FormulaMomentum
import Verif.Props.FormulaRange
import Verif.Props.Memory

set_option autoImplicit false

/-!
# Exponential and Wilder averages forget old prices: C98

Two tables of the user agree on all days since `d` and may differ before, in the prices and in the number of days; in
particular the second may be the first without the days before `d`. The `k`-th common day (counted from 0) is row
`rowsBefore d f.idx + k` of the first and row `rowsBefore d g.idx + k` of the second.
-/

namespace TTI.Props

open Spec

variable {E : Env} {c : Call} {f g : RawFrame} {fill : Bool} {o p : Obj}

/-- Both objects come from the same call, so they are of the same class with the same parameters. -/
theorem same_ind {P : (String → ℚ) → Prop} (hB : BuiltOn E c f fill o P) (hB' : BuiltOn E c g fill p P) : p.ind = o.ind := by
  have h1 := (construct_sound E c f fill o hB.wf hB.ok).2.1
  have h2 := (construct_sound E c g fill p hB'.wf hB'.ok).2.1
  rw [h1] at h2
  exact (Except.ok.inj h2).symm

/-- C98: the exponential moving average. -/
theorem C98_exponential (hB : BuiltOn E c f fill o AnyPrices) (hB' : BuiltOn E c g fill p AnyPrices) (n : ℕ)
    (ho : o.ind = .movingAverage n .exponential) (d : ℤ) (hs : f.since d = g.since d) (k : ℕ)
    (hk : rowsBefore d f.idx + k < f.idx.length) (hn : n - 1 ≤ k) (lo hi : ℚ) (h : FirstDays (rowsBefore d f.idx) (close f) lo hi)
    (h' : FirstDays (rowsBefore d g.idx) (close g) lo hi) :
    ApartBy ((((n : ℚ) - 1) / (n + 1)) ^ (k + 1) * (hi - lo) + 1 / 10000)
      (o.getTiData.day "ma-exponential" (rowsBefore d f.idx + k)) (p.getTiData.day "ma-exponential" (rowsBefore d g.idx + k)) := by
  have hp : 1 ≤ n := by obtain ⟨F, -, -, -, -, hp, -⟩ := hB.on ho; exact hp.1
  rw [C52_exponential hB n ho _ hk, C52_exponential hB' n ((same_ind hB hB').trans ho) _ ((rows_agree hs k).1 hk), since,
    if_neg (by omega), since, if_neg (by omega)]
  exact ⟨_, _, rfl, rfl, round_apart (ema_forget hp h h' k fun j _ => price_agree hB.wf hB'.wf hs "close" j)⟩

/-- C98: every `n` further days leave at most a fifth of the influence of the past on the `n`-day exponential average. -/
theorem C98_exponential_fifths (hB : BuiltOn E c f fill o AnyPrices) (hB' : BuiltOn E c g fill p AnyPrices) (n : ℕ)
    (ho : o.ind = .movingAverage n .exponential) (d : ℤ) (hs : f.since d = g.since d) (k q : ℕ)
    (hk : rowsBefore d f.idx + k < f.idx.length) (hn : n - 1 ≤ k) (hq : q * n ≤ k + 1) (lo hi : ℚ)
    (h : FirstDays (rowsBefore d f.idx) (close f) lo hi) (h' : FirstDays (rowsBefore d g.idx) (close g) lo hi) :
    ApartBy ((hi - lo) / 5 ^ q + 1 / 10000)
      (o.getTiData.day "ma-exponential" (rowsBefore d f.idx + k)) (p.getTiData.day "ma-exponential" (rowsBefore d g.idx + k)) := by
  have hp : 1 ≤ n := by obtain ⟨F, -, -, -, -, hp, -⟩ := hB.on ho; exact hp.1
  obtain ⟨x, y, hx, hy, hxy⟩ := C98_exponential hB hB' n ho d hs k hk hn lo hi h h'
  refine ⟨x, y, hx, hy, hxy.trans ?_⟩
  have hD : 0 ≤ hi - lo := by linarith [(h 0 (by omega)).1, (h 0 (by omega)).2]
  have h1 := mul_le_mul_of_nonneg_right (rate_fifths hp q (k + 1) hq) hD
  rw [one_div, inv_mul_eq_div] at h1
  linarith

/-- C98: the double exponential moving average. -/
theorem C98_double_exponential (hB : BuiltOn E c f fill o AnyPrices) (hB' : BuiltOn E c g fill p AnyPrices) (n : ℕ)
    (ho : o.ind = .doubleExponentialMovingAverage n) (d : ℤ) (hs : f.since d = g.since d) (k : ℕ)
    (hk : rowsBefore d f.idx + k < f.idx.length) (hn : 2 * n - 2 ≤ k) (lo hi : ℚ)
    (h : FirstDays (rowsBefore d f.idx + (n - 1)) (close f) lo hi) (h' : FirstDays (rowsBefore d g.idx + (n - 1)) (close g) lo hi) :
    ApartBy (3 * (1 + 2 * k / (n + 1)) * (((n : ℚ) - 1) / (n + 1)) ^ (k - (n - 1)) * (hi - lo) + 1 / 10000)
      (o.getTiData.day "dema" (rowsBefore d f.idx + k)) (p.getTiData.day "dema" (rowsBefore d g.idx + k)) := by
  have hp : 1 ≤ n := by obtain ⟨F, -, -, -, -, hp, -⟩ := hB.on ho; exact hp
  rw [C52_double_exponential hB n ho _ hk, C52_double_exponential hB' n ((same_ind hB hB').trans ho) _ ((rows_agree hs k).1 hk),
    since, if_neg (by omega), since, if_neg (by omega)]
  refine ⟨_, _, rfl, rfl, round_apart ?_⟩
  have hg : ∀ j, close f (rowsBefore d f.idx + j) = close g (rowsBefore d g.idx + j) :=
    fun j => price_agree hB.wf hB'.wf hs "close" j
  have h1 := ema_forget hp (fun j hj => h j (by omega)) (fun j hj => h' j (by omega)) k fun j _ => hg j
  have h2 := ema2_forget hp h h' (k - (n - 1)) fun j _ => hg j
  rw [show rowsBefore d f.idx + (n - 1) + (k - (n - 1)) = rowsBefore d f.idx + k by omega,
    show rowsBefore d g.idx + (n - 1) + (k - (n - 1)) = rowsBefore d g.idx + k by omega] at h2
  obtain ⟨b0, b1⟩ := rate_bounds hp
  obtain ⟨a0, -⟩ := alpha_bounds hp
  have hD : 0 ≤ hi - lo := by linarith [(h 0 (by omega)).1, (h 0 (by omega)).2]
  have e1 : (((n : ℚ) - 1) / (n + 1)) ^ (k + 1) ≤ (((n : ℚ) - 1) / (n + 1)) ^ (k - (n - 1)) := pow_le_pow_of_le_one b0 b1 (by omega)
  have e2 : ((k - (n - 1) : ℕ) : ℚ) ≤ k := by exact_mod_cast Nat.sub_le _ _
  have e3 : (2 : ℚ) * k / (n + 1) = 2 / (n + 1) * k := by ring
  rw [e3]
  have hp0 : 0 ≤ (((n : ℚ) - 1) / (n + 1)) ^ (k - (n - 1)) := pow_nonneg b0 _
  generalize (((n : ℚ) - 1) / (n + 1)) ^ (k - (n - 1)) = ρ at *
  generalize (((n : ℚ) - 1) / (n + 1)) ^ (k + 1) = ρ' at *
  generalize 2 / ((n : ℚ) + 1) = α at *
  have e4 := mul_le_mul_of_nonneg_right e1 hD
  have hk0 : (0 : ℚ) ≤ k := Nat.cast_nonneg _
  have e5 : ρ * (1 + α * (k - (n - 1) : ℕ)) * (hi - lo) ≤ ρ * (1 + α * k) * (hi - lo) := by
    apply mul_le_mul_of_nonneg_right _ hD
    apply mul_le_mul_of_nonneg_left _ hp0
    linarith [mul_le_mul_of_nonneg_left e2 a0]
  have e6 : 0 ≤ ρ * (α * k) * (hi - lo) := by positivity
  rw [abs_le] at *
  constructor <;> linarith [h1.1, h1.2, h2.1, h2.2]

/-- C98: the triple exponential moving average. -/
theorem C98_triple_exponential (hB : BuiltOn E c f fill o AnyPrices) (hB' : BuiltOn E c g fill p AnyPrices) (n : ℕ)
    (ho : o.ind = .tripleExponentialMovingAverage n) (d : ℤ) (hs : f.since d = g.since d) (k : ℕ)
    (hk : rowsBefore d f.idx + k < f.idx.length) (hn : 3 * n - 3 ≤ k) (lo hi : ℚ)
    (h : FirstDays (rowsBefore d f.idx + (2 * n - 2)) (close f) lo hi)
    (h' : FirstDays (rowsBefore d g.idx + (2 * n - 2)) (close g) lo hi) :
    ApartBy (7 * (1 + 2 * k / (n + 1)) ^ 2 * (((n : ℚ) - 1) / (n + 1)) ^ (k - (2 * n - 2)) * (hi - lo) + 1 / 10000)
      (o.getTiData.day "tema" (rowsBefore d f.idx + k)) (p.getTiData.day "tema" (rowsBefore d g.idx + k)) := by
  have hp : 1 ≤ n := by obtain ⟨F, -, -, -, -, hp, -⟩ := hB.on ho; exact hp
  rw [C52_triple_exponential hB n ho _ hk, C52_triple_exponential hB' n ((same_ind hB hB').trans ho) _ ((rows_agree hs k).1 hk),
    since, if_neg (by omega), since, if_neg (by omega)]
  refine ⟨_, _, rfl, rfl, round_apart ?_⟩
  have hg : ∀ j, close f (rowsBefore d f.idx + j) = close g (rowsBefore d g.idx + j) :=
    fun j => price_agree hB.wf hB'.wf hs "close" j
  have h1 := ema_forget hp (fun j hj => h j (by omega)) (fun j hj => h' j (by omega)) k fun j _ => hg j
  have h2 := ema2_forget hp (fun j hj => h j (by omega)) (fun j hj => h' j (by omega)) (k - (n - 1)) fun j _ => hg j
  have h3 := ema3_forget hp h h' (k - (2 * n - 2)) fun j _ => hg j
  rw [show rowsBefore d f.idx + (n - 1) + (k - (n - 1)) = rowsBefore d f.idx + k by omega,
    show rowsBefore d g.idx + (n - 1) + (k - (n - 1)) = rowsBefore d g.idx + k by omega] at h2
  rw [show rowsBefore d f.idx + (2 * n - 2) + (k - (2 * n - 2)) = rowsBefore d f.idx + k by omega,
    show rowsBefore d g.idx + (2 * n - 2) + (k - (2 * n - 2)) = rowsBefore d g.idx + k by omega] at h3
  obtain ⟨b0, b1⟩ := rate_bounds hp
  obtain ⟨a0, -⟩ := alpha_bounds hp
  have hD : 0 ≤ hi - lo := by linarith [(h 0 (by omega)).1, (h 0 (by omega)).2]
  have e1 : (((n : ℚ) - 1) / (n + 1)) ^ (k + 1) ≤ (((n : ℚ) - 1) / (n + 1)) ^ (k - (2 * n - 2)) := pow_le_pow_of_le_one b0 b1 (by omega)
  have e1' : (((n : ℚ) - 1) / (n + 1)) ^ (k - (n - 1)) ≤ (((n : ℚ) - 1) / (n + 1)) ^ (k - (2 * n - 2)) :=
    pow_le_pow_of_le_one b0 b1 (by omega)
  have e2 : ((k - (n - 1) : ℕ) : ℚ) ≤ k := by exact_mod_cast Nat.sub_le _ _
  have e2' : ((k - (2 * n - 2) : ℕ) : ℚ) ≤ k := by exact_mod_cast Nat.sub_le _ _
  have e2'' : ((n - 1 + (k - (2 * n - 2)) : ℕ) : ℚ) ≤ k := by exact_mod_cast (by omega : n - 1 + (k - (2 * n - 2)) ≤ k)
  have e3 : (2 : ℚ) * k / (n + 1) = 2 / (n + 1) * k := by ring
  rw [e3]
  have hp0 : 0 ≤ (((n : ℚ) - 1) / (n + 1)) ^ (k - (2 * n - 2)) := pow_nonneg b0 _
  have hp1 : 0 ≤ (((n : ℚ) - 1) / (n + 1)) ^ (k - (n - 1)) := pow_nonneg b0 _
  generalize (((n : ℚ) - 1) / (n + 1)) ^ (k - (2 * n - 2)) = ρ at *
  generalize (((n : ℚ) - 1) / (n + 1)) ^ (k - (n - 1)) = ρ'' at *
  generalize (((n : ℚ) - 1) / (n + 1)) ^ (k + 1) = ρ' at *
  generalize 2 / ((n : ℚ) + 1) = α at *
  have hk0 : (0 : ℚ) ≤ k := Nat.cast_nonneg _
  have hm0 : (0 : ℚ) ≤ (k - (n - 1) : ℕ) := Nat.cast_nonneg _
  have hm1 : (0 : ℚ) ≤ (k - (2 * n - 2) : ℕ) := Nat.cast_nonneg _
  have hm2 : (0 : ℚ) ≤ (n - 1 + (k - (2 * n - 2)) : ℕ) := Nat.cast_nonneg _
  generalize ((k - (n - 1) : ℕ) : ℚ) = m1 at *
  generalize ((k - (2 * n - 2) : ℕ) : ℚ) = m2 at *
  generalize ((n - 1 + (k - (2 * n - 2)) : ℕ) : ℚ) = m3 at *
  generalize (k : ℚ) = κ at *
  have u0 := mul_le_mul_of_nonneg_left e2 a0
  have u1 := mul_le_mul_of_nonneg_left e2' a0
  have u2 := mul_le_mul_of_nonneg_left e2'' a0
  have hακ : 0 ≤ α * κ := mul_nonneg a0 hk0
  have v1 : ρ' * (hi - lo) ≤ ρ * (hi - lo) := mul_le_mul_of_nonneg_right e1 hD
  have v2 : ρ'' * (1 + α * m1) * (hi - lo) ≤ ρ * (1 + α * κ) * (hi - lo) := by
    apply mul_le_mul_of_nonneg_right _ hD
    exact mul_le_mul e1' (by linarith) (by positivity) hp0
  have v3 : ρ * (1 + α * m2 * (1 + α * m3)) * (hi - lo) ≤ ρ * (1 + α * κ * (1 + α * κ)) * (hi - lo) := by
    apply mul_le_mul_of_nonneg_right _ hD
    apply mul_le_mul_of_nonneg_left _ hp0
    have := mul_le_mul u1 (by linarith : 1 + α * m3 ≤ 1 + α * κ) (by positivity) hακ
    linarith
  have v4 : 0 ≤ ρ * (10 * (α * κ) + 6 * (α * κ) ^ 2) * (hi - lo) := by positivity
  have v5 : 7 * (1 + α * κ) ^ 2 * ρ * (hi - lo) = 3 * (ρ * (hi - lo)) + 3 * (ρ * (1 + α * κ) * (hi - lo)) +
      ρ * (1 + α * κ * (1 + α * κ)) * (hi - lo) + ρ * (10 * (α * κ) + 6 * (α * κ) ^ 2) * (hi - lo) := by ring
  rw [v5]
  rw [abs_le] at *
  constructor <;> linarith [h1.1, h1.2, h2.1, h2.2, h3.1, h3.2]

/-- C98: Wilder's smoothing. -/
theorem C98_wilders_smoothing (hB : BuiltOn E c f fill o AnyPrices) (hB' : BuiltOn E c g fill p AnyPrices) (n : ℕ)
    (ho : o.ind = .wildersSmoothing n) (d : ℤ) (hs : f.since d = g.since d) (k : ℕ)
    (hk : rowsBefore d f.idx + k < f.idx.length) (hn : n - 1 ≤ k) (lo hi : ℚ)
    (h : FirstDays (rowsBefore d f.idx + (n - 1)) (close f) lo hi) (h' : FirstDays (rowsBefore d g.idx + (n - 1)) (close g) lo hi) :
    ApartBy ((1 - 1 / (n : ℚ)) ^ (k - (n - 1)) * (hi - lo) + 1 / 10000)
      (o.getTiData.day "ws" (rowsBefore d f.idx + k)) (p.getTiData.day "ws" (rowsBefore d g.idx + k)) := by
  have hp : 1 ≤ n := by obtain ⟨F, -, -, -, -, hp, -⟩ := hB.on ho; exact hp
  rw [C52_wilders_smoothing hB n ho _ hk, C52_wilders_smoothing hB' n ((same_ind hB hB').trans ho) _ ((rows_agree hs k).1 hk),
    since, if_neg (by omega), since, if_neg (by omega)]
  refine ⟨_, _, rfl, rfl, round_apart ?_⟩
  have h1 := wilder_forget hp h h' (k - (n - 1)) fun j _ => by
    have := price_agree hB.wf hB'.wf hs "close" (n - 1 + j + 1)
    rwa [show rowsBefore d f.idx + (n - 1 + j + 1) = rowsBefore d f.idx + (n - 1) + j + 1 by omega,
      show rowsBefore d g.idx + (n - 1 + j + 1) = rowsBefore d g.idx + (n - 1) + j + 1 by omega] at this
  rwa [show rowsBefore d f.idx + (n - 1) + (k - (n - 1)) = rowsBefore d f.idx + k by omega,
    show rowsBefore d g.idx + (n - 1) + (k - (n - 1)) = rowsBefore d g.idx + k by omega] at h1

/-- C98: the average true range; the bounds are for the true ranges. -/
theorem C98_average_true_range (hB : BuiltOn E c f fill o AnyPrices) (hB' : BuiltOn E c g fill p AnyPrices)
    (ho : o.ind = .averageTrueRange) (d : ℤ) (hs : f.since d = g.since d) (k : ℕ)
    (hk : rowsBefore d f.idx + k < f.idx.length) (hn : 13 ≤ k) (lo hi : ℚ)
    (h : FirstDays (rowsBefore d f.idx + 13) (trueRange f) lo hi) (h' : FirstDays (rowsBefore d g.idx + 13) (trueRange g) lo hi) :
    ApartBy ((13 / 14) ^ (k - 13) * (hi - lo) + 1 / 10000)
      (o.getTiData.day "atr" (rowsBefore d f.idx + k)) (p.getTiData.day "atr" (rowsBefore d g.idx + k)) := by
  rw [C57_average_true_range hB ho _ hk, C57_average_true_range hB' ((same_ind hB hB').trans ho) _ ((rows_agree hs k).1 hk),
    since, if_neg (by omega), since, if_neg (by omega)]
  refine ⟨_, _, rfl, rfl, round_apart ?_⟩
  have h1 := wilder_forget (n := 14) (by norm_num) h h' (k - 13) fun j _ => by
    have e := fun name i => price_agree hB.wf hB'.wf hs name i
    have e' : close f (rowsBefore d f.idx + (13 + j)) = close g (rowsBefore d g.idx + (13 + j)) := e "close" (13 + j)
    unfold trueRange
    rw [if_neg (by omega), if_neg (by omega)]
    simp only [show rowsBefore d f.idx + (14 - 1) + j + 1 = rowsBefore d f.idx + (13 + j + 1) by omega,
      show rowsBefore d g.idx + (14 - 1) + j + 1 = rowsBefore d g.idx + (13 + j + 1) by omega,
      show rowsBefore d f.idx + (13 + j + 1) - 1 = rowsBefore d f.idx + (13 + j) by omega,
      show rowsBefore d g.idx + (13 + j + 1) - 1 = rowsBefore d g.idx + (13 + j) by omega, e, e']
  rw [show rowsBefore d f.idx + (14 - 1) + (k - 13) = rowsBefore d f.idx + k by omega,
    show rowsBefore d g.idx + (14 - 1) + (k - 13) = rowsBefore d g.idx + k by omega] at h1
  norm_num at h1 ⊢
  exact h1

/-- C98: the moving average convergence divergence and its signal line. -/
theorem C98_macd (hB : BuiltOn E c f fill o AnyPrices) (hB' : BuiltOn E c g fill p AnyPrices)
    (ho : o.ind = .movingAverageConvergenceDivergence) (d : ℤ) (hs : f.since d = g.since d) (k : ℕ)
    (hk : rowsBefore d f.idx + k < f.idx.length) (lo hi : ℚ)
    (h : FirstDays (rowsBefore d f.idx + 25) (close f) lo hi) (h' : FirstDays (rowsBefore d g.idx + 25) (close g) lo hi) :
    (25 ≤ k → ApartBy (2 * (25 / 27) ^ (k + 1) * (hi - lo) + 2 / 10000)
      (o.getTiData.day "macd" (rowsBefore d f.idx + k)) (p.getTiData.day "macd" (rowsBefore d g.idx + k))) ∧
    (33 ≤ k → ApartBy (2 * (25 / 27) ^ (k - 25) * (hi - lo) + 3 / 10000)
      (o.getTiData.day "signal_line" (rowsBefore d f.idx + k)) (p.getTiData.day "signal_line" (rowsBefore d g.idx + k))) := by
  obtain ⟨m1, s1⟩ := C53_macd hB ho _ hk
  obtain ⟨m2, s2⟩ := C53_macd hB' ((same_ind hB hB').trans ho) _ ((rows_agree hs k).1 hk)
  have hg : ∀ j, close f (rowsBefore d f.idx + j) = close g (rowsBefore d g.idx + j) :=
    fun j => price_agree hB.wf hB'.wf hs "close" j
  constructor
  · intro h25
    rw [m1, m2, since, if_neg (by omega), since, if_neg (by omega)]
    refine ⟨_, _, rfl, rfl, ?_⟩
    have e : ∀ (x : ℕ → ℚ) i, roundQ 4 (macdLine x i) = macdLine x i := fun x i => roundQ_sub 4 _ _
    rw [e, e]
    exact macd_forget (fun j hj => h j (by omega)) (fun j hj => h' j (by omega)) k fun j _ => hg j
  · intro h33
    rw [s1, s2, since, if_neg (by omega), since, if_neg (by omega)]
    refine ⟨_, _, rfl, rfl, ?_⟩
    have h1 := round_apart (macd_signal_forget h h' (k - 25) fun j _ => hg j)
    rw [show rowsBefore d f.idx + 25 + (k - 25) = rowsBefore d f.idx + k by omega,
      show rowsBefore d g.idx + 25 + (k - 25) = rowsBefore d g.idx + k by omega] at h1
    linarith

/-! ## A table cut at a date -/

/-- C98: the rows since `d` are a table all claims above can be applied to as the second one, with no rows before `d`. -/
theorem C98_cut (P : (String → ℚ) → Prop) (hB : BuiltOn E c f fill o P) (d : ℤ) (h0 : ∃ e ∈ f.idx, d ≤ e)
    (hr : minRows o.ind ≤ (f.since d).idx.length) :
    (f.since d).since d = f.since d ∧ rowsBefore d (f.since d).idx = 0 ∧ ∃ p, BuiltOn E c (f.since d) fill p P := by
  refine ⟨since_since d f hB.wf, rowsBefore_since d f, ?_⟩
  obtain ⟨ind, F, T, hc, hv, ht, rfl⟩ := (construct_ok_iff _ _ _ _ _).1 hB.ok
  obtain ⟨p, h1, h2⟩ := (C32_not_enough_iff E c ind (f.since d) fill (since_wf d f hB.wf) hc
    ⟨_, validate_ok _ _ _ (valid_since d f _ h0 (valid_of_ok _ _ _ _ hv).1)⟩).2 hr
  exact ⟨p, since_wf d f hB.wf, h1, by rw [h2]; exact eachRow_since d f hB.wf _ P hB.rows⟩

/-- C98: the exponential moving average of a table cut at `d` and that of the whole table. -/
theorem C98_exponential_cut (hB : BuiltOn E c f fill o AnyPrices) (n : ℕ) (ho : o.ind = .movingAverage n .exponential) (d : ℤ)
    (hr : n ≤ (f.since d).idx.length) :
    ∃ p, (construct E c (.frame (f.since d)) (.bool fill)).2 = .ok p ∧
      ∀ k, rowsBefore d f.idx + k < f.idx.length → n - 1 ≤ k → ∀ lo hi, FirstDays (rowsBefore d f.idx) (close f) lo hi →
        ApartBy ((((n : ℚ) - 1) / (n + 1)) ^ (k + 1) * (hi - lo) + 1 / 10000)
          (o.getTiData.day "ma-exponential" (rowsBefore d f.idx + k)) (p.getTiData.day "ma-exponential" k) := by
  have hp : 1 ≤ n := by obtain ⟨F, -, -, -, -, hp, -⟩ := hB.on ho; exact hp.1
  have h0 : ∃ e ∈ f.idx, d ≤ e := by
    by_contra hne
    push Not at hne
    have : (f.since d).idx = [] := by
      simp only [RawFrame.since]
      rw [List.filter_eq_nil_iff]
      intro e he
      simpa using hne e he
    rw [this] at hr
    simp at hr
    omega
  obtain ⟨h1, h2, p, hB'⟩ := C98_cut AnyPrices hB d h0 (by rw [ho]; exact hr)
  refine ⟨p, hB'.ok, fun k hk hn lo hi h => ?_⟩
  have := C98_exponential hB hB' n ho d h1.symm k hk hn lo hi h (by
    rw [h2]
    intro j hj
    have e := price_agree hB.wf hB'.wf h1.symm "close" 0
    obtain rfl : j = 0 := by omega
    rw [h2] at e
    have e' : close (f.since d) 0 = close f (rowsBefore d f.idx + 0) := e.symm
    rw [e']
    exact h _ (le_refl _))
  rwa [h2, Nat.zero_add] at this

/-- The sample and the sample cut at a date, for the examples. -/
theorem sample_pair {c : Call} {ind : Ind} (m : ℕ) (d : ℤ)
    (h : ((construct demoEnv c (.frame (sample m)) (.bool true)).2.map fun o => o.ind) = .ok ind)
    (hn : ∀ m ∈ ind.required, m ∈ ["open", "high", "low", "close", "volume"]) (h0 : ∃ e ∈ (sample m).idx, d ≤ e)
    (hr : minRows ind ≤ ((sample m).since d).idx.length) :
    ∃ o p, BuiltOn demoEnv c (sample m) true o AnyPrices ∧ BuiltOn demoEnv c ((sample m).since d) true p AnyPrices ∧ o.ind = ind ∧
      (sample m).since d = ((sample m).since d).since d := by
  obtain ⟨o, hB, ho⟩ : ∃ o, BuiltOn demoEnv c (sample m) true o AnyPrices ∧ o.ind = ind := by
    cases hc : (construct demoEnv c (.frame (sample m)) (.bool true)).2 with
    | error e => rw [hc] at h; simp [Except.map] at h
    | ok o =>
      rw [hc] at h
      simp only [Except.map, Except.ok.injEq] at h
      refine ⟨o, ⟨sample_wf m, hc, ?_⟩, h⟩
      rw [h]
      intro j hj
      obtain ⟨x, hx, -⟩ := sample_rows m _ hn j hj
      exact ⟨x, hx, trivial⟩
  obtain ⟨h1, -, p, hp⟩ := C98_cut AnyPrices hB d h0 (by rw [ho]; exact hr)
  exact ⟨o, p, hB, hp, ho, h1.symm⟩

/-- The hypotheses of `C98_exponential`, `C98_exponential_fifths` and `C98_exponential_cut` on the sample cut at date 3: on the sixth
day at most 1/25 of the spread is left; the reported values are 53.3945 and 53.5. -/
example : (∃ o p, BuiltOn demoEnv (.movingAverage (.int 3) (.str "exponential")) (sample 10) true o AnyPrices ∧
      BuiltOn demoEnv (.movingAverage (.int 3) (.str "exponential")) ((sample 10).since 3) true p AnyPrices ∧
      o.ind = .movingAverage 3 .exponential ∧ (sample 10).since 3 = ((sample 10).since 3).since 3) ∧
    rowsBefore 3 (sample 10).idx = 3 ∧ rowsBefore 3 ((sample 10).since 3).idx = 0 ∧ (sample 10).idx.length = 10 ∧
    FirstDays 3 (close (sample 10)) 50 60 ∧ FirstDays 0 (close ((sample 10).since 3)) 50 60 ∧ 2 * 3 ≤ 5 + 1 :=
  ⟨sample_pair 10 3 (by decide +kernel) (by decide) ⟨9, by decide +kernel, by decide⟩ (by decide +kernel),
    by decide +kernel, by decide +kernel, by decide +kernel, by unfold FirstDays; decide +kernel, by unfold FirstDays; decide +kernel,
    by decide⟩

/-- The hypotheses of `C98_double_exponential` and `C98_triple_exponential` with `n = 2`. -/
example : (∃ o p, BuiltOn demoEnv (.doubleExponentialMovingAverage (.int 2)) (sample 10) true o AnyPrices ∧
      BuiltOn demoEnv (.doubleExponentialMovingAverage (.int 2)) ((sample 10).since 3) true p AnyPrices ∧
      o.ind = .doubleExponentialMovingAverage 2 ∧ (sample 10).since 3 = ((sample 10).since 3).since 3) ∧
    (∃ o p, BuiltOn demoEnv (.tripleExponentialMovingAverage (.int 2)) (sample 10) true o AnyPrices ∧
      BuiltOn demoEnv (.tripleExponentialMovingAverage (.int 2)) ((sample 10).since 3) true p AnyPrices ∧
      o.ind = .tripleExponentialMovingAverage 2 ∧ (sample 10).since 3 = ((sample 10).since 3).since 3) ∧
    FirstDays (3 + (2 * 2 - 2)) (close (sample 10)) 50 60 ∧ FirstDays (2 * 2 - 2) (close ((sample 10).since 3)) 50 60 :=
  ⟨sample_pair 10 3 (by decide +kernel) (by decide) ⟨9, by decide +kernel, by decide⟩ (by decide +kernel),
    sample_pair 10 3 (by decide +kernel) (by decide) ⟨9, by decide +kernel, by decide⟩ (by decide +kernel),
    by unfold FirstDays; decide +kernel, by unfold FirstDays; decide +kernel⟩

/-- The hypotheses of `C98_wilders_smoothing` with `n = 3`. -/
example : (∃ o p, BuiltOn demoEnv (.wildersSmoothing (.int 3)) (sample 10) true o AnyPrices ∧
      BuiltOn demoEnv (.wildersSmoothing (.int 3)) ((sample 10).since 3) true p AnyPrices ∧
      o.ind = .wildersSmoothing 3 ∧ (sample 10).since 3 = ((sample 10).since 3).since 3) ∧
    FirstDays (3 + (3 - 1)) (close (sample 10)) 50 60 ∧ FirstDays (3 - 1) (close ((sample 10).since 3)) 50 60 :=
  ⟨sample_pair 10 3 (by decide +kernel) (by decide) ⟨9, by decide +kernel, by decide⟩ (by decide +kernel),
    by unfold FirstDays; decide +kernel, by unfold FirstDays; decide +kernel⟩

/-- The hypotheses of `C98_average_true_range` and `C98_macd` on 40 days cut at date 3. -/
example : (∃ o p, BuiltOn demoEnv .averageTrueRange (sample 40) true o AnyPrices ∧
      BuiltOn demoEnv .averageTrueRange ((sample 40).since 3) true p AnyPrices ∧
      o.ind = .averageTrueRange ∧ (sample 40).since 3 = ((sample 40).since 3).since 3) ∧
    (∃ o p, BuiltOn demoEnv .movingAverageConvergenceDivergence (sample 40) true o AnyPrices ∧
      BuiltOn demoEnv .movingAverageConvergenceDivergence ((sample 40).since 3) true p AnyPrices ∧
      o.ind = .movingAverageConvergenceDivergence ∧ (sample 40).since 3 = ((sample 40).since 3).since 3) ∧
    FirstDays (3 + 13) (trueRange (sample 40)) 10 20 ∧ FirstDays 13 (trueRange ((sample 40).since 3)) 10 20 ∧
    FirstDays (3 + 25) (close (sample 40)) 50 60 ∧ FirstDays 25 (close ((sample 40).since 3)) 50 60 ∧
    rowsBefore 3 (sample 40).idx = 3 ∧ (sample 40).idx.length = 40 :=
  ⟨sample_pair 40 3 (by decide +kernel) (by decide) ⟨39, by decide +kernel, by decide⟩ (by decide +kernel),
    sample_pair 40 3 (by decide +kernel) (by decide) ⟨39, by decide +kernel, by decide⟩ (by decide +kernel),
    by unfold FirstDays; decide +kernel, by unfold FirstDays; decide +kernel, by unfold FirstDays; decide +kernel,
    by unfold FirstDays; decide +kernel, by decide +kernel, by decide +kernel⟩

/-! ## Signals -/

/-- The validated closes of an object and its last indicator value. -/
theorem last_cells (hB : BuiltOn E c f fill o AnyPrices) (hm : ∀ F, o.ind.inputAfter F = F) (hr : "close" ∈ o.ind.required)
    (hd : ∀ n, o.ind ≠ .detrendedPriceOscillator n) (name : String) (hc : name ∈ columns o.ind) (day : ℕ)
    (hday : day + 1 = f.idx.length) (x : ℚ) (hx : o.getTiData.day name day = .fin x) :
    iat (o.input.col "close") 1 = .ok (.fin (close f day)) ∧ iat (o.getTiData.col name) 1 = .ok (.fin x) ∧ 1 ≤ o.getTiData.len := by
  obtain ⟨F, v, hg, hlen, -, h1, h2, h3, -, ht, hin, -⟩ := construct_days E c f fill o _ hB.wf hB.ok hB.rows
  obtain ⟨hs, -, -, hl, -⟩ := construct_sound E c f fill o hB.wf hB.ok
  rw [rowsOut_eq _ _ hd] at hl
  have hcol := Frame.col_length _ hs.shaped.tiWf name (by rw [hs.shaped.tiNames]; exact hc)
  refine ⟨?_, ?_, ?_⟩
  · rw [hin, hm]
    unfold iat fromEnd
    rw [if_pos (by have := h1 _ hr; omega), val_getElem? _ _ (by have := h1 _ hr; omega), h1 _ hr,
      show F.len - 1 = day by omega, h2 _ hr day (by omega)]
    unfold close
    rw [h3 _ hr day (by omega)]
    rfl
  · have hx' : val (o.ti.col name) day = .fin x := hx
    show iat (o.ti.col name) 1 = _
    unfold iat fromEnd
    rw [if_pos (by omega), val_getElem? _ _ (by omega), hcol, hl, show f.idx.length - 1 = day by omega, hx']
  · show 1 ≤ o.ti.len
    omega

/-- C98: if the last close is farther from the exponential average than the past can still move it, the two tables give the
same signal. -/
theorem C98_exponential_signal (hB : BuiltOn E c f fill o AnyPrices) (hB' : BuiltOn E c g fill p AnyPrices) (n : ℕ)
    (ho : o.ind = .movingAverage n .exponential) (d : ℤ) (hs : f.since d = g.since d) (k : ℕ)
    (hk : rowsBefore d f.idx + k + 1 = f.idx.length) (hn : n - 1 ≤ k) (lo hi : ℚ)
    (h : FirstDays (rowsBefore d f.idx) (close f) lo hi) (h' : FirstDays (rowsBefore d g.idx) (close g) lo hi) (x : ℚ)
    (hx : o.getTiData.day "ma-exponential" (rowsBefore d f.idx + k) = .fin x)
    (hfar : (((n : ℚ) - 1) / (n + 1)) ^ (k + 1) * (hi - lo) + 1 / 10000 < |close f (rowsBefore d f.idx + k) - x|) :
    p.getTiSignal = o.getTiSignal := by
  obtain ⟨x', y, hx', hy, hxy⟩ := C98_exponential hB hB' n ho d hs k (by omega) hn lo hi h h'
  rw [hx] at hx'
  cases hx'
  have ho' : p.ind = .movingAverage n .exponential := (same_ind hB hB').trans ho
  have hk' : rowsBefore d g.idx + k + 1 = g.idx.length := by
    have h1 := (rows_agree hs k).1 (by omega)
    have h2 := (rows_agree hs (k + 1)).not.1 (by omega)
    omega
  obtain ⟨a1, a2, a3⟩ := last_cells hB (by rw [ho]; intro F; rfl) (by rw [ho]; simp [Ind.required]) (by rw [ho]; simp) "ma-exponential"
    (by rw [ho]; exact List.mem_singleton.2 rfl) _ hk x hx
  obtain ⟨b1, b2, b3⟩ := last_cells hB' (by rw [ho']; intro F; rfl) (by rw [ho']; simp [Ind.required]) (by rw [ho']; simp) "ma-exponential"
    (by rw [ho']; exact List.mem_singleton.2 rfl) _ hk' y hy
  have e : close f (rowsBefore d f.idx + k) = close g (rowsBefore d g.idx + k) := price_agree hB.wf hB'.wf hs "close" k
  rw [← e] at b1
  show p.ind.signal p.input p.getTiData = o.ind.signal o.input o.getTiData
  rw [ho, ho']
  have e0 : 0 ≤ |x - y| := abs_nonneg _
  have s1 := ma_signal_near (e := 0) (x := x) .exponential a3 a1 a2 (by simp)
  have hyx := hxy
  rw [abs_sub_comm] at hyx
  have s2 := ma_signal_near (x := x) .exponential b3 b1 b2 hyx
  show Ind.MovingAverage.signal .exponential p.input p.getTiData = Ind.MovingAverage.signal .exponential o.input o.getTiData
  rcases lt_abs.1 hfar with h1 | h1
  · rw [s1.1 (by linarith), s2.1 (by linarith)]
  · rw [s1.2 (by linarith), s2.2 (by linarith)]

/-- The hypotheses of `C98_exponential_signal`: on the last of ten days the close 58 is farther from the average 55.6973 than
the days before date 3 can move it. -/
example : (construct demoEnv (.movingAverage (.int 3) (.str "exponential")) (.frame (sample 10)) (.bool true)).2.map
      (fun o => o.getTiData.day "ma-exponential" 9) = .ok (.fin (556973 / 10000)) ∧
    (((3 : ℕ) - 1 : ℚ) / ((3 : ℕ) + 1)) ^ (6 + 1) * (60 - 50) + 1 / 10000 < |close (sample 10) 9 - 556973 / 10000| := by
  constructor <;> decide +kernel

/-! ## The memory is unlimited all the same -/

/-- C98: the exponential average of two or more periods never forgets completely: after any number of days on which two tables
agree the reported values can differ. -/
theorem C98_never_forgotten (E : Env) (n k : ℕ) (hn : 2 ≤ n) (hk : n ≤ k + 2) : ∃ f g o p, WF f ∧ WF g ∧ f.since 1 = g.since 1 ∧
    (f.since 1).idx.length = k + 1 ∧ f.idx.length = g.idx.length ∧
    (construct E (.movingAverage (.int n) (.str "exponential")) (.frame f) (.bool true)).2 = .ok o ∧
    (construct E (.movingAverage (.int n) (.str "exponential")) (.frame g) (.bool true)).2 = .ok p ∧
    o.getTiData.day "ma-exponential" (k + 1) = .fin 3 ∧ p.getTiData.day "ma-exponential" (k + 1) = .fin 2 := by
  have hc : (Call.movingAverage (.int n) (.str "exponential")).check = .ok (.movingAverage n .exponential) := by
    have h1 : checkMaPeriod (.int n) (.str "exponential") = .ok n := by
      unfold checkMaPeriod
      simp [PyArg.asInt]
      omega
    have h2 : checkMaType (.str "exponential") = .ok .exponential := by decide
    simp only [Call.check, h1, h2, bind, Except.bind, pure, Except.pure]
  have hq : (2 : ℚ) ≤ n := by exact_mod_cast hn
  have hρ : 0 < ((n : ℚ) - 1) / (n + 1) := div_pos (by linarith) (by linarith)
  have key : ∀ a, ∃ o, (construct E (.movingAverage (.int n) (.str "exponential")) (.frame (afterFirst a k)) (.bool true)).2 = .ok o ∧
      o.getTiData.day "ma-exponential" (k + 1) = to4 (2 + (((n : ℚ) - 1) / (n + 1)) ^ (k + 1) * (a - 2)) := by
    intro a
    obtain ⟨o, h1, h2, h3⟩ := afterFirst_built E _ _ hc a k (by simpa [minRows] using hk) (by simp [Ind.required])
    refine ⟨o, h1, ?_⟩
    rw [C52_exponential ⟨afterFirst_wf _ _, h1, h3⟩ n h2 (k + 1) (by simp [afterFirst]), since, if_neg (by omega)]
    congr 1
    have : ∀ j ≤ k + 1, ema n 0 (close (afterFirst a k)) j = 2 + (((n : ℚ) - 1) / (n + 1)) ^ j * (a - 2) := by
      intro j hj
      induction j with
      | zero =>
        show close (afterFirst a k) 0 = _
        rw [afterFirst_close _ _ _ (by omega)]; simp
      | succ j ih =>
        have ih := ih (by omega)
        unfold ema at ih ⊢
        rw [Nums.smoothed_next _ _ _ _ _ (Nat.zero_le _), ih, afterFirst_close _ _ _ (by omega), if_neg (by omega), ← rate_eq]
        ring
    exact this (k + 1) (le_refl _)
  obtain ⟨o, h1, h2⟩ := key (2 + ((((n : ℚ) - 1) / (n + 1)) ^ (k + 1))⁻¹)
  obtain ⟨p, k1, k2⟩ := key 2
  refine ⟨_, _, o, p, afterFirst_wf _ _, afterFirst_wf _ _, afterFirst_since _ _ _, afterFirst_rows _ _, by simp [afterFirst], h1, k1,
    ?_, ?_⟩
  · rw [h2, add_sub_cancel_left, mul_inv_cancel₀ (pow_pos hρ _).ne']
    rw [show (2 : ℚ) + 1 = (3 : ℕ) by norm_num]
    exact congrArg Val.fin (roundQ_natCast 4 3)
  · rw [k2, sub_self, mul_zero, add_zero]
    exact congrArg Val.fin (roundQ_natCast 4 2)

end TTI.Props
