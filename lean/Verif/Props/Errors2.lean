import Verif.Props.Errors
import Verif.Props.Volume
import Verif.Props.Table

set_option autoImplicit false

/-!
# Errors of the prices: columns that jump, and examples (C107)
-/

namespace TTI.Props

open Spec Errors

/-- A table with these closes; the other columns are the same on all days. -/
def shaky (n : ℕ) (close : ℕ → ℚ) (top bottom vol : ℚ) : RawFrame :=
  table n fun s j => if s = "close" then close j else if s = "high" then top else if s = "low" then bottom
    else if s = "open" then 10 else vol

theorem shaky_within {e : ℚ} (h0 : 0 ≤ e) (n : ℕ) (u v : ℕ → ℚ) (top bottom vol : ℚ) (h : ∀ j < n, |v j - u j| ≤ e) :
    Within e (shaky n u top bottom vol) (shaky n v top bottom vol) where
  days := by simp [shaky, table_length]
  near s hs j hj := by
    have hj' : j < n := by simpa [shaky, table_length] using hj
    have hs' : s ∈ ohlcv := by revert hs; simp [ohlcv]; tauto
    rw [shaky, shaky, table_price _ _ _ hs' _ hj', table_price _ _ _ hs' _ hj']
    by_cases q : s = "close"
    · simpa [q] using h j hj'
    · simpa [q] using h0

theorem shaky_close (n : ℕ) (u : ℕ → ℚ) (top bottom vol : ℚ) (j : ℕ) (hj : j < n) : close (shaky n u top bottom vol) j = u j := by
  change price _ "close" j = _
  rw [shaky, table_price _ _ _ (by decide) _ hj]; simp

theorem shaky_high (n : ℕ) (u : ℕ → ℚ) (top bottom vol : ℚ) (j : ℕ) (hj : j < n) : high (shaky n u top bottom vol) j = top := by
  change price _ "high" j = _
  rw [shaky, table_price _ _ _ (by decide) _ hj]; simp

theorem shaky_low (n : ℕ) (u : ℕ → ℚ) (top bottom vol : ℚ) (j : ℕ) (hj : j < n) : low (shaky n u top bottom vol) j = bottom := by
  change price _ "low" j = _
  rw [shaky, table_price _ _ _ (by decide) _ hj]; simp

theorem shaky_volume (n : ℕ) (u : ℕ → ℚ) (top bottom vol : ℚ) (j : ℕ) (hj : j < n) : volume (shaky n u top bottom vol) j = vol := by
  change price _ "volume" j = _
  rw [shaky, table_price _ _ _ (by decide) _ hj]; simp

theorem shaky_built (E : Env) (c : Call) (ind : Ind) (hc : c.check = .ok ind) (n : ℕ) (u : ℕ → ℚ) (top bottom vol : ℚ) (h0 : 1 ≤ n)
    (hm : minRows ind ≤ n) : ∃ o, BuiltOn E c (shaky n u top bottom vol) true o AnyPrices ∧ o.ind = ind :=
  table_built E c ind hc n _ AnyPrices h0 hm (Past.required_ohlcv _) fun _ _ => trivial

/-- The closes of the example. -/
def firstCloses : ℕ → ℚ
  | 0 => 10
  | 1 => 11
  | _ => 14

def secondCloses : ℕ → ℚ
  | 0 => 10
  | 1 => 12
  | _ => 13

/-- The hypotheses of `C107_errors`: closes 10, 11, 14 and 10, 12, 13, so the prices differ by at most 1; the double exponential
average of two days differs on the last day, by at most 3.0001. -/
example : ∃ o p, BuiltOn demoEnv (.doubleExponentialMovingAverage (.int 2)) (shaky 3 firstCloses 20 5 1) true o AnyPrices ∧
    BuiltOn demoEnv (.doubleExponentialMovingAverage (.int 2)) (shaky 3 secondCloses 20 5 1) true p AnyPrices ∧
    Within 1 (shaky 3 firstCloses 20 5 1) (shaky 3 secondCloses 20 5 1) ∧
    errorFactor o.ind "dema" = some (3, 1) ∧ 2 < o.getTiData.len ∧
    o.getTiData.day "dema" 2 ≠ .nan ∧ o.getTiData.day "dema" 2 ≠ p.getTiData.day "dema" 2 := by
  have hc : (Call.doubleExponentialMovingAverage (.int 2)).check = .ok (.doubleExponentialMovingAverage 2) := by decide +kernel
  obtain ⟨o, ho, hoi⟩ := shaky_built demoEnv _ _ hc 3 firstCloses 20 5 1 (by norm_num) (by decide)
  obtain ⟨p, hp, hpi⟩ := shaky_built demoEnv _ _ hc 3 secondCloses 20 5 1 (by norm_num) (by decide)
  have l1 : (shaky 3 firstCloses 20 5 1).idx.length = 3 := by simp [shaky, table_length]
  have l2 : (shaky 3 secondCloses 20 5 1).idx.length = 3 := by simp [shaky, table_length]
  have h1 := C52_double_exponential ho 2 hoi 2 (by omega)
  have h2 := C52_double_exponential hp 2 hpi 2 (by omega)
  have c1 := fun j hj => shaky_close 3 firstCloses 20 5 1 j hj
  have c2 := fun j hj => shaky_close 3 secondCloses 20 5 1 j hj
  simp [since, ema, smoothed, c1, firstCloses] at h1
  simp [since, ema, smoothed, c2, secondCloses] at h2
  refine ⟨o, p, ho, hp, shaky_within (by norm_num) 3 _ _ _ _ _ fun j hj => by interval_cases j <;> norm_num [firstCloses, secondCloses], by rw [hoi]; rfl, ?_, ?_, ?_⟩
  · have := (C33_shape demoEnv _ _ true o ho.wf ho.ok).2.2.1 (by rw [hoi]; simp)
    simp [Frame.len, this, sortIdx, l1]
  · rw [h1]; simp [to4]
  · rw [h1, h2]; decide +kernel

/-- The columns of two objects on prices that differ by at most `e` differ by at least `d`. -/
def Jumps (E : Env) (c : Call) (column : String) (e d : ℚ) : Prop :=
  ∃ f g o p i x y, Within e f g ∧ BuiltOn E c f true o AnyPrices ∧ BuiltOn E c g true p AnyPrices ∧
    o.getTiData.day column i = .fin x ∧ p.getTiData.day column i = .fin y ∧ d ≤ |y - x|

/-- C107: an error of the prices, however small, can turn Williams %R from one end of its range to the other. -/
theorem C107_williams_r_jumps (E : Env) (e : ℚ) (he : 0 < e) : Jumps E (.williamsR (.int 5)) "wr" e 100 := by
  have hc : (Call.williamsR (.int 5)).check = .ok (.williamsR 5) := by decide +kernel
  have key : ∀ x : ℚ, ∃ o, BuiltOn E (.williamsR (.int 5)) (shaky 5 (fun _ => x) (10 + e) 10 1) true o AnyPrices ∧
      o.getTiData.day "wr" 4 = round4 (.fin (-100 * (10 + e - x) / e)) := fun x => by
    obtain ⟨o, ho, hoi⟩ := shaky_built E _ _ hc 5 (fun _ => x) (10 + e) 10 1 (by norm_num) (by decide)
    refine ⟨o, ho, ?_⟩
    rw [C55_williams_r ho 5 hoi 4 (by simp [shaky, table_length])]
    have a1 : highest 5 (high (shaky 5 (fun _ => x) (10 + e) 10 1)) 4 = 10 + e := by
      obtain ⟨-, t, ht, q⟩ := Nums.highest_spec 5 (by norm_num) (high (shaky 5 (fun _ => x) (10 + e) 10 1)) 4
      rw [q, shaky_high _ _ _ _ _ _ (by omega)]
    have a2 : lowest 5 (low (shaky 5 (fun _ => x) (10 + e) 10 1)) 4 = 10 := by
      obtain ⟨-, t, ht, q⟩ := Nums.lowest_spec 5 (by norm_num) (low (shaky 5 (fun _ => x) (10 + e) 10 1)) 4
      rw [q, shaky_low _ _ _ _ _ _ (by omega)]
    unfold rangeHeight
    rw [a1, a2, shaky_close _ _ _ _ _ _ (by omega), show 10 + e - 10 = e by ring]
    simp [since, quotient, he.ne']
  obtain ⟨o, ho, h1⟩ := key 10
  obtain ⟨p, hp, h2⟩ := key (10 + e)
  refine ⟨_, _, o, p, 4, -100, 0, shaky_within he.le 5 _ _ _ _ _ fun j _ => ?_, ho, hp, ?_, ?_, by norm_num⟩
  · simp [abs_of_pos he]
  · rw [h1, show -100 * (10 + e - 10) / e = -100 by field_simp; ring]
    simp [round4, Val.round]
  · rw [h2]
    simp [round4, Val.round]

/-- C107: the same for the Chande momentum oscillator: from all falls to all rises. -/
theorem C107_chande_jumps (E : Env) (e : ℚ) (he : 0 < e) : Jumps E (.chandeMomentumOscillator (.int 5)) "cmo" e 200 := by
  have hc : (Call.chandeMomentumOscillator (.int 5)).check = .ok (.chandeMomentumOscillator 5) := by decide +kernel
  have key : ∀ x : ℚ, ∃ o, BuiltOn E (.chandeMomentumOscillator (.int 5)) (shaky 6 (fun j => if j = 5 then 10 + x else 10) 10 10 1) true o AnyPrices ∧
      o.getTiData.day "cmo" 5 = round4 (quotient (100 * (max x 0 - max (-x) 0)) (max x 0 + max (-x) 0)) := fun x => by
    obtain ⟨o, ho, hoi⟩ := shaky_built E _ _ hc 6 (fun j => if j = 5 then 10 + x else 10) 10 10 1 (by norm_num) (by decide)
    refine ⟨o, ho, ?_⟩
    rw [C55_chande ho 5 hoi 5 (by simp [shaky, table_length])]
    have hcl := fun j hj => shaky_close 6 (fun j => if j = 5 then 10 + x else 10) 10 10 1 j hj
    simp [since, chande, sumLast, gain, loss, Finset.sum_range_succ, hcl]
  obtain ⟨o, ho, h1⟩ := key (-(e / 2))
  obtain ⟨p, hp, h2⟩ := key (e / 2)
  refine ⟨_, _, o, p, 5, -100, 100, shaky_within he.le 6 _ _ _ _ _ fun j _ => ?_, ho, hp, ?_, ?_, by norm_num⟩
  · split
    · rw [show 10 + e / 2 - (10 + -(e / 2)) = e by ring, abs_of_pos he]
    · simpa using he.le
  · rw [h1, max_eq_right (by linarith : -(e / 2) ≤ 0), neg_neg, max_eq_left (by linarith : 0 ≤ e / 2)]
    have : e / 2 ≠ 0 := by positivity
    rw [quotient, if_pos (by simpa using he.ne'), show 100 * (0 - e / 2) / (0 + e / 2) = -100 by field_simp; ring]
    simp [round4, Val.round]
  · rw [h2, max_eq_right (by linarith : -(e / 2) ≤ 0), max_eq_left (by linarith : 0 ≤ e / 2)]
    rw [quotient, if_pos (by simpa using he.ne'), show 100 * (e / 2 - 0) / (e / 2 + 0) = 100 by field_simp; ring]
    simp [round4, Val.round]

/-- C107: an error of the prices, however small, can change the on-balance volume by any amount: the volume of the day decides. -/
theorem C107_on_balance_volume_jumps (E : Env) (e : ℚ) (he : 0 < e) (d : ℚ) : Jumps E .onBalanceVolume "obv" e d := by
  have hc : Call.onBalanceVolume.check = .ok .onBalanceVolume := by decide +kernel
  have key : ∀ x : ℚ, ∃ o, BuiltOn E .onBalanceVolume (shaky 2 (fun j => if j = 1 then 10 + x else 10) 10 10 |d|) true o AnyPrices ∧
      o.getTiData.day "obv" 1 = .fin ((if 0 < x then |d| else 0) - if x < 0 then |d| else 0) := fun x => by
    obtain ⟨o, ho, hoi⟩ := shaky_built E _ _ hc 2 (fun j => if j = 1 then 10 + x else 10) 10 10 |d| (by norm_num) (by decide)
    refine ⟨o, ho, ?_⟩
    rw [C43_on_balance_volume E _ _ _ o ho.wf ho.ok ho.rows hoi 1 (by simp [shaky, table_length])]
    have a0 := shaky_close 2 (fun j => if j = 1 then 10 + x else 10) 10 10 |d| 0 (by norm_num)
    have a1 := shaky_close 2 (fun j => if j = 1 then 10 + x else 10) 10 10 |d| 1 (by norm_num)
    have a2 := shaky_volume 2 (fun j => if j = 1 then 10 + x else 10) 10 10 |d| 1 (by norm_num)
    simp only [closeRose, closeFell, show Finset.Ico 1 (1 + 1) = {1} from rfl, Finset.filter_singleton, Nat.sub_self, a0, a1, if_true,
      if_neg (show ¬ (0 : ℕ) = 1 by norm_num), lt_add_iff_pos_right, add_lt_iff_neg_left]
    congr 2 <;> split <;> simp [a2]
  obtain ⟨o, ho, h1⟩ := key (-(e / 2))
  obtain ⟨p, hp, h2⟩ := key (e / 2)
  refine ⟨_, _, o, p, 1, _, _, shaky_within he.le 2 _ _ _ _ _ fun j _ => ?_, ho, hp, h1, h2, ?_⟩
  · split
    · rw [show 10 + e / 2 - (10 + -(e / 2)) = e by ring, abs_of_pos he]
    · simpa using he.le
  · rw [if_pos (by linarith), if_neg (by linarith), if_neg (by linarith), if_pos (by linarith)]
    have q := abs_nonneg d
    rw [abs_of_nonneg (by linarith)]
    linarith [le_abs_self d]

end TTI.Props
