import Verif.Lemmas.FloatSample

set_option autoImplicit false

/-!
# Signals that compare numbers with an error: lemmas for C87
-/

namespace TTI

open Spec Flt Ind

/-- A cell near the end of a column of numbers. -/
theorem Nums.iat_fin {n k : ℕ} {g : ℕ → ℚ} {xs : List Val} (h : Nums n k g xs) (b : ℕ) (hb : 1 ≤ b) (hn : k + b ≤ n) :
    iat xs b = .ok (.fin (g (n - b))) := by
  unfold iat fromEnd
  have hl := h.len
  rw [if_pos (by omega), val_getElem? _ _ (by omega), hl, h.fin (by omega) (by omega)]

/-- A cell near the end of a column that is known up to an error. -/
theorem iat_near {L k : ℕ} {xs : List Val} {q e : ℚ} (hl : xs.length = L) (b : ℕ) (hb : 1 ≤ b) (hk : k + b ≤ L)
    (h : NearSince k (L - b) (TTI.val xs (L - b)) q e) : ∃ r, iat xs b = .ok (.fin r) ∧ |r - q| ≤ e := by
  unfold NearSince at h
  rw [if_neg (by omega)] at h
  obtain ⟨r, h1, h2⟩ := h
  refine ⟨r, ?_, h2⟩
  unfold iat fromEnd
  rw [if_pos (by omega), val_getElem? _ _ (by omega), hl, h1]

variable {F T : Frame} {c c' m m' x x' e : ℚ}

theorem ma_signal_near (t : Ind.MaType) (hT : 1 ≤ T.len) (hc : iat (F.col "close") 1 = .ok (.fin c))
    (hm : iat (T.col t.column) 1 = .ok (.fin m)) (h : |m - x| ≤ e) :
    (x + e < c → Ind.MovingAverage.signal t F T = .ok .buy) ∧ (c + e < x → Ind.MovingAverage.signal t F T = .ok .hold) := by
  have h1 := abs_le.1 h
  unfold Ind.MovingAverage.signal
  rw [hc, hm]
  constructor <;> intro h2
  · have : m < c := by linarith
    simp [bind, Except.bind, pure, Except.pure, Val.fin_lt, this, show ¬ T.len < 1 by omega]
  · have : ¬ m < c := by linarith
    simp [bind, Except.bind, pure, Except.pure, Val.fin_lt, this, show ¬ T.len < 1 by omega]

theorem dema_signal_near (hT : 1 ≤ T.len) (hc : iat (F.col "close") 1 = .ok (.fin c))
    (hm : iat (T.col "dema") 1 = .ok (.fin m)) (h : |m - x| ≤ e) :
    (c + e < x → Ind.DoubleExponentialMovingAverage.signal F T = .ok .buy) ∧
    (x + e < c → Ind.DoubleExponentialMovingAverage.signal F T = .ok .hold) := by
  have h1 := abs_le.1 h
  unfold Ind.DoubleExponentialMovingAverage.signal
  rw [hc, hm]
  constructor <;> intro h2
  · have : c < m := by linarith
    simp [bind, Except.bind, pure, Except.pure, Val.fin_lt, this, show ¬ T.len < 1 by omega]
  · have : ¬ c < m := by linarith
    simp [bind, Except.bind, pure, Except.pure, Val.fin_lt, this, show ¬ T.len < 1 by omega]

theorem tema_signal_near (hT : 1 ≤ T.len) (hc : iat (F.col "close") 1 = .ok (.fin c))
    (hm : iat (T.col "tema") 1 = .ok (.fin m)) (h : |m - x| ≤ e) :
    (c + e < x → Ind.TripleExponentialMovingAverage.signal F T = .ok .buy) ∧
    (x + e < c → Ind.TripleExponentialMovingAverage.signal F T = .ok .sell) := by
  have h1 := abs_le.1 h
  unfold Ind.TripleExponentialMovingAverage.signal
  rw [hc, hm]
  constructor <;> intro h2
  · have : c < m := by linarith
    simp [bind, Except.bind, pure, Except.pure, Val.fin_lt, this, show ¬ T.len < 1 by omega]
  · have h3 : ¬ c < m := by linarith
    have h4 : m < c := by linarith
    simp [bind, Except.bind, pure, Except.pure, Val.fin_lt, h3, h4, show ¬ T.len < 1 by omega]

theorem band_signal_near {upper lower : String} (hT : 1 ≤ T.len) (hc : iat (F.col "close") 1 = .ok (.fin c))
    (hm : iat (T.col upper) 1 = .ok (.fin m)) (hm' : iat (T.col lower) 1 = .ok (.fin m')) (h : |m - x| ≤ e) (h' : |m' - x'| ≤ e) :
    (x + e < c → bandSignal upper lower F T = .ok .sell) ∧
    (c + e < x → c + e < x' → bandSignal upper lower F T = .ok .buy) ∧
    (c + e < x → x' + e < c → bandSignal upper lower F T = .ok .hold) := by
  have h1 := abs_le.1 h
  have h1' := abs_le.1 h'
  unfold bandSignal
  rw [hc, hm, hm']
  refine ⟨fun h2 => ?_, fun h2 h3 => ?_, fun h2 h3 => ?_⟩
  · have : m < c := by linarith
    simp [bind, Except.bind, pure, Except.pure, Val.fin_lt, this, show ¬ T.len < 1 by omega]
  · have h4 : ¬ m < c := by linarith
    have h5 : c < m' := by linarith
    simp [bind, Except.bind, pure, Except.pure, Val.fin_lt, h4, h5, show ¬ T.len < 1 by omega]
  · have h4 : ¬ m < c := by linarith
    have h5 : ¬ c < m' := by linarith
    simp [bind, Except.bind, pure, Except.pure, Val.fin_lt, h4, h5, show ¬ T.len < 1 by omega]

theorem cross_signal_near {name : String} {below above : Signal} (hT : 2 ≤ T.len) (hc : iat (F.col "close") 1 = .ok (.fin c))
    (hc' : iat (F.col "close") 2 = .ok (.fin c')) (hm : iat (T.col name) 1 = .ok (.fin m))
    (hm' : iat (T.col name) 2 = .ok (.fin m')) (h : |m - x| ≤ e) (h' : |m' - x'| ≤ e) :
    (x' + e < c' → c + e < x → priceCrossSignal name below above F T = .ok below) ∧
    (c' + e < x' → x + e < c → priceCrossSignal name below above F T = .ok above) ∧
    (c + e < x → c' + e < x' → priceCrossSignal name below above F T = .ok .hold) ∧
    (x + e < c → x' + e < c' → priceCrossSignal name below above F T = .ok .hold) := by
  have h1 := abs_le.1 h
  have h1' := abs_le.1 h'
  unfold priceCrossSignal
  rw [hc, hm, hm', hc']
  refine ⟨fun h2 h3 => ?_, fun h2 h3 => ?_, fun h2 h3 => ?_, fun h2 h3 => ?_⟩
  · have h4 : m' < c' := by linarith
    have h5 : c < m := by linarith
    simp [bind, Except.bind, pure, Except.pure, Val.fin_lt, h4, h5, show ¬ T.len < 2 by omega]
  · have h4 : ¬ m' < c' := by linarith
    have h5 : c' < m' := by linarith
    have h6 : m < c := by linarith
    simp [bind, Except.bind, pure, Except.pure, Val.fin_lt, h4, h5, h6, show ¬ T.len < 2 by omega]
  · have h4 : ¬ m' < c' := by linarith
    have h5 : ¬ m < c := by linarith
    simp [bind, Except.bind, pure, Except.pure, Val.fin_lt, h4, h5, show ¬ T.len < 2 by omega]
  · have h4 : ¬ c' < m' := by linarith
    have h5 : ¬ c < m := by linarith
    simp [bind, Except.bind, pure, Except.pure, Val.fin_lt, h4, h5, show ¬ T.len < 2 by omega]

end TTI
