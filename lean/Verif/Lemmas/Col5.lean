import Verif.Lemmas.Col4

set_option autoImplicit false

/-!
# Columns of the volume indicators
-/

namespace TTI

open Spec

variable {n k l : ℕ} {v : ℕ → Val} {g : ℕ → ℚ} {xs : List Val}

/-! ## Running sums -/

theorem cumsum_skip (xs : List Val) (miss : ℕ → Prop) [DecidablePred miss] (x : ℕ → ℚ)
    (hx : ∀ i < xs.length, val xs i = if miss i then .nan else .fin (x i)) (i : ℕ) (hi : i < xs.length) :
    val (cumsum xs) i = if miss i then .nan else .fin (∑ j ∈ Finset.range (i + 1), if miss j then 0 else x j) := by
  have key : ∀ m ≤ xs.length, sumSkip (xs.take m) = .fin (∑ j ∈ Finset.range m, if miss j then 0 else x j) := by
    intro m
    induction m with
    | zero => intro _; simp [sumSkip, Val.zero_eq]
    | succ m ih =>
      intro hm
      have ih := ih (by omega)
      unfold sumSkip at ih ⊢
      rw [List.take_succ_eq_append_getElem (by omega), List.filter_append, List.foldl_append, ih, Finset.sum_range_succ,
        ← val_lt xs m (by omega), hx m (by omega)]
      split
      · simp [Val.isNan]
      · simp [Val.isNan]
  unfold cumsum
  rw [val_prefixMap _ _ _ hi, key (i + 1) (by omega), List.take_succ_eq_append_getElem hi, List.getLast?_append]
  simp only [List.getLast?_singleton, Option.some_or, Option.getD_some]
  rw [← val_lt xs i hi, hx i hi]
  split
  · simp [Val.isNan]
  · simp [Val.isNan]

theorem allFin_fins (v : List ℚ) : allFin (v.map Val.fin) = some v := by
  induction v with
  | nil => rfl
  | cons a l ih => simp [allFin, ih]

theorem allFin_nan (xs : List Val) (i : ℕ) (hi : i < xs.length) (h : val xs i = .nan) : allFin xs = none := by
  induction xs generalizing i with
  | nil => simp at hi
  | cons a l ih =>
    cases i with
    | zero =>
      have : a = .nan := h
      subst this; rfl
    | succ i =>
      have := ih i (by simpa using hi) h
      cases a <;> simp [allFin, this]

theorem Nums.astypeInt (h : Nums n 0 g xs) : Nums n 0 (fun i => truncated (g i)) (Ind.astypeInt xs) := by
  have e : xs = ((List.range n).map g).map Val.fin := by
    have := h.take_drop 0 n (by omega) (by omega)
    rw [List.drop_zero, List.take_of_length_le (by rw [h.len])] at this
    simpa using this
  refine ⟨by simp [h.len], fun i hi => ?_⟩
  rw [if_neg (by omega)]
  unfold Ind.astypeInt
  conv_lhs => rw [e, allFin_fins]
  simp only
  rw [val_lt _ _ (by simpa using hi)]
  simp [Ind.truncQ, truncated]

/-! ## Money flow -/

def flowVal (f : RawFrame) (j : ℕ) : Val :=
  quotient (volume f j * ((close f j - low f j) - (high f j - close f j))) (high f j - low f j)

theorem flowVal_of_ne {f : RawFrame} {j : ℕ} (h : high f j ≠ low f j) : flowVal f j = .fin (flow f j) :=
  quotient_ne _ _ (sub_ne_zero.2 h)

theorem Nums.flowCol {F : Frame} {f : RawFrame} (hh : Nums F.len 0 (high f) (F.col "high"))
    (hl : Nums F.len 0 (low f) (F.col "low")) (hc : Nums F.len 0 (close f) (F.col "close"))
    (hv : Nums F.len 0 (volume f) (F.col "volume")) : Col F.len 0 (flowVal f) (Ind.moneyFlowVolume F) :=
  (hv.mul ((hc.sub hl).sub (hh.sub hc))).quot (hh.sub hl)

/-- One value that is missing or infinite makes a full window missing. -/
theorem Col.rollMissing (h : Col n k v xs) (w : ℕ) (agg : List ℚ → Val) {i j : ℕ} (hi : i < n) (hj : j ≤ i) (hw : i < j + w)
    (hg : k ≤ j → ∀ q, v j ≠ .fin q) : TTI.val (rolling w w agg xs) i = .nan := by
  rcases rolling_full_cases w agg xs i (by rw [h.len]; exact hi) with h2 | ⟨-, g, hf, -⟩
  · exact h2
  · have := hf j (by omega) hj
    rw [h.val _ (by omega)] at this
    split at this
    · simp at this
    · exact absurd this (hg (by omega) _)

/-! ## Klinger -/

theorem Nums.sumCol {F : Frame} {f : RawFrame} (hh : Nums F.len 0 (high f) (F.col "high"))
    (hl : Nums F.len 0 (low f) (F.col "low")) (hc : Nums F.len 0 (close f) (F.col "close")) :
    Nums F.len 0 (priceSum f) (TTI.zip3 (fun x y z => sumSkip [x, y, z]) (F.col "high") (F.col "low") (F.col "close")) :=
  hh.zip3 hl hc (fun x y z => sumSkip [x, y, z]) 0 (priceSum f) (fun i _ h => absurd h (by omega)) fun i hi _ => by
    rw [hh.fin hi (by omega), hl.fin hi (by omega), hc.fin hi (by omega), Nums.sumSkip3]; rfl

theorem direction_fin (q : ℚ) : Ind.KlingerOscillator.direction (.fin q) = .fin (if 0 < q then 1 else -1) := by
  unfold Ind.KlingerOscillator.direction
  show (if (if Val.fin 0 <ᵥ .fin q then Val.fin 1 else .fin q) ≤ᵥ .fin 0 then Val.fin (-1) else
    (if Val.fin 0 <ᵥ .fin q then Val.fin 1 else .fin q)) = _
  by_cases h : 0 < q
  · simp [h, Val.le]
  · simp [h, Val.le, not_lt.1 h]

theorem Nums.headingCol {f : RawFrame} (h : Nums n 0 (priceSum f) xs) :
    Nums n 1 (heading f) ((subS xs (TTI.shift 1 xs)).map Ind.KlingerOscillator.direction) :=
  ((h.sub (h.shift 1)).mapV Ind.KlingerOscillator.direction (fun q => if 0 < q then 1 else -1) rfl direction_fin).congr (by omega)
    fun i _ _ => by unfold heading; simp only [sub_pos]

theorem Nums.rangeRun {f : RawFrame} {ts dms : List Val} (ht : Nums n 1 (heading f) ts) (hd : Nums n 0 (dayRange f) dms) :
    Nums n 0 (rangeRun f) (Ind.KlingerOscillator.cumulative (ts.zip dms)) := by
  refine ⟨by simp [Ind.KlingerOscillator.cumulative, prefixMap, ht.len, hd.len], fun i hi => ?_⟩
  rw [if_neg (by omega)]
  have hlen : (ts.zip dms).length = n := by rw [List.length_zip, ht.len, hd.len, min_self]
  have hz : ∀ j (hj : j < (ts.zip dms).length), (ts.zip dms)[j] = (if j < 1 then .nan else .fin (heading f j), .fin (dayRange f j)) := by
    intro j hj
    rw [List.getElem_zip, ← val_lt _ _ (by rw [ht.len]; omega), ← val_lt _ _ (by rw [hd.len]; omega), ht.val j (by omega),
      hd.fin (by omega) (by omega)]
  unfold Ind.KlingerOscillator.cumulative
  rw [val_prefixMap' _ _ _ (by omega)]
  generalize ts.zip dms = rows at *
  cases rows with
  | nil => simp at hlen; omega
  | cons first rest =>
    simp only [List.take_succ_cons]
    have := foldl_rows (fun (st : Val × (Val × Val)) (r : Val × Val) =>
        (if Val.eqv r.1 st.2.1 then Val.add st.1 r.2 else Val.add st.2.2 r.2, r))
      (fun first => ((0 : Val), first))
      (fun i => (.fin (Spec.rangeRun f i), (if i < 1 then .nan else .fin (heading f i), .fin (dayRange f i)))) first rest
      (by
        have := hz 0 (by simp)
        simp only [List.getElem_cons_zero] at this
        rw [this]
        rfl)
      (by
        intro j hj
        rw [hz (j + 1) hj, if_neg (show ¬ j + 1 < 1 by omega)]
        rw [Spec.rangeRun]
        by_cases h0 : j = 0
        · subst h0
          simp [Val.eqv]
        · rw [if_neg (show ¬ j < 1 by omega)]
          by_cases h1 : heading f (j + 1) = heading f j
          · simp [Val.eqv, h0, h1]
          · simp [Val.eqv, h1])
      i (by simp only [List.length_cons] at hlen; omega)
    rw [this]

/-- An exponential average at a row only needs numbers up to that row. -/
theorem Col.ewmLocal (h : Col n k v xs) (s m : ℕ) (hm : 1 ≤ m) {i : ℕ} (hi : i < n)
    (hg : ∀ j ≤ i, k ≤ j → v j = .fin (g j)) : TTI.val (ewm s m xs) i = since (k + m - 1) i (.fin (ema s k g i)) := by
  have h1 := ((h.upto hi hg).ewm s m hm).val i (by omega)
  unfold ewm ewmAlpha at h1 ⊢
  rw [val_prefixMap_upto _ _ _ (by rw [h.len]; exact hi), h1]
  rfl

end TTI
