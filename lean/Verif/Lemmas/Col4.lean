import Verif.Lemmas.Col3

set_option autoImplicit false

/-!
# Columns of the oscillators that are built on ranges
-/

namespace TTI

open Spec

variable {n k l : ℕ} {v : ℕ → Val} {g : ℕ → ℚ} {xs : List Val}

theorem clip_fin (q : ℚ) : Ind.SwingIndex.clip (.fin q) = .fin (within100 q) := by
  unfold Ind.SwingIndex.clip within100
  have e : (if (100 : Val) <ᵥ .fin q then (100 : Val) else .fin q) = .fin (min 100 q) := by
    show (if Val.fin 100 <ᵥ .fin q then Val.fin 100 else .fin q) = _
    simp only [Val.fin_lt, decide_eq_true_eq]
    split
    · next h => rw [min_eq_left h.le]
    · next h => rw [min_eq_right (not_lt.1 h)]
  simp only [e, Val.fin_lt, decide_eq_true_eq]
  split
  · next h => rw [max_eq_left h.le]
  · next h => rw [max_eq_right (not_lt.1 h)]

theorem Nums.maxBoth {ys : List Val} {g' : ℕ → ℚ} (h : Nums n k g xs) (h' : Nums n k g' ys) :
    Nums n k (fun i => max (g i) (g' i)) (zipV maxSkip xs ys) :=
  ⟨by simp [h.len, h'.len], fun i hi => by
    rw [val_zipV _ _ _ _ (by rw [h.len]; exact hi) (by rw [h'.len]; exact hi), h.val i hi, h'.val i hi]
    split
    · rfl
    · rw [maxSkip_fin]⟩

/-- Maximum of three columns, the third of which starts earlier: until the first two start it is the third one. -/
theorem Nums.max3 {ys zs : List Val} {g' g'' : ℕ → ℚ} (h : Nums n k g xs) (h' : Nums n k g' ys) (h'' : Nums n 0 g'' zs) :
    Nums n 0 (fun i => if i < k then g'' i else max (max (g i) (g' i)) (g'' i))
      (TTI.zip3 (fun x y z => maxSkip (maxSkip x y) z) xs ys zs) :=
  h.zip3 h' h'' (fun x y z => maxSkip (maxSkip x y) z) 0 (fun i => if i < k then g'' i else max (max (g i) (g' i)) (g'' i))
    (fun i _ hi => absurd hi (by omega)) fun i hi _ => by
    rw [h.val i hi, h'.val i hi, h''.fin hi (by omega)]
    split
    · simp [maxSkip, Val.isNan]
    · simp

theorem Nums.differences {ys : List Val} {s : ℕ → ℚ} (htp : Nums n 0 g xs) (w : ℕ) (hw : 1 ≤ w) (hs : Nums n (w - 1) s ys) :
    Nums n (w - 1) (fun i => sumLast w (fun j => |s i - g j|) i) (Ind.CommodityChannelIndex.differences w (ys.zip xs)) :=
  ⟨by simp [Ind.CommodityChannelIndex.differences, prefixMap, htp.len, hs.len], fun i hi => by
    unfold Ind.CommodityChannelIndex.differences
    rw [val_prefixMap' _ _ _ (by rw [List.length_zip, htp.len, hs.len, min_self]; exact hi), List.length_take, List.length_zip, htp.len,
      hs.len, min_self]
    split
    · next h => rw [if_pos (by omega)]
    · next h =>
      rw [if_neg (by omega)]
      have eW : window w ((ys.zip xs).take (i + 1)) =
          (List.range w).map fun t => (TTI.val ys (i + 1 - w + t), Val.fin (g (i + 1 - w + t))) := by
        unfold window
        apply List.ext_getElem
        · simp [htp.len, hs.len]; omega
        · intro j h1 h2
          simp only [List.length_map, List.length_range] at h2
          simp only [List.getElem_drop, List.getElem_take, List.getElem_zip, List.getElem_map, List.getElem_range,
            List.length_take, List.length_zip, htp.len, hs.len, min_self]
          rw [← htp.fin (by omega) (by omega), val_lt _ _ (by rw [hs.len]; omega), val_lt _ _ (by rw [htp.len]; omega)]
          congr 2 <;> omega
      obtain ⟨w, rfl⟩ : ∃ m, w = m + 1 := ⟨w - 1, by omega⟩
      simp only [eW, List.getLast?_map, List.getLast?_range]
      rw [if_neg (by omega)]
      simp only [Option.map_some, List.map_map, show i + 1 - (w + 1) + (w + 1 - 1) = i by omega, hs.fin hi (by omega)]
      have e : ((fun r : Val × Val => Val.abs (Val.sub (.fin (s i)) r.2)) ∘ fun t => (TTI.val ys (i + 1 - (w + 1) + t), Val.fin (g (i + 1 - (w + 1) + t)))) =
          Val.fin ∘ fun t => |s i - g (i + 1 - (w + 1) + t)| := by
        funext t
        simp only [Function.comp, Val.fin_sub]; rfl
      rw [e, ← List.map_map, Val.zero_eq, foldl_add_fin, zero_add]
      congr 1
      exact Nums.window_sum (w + 1) (fun j => |s i - g j|) i (by omega)⟩

theorem Nums.seeText {F : Frame} {f : RawFrame} (hh : Nums F.len 0 (high f) (F.col "high"))
    (hl : Nums F.len 0 (low f) (F.col "low")) (hc : Nums F.len 0 (close f) (F.col "close")) :
    Nums F.len 1 (rangePerRise f)
      (maskBefore 1 (TTI.zip3 Ind.RangeIndicator.seeText (Ind.trueRange maxNan F) (F.col "close") (TTI.shift 1 (F.col "close")))) :=
  ((Nums.trueRangeNan hh hl hc).zip3 hc (hc.shift 1) Ind.RangeIndicator.seeText 1 (rangePerRise f) (fun i hi h => by
    rw [(Nums.trueRangeNan hh hl hc).nan hi h, (hc.shift 1).nan hi (by omega), hc.fin hi (by omega)]
    rfl) fun i hi h => by
    rw [(Nums.trueRangeNan hh hl hc).fin hi h, (hc.shift 1).fin hi (by omega), hc.fin hi (by omega)]
    unfold Ind.RangeIndicator.seeText rangePerRise
    simp only [Val.fin_lt, decide_eq_true_eq]
    split
    · next h' => rw [Val.fin_sub, Val.fin_div _ _ (by linarith)]
    · rfl).mask 1

theorem Nums.rangePlaceCol {f : RawFrame} {text : List Val} (h : Nums n 1 (rangePerRise f) text) (w : ℕ) (hw : 1 ≤ w) :
    Nums n w (rangePlace f w) (TTI.zip3 Ind.RangeIndicator.scaled text (rolling w w aggMin text) (rolling w w aggMax text)) :=
  h.zip3 (h.rollMin w hw) (h.rollMax w hw) Ind.RangeIndicator.scaled w (rangePlace f w) (fun i hi hlt => by
    rw [(h.rollMin w hw).nan hi (by omega), (h.rollMax w hw).nan hi (by omega)]
    rfl) fun i hi hge => by
    rw [(h.rollMin w hw).fin hi (by omega), (h.rollMax w hw).fin hi (by omega), h.fin hi (by omega)]
    obtain ⟨h1, -⟩ := Nums.highest_spec w hw (rangePerRise f) i
    obtain ⟨h2, -⟩ := Nums.lowest_spec w hw (rangePerRise f) i
    have h1 := h1 0 (by omega)
    have h2 := h2 0 (by omega)
    rw [Nat.sub_zero] at h1 h2
    unfold Ind.RangeIndicator.scaled rangePlace
    generalize highest w (rangePerRise f) i = hi' at *
    generalize lowest w (rangePerRise f) i = lo at *
    generalize rangePerRise f i = s at *
    simp only [Val.fin_sub, Val.zero_eq, Val.fin_lt, decide_eq_true_eq]
    show (if (if 0 < hi' - lo then Val.div (Val.mul (.fin 100) (.fin (s - lo))) (.fin (hi' - lo)) else Val.fin (hi' - lo)) ≤ᵥ .fin 0
      then Val.mul (.fin 100) (.fin (s - lo)) else _) = _
    by_cases he : hi' = lo
    · subst he
      have : s = hi' := le_antisymm h1 h2
      subst this
      simp [Val.le]
    · have hlt : 0 < hi' - lo := by
        rcases lt_or_eq_of_le (h2.trans h1) with h | h
        · linarith
        · exact absurd h.symm he
      rw [if_pos hlt, if_neg he, Val.fin_mul, Val.fin_div _ _ hlt.ne']
      by_cases hs : s = lo
      · subst hs; simp [Val.le]
      · have hs' : 0 < s - lo := by
          rcases lt_or_eq_of_le h2 with h | h
          · linarith
          · exact absurd h.symm hs
        have : 0 < 100 * (s - lo) / (hi' - lo) := by positivity
        rw [if_neg (by simp [Val.le, this]), if_pos hlt]
        show Val.div (Val.mul (.fin 100) _) _ = _
        rw [Val.fin_mul, Val.fin_div _ _ hlt.ne']

end TTI
