import Verif.Lemmas.Col2

set_option autoImplicit false

/-!
# Running values and true ranges
-/

namespace TTI

open Spec

variable {n k l : ℕ} {v : ℕ → Val} {g : ℕ → ℚ} {xs : List Val}

/-! ## Running values -/

theorem running_start (s : ℕ) (seed : ℚ) (q : ℚ → ℚ → ℚ) (g : ℕ → ℚ) (i : ℕ) (h : i ≤ s) : running s seed q g i = seed := by
  cases i with
  | zero => rfl
  | succ i => rw [running, if_pos h]

theorem running_next (s : ℕ) (seed : ℚ) (q : ℚ → ℚ → ℚ) (g : ℕ → ℚ) (i : ℕ) (h : s ≤ i) :
    running s seed q g (i + 1) = q (running s seed q g i) (g (i + 1)) := by rw [running, if_neg (by omega)]

theorem smoothed_eq_running (a : ℚ) (s : ℕ) (seed : ℚ) (g : ℕ → ℚ) (i : ℕ) :
    smoothed a s seed g i = running s seed (fun b x => b + a * (x - b)) g i := by
  induction i with
  | zero => rfl
  | succ i ih => rw [smoothed, running, ih]

theorem scan_from (hlen : xs.length = n) (s : ℕ) (hfin : ∀ i < n, s ≤ i → val xs i = .fin (g i)) (hs1 : 1 ≤ s) (step : Val → Val → Val) (q : ℚ → ℚ → ℚ)
    (hq : ∀ a x, step (.fin a) (.fin x) = .fin (q a x)) (seedOf : List Val → Val) (s0 : ℚ)
    (hseed : s ≤ n → seedOf (xs.take s) = .fin s0) :
    Nums n (s - 1) (running (s - 1) s0 q g)
      (prefixMap (fun pre => if pre.length < s then .nan else (pre.drop s).foldl step (seedOf (pre.take s))) xs) :=
  ⟨by simp [hlen], fun i hi => by
    rw [val_prefixMap _ _ _ (by rw [hlen]; exact hi), List.length_take, hlen]
    by_cases h1 : i < s - 1
    · rw [if_pos h1, if_pos (by omega)]
    · rw [if_neg h1, if_neg (by omega), List.take_take, show min s (i + 1) = s by omega, hseed (by omega)]
      have key : ∀ t, s + t ≤ n → ((xs.take (s + t)).drop s).foldl step (.fin s0) = .fin (running (s - 1) s0 q g (s - 1 + t)) := by
        intro t
        induction t with
        | zero => intro _; rw [add_zero, add_zero, foldl_window_zero, running_start _ _ _ _ _ (le_refl _)]
        | succ t ih =>
          intro ht
          rw [← add_assoc, foldl_window_succ _ _ _ s (s + t) (by omega) (by rw [hlen]; omega), ih (by omega),
            ← val_lt xs (s + t) (by rw [hlen]; omega), hfin _ (by omega) (by omega), hq,
            show s - 1 + (t + 1) = (s - 1 + t) + 1 by omega, running_next _ _ _ _ _ (by omega),
            show s - 1 + t + 1 = s + t by omega]
      have := key (i + 1 - s) (by omega)
      rw [show s + (i + 1 - s) = i + 1 by omega, show s - 1 + (i + 1 - s) = i by omega] at this
      exact this⟩

theorem Nums.scan (h : Nums n k g xs) (s : ℕ) (hs : k ≤ s) (hs1 : 1 ≤ s) (step : Val → Val → Val) (q : ℚ → ℚ → ℚ)
    (hq : ∀ a x, step (.fin a) (.fin x) = .fin (q a x)) (seedOf : List Val → Val) (s0 : ℚ)
    (hseed : s ≤ n → seedOf (xs.take s) = .fin s0) :
    Nums n (s - 1) (running (s - 1) s0 q g)
      (prefixMap (fun pre => if pre.length < s then .nan else (pre.drop s).foldl step (seedOf (pre.take s))) xs) :=
  scan_from h.len s (fun _ hi hsi => h.fin hi (by omega)) hs1 step q hq seedOf s0 hseed

/-- The first rows of a column whose row 0 is missing. -/
theorem Nums.take_one (h : Nums n 1 g xs) (w : ℕ) (hw : w + 1 ≤ n) :
    xs.take (w + 1) = .nan :: ((List.range w).map fun t => g (t + 1)).map Val.fin := by
  apply List.ext_getElem
  · simp [h.len]; omega
  · intro j h1 h2
    rw [List.getElem_take, ← val_lt _ _ (by rw [h.len]; simp at h2; omega)]
    simp only [List.length_cons, List.length_map, List.length_range] at h2
    cases j with
    | zero => rw [h.nan (by omega) (by omega)]; rfl
    | succ j => rw [h.fin (by omega) (by omega)]; simp

theorem sumSkip_nan_cons (l : List Val) : sumSkip (.nan :: l) = sumSkip l := by
  unfold sumSkip; rw [List.filter_cons_of_neg (by simp [Val.isNan])]

theorem meanSkip_nan_cons (l : List Val) : meanSkip (.nan :: l) = meanSkip l := by
  unfold meanSkip; rw [List.filter_cons_of_neg (by simp [Val.isNan])]

theorem filter_fin (v : List ℚ) : (v.map Val.fin).filter (fun x => !x.isNan) = v.map Val.fin :=
  List.filter_eq_self.2 (by intro x hx; rw [List.mem_map] at hx; obtain ⟨q, -, rfl⟩ := hx; rfl)

theorem sumSkip_fin (v : List ℚ) : sumSkip (v.map Val.fin) = .fin v.sum := by
  unfold sumSkip
  rw [filter_fin, Val.zero_eq, foldl_add_fin, zero_add]

theorem sum_map_range (w : ℕ) (g : ℕ → ℚ) : ((List.range w).map g).sum = ∑ t ∈ Finset.range w, g t := by
  induction w with
  | zero => simp
  | succ w ih => rw [List.range_succ, List.map_append, List.sum_append, ih, Finset.sum_range_succ]; simp

/-- A running value at a row depends only on the rows so far. -/
theorem val_prefixMap_upto (G : List Val → Val) (xs : List Val) (i : ℕ) (hi : i < xs.length) :
    val (prefixMap G xs) i = val (prefixMap G (xs.take (i + 1))) i := by
  rw [val_prefixMap _ _ _ hi, val_prefixMap _ _ _ (by simp; omega), List.take_take, min_self]

theorem Col.upto (h : Col n k v xs) {i : ℕ} (hi : i < n) (hg : ∀ j ≤ i, k ≤ j → v j = .fin (g j)) :
    Nums (i + 1) k g (xs.take (i + 1)) :=
  ⟨by simp [h.len]; omega, fun j hj => by
    rw [val_take _ _ _ (by omega), h.val j (by omega)]
    split
    · rfl
    · exact hg j (by omega) (by omega)⟩

/-! ## True ranges -/

theorem Nums.zip3 {a b : ℕ → ℚ} {ys zs : List Val} {k' l' : ℕ} (h : Nums n k g xs) (h2 : Nums n k' a ys) (h3 : Nums n l' b zs)
    (f : Val → Val → Val → Val) (m : ℕ) (v : ℕ → ℚ) (hn : ∀ i < n, i < m → f (TTI.val xs i) (TTI.val ys i) (TTI.val zs i) = .nan)
    (hm : ∀ i < n, m ≤ i → f (TTI.val xs i) (TTI.val ys i) (TTI.val zs i) = .fin (v i)) :
    Nums n m v (TTI.zip3 f xs ys zs) :=
  ⟨by simp [TTI.zip3, h.len, h2.len, h3.len], fun i hi => by
    rw [val_zip3 _ _ _ _ _ (by rw [h.len]; exact hi) (by rw [h2.len]; exact hi) (by rw [h3.len]; exact hi)]
    split
    · next h => exact hn i hi h
    · exact hm i hi (by omega)⟩

/-- The true range when a missing close of the day before is skipped. -/
theorem Nums.trueRangeSkip {F : Frame} {f : RawFrame} (hh : Nums F.len 0 (high f) (F.col "high"))
    (hl : Nums F.len 0 (low f) (F.col "low")) (hc : Nums F.len 0 (close f) (F.col "close")) :
    Nums F.len 0 (trueRange f) (Ind.trueRange maxSkip F) :=
  (hh.sub hl).zip3 (hh.sub (hc.shift 1)) ((hc.shift 1).sub hl) (fun x y z => maxSkip (maxSkip x y) z) 0 (trueRange f)
    (fun i _ h => absurd h (by omega)) fun i hi _ => by
    rw [(hh.sub hl).fin hi (by omega), (hh.sub (hc.shift 1)).val i hi, ((hc.shift 1).sub hl).val i hi]
    unfold trueRange
    cases i with
    | zero => simp [maxSkip_nan]
    | succ i =>
      rw [if_neg (by simp), if_neg (by simp), if_neg (by simp), maxSkip_fin, maxSkip_fin]

/-- The true range when a missing close of the day before makes it missing. -/
theorem Nums.trueRangeNan {F : Frame} {f : RawFrame} (hh : Nums F.len 0 (high f) (F.col "high"))
    (hl : Nums F.len 0 (low f) (F.col "low")) (hc : Nums F.len 0 (close f) (F.col "close")) :
    Nums F.len 1 (trueRange f) (Ind.trueRange maxNan F) :=
  (hh.sub hl).zip3 (hh.sub (hc.shift 1)) ((hc.shift 1).sub hl) (fun x y z => maxNan (maxNan x y) z) 1 (trueRange f) (fun i hi h => by
    rw [(hh.sub hl).fin hi (by omega), (hh.sub (hc.shift 1)).val i hi, if_pos (by omega)]
    simp [maxNan, Val.isNan]) fun i hi h => by
    rw [(hh.sub hl).fin hi (by omega), (hh.sub (hc.shift 1)).val i hi, ((hc.shift 1).sub hl).val i hi]
    unfold trueRange
    rw [if_neg (by omega), if_neg (by omega), if_neg (by omega), maxNan_fin, maxNan_fin]

/-! ## Directional movement -/

theorem Nums.total14 (h : Nums n 1 g xs) : Nums n 13 (Spec.total14 g) (Ind.DirectionalMovementIndex.smooth14 xs) :=
  h.scan 14 (by omega) (by omega) _ (fun before x => before - before / 14 + x) (fun a x => by
    show Val.add (Val.sub (.fin a) (Val.div (.fin a) (.fin 14))) (.fin x) = _
    rw [Val.fin_div _ _ (by norm_num), Val.fin_sub, Val.fin_add]) sumSkip _ fun hs => by
    rw [h.take_one 13 hs, sumSkip_nan_cons, sumSkip_fin, sum_map_range]

theorem Col.op {w : ℕ → Val} {ys : List Val} (h : Col n k v xs) (h' : Col n l w ys) (f : Val → Val → Val)
    (h1 : ∀ y, f .nan y = .nan) (h2 : ∀ x, f x .nan = .nan) : Col n (max k l) (fun i => f (v i) (w i)) (zipV f xs ys) :=
  ⟨by simp [h.len, h'.len], fun i hi => by
    rw [val_zipV_nan f h1 h2, h.val i hi, h'.val i hi]
    split_ifs <;> first | omega | simp [h1, h2]⟩

theorem val_zip4 (f : Val → Val → Val → Val → Val) (as bs cs ds : List Val) (i : ℕ) (ha : i < as.length) (hb : i < bs.length)
    (hc : i < cs.length) (hd : i < ds.length) :
    val (List.zipWith (fun (p q : Val × Val) => f p.1 p.2 q.1 q.2) (as.zip bs) (cs.zip ds)) i =
      f (val as i) (val bs i) (val cs i) (val ds i) := by
  rw [val_lt _ _ (by simp; omega), val_lt _ _ ha, val_lt _ _ hb, val_lt _ _ hc, val_lt _ _ hd]; simp

theorem Nums.dm {F : Frame} {f : RawFrame} (hh : Nums F.len 0 (high f) (F.col "high")) (hl : Nums F.len 0 (low f) (F.col "low"))
    (d : Val → Val → Val → Val → Val) (q : ℕ → ℚ)
    (hq : ∀ i, d (.fin (high f i)) (.fin (high f (i - 1))) (.fin (low f i)) (.fin (low f (i - 1))) = .fin (q i)) :
    Nums F.len 1 q (Ind.DirectionalMovementIndex.dm d F) :=
  ⟨by simp [Ind.DirectionalMovementIndex.dm, hh.len, hl.len], fun i hi => by
    unfold Ind.DirectionalMovementIndex.dm
    simp only
    rw [val_maskBefore]
    split
    · rfl
    · next h =>
      have h1 := hh.shift 1
      have h2 := hl.shift 1
      rw [val_zip4 _ _ _ _ _ _ (by rw [hh.len]; exact hi) (by rw [h1.len]; exact hi) (by rw [hl.len]; exact hi)
        (by rw [h2.len]; exact hi), hh.fin hi (by omega), h1.fin hi (by omega), hl.fin hi (by omega), h2.fin hi (by omega), hq]⟩

/-- The lines as floats compute them. -/
def plusVal (f : RawFrame) (i : ℕ) : Val := quotient (100 * Spec.total14 (plusMove f) i) (Spec.total14 (trueRange f) i)
def minusVal (f : RawFrame) (i : ℕ) : Val := quotient (100 * Spec.total14 (minusMove f) i) (Spec.total14 (trueRange f) i)
def contrastVal (f : RawFrame) (i : ℕ) : Val :=
  Val.div (Val.mul (.fin 100) (Val.abs (Val.sub (plusVal f i) (minusVal f i)))) (Val.abs (Val.add (plusVal f i) (minusVal f i)))

theorem contrastVal_of_ne {f : RawFrame} {i : ℕ} (h : Spec.total14 (trueRange f) i ≠ 0) :
    contrastVal f i = quotient (100 * |plusLine f i - minusLine f i|) |plusLine f i + minusLine f i| := by
  unfold contrastVal plusVal minusVal
  rw [quotient_ne _ _ h, quotient_ne _ _ h, Val.fin_sub, Val.fin_add]
  show Val.div (Val.mul (.fin 100) (.fin |_|)) (.fin |_|) = _
  rw [Val.fin_mul, quotient_eq]; rfl

theorem Nums.directionalLines {F : Frame} {f : RawFrame} (hh : Nums F.len 0 (high f) (F.col "high"))
    (hl : Nums F.len 0 (low f) (F.col "low")) (hc : Nums F.len 0 (close f) (F.col "close")) :
    Col F.len 14 (plusVal f) (maskBefore 14 (divS (scaleS 100 (Ind.DirectionalMovementIndex.smooth14
      (Ind.DirectionalMovementIndex.dm Ind.DirectionalMovementIndex.plusDm F)))
      (Ind.DirectionalMovementIndex.smooth14 (maskBefore 1 (Ind.trueRange maxNan F))))) ∧
    Col F.len 14 (minusVal f) (maskBefore 14 (divS (scaleS 100 (Ind.DirectionalMovementIndex.smooth14
      (Ind.DirectionalMovementIndex.dm Ind.DirectionalMovementIndex.minusDm F)))
      (Ind.DirectionalMovementIndex.smooth14 (maskBefore 1 (Ind.trueRange maxNan F))))) := by
  have ht := ((Nums.trueRangeNan hh hl hc).mask 1).total14
  have hp := (Nums.dm hh hl Ind.DirectionalMovementIndex.plusDm (plusMove f) fun i => by
    unfold Ind.DirectionalMovementIndex.plusDm plusMove
    simp only [Val.fin_sub, Val.zero_eq, Val.fin_lt, Bool.and_eq_true, decide_eq_true_eq]
    split <;> rfl).total14
  have hm := (Nums.dm hh hl Ind.DirectionalMovementIndex.minusDm (minusMove f) fun i => by
    unfold Ind.DirectionalMovementIndex.minusDm minusMove
    simp only [Val.fin_sub, Val.zero_eq, Val.fin_lt, Bool.and_eq_true, decide_eq_true_eq]
    split <;> rfl).total14
  exact ⟨((hp.scale 100).quot ht).mask 14, ((hm.scale 100).quot ht).mask 14⟩

theorem Nums.contrastCol {F : Frame} {f : RawFrame} (hh : Nums F.len 0 (high f) (F.col "high"))
    (hl : Nums F.len 0 (low f) (F.col "low")) (hc : Nums F.len 0 (close f) (F.col "close")) :
    Col F.len 14 (contrastVal f) (divS (scaleS 100 ((subS
      (maskBefore 14 (divS (scaleS 100 (Ind.DirectionalMovementIndex.smooth14
      (Ind.DirectionalMovementIndex.dm Ind.DirectionalMovementIndex.plusDm F)))
      (Ind.DirectionalMovementIndex.smooth14 (maskBefore 1 (Ind.trueRange maxNan F)))))
      (maskBefore 14 (divS (scaleS 100 (Ind.DirectionalMovementIndex.smooth14
      (Ind.DirectionalMovementIndex.dm Ind.DirectionalMovementIndex.minusDm F)))
      (Ind.DirectionalMovementIndex.smooth14 (maskBefore 1 (Ind.trueRange maxNan F)))))).map Val.abs)) ((addS
      (maskBefore 14 (divS (scaleS 100 (Ind.DirectionalMovementIndex.smooth14
      (Ind.DirectionalMovementIndex.dm Ind.DirectionalMovementIndex.plusDm F)))
      (Ind.DirectionalMovementIndex.smooth14 (maskBefore 1 (Ind.trueRange maxNan F)))))
      (maskBefore 14 (divS (scaleS 100 (Ind.DirectionalMovementIndex.smooth14
      (Ind.DirectionalMovementIndex.dm Ind.DirectionalMovementIndex.minusDm F)))
      (Ind.DirectionalMovementIndex.smooth14 (maskBefore 1 (Ind.trueRange maxNan F)))))).map Val.abs)) := by
  obtain ⟨h1, h2⟩ := Nums.directionalLines hh hl hc
  exact (((h1.op h2 Val.sub Val.nan_sub Val.sub_nan).mapV Val.abs rfl).scale 100).op
    ((h1.op h2 Val.add Val.nan_add Val.add_nan).mapV Val.abs rfl) Val.div Val.nan_div Val.div_nan

theorem Nums.take_skip (h : Nums n k g xs) (w : ℕ) (hw : k + w ≤ n) :
    xs.take (k + w) = List.replicate k .nan ++ ((List.range w).map fun t => g (k + t)).map Val.fin := by
  apply List.ext_getElem
  · simp [h.len]; omega
  · intro j h1 h2
    simp only [List.length_append, List.length_replicate, List.length_map, List.length_range] at h2
    rw [List.getElem_take, ← val_lt _ _ (by rw [h.len]; omega), h.val j (by omega), List.getElem_append]
    simp only [List.length_replicate, List.getElem_replicate, List.getElem_map, List.getElem_range]
    split
    · simp
    · rw [show k + (j - k) = j by omega]

theorem sumSkip_replicate (m : ℕ) (l : List Val) : sumSkip (List.replicate m .nan ++ l) = sumSkip l := by
  induction m with
  | zero => rfl
  | succ m ih => rw [List.replicate_succ, List.cons_append, sumSkip_nan_cons, ih]

theorem Nums.adx {f : RawFrame} (h : Col n 14 (contrastVal f) xs) {i : ℕ} (hi : i < n)
    (h0 : ∀ j ≤ i, 14 ≤ j → contrastVal f j = .fin (contrast f j)) :
    TTI.val (Ind.DirectionalMovementIndex.adxOf xs) i = since 27 i (.fin (directional f i)) := by
  unfold Ind.DirectionalMovementIndex.adxOf
  rw [val_prefixMap_upto _ _ _ (by rw [h.len]; exact hi)]
  have h' := h.upto hi h0
  have := (h'.scan 28 (by omega) (by omega) (fun prev x => Val.div (Val.add (Val.mul 13 prev) x) 14)
    (fun b x => b + 1 / 14 * (x - b)) (fun a x => by
      show Val.div (Val.add (Val.mul (.fin 13) (.fin a)) (.fin x)) (.fin 14) = _
      rw [Val.fin_mul, Val.fin_add, Val.fin_div _ _ (by norm_num)]
      congr 1; ring) (fun l => Val.div (sumSkip l) 14) (meanLast 14 (contrast f) 27) fun hs => by
      rw [show 28 = 14 + 14 by rfl, h'.take_skip 14 hs, sumSkip_replicate, sumSkip_fin]
      have e := Nums.window_sum 14 (contrast f) 27 (by omega)
      rw [show 27 + 1 - 14 = 14 by rfl] at e
      rw [e]
      show Val.div _ (.fin 14) = _
      rw [Val.fin_div _ _ (by norm_num)]; rfl).val i (by omega)
  rw [this]
  unfold since directional wilderAverage
  rw [smoothed_eq_running]
  rfl

/-! ## Average true range -/

theorem Nums.atr {tr : List Val} (h : Nums n 0 g tr) (hn : 14 ≤ n) : Nums n 13 (wilderAverage 14 0 g)
    (List.replicate 13 Val.nan ++ TTI.ewmAlpha (1 / 14) 1 (meanSkip (tr.take 14) :: tr.drop 14)) := by
  have h1 : Nums (n - 13) 0 (fun j => if j = 0 then meanLast 14 g 13 else g (13 + j)) (meanSkip (tr.take 14) :: tr.drop 14) := by
    refine ⟨by simp [h.len]; omega, fun i hi => ?_⟩
    rw [if_neg (by omega)]
    cases i with
    | zero =>
      have e := h.take_drop 0 14 (by omega) (by omega)
      rw [List.drop_zero] at e
      have e2 := Nums.window_sum 14 g 13 (by omega)
      rw [show 13 + 1 - 14 = 0 by rfl] at e2
      rw [if_pos rfl, e, Nums.meanSkip_fin _ (by simp), e2]
      simp [TTI.val, meanLast]
    | succ i =>
      rw [if_neg (by omega), show 13 + (i + 1) = 14 + i by omega, ← h.fin (by omega) (by omega)]
      unfold TTI.val
      simp [List.getD_eq_getElem?_getD]
  have h2 := h1.ewmAlpha (1 / 14) 1 (by omega)
  refine ⟨by simp [h.len]; omega, fun i hi => ?_⟩
  split
  · next hlt =>
    unfold TTI.val
    rw [List.getD_eq_getElem?_getD, List.getElem?_append_left (by simpa using hlt)]
    rw [List.getElem?_replicate_of_lt hlt]; rfl
  · next hge =>
    have e : TTI.val (List.replicate 13 Val.nan ++ TTI.ewmAlpha (1 / 14) 1 (meanSkip (tr.take 14) :: tr.drop 14)) i =
        TTI.val (TTI.ewmAlpha (1 / 14) 1 (meanSkip (tr.take 14) :: tr.drop 14)) (i - 13) := by
      unfold TTI.val
      rw [List.getD_eq_getElem?_getD, List.getElem?_append_right (by simpa using hge), List.getD_eq_getElem?_getD]
      simp
    rw [e, h2.fin (by omega) (by omega)]
    congr 1
    have key : ∀ t, smoothed (1 / 14) 0 (meanLast 14 g 13) (fun j => if j = 0 then meanLast 14 g 13 else g (13 + j)) t =
        wilderAverage 14 0 g (13 + t) := by
      intro t
      unfold wilderAverage
      induction t with
      | zero => rw [Nums.smoothed_start _ _ _ _ _ (le_refl _), Nums.smoothed_start _ _ _ _ _ (by omega)]
      | succ t ih =>
        rw [Nums.smoothed_next _ _ _ _ _ (by omega), ih, ← add_assoc, Nums.smoothed_next _ _ _ _ _ (by omega), if_neg (by omega)]
        rfl
    have := key (i - 13)
    rw [show 13 + (i - 13) = i by omega] at this
    exact this

end TTI
