import Verif.Lemmas.Mirror
import Verif.Lemmas.RaiseClass
import Verif.Spec.Mirror

set_option autoImplicit false

/-!
# Indicators on mirrored prices
-/

namespace TTI

open Spec

/-- High and low change their roles. -/
def otherEnd (n : String) : String := if n = "high" then "low" else if n = "low" then "high" else n

theorem otherEnd_otherEnd (n : String) : otherEnd (otherEnd n) = n := by
  unfold otherEnd
  split_ifs <;> simp_all

/-- All prices negated. -/
def Frame.flip (F : Frame) : Frame :=
  ⟨F.idx, F.cols.map fun c => (otherEnd c.1, if c.1 = "volume" then c.2 else ngl c.2)⟩

theorem flip_col (F : Frame) (n : String) : F.flip.col n = if n = "volume" then F.col n else ngl (F.col (otherEnd n)) := by
  unfold Frame.col Frame.flip
  simp only [List.find?_map, Function.comp_def]
  have hv : n = "volume" ↔ otherEnd n = "volume" := by
    unfold otherEnd; split_ifs <;> simp_all
  have hp : (fun c : String × List Val => otherEnd c.1 == n) = fun c => c.1 == otherEnd n := by
    funext c
    rw [Bool.eq_iff_iff, beq_iff_eq, beq_iff_eq]
    constructor
    · rintro rfl; exact (otherEnd_otherEnd _).symm
    · intro h; rw [h]; exact otherEnd_otherEnd _
  rw [hp]
  by_cases hn : n = "volume"
  · subst hn
    rw [if_pos rfl, show otherEnd "volume" = "volume" from rfl]
    cases h : F.cols.find? fun c => c.1 == "volume" with
    | none => rfl
    | some c =>
      have : c.1 = "volume" := by simpa using List.find?_some h
      simp only [Option.map_some, Option.getD_some, this, if_true]
  · rw [if_neg hn]
    cases h : F.cols.find? fun c => c.1 == otherEnd n with
    | none => rfl
    | some c =>
      have : c.1 = otherEnd n := by simpa using List.find?_some h
      have h2 : ¬ c.1 = "volume" := by rw [this]; exact fun h => hn (hv.2 h)
      simp only [Option.map_some, Option.getD_some, if_neg h2]

theorem flip_high (F : Frame) : F.flip.col "high" = ngl (F.col "low") := flip_col F "high"
theorem flip_low (F : Frame) : F.flip.col "low" = ngl (F.col "high") := flip_col F "low"
theorem flip_close (F : Frame) : F.flip.col "close" = ngl (F.col "close") := flip_col F "close"
theorem flip_open (F : Frame) : F.flip.col "open" = ngl (F.col "open") := flip_col F "open"
theorem flip_volume (F : Frame) : F.flip.col "volume" = F.col "volume" := flip_col F "volume"
theorem flip_len (F : Frame) : F.flip.len = F.len := rfl
theorem flip_idx (F : Frame) : F.flip.idx = F.idx := rfl

theorem flip_sub (F : Frame) (ns : List String) (hns : ∀ n, otherEnd n ∈ ns ↔ n ∈ ns) : F.flip.sub ns = (F.sub ns).flip := by
  unfold Frame.sub Frame.restrict Frame.flip
  simp only [List.filter_map, List.map_map, Function.comp_def, hns]
  congr 1
  apply List.map_congr_left
  intro c _
  split_ifs
  · rfl
  · simp only [ffill_ngl, bfill_ngl]

theorem flip_rows (F : Frame) (hn : ∀ c ∈ F.cols, c.1 ≠ "volume") : F.flip.rows = F.rows.map ngl := by
  unfold Frame.rows Frame.flip
  rw [List.map_map]
  apply List.map_congr_left
  intro i _
  simp only [Function.comp, List.map_map, ngl]
  apply List.map_congr_left
  intro c hc
  simp only [Function.comp, if_neg (hn c hc)]
  simp only [List.getD_eq_getElem?_getD, List.getElem?_map]
  cases c.2[i]? <;> rfl

/-! ## `k - v` -/

theorem sub_map (k : ℚ) (xs : List Val) : xs.map (Val.sub (.fin k)) = rsl k (ngl xs) := by
  unfold rsl ngl
  rw [List.map_map]
  apply List.map_congr_left
  intro x _
  cases x <;> simp [Val.sub, Val.neg, Val.add, rs]
  ring

theorem round_hundred (xs : List Val) : roundS 4 (xs.map (Val.sub (.fin 100))) = (roundS 4 xs).map (Val.sub (.fin 100)) := by
  rw [sub_map, sub_map, roundS_rsl 100 ⟨500000, by norm_num⟩, roundS_ngl]
theorem round_minus_hundred (xs : List Val) :
    roundS 4 (xs.map (Val.sub (.fin (-100)))) = (roundS 4 xs).map (Val.sub (.fin (-100))) := by
  rw [sub_map, sub_map, roundS_rsl (-100) ⟨-500000, by norm_num⟩, roundS_ngl]
theorem mean_hundred (w : ℕ) (xs : List Val) :
    rolling w w aggMean (xs.map (Val.sub (.fin 100))) = (rolling w w aggMean xs).map (Val.sub (.fin 100)) := by
  rw [sub_map, sub_map, rolling_rsl 100 _ _ _ _ (up_mean 100), mean_ngl]
theorem ewm_hundred (s m : ℕ) (hs : 1 ≤ s) (xs : List Val) :
    ewm s m (xs.map (Val.sub (.fin 100))) = (ewm s m xs).map (Val.sub (.fin 100)) := by
  rw [sub_map, sub_map, ewm_rsl 100 _ _ hs, ewm_ngl]

theorem weighted_hundred (ws v : List ℚ) (h : ws.length ≤ v.length) :
    Ind.StochasticOscillator.aggWeighted ws (v.map fun x => 100 - x) =
      Val.sub (.fin 100) (Ind.StochasticOscillator.aggWeighted ws v) := by
  unfold Ind.StochasticOscillator.aggWeighted
  split_ifs with h0
  · rfl
  · simp only [Val.sub, Val.neg, Val.add, Val.fin.injEq]
    have : (List.zipWith (· * ·) ws (v.map fun x => 100 - x)).sum = 100 * ws.sum - (List.zipWith (· * ·) ws v).sum := by
      clear h0
      induction ws generalizing v with
      | nil => simp
      | cons a ws ih =>
        cases v with
        | nil => simp at h
        | cons b v =>
          simp only [List.map_cons, List.zipWith_cons_cons, List.sum_cons]
          rw [ih v (by simpa using h)]
          ring
    rw [this]
    field_simp
    ring

theorem finVals_hundred (xs : List Val) : finVals (xs.map (Val.sub (.fin 100))) = (finVals xs).map fun x => 100 - x := by
  rw [sub_map, finVals_rsl, finVals_ngl, List.map_map]
  apply List.map_congr_left
  intro x _
  simp only [Function.comp]
  ring

theorem weighted_line (ws : List ℚ) (d : ℕ) (h : ws.length ≤ d) (xs : List Val) :
    rolling d d (Ind.StochasticOscillator.aggWeighted ws) (xs.map (Val.sub (.fin 100))) =
      (rolling d d (Ind.StochasticOscillator.aggWeighted ws) xs).map (Val.sub (.fin 100)) := by
  unfold rolling
  apply prefixMap_map
  intro pre
  have : finVals (window d (pre.map (Val.sub (.fin 100)))) = (finVals (window d pre)).map fun x => 100 - x := by
    rw [← finVals_hundred]; unfold window; rw [List.length_map, List.map_drop]
  simp only [this, List.length_map]
  split_ifs with hd
  · exact weighted_hundred _ _ (by omega)
  · rfl

/-! ## Quotients -/

theorem share_other (u d : Val) (hu : Plain u) (hd : Plain d) :
    Val.div (Val.mul (.fin 100) d) (Val.add d u) = Val.sub (.fin 100) (Val.div (Val.mul (.fin 100) u) (Val.add u d)) := by
  rcases hu with rfl | ⟨u, rfl⟩ <;> rcases hd with rfl | ⟨d, rfl⟩ <;> try rfl
  simp only [Val.add, Val.mul, Val.div, add_comm d u]
  by_cases h : u + d = 0
  · have : d = -u := by linarith
    subst this
    rw [if_pos h, if_pos h]
    by_cases h0 : u = 0
    · subst h0; simp [Val.sub, Val.neg, Val.add]
    · have h1 : ¬ 100 * -u = 0 := by simpa using h0
      have h2 : ¬ 100 * u = 0 := by simpa using h0
      rw [if_neg h1, if_neg h2]
      rcases lt_or_gt_of_ne h0 with h3 | h3
      · rw [if_pos (by linarith), if_neg (by linarith)]; rfl
      · rw [if_neg (by linarith), if_pos (by linarith)]; rfl
  · rw [if_neg h, if_neg h]
    simp only [Val.sub, Val.neg, Val.add, Val.fin.injEq]
    field_simp
    ring

/-- The distance to the other end of a range, as a share of the range. -/
theorem range_other (c t b : Val) (ht : Plain t) (hb : Plain b) :
    Val.div (Val.mul (.fin 100) (Val.sub t c)) (Val.sub t b) =
      Val.sub (.fin 100) (Val.div (Val.mul (.fin 100) (Val.sub c b)) (Val.sub t b)) := by
  rcases ht with rfl | ⟨t, rfl⟩ <;> rcases hb with rfl | ⟨b, rfl⟩ <;> cases c <;> try rfl
  all_goals simp only [Val.sub, Val.neg, Val.add, Val.mul, Val.div, Val.infMul]
  · have h1 : ¬ (100 : ℚ) = 0 := by norm_num
    have h2 : (0 : ℚ) < 100 := by norm_num
    by_cases h : t + -b = 0 <;> by_cases h' : 0 < t + -b <;> simp [h, h', h1, h2]
  · have h1 : ¬ (100 : ℚ) = 0 := by norm_num
    have h2 : (0 : ℚ) < 100 := by norm_num
    by_cases h : t + -b = 0 <;> by_cases h' : 0 < t + -b <;> simp [h, h', h1, h2]
  · rename_i c
    by_cases h : t + -b = 0
    · have : t = b := by linarith
      subst this
      rw [if_pos h, if_pos h]
      by_cases h0 : c = t
      · subst h0; simp
      · have h1 : ¬ 100 * (t + -c) = 0 := by
          intro h; apply h0; linarith
        have h2 : ¬ 100 * (c + -t) = 0 := by
          intro h; apply h0; linarith
        rw [if_neg h1, if_neg h2]
        rcases lt_or_gt_of_ne h0 with h3 | h3
        · rw [if_pos (by linarith), if_neg (by linarith)]
        · rw [if_neg (by linarith), if_pos (by linarith)]
    · rw [if_neg h, if_neg h]
      simp only [Val.fin.injEq]
      field_simp
      ring

theorem range_other_neg (c t b : Val) (ht : Plain t) (hb : Plain b) :
    Val.mul (.fin (-100)) (Val.div (Val.sub c b) (Val.sub t b)) =
      Val.sub (.fin (-100)) (Val.mul (.fin (-100)) (Val.div (Val.sub t c) (Val.sub t b))) := by
  rcases ht with rfl | ⟨t, rfl⟩ <;> rcases hb with rfl | ⟨b, rfl⟩ <;> cases c <;> try rfl
  all_goals simp only [Val.sub, Val.neg, Val.add, Val.mul, Val.div, Val.infMul]
  · split_ifs <;> simp_all [show ¬ (100 : ℚ) < 0 by norm_num]
  · split_ifs <;> simp_all [show ¬ (100 : ℚ) < 0 by norm_num]
  · rename_i c
    by_cases h : t + -b = 0
    · have : t = b := by linarith
      subst this
      rw [if_pos h, if_pos h]
      by_cases h0 : c = t
      · subst h0; simp
      · have h1 : ¬ (t + -c) = 0 := by
          intro h; apply h0; linarith
        have h2 : ¬ (c + -t) = 0 := by
          intro h; apply h0; linarith
        rw [if_neg h1, if_neg h2]
        rcases lt_or_gt_of_ne h0 with h3 | h3
        · rw [if_pos (show (0 : ℚ) < t + -c by linarith), if_neg (show ¬ (0 : ℚ) < c + -t by linarith)]
          simp [show ¬ (100 : ℚ) < 0 by norm_num]
        · rw [if_neg (show ¬ (0 : ℚ) < t + -c by linarith), if_pos (show (0 : ℚ) < c + -t by linarith)]
          simp [show ¬ (100 : ℚ) < 0 by norm_num]
    · rw [if_neg h, if_neg h]
      simp only [Val.fin.injEq]
      field_simp
      ring

theorem ultimate_other (a b c : Val) :
    Val.div (Val.mul (.fin 100) (Val.add (Val.add (Val.mul (.fin 4) (Val.sub (.fin 1) a)) (Val.mul (.fin 2) (Val.sub (.fin 1) b)))
      (Val.sub (.fin 1) c))) (.fin 7) =
    Val.sub (.fin 100) (Val.div (Val.mul (.fin 100) (Val.add (Val.add (Val.mul (.fin 4) a) (Val.mul (.fin 2) b)) c)) (.fin 7)) := by
  cases a <;> cases b <;> cases c <;> simp [Val.sub, Val.neg, Val.add, Val.mul, Val.div, Val.infMul]
  ring

/-! ## Rolling sums of the distances to the two ends of a range -/

theorem sums_ends (t : List (Val × Val × Val)) :
    (finVals (t.map fun p => Val.sub p.2.1 p.1)).length ≤ t.length ∧
    (finVals (t.map fun p => Val.sub p.1 p.2.2)).length ≤ t.length ∧
    (finVals (t.map fun p => Val.sub p.2.1 p.2.2)).length ≤ t.length ∧
    ((finVals (t.map fun p => Val.sub p.2.1 p.2.2)).length = t.length →
      (finVals (t.map fun p => Val.sub p.2.1 p.1)).length = (finVals (t.map fun p => Val.sub p.1 p.2.2)).length ∧
      ((finVals (t.map fun p => Val.sub p.1 p.2.2)).length = t.length →
        (finVals (t.map fun p => Val.sub p.2.1 p.1)).sum =
          (finVals (t.map fun p => Val.sub p.2.1 p.2.2)).sum - (finVals (t.map fun p => Val.sub p.1 p.2.2)).sum)) := by
  induction t with
  | nil => simp [finVals]
  | cons p t ih =>
    obtain ⟨i1, i2, i3, i4⟩ := ih
    obtain ⟨c, h, l⟩ := p
    have hcons : ∀ x (l : List Val), finVals (x :: l) = (finVals [x]) ++ finVals l := fun x l => by cases x <;> rfl
    have hfin : ∀ a, finVals [Val.fin a] = [a] := fun _ => rfl
    have hnan : finVals [Val.nan] = [] := rfl
    have hp : finVals [Val.pinf] = [] := rfl
    have hn : finVals [Val.ninf] = [] := rfl
    simp only [List.map_cons]
    rw [hcons (Val.sub h c), hcons (Val.sub c l), hcons (Val.sub h l)]
    generalize finVals (t.map fun p => Val.sub p.2.1 p.1) = A at *
    generalize finVals (t.map fun p => Val.sub p.1 p.2.2) = B at *
    generalize finVals (t.map fun p => Val.sub p.2.1 p.2.2) = D at *
    cases h <;> cases l <;> cases c <;>
      simp only [Val.sub, Val.neg, Val.add, hfin, hnan, hp, hn, List.nil_append, List.cons_append, List.length_cons, List.sum_cons] <;>
      refine ⟨by omega, by omega, by omega, fun hd => ?_⟩ <;> first
      | omega
      | (obtain ⟨j1, j2⟩ := i4 (by omega)
         refine ⟨by omega, fun he => ?_⟩
         first
         | omega
         | (rw [j2 (by omega)]; ring))

theorem getElem_mapWindow (f : Val → Val → Val) (w i : ℕ) (a b : List Val) (h : a.length = b.length) :
    window w ((List.zipWith f a b).take (i + 1)) =
      List.map (fun p => f p.1 p.2) ((window w (a.take (i + 1))).zip (window w (b.take (i + 1)))) := by
  rw [List.take_zipWith, window_zipWith _ _ _ _ (by simp only [List.length_take]; omega), List.zip, List.map_zipWith]

/-- What the sum of the distances to the upper end is, from the sum of the distances to the lower end and of the ranges. -/
def Ends (n n' d : Val) : Prop := d = .nan ∨ (n = .nan ∧ n' = .nan) ∨ ∃ a b, n = .fin a ∧ d = .fin b ∧ n' = .fin (b - a)

theorem rolling_ends (w : ℕ) (c h l : List Val) (h1 : c.length = h.length) (h2 : l.length = h.length) (i : ℕ)
    (hi : i < h.length) :
    Ends ((rolling w w aggSum (subS c l))[i]'(by simp [rolling, prefixMap, subS, zipV]; omega))
      ((rolling w w aggSum (subS h c))[i]'(by simp [rolling, prefixMap, subS, zipV]; omega))
      ((rolling w w aggSum (subS h l))[i]'(by simp [rolling, prefixMap, subS, zipV]; omega)) := by
  simp only [getElem_rolling]
  unfold subS zipV
  rw [getElem_mapWindow _ w i c l (by omega), getElem_mapWindow _ w i h c (by omega), getElem_mapWindow _ w i h l (by omega)]
  set C := window w (c.take (i + 1)) with hC
  set H := window w (h.take (i + 1)) with hH
  set L := window w (l.take (i + 1)) with hL
  have e1 : C.length = H.length := by rw [hC, hH]; unfold window; simp only [List.length_drop, List.length_take]; omega
  have e2 : L.length = H.length := by rw [hL, hH]; unfold window; simp only [List.length_drop, List.length_take]; omega
  have hw : H.length ≤ w := by rw [hH]; unfold window; rw [List.length_drop]; omega
  clear_value C H L
  set t := C.zip (H.zip L) with ht
  have a1 : C.zip L = t.map fun p => (p.1, p.2.2) := by
    apply List.ext_getElem
    · simp [ht]; omega
    · intro j _ _; simp [ht]
  have a2 : H.zip C = t.map fun p => (p.2.1, p.1) := by
    apply List.ext_getElem
    · simp [ht]; omega
    · intro j _ _; simp [ht]
  have a3 : H.zip L = t.map fun p => (p.2.1, p.2.2) := by
    apply List.ext_getElem
    · simp [ht]; omega
    · intro j _ _; simp [ht]
  have hl : t.length = H.length := by simp [ht]; omega
  rw [a1, a2, a3]
  simp only [List.map_map, Function.comp_def]
  obtain ⟨s1, s2, s3, s4⟩ := sums_ends t
  by_cases hd : w ≤ (finVals (t.map fun p => Val.sub p.2.1 p.2.2)).length
  · obtain ⟨j1, j2⟩ := s4 (by omega)
    rw [if_pos hd, j1]
    by_cases hn : w ≤ (finVals (t.map fun p => Val.sub p.1 p.2.2)).length
    · rw [if_pos hn, if_pos hn]
      refine Or.inr (Or.inr ⟨_, _, rfl, rfl, ?_⟩)
      unfold aggSum
      rw [j2 (by omega)]
    · rw [if_neg hn, if_neg hn]
      exact Or.inr (Or.inl ⟨rfl, rfl⟩)
  · rw [if_neg hd]
    exact Or.inl rfl

theorem ends_div {n n' d : Val} (k : ℚ) (h : Ends n n' d) :
    Val.div (Val.mul (.fin k) n') d = Val.sub (.fin k) (Val.div (Val.mul (.fin k) n) d) := by
  rcases h with rfl | ⟨rfl, rfl⟩ | ⟨a, b, rfl, rfl, rfl⟩
  · have : ∀ x : Val, Val.div x .nan = .nan := fun x => by cases x <;> rfl
    rw [this, this]; rfl
  · rfl
  · simp only [Val.mul, Val.div]
    by_cases h : b = 0
    · subst h
      simp only [if_true, zero_sub]
      by_cases h0 : k * a = 0
      · have : k * -a = 0 := by linarith
        rw [if_pos h0, if_pos this]; rfl
      · have : ¬ k * -a = 0 := by intro h; apply h0; linarith
        rw [if_neg h0, if_neg this]
        rcases lt_or_gt_of_ne h0 with h3 | h3
        · rw [if_pos (by linarith), if_neg (by linarith)]; rfl
        · rw [if_neg (by linarith), if_pos (by linarith)]; rfl
    · rw [if_neg h, if_neg h]
      simp only [Val.sub, Val.neg, Val.add, Val.fin.injEq]
      field_simp
      ring

theorem one_mul_val (x : Val) : Val.mul (.fin 1) x = x := by
  cases x <;> simp [Val.mul, Val.infMul]

theorem rolling_ends_div (w : ℕ) (k : ℚ) (c h l : List Val) (h1 : c.length = h.length) (h2 : l.length = h.length) :
    divS (scaleS k (rolling w w aggSum (subS h c))) (rolling w w aggSum (subS h l)) =
      (divS (scaleS k (rolling w w aggSum (subS c l))) (rolling w w aggSum (subS h l))).map (Val.sub (.fin k)) := by
  apply List.ext_getElem
  · simp [divS, zipV, scaleS, rolling, prefixMap, subS, h1, h2]
  intro i a1 a2
  simp only [divS, zipV, scaleS, List.getElem_zipWith, List.getElem_map]
  apply ends_div
  apply rolling_ends w c h l h1 h2
  simp [divS, zipV, scaleS, rolling, prefixMap, subS] at a1
  omega

end TTI
