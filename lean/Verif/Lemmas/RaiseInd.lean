import Verif.Lemmas.Raise
import Verif.Lemmas.UnitInd
import Verif.Lemmas.Causal
import Verif.Spec.Raise

set_option autoImplicit false

/-!
# Indicators on raised prices
-/

namespace TTI

open Spec

/-- What is added to a column. -/
def part (k : ℚ) (name : String) : ℚ := if name = "volume" then 0 else k

/-- `k` added to all prices. -/
def Frame.raise (k : ℚ) (F : Frame) : Frame := ⟨F.idx, F.cols.map fun c => (c.1, rsl (part k c.1) c.2)⟩

section
variable (k : ℚ)

theorem raise_col (F : Frame) (n : String) : (F.raise k).col n = rsl (part k n) (F.col n) := by
  unfold Frame.col Frame.raise
  simp only [List.find?_map, Function.comp_def]
  cases h : F.cols.find? fun c => c.1 == n with
  | none => rfl
  | some c =>
    have : c.1 = n := by simpa using List.find?_some h
    simp only [Option.map_some, Option.getD_some, this]

theorem raise_len (F : Frame) : (F.raise k).len = F.len := rfl
theorem raise_idx (F : Frame) : (F.raise k).idx = F.idx := rfl

theorem raise_sub (F : Frame) (ns : List String) : (F.raise k).sub ns = (F.sub ns).raise k := by
  unfold Frame.sub Frame.restrict Frame.raise
  simp only [List.filter_map, List.map_map, Function.comp_def]
  congr 1
  apply List.map_congr_left
  intro c _
  simp only [ffill_rsl, bfill_rsl]

theorem raise_rows (F : Frame) (hn : ∀ c ∈ F.cols, c.1 ≠ "volume") : (F.raise k).rows = F.rows.map (rsl k) := by
  unfold Frame.rows Frame.raise
  rw [List.map_map]
  apply List.map_congr_left
  intro i _
  simp only [Function.comp, List.map_map, rsl]
  apply List.map_congr_left
  intro c hc
  simp only [Function.comp, part, if_neg (hn c hc)]
  simp only [List.getD_eq_getElem?_getD, List.getElem?_map]
  cases c.2[i]? <;> rfl

theorem raise_firstCol (F : Frame) (hn : ∀ c ∈ F.cols, c.1 ≠ "volume") : (F.raise k).firstCol = rsl k F.firstCol := by
  unfold Frame.firstCol Frame.raise
  rcases h : F.cols with _ | ⟨c, l⟩
  · rfl
  · have : c.1 ≠ "volume" := hn c (by rw [h]; simp)
    simp [part, this]

/-- All values are numbers. -/
def Frame.Numbers (F : Frame) : Prop := ∀ c ∈ F.cols, ∀ v ∈ c.2, ∃ q, v = .fin q

theorem Frame.Numbers.complete {F : Frame} (h : F.Numbers) : F.Complete := by
  intro c hc v hv he
  obtain ⟨q, hq⟩ := h c hc v hv
  rw [hq] at he
  cases he

theorem Frame.Numbers.col {F : Frame} (h : F.Numbers) (n : String) : ∀ v ∈ F.col n, ∃ q, v = .fin q := by
  unfold Frame.col
  cases hf : F.cols.find? fun c => c.1 == n with
  | none => simp
  | some c => exact h c (List.mem_of_find?_eq_some hf)

theorem Frame.Numbers.restrict {F : Frame} (h : F.Numbers) (ns : List String) : (F.restrict ns).Numbers :=
  fun c hc => h c (List.mem_filter.1 hc).1

theorem fillna_numbers (xs : List Val) (h : ∀ v ∈ xs, ∃ q, v = .fin q) : fillna 0 xs = xs := by
  unfold fillna
  conv_rhs => rw [← List.map_id xs]
  apply List.map_congr_left
  intro v hv
  obtain ⟨q, rfl⟩ := h v hv
  rfl

theorem rsl_numbers (xs : List Val) (h : ∀ v ∈ xs, ∃ q, v = .fin q) : ∀ v ∈ rsl k xs, ∃ q, v = .fin q := by
  intro v hv
  obtain ⟨w, hw, rfl⟩ := List.mem_map.1 hv
  obtain ⟨q, rfl⟩ := h w hw
  exact ⟨_, rfl⟩

/-! ## Regression -/

theorem allFin_rsl (xs : List Val) : allFin (rsl k xs) = (allFin xs).map (List.map (· + k)) := by
  induction xs with
  | nil => rfl
  | cons x xs ih =>
    cases x <;> try rfl
    simp only [rsl, List.map_cons, rs, allFin]
    rw [show List.map (rs k) xs = rsl k xs from rfl, ih]
    cases allFin xs <;> rfl

theorem lsFit_add (v w : List ℚ) (h : v.zip w ≠ []) :
    lsFit ((v.map (· + k)).zip w) = ((lsFit (v.zip w)).1 + k, (lsFit (v.zip w)).2) := by
  have hz : (v.map (· + k)).zip w = (v.zip w).map fun p => (p.1 + k, p.2) := by rw [List.zip_map_left]; rfl
  rw [hz]
  generalize v.zip w = l at h
  have h1 : ((l.map fun p : ℚ × ℚ => (p.1 + k, p.2)).map fun p => p.1).sum = (l.map fun p => p.1).sum + l.length * k := by
    rw [List.map_map, show ((fun p : ℚ × ℚ => p.1) ∘ fun p : ℚ × ℚ => (p.1 + k, p.2)) = (fun x => x + k) ∘ (fun p : ℚ × ℚ => p.1) from rfl,
      ← List.map_map, sum_map_add, List.length_map]
  have h2 : ((l.map fun p : ℚ × ℚ => (p.1 + k, p.2)).map fun p => p.1 * p.2).sum =
      (l.map fun p => p.1 * p.2).sum + k * (l.map fun p => p.2).sum := by
    rw [List.map_map]
    clear h h1 hz
    induction l with
    | nil => simp
    | cons p l ih => simp only [List.map_cons, List.sum_cons, ih, Function.comp]; ring
  have h3 : ((l.map fun p : ℚ × ℚ => (p.1 + k, p.2)).map fun p => p.2) = l.map fun p => p.2 := by
    rw [List.map_map]; rfl
  have h4 : ((l.map fun p : ℚ × ℚ => (p.1 + k, p.2)).map fun p => p.2 * p.2) = l.map fun p => p.2 * p.2 := by
    rw [List.map_map]; rfl
  have hl : (l.length : ℚ) ≠ 0 := by
    have := List.length_pos_of_ne_nil h
    exact_mod_cast this.ne'
  unfold lsFit
  simp only [h1, h2, h3, h4, List.length_map, Prod.mk.injEq]
  have hs : (l.length : ℚ) * ((l.map fun p => p.1 * p.2).sum + k * (l.map fun p => p.2).sum) -
      (l.map fun p => p.2).sum * ((l.map fun p => p.1).sum + l.length * k) =
      l.length * (l.map fun p => p.1 * p.2).sum - (l.map fun p => p.2).sum * (l.map fun p => p.1).sum := by ring
  rw [hs]
  refine ⟨?_, rfl⟩
  rw [div_add' _ _ _ hl]
  congr 1
  ring

theorem rollingOLS_rsl (w : ℕ) (hw : 1 ≤ w) (xs : List Val) :
    rollingOLS w (rsl k xs) = (rollingOLS w xs).map fun p => (rs k p.1, p.2) := by
  unfold rollingOLS
  apply prefixMap_map
  intro pre
  rw [List.length_map]
  split_ifs with h
  · have : window w (pre.map (rs k)) = rsl k (window w pre) := rsl_window _ _ _
    rw [this, allFin_rsl]
    cases hv : allFin (window w pre) with
    | none => rfl
    | some v =>
      have hl := allFin_length _ _ hv
      have hwl : (window w pre).length = w := by unfold window; rw [List.length_drop]; omega
      simp only [Option.map_some]
      rw [lsFit_add]
      · rfl
      · intro he
        have := congrArg List.length he
        simp only [List.length_zip, List.length_map, List.length_range, List.length_nil] at this
        omega
  · rfl

theorem slopes_rsl (w : ℕ) (hw : 1 ≤ w) (xs : List Val) :
    (rollingOLS w (rsl k xs)).map (·.2) = (rollingOLS w xs).map (·.2) := by
  rw [rollingOLS_rsl k w hw, List.map_map]; rfl

theorem lri_rsl (hk : Coarse k) (w n : ℕ) (hw : 1 ≤ w) (xs : List Val) :
    List.zipWith (fun (p : Val × Val) i => Val.round 4 (Val.add p.1 (Val.mul (.fin ((i : ℕ) : ℚ)) p.2))) (rollingOLS w (rsl k xs)) (List.range n) =
      rsl k (List.zipWith (fun (p : Val × Val) i => Val.round 4 (Val.add p.1 (Val.mul (.fin ((i : ℕ) : ℚ)) p.2))) (rollingOLS w xs) (List.range n)) := by
  rw [rollingOLS_rsl k w hw, List.zipWith_map_left]
  unfold rsl
  rw [List.map_zipWith]
  congr 1
  funext p i
  rw [rs_add_left, rs_round k hk]

theorem band_rsl (pick : Val → Val → Val) (hp : ∀ x y, pick (rs k x) (rs k y) = rs k (pick x y)) (w : ℕ) (xs ys : List Val) :
    Ind.ProjectionBands.band pick w (rsl k xs) ys = rsl k (Ind.ProjectionBands.band pick w xs ys) := by
  have hz : (rsl k xs).zip ys = (xs.zip ys).map fun p => (rs k p.1, p.2) := by unfold rsl; rw [List.zip_map_left]; rfl
  unfold Ind.ProjectionBands.band
  rw [hz]
  apply prefixMap_map
  intro pre
  rw [List.length_map, ← List.map_reverse]
  split_ifs
  · rfl
  · cases pre.reverse with
    | nil => rfl
    | cons p older =>
      obtain ⟨p0, s⟩ := p
      simp only [List.map_cons]
      have h1 : ((List.map (fun p : Val × Val => (rs k p.1, p.2)) older).take (w - 1)).map (·.1) =
          rsl k ((older.take (w - 1)).map (·.1)) := by
        rw [← List.map_take, List.map_map]; unfold rsl; rw [List.map_map]; rfl
      rw [h1]
      have h2 : ∀ l : List Val, ((rsl k l).zipIdx.map fun q => Val.add (Val.mul (.fin ((q.2 : ℚ) + 1)) s) q.1) =
          rsl k (l.zipIdx.map fun q => Val.add (Val.mul (.fin ((q.2 : ℚ) + 1)) s) q.1) := by
        intro l
        unfold rsl
        rw [List.zipIdx_map, List.map_map, List.map_map]
        apply List.map_congr_left
        intro q _
        have := rs_add 0 k (Val.mul (.fin ((q.2 : ℚ) + 1)) s) q.1
        rw [rs_zero, zero_add] at this
        exact this
      rw [h2]
      generalize (((older.take (w - 1)).map (·.1)).zipIdx.map fun q => Val.add (Val.mul (.fin ((q.2 : ℚ) + 1)) s) q.1) = l
      clear h1 h2
      induction l generalizing p0 with
      | nil => rfl
      | cons x l ih => simp only [rsl, List.map_cons, List.foldl_cons, hp]; exact ih _

/-! ## Slope -/

/-- A number or missing. -/
def Plain (v : Val) : Prop := v = .nan ∨ ∃ q, v = .fin q

theorem plain_rolling_sum (w : ℕ) (xs : List Val) : ∀ v ∈ rolling w w aggSum xs, Plain v := by
  intro v hv
  unfold rolling prefixMap at hv
  obtain ⟨j, -, rfl⟩ := List.mem_map.1 hv
  dsimp only
  split_ifs
  · exact Or.inr ⟨_, rfl⟩
  · exact Or.inl rfl

theorem sums_add (l : List (Val × Val)) (h : ∀ p ∈ l, ∃ q, p.2 = .fin q) :
    (finVals (l.map fun p => Val.mul (rs k p.1) p.2)).length = (finVals (l.map fun p => Val.mul p.1 p.2)).length ∧
    (finVals (l.map fun p => Val.mul p.1 p.2)).length ≤ l.length ∧
    (finVals (l.map fun p => p.2)).length = l.length ∧
    ((finVals (l.map fun p => Val.mul p.1 p.2)).length = l.length →
      (finVals (l.map fun p => Val.mul (rs k p.1) p.2)).sum =
        (finVals (l.map fun p => Val.mul p.1 p.2)).sum + k * (finVals (l.map fun p => p.2)).sum) := by
  induction l with
  | nil => simp [finVals]
  | cons p l ih =>
    obtain ⟨ih1, ih2, ih3, ih4⟩ := ih fun q hq => h q (List.mem_cons_of_mem _ hq)
    obtain ⟨x, y⟩ := p
    obtain ⟨q, hq⟩ := h (x, y) List.mem_cons_self
    simp only at hq
    subst hq
    have hinf : ∀ b (l : List Val), finVals (Val.infMul b q :: l) = finVals l := by
      intro b l; unfold Val.infMul; split_ifs <;> rfl
    have hfin : ∀ a (l : List Val), finVals (Val.fin a :: l) = a :: finVals l := fun _ _ => rfl
    cases x with
    | fin a =>
      simp only [List.map_cons]
      rw [show Val.mul (rs k (.fin a)) (.fin q) = .fin ((a + k) * q) from rfl, show Val.mul (.fin a) (.fin q) = .fin (a * q) from rfl]
      simp only [hfin, List.length_cons, List.sum_cons, add_left_inj]
      refine ⟨ih1, by omega, ih3, fun h => ?_⟩
      rw [ih4 h]; ring
    | nan =>
      simp only [List.map_cons]
      rw [show Val.mul (rs k .nan) (.fin q) = .nan from rfl, show Val.mul .nan (.fin q) = .nan from rfl,
        show ∀ l, finVals (.nan :: l) = finVals l from fun _ => rfl, show ∀ l, finVals (.nan :: l) = finVals l from fun _ => rfl]
      simp only [hfin, List.length_cons]
      exact ⟨ih1, by omega, by omega, fun h => by omega⟩
    | pinf =>
      simp only [List.map_cons]
      rw [show Val.mul (rs k .pinf) (.fin q) = Val.infMul true q from rfl, show Val.mul .pinf (.fin q) = Val.infMul true q from rfl,
        hinf, hinf]
      simp only [hfin, List.length_cons]
      exact ⟨ih1, by omega, by omega, fun h => by omega⟩
    | ninf =>
      simp only [List.map_cons]
      rw [show Val.mul (rs k .ninf) (.fin q) = Val.infMul false q from rfl, show Val.mul .ninf (.fin q) = Val.infMul false q from rfl,
        hinf, hinf]
      simp only [hfin, List.length_cons]
      exact ⟨ih1, by omega, by omega, fun h => by omega⟩

theorem window_zipWith {α β γ : Type} (f : α → β → γ) (w : ℕ) (a : List α) (b : List β) (h : a.length = b.length) :
    window w (List.zipWith f a b) = List.zipWith f (window w a) (window w b) := by
  unfold window
  rw [List.length_zipWith, List.drop_zipWith, h, min_self]

theorem getElem_rolling (w m : ℕ) (agg : List ℚ → Val) (xs : List Val) (i : ℕ) (h : i < (rolling w m agg xs).length) :
    (rolling w m agg xs)[i] =
      if m ≤ (finVals (window w (xs.take (i + 1)))).length then agg (finVals (window w (xs.take (i + 1)))) else .nan := by
  simp [rolling, prefixMap]

theorem rolling_products (w : ℕ) (a b : List Val) (hb : ∀ v ∈ b, ∃ q, v = .fin q) :
    rolling w w aggSum (mulS (rsl k a) b) =
      List.zipWith (fun s t => Val.add s (Val.mul (.fin k) t)) (rolling w w aggSum (mulS a b)) (rolling w w aggSum b) := by
  have e0 : mulS (rsl k a) b = List.zipWith (fun x y => Val.mul (rs k x) y) a b := by
    unfold mulS zipV rsl; rw [List.zipWith_map_left]
  have e2 : mulS a b = List.zipWith Val.mul a b := rfl
  rw [e0, e2]
  apply List.ext_getElem
  · simp [rolling, prefixMap]
  intro i h1 h2
  have hi : i < a.length ∧ i < b.length := by
    simp [rolling, prefixMap] at h1
    exact h1
  simp only [List.getElem_zipWith, getElem_rolling]
  have e1 : ∀ f : Val → Val → Val, window w ((List.zipWith f a b).take (i + 1)) =
      List.map (fun p => f p.1 p.2) ((window w (a.take (i + 1))).zip (window w (b.take (i + 1)))) := by
    intro f
    rw [List.take_zipWith, window_zipWith _ _ _ _ (by simp only [List.length_take]; omega), List.zip, List.map_zipWith]
  rw [e1, e1]
  generalize hl : (window w (a.take (i + 1))).zip (window w (b.take (i + 1))) = l
  have hlen : (window w (a.take (i + 1))).length = (window w (b.take (i + 1))).length := by
    unfold window; simp only [List.length_drop, List.length_take]; omega
  have hsnd : window w (b.take (i + 1)) = l.map fun p => p.2 := by
    rw [← hl]; exact (List.map_snd_zip (by omega)).symm
  have hfin : ∀ p ∈ l, ∃ q, p.2 = .fin q := by
    intro p hp
    apply hb
    have : p.2 ∈ window w (b.take (i + 1)) := by rw [hsnd]; exact List.mem_map_of_mem hp
    exact List.mem_of_mem_take (List.mem_of_mem_drop this)
  have hlw : l.length ≤ w := by
    have : l.length = (window w (b.take (i + 1))).length := by rw [hsnd, List.length_map]
    rw [this]; unfold window; rw [List.length_drop]; omega
  obtain ⟨s1, s2, s3, s4⟩ := sums_add k l hfin
  rw [hsnd]
  simp only [s1]
  by_cases h : w ≤ (finVals (l.map fun p => Val.mul p.1 p.2)).length
  · rw [if_pos h, if_pos h, if_pos (by omega)]
    simp only [aggSum]
    rw [s4 (by omega)]
    rfl
  · rw [if_neg h, if_neg h]; rfl

theorem plain_slope (p : ℚ) (s t y : Val) (hs : Plain s) (ht : Plain t) (hy : Plain y) :
    Val.sub (Val.mul (.fin p) (Val.add s (Val.mul (.fin k) t))) (Val.mul t (rs (p * k) y)) =
      Val.sub (Val.mul (.fin p) s) (Val.mul t y) := by
  rcases hs with rfl | ⟨s, rfl⟩ <;> rcases ht with rfl | ⟨t, rfl⟩ <;> rcases hy with rfl | ⟨y, rfl⟩ <;>
    simp only [Val.sub, Val.mul, Val.add, Val.neg, rs, Val.fin.injEq]
  ring

theorem rowNumbers_fin (n : ℕ) : ∀ v ∈ rowNumbers n, ∃ q, v = .fin q := by
  intro v hv
  obtain ⟨i, -, rfl⟩ := List.mem_map.1 hv
  exact ⟨_, rfl⟩

theorem slope_numerator (w : ℕ) (a b : List Val) (hb : ∀ v ∈ b, ∃ q, v = .fin q) :
    subS (scaleS w (rolling w w aggSum (mulS (rsl k a) b))) (mulS (rolling w w aggSum b) (rolling w w aggSum (rsl k a))) =
      subS (scaleS w (rolling w w aggSum (mulS a b))) (mulS (rolling w w aggSum b) (rolling w w aggSum a)) := by
  rw [rolling_products k w a b hb, rolling_sum_rsl]
  apply List.ext_getElem
  · simp [subS, zipV, scaleS, mulS, rsl, rolling, prefixMap]
  intro i h1 h2
  simp only [subS, zipV, scaleS, mulS, rsl, List.getElem_zipWith, List.getElem_map]
  exact plain_slope k w _ _ _ (plain_rolling_sum _ _ _ (List.getElem_mem _)) (plain_rolling_sum _ _ _ (List.getElem_mem _))
    (plain_rolling_sum _ _ _ (List.getElem_mem _))

theorem lrs_raise (p : ℕ) (F : Frame) :
    Ind.LinearRegressionSlope.calcTi p (F.raise k) = Ind.LinearRegressionSlope.calcTi p F := by
  unfold Ind.LinearRegressionSlope.calcTi
  simp only [raise_col, raise_len, raise_idx, part, String.reduceEq, if_false, slope_numerator k p _ _ (rowNumbers_fin _)]

/-! ## Chande Momentum Oscillator and variable moving average -/

theorem zeroBelow_nonneg (x : Val) (q : ℚ) (h : (if x <ᵥ 0 then 0 else x) = .fin q) : 0 ≤ q := by
  cases x with
  | fin a =>
    by_cases ha : a < 0
    · rw [if_pos (by show Val.lt (.fin a) (.fin 0) = true; simp [Val.lt, ha])] at h
      have : Val.fin 0 = Val.fin q := h
      simp only [Val.fin.injEq] at this
      rw [← this]
    · rw [if_neg (by show ¬ Val.lt (.fin a) (.fin 0) = true; simp [Val.lt]; linarith)] at h
      simp only [Val.fin.injEq] at h
      rw [← h]; linarith
  | nan => cases h
  | pinf => cases h
  | ninf =>
    have : Val.fin 0 = Val.fin q := h
    simp only [Val.fin.injEq] at this
    rw [← this]

theorem sum_nonneg_rolling (w : ℕ) (xs : List Val) (hx : ∀ v ∈ xs, ∀ q, v = .fin q → 0 ≤ q) :
    ∀ v ∈ rolling w w aggSum xs, v = .nan ∨ ∃ q, v = .fin q ∧ 0 ≤ q := by
  intro v hv
  unfold rolling prefixMap at hv
  obtain ⟨j, -, rfl⟩ := List.mem_map.1 hv
  dsimp only
  split_ifs
  · refine Or.inr ⟨_, rfl, List.sum_nonneg fun q hq => ?_⟩
    unfold finVals at hq
    obtain ⟨y, hy, hq⟩ := List.mem_filterMap.1 hq
    cases y <;> simp only [Option.some.injEq, reduceCtorEq] at hq
    subst hq
    exact hx _ (List.mem_of_mem_take (List.mem_of_mem_drop hy)) _ rfl
  · exact Or.inl rfl

theorem plain_ratio (u d : Val) (hu : u = .nan ∨ ∃ q, u = .fin q ∧ 0 ≤ q) (hd : Plain d) :
    Plain (Val.div (Val.mul (.fin 100) (Val.sub u (Val.abs d))) (Val.add u (Val.abs d))) := by
  rcases hu with rfl | ⟨q, rfl, hq⟩
  · exact Or.inl (by cases d <;> rfl)
  · rcases hd with rfl | ⟨r, rfl⟩
    · exact Or.inl rfl
    · simp only [Val.abs, Val.sub, Val.neg, Val.add, Val.mul, Val.div]
      have hr := abs_nonneg r
      split_ifs with h0 h1 h2
      · exact Or.inl rfl
      · exfalso
        apply h1
        have : q = 0 := by linarith
        have h3 : |r| = 0 := by linarith
        rw [this, h3]; ring
      · exfalso
        apply h1
        have : q = 0 := by linarith
        have h3 : |r| = 0 := by linarith
        rw [this, h3]; ring
      · exact Or.inr ⟨_, rfl⟩

theorem cmo_plain (p : ℕ) (F C : Frame) (h : Ind.ChandeMomentumOscillator.calcTi p F = .ok C) : ∀ v ∈ C.col "cmo", Plain v := by
  unfold Ind.ChandeMomentumOscillator.calcTi at h
  split_ifs at h
  cases h
  intro v hv
  simp only [Frame.col, List.find?_cons, beq_self_eq_true, Option.map_some, Option.getD_some] at hv
  simp only [roundS, divS, addS, subS, scaleS, zipV] at hv
  obtain ⟨w, hw, rfl⟩ := List.mem_map.1 hv
  have : Plain w := by
    obtain ⟨i, hi, rfl⟩ := List.mem_iff_getElem.1 hw
    simp only [List.getElem_zipWith, List.getElem_map]
    apply plain_ratio
    · apply sum_nonneg_rolling _ _ _ _ (List.getElem_mem _)
      intro x hx q hq
      obtain ⟨y, -, rfl⟩ := List.mem_map.1 hx
      exact zeroBelow_nonneg y q hq
    · exact plain_rolling_sum _ _ _ (List.getElem_mem _)
  rcases this with rfl | ⟨q, rfl⟩
  · exact Or.inl rfl
  · exact Or.inr ⟨_, rfl⟩

theorem variableMa_rsl (p : ℕ) (xs ys : List Val) (hy : ∀ v ∈ ys, Plain v) :
    Ind.MovingAverage.variableMa p ((rsl k xs).zip ys) = rsl k (Ind.MovingAverage.variableMa p (xs.zip ys)) := by
  have hz : (rsl k xs).zip ys = (xs.zip ys).map fun p => (rs k p.1, p.2) := by unfold rsl; rw [List.zip_map_left]; rfl
  have hp : ∀ r ∈ xs.zip ys, Plain r.2 := fun r hr => hy _ (List.of_mem_zip hr).2
  rw [hz]
  generalize xs.zip ys = rows at hp
  unfold Ind.MovingAverage.variableMa prefixMap rsl
  rw [List.length_map, List.map_map]
  apply List.map_congr_left
  intro i _
  simp only [Function.comp, ← List.map_take, ← List.map_drop]
  have hp' : ∀ r ∈ (rows.take (i + 1)).drop 21, Plain r.2 := fun r hr => hp r (List.mem_of_mem_take (List.mem_of_mem_drop hr))
  generalize (rows.take (i + 1)).drop 21 = l at hp'
  rcases l with _ | ⟨first, rest⟩
  · rfl
  · simp only [List.map_cons]
    have hp'' : ∀ r ∈ rest, Plain r.2 := fun r hr => hp' r (List.mem_cons_of_mem _ hr)
    generalize first.1 = z
    clear hp'
    induction rest generalizing z with
    | nil => rfl
    | cons r rest ih =>
      simp only [List.map_cons, List.foldl_cons]
      have hstep : ∀ (s : ℚ) (x v z : Val), Plain v →
          Val.add (Val.mul (Val.mul (.fin s) (rs k x)) v) (Val.mul (Val.sub 1 (Val.mul (.fin s) v)) (rs k z)) =
            rs k (Val.add (Val.mul (Val.mul (.fin s) x) v) (Val.mul (Val.sub 1 (Val.mul (.fin s) v)) z)) := by
        intro s x v z hv
        rcases hv with rfl | ⟨q, rfl⟩
        · cases x <;> cases z <;> simp [rs, Val.mul, Val.add, Val.sub, Val.neg]
          all_goals simp only [Val.infMul]; split_ifs <;> rfl
        · have e1 : ∀ (c : ℚ), Val.mul (.fin c) (.fin q) = .fin (c * q) := fun _ => rfl
          have e2 : Val.sub (1 : Val) (.fin (s * q)) = .fin (1 + -(s * q)) := rfl
          rw [e1, e2, rs_mul, rs_mul]
          have e3 : ∀ (a : ℚ) (x : Val), Val.mul (rs a x) (.fin q) = rs (a * q) (Val.mul x (.fin q)) := by
            intro a x
            cases x <;> simp only [rs, Val.mul, add_mul]
            all_goals exact (rs_infMul _ _ _).symm
          rw [e3, rs_add]
          congr 1
          ring
      rw [hstep _ _ _ _ (hp'' r List.mem_cons_self)]
      exact ih (fun r hr => hp'' r (List.mem_cons_of_mem _ hr)) _

theorem cmo_raise (p : ℕ) (F : Frame) :
    Ind.ChandeMomentumOscillator.calcTi p (F.raise k) = Ind.ChandeMomentumOscillator.calcTi p F := by
  unfold Ind.ChandeMomentumOscillator.calcTi
  simp only [raise_col, raise_len, raise_idx, part, String.reduceEq, if_false, diffS_rsl]


/-! ## Other parts -/

namespace Ind

theorem trueRange_rsl (pick : Val → Val → Val) (F : Frame) : trueRange pick (F.raise k) = trueRange pick F := by
  unfold trueRange
  simp only [raise_col, part, String.reduceEq, if_false, shift_rsl, subS_rsl_same]

theorem zip3_rsl (f : Val → Val → Val → Val) (a : ℚ) (h : ∀ x y z, f (rs k x) (rs k y) (rs k z) = rs a (f x y z))
    (xs ys zs : List Val) : zip3 f (rsl k xs) (rsl k ys) (rsl k zs) = rsl a (zip3 f xs ys zs) := by
  unfold zip3
  rw [zip_rsl]
  unfold rsl
  rw [List.zipWith_map, List.map_zipWith]
  congr 1
  funext x p
  exact h _ _ _

theorem dm_rsl (f : Val → Val → Val → Val → Val) (h : ∀ x y z w, f (rs k x) (rs k y) (rs k z) (rs k w) = f x y z w) (F : Frame) :
    DirectionalMovementIndex.dm f (F.raise k) = DirectionalMovementIndex.dm f F := by
  unfold DirectionalMovementIndex.dm
  simp only [raise_col, part, String.reduceEq, if_false, shift_rsl, zip_rsl]
  congr 1
  rw [List.zipWith_map]
  congr 1
  funext p q
  exact h _ _ _ _

theorem plusDm_rsl (x y z w : Val) : DirectionalMovementIndex.plusDm (rs k x) (rs k y) (rs k z) (rs k w) =
    DirectionalMovementIndex.plusDm x y z w := by
  unfold DirectionalMovementIndex.plusDm
  rw [rs_sub_same, rs_sub_same]

theorem minusDm_rsl (x y z w : Val) : DirectionalMovementIndex.minusDm (rs k x) (rs k y) (rs k z) (rs k w) =
    DirectionalMovementIndex.minusDm x y z w := by
  unfold DirectionalMovementIndex.minusDm
  rw [rs_sub_same, rs_sub_same]

theorem differences_rsl (p : ℕ) (xs ys : List Val) :
    CommodityChannelIndex.differences p ((rsl k xs).zip (rsl k ys)) = CommodityChannelIndex.differences p (xs.zip ys) := by
  rw [zip_rsl]
  unfold CommodityChannelIndex.differences
  conv_rhs => rw [← List.map_id (prefixMap _ _)]
  apply prefixMap_map
  intro pre
  rw [List.length_map, id_eq]
  split_ifs
  · rfl
  · have hw : window p (pre.map fun p => (rs k p.1, rs k p.2)) = (window p pre).map fun p => (rs k p.1, rs k p.2) := by
      unfold window; rw [List.length_map, List.map_drop]
    simp only [hw, List.getLast?_map]
    cases (window p pre).getLast? with
    | none => rfl
    | some last => simp only [Option.map_some, List.map_map, Function.comp_def, rs_sub_same]

theorem rmi_rsl (p m : ℕ) (xs : List Val) : RelativeMomentumIndex.raw p m (rsl k xs) = RelativeMomentumIndex.raw p m xs := by
  unfold RelativeMomentumIndex.raw
  simp only [shift_rsl, subS_rsl_same]

theorem rsi_rsl (p : ℕ) (xs : List Val) : RelativeStrengthIndex.raw p (rsl k xs) = RelativeStrengthIndex.raw p xs := by
  unfold RelativeStrengthIndex.raw
  have hu : ∀ xs ys, zipV RelativeStrengthIndex.upward (rsl k xs) (rsl k ys) = zipV RelativeStrengthIndex.upward xs ys :=
    zipV_rs_inv k _ fun x y => by unfold RelativeStrengthIndex.upward; rw [rs_lt, rs_sub_same]
  have hd : ∀ xs ys, zipV RelativeStrengthIndex.downward (rsl k xs) (rsl k ys) = zipV RelativeStrengthIndex.downward xs ys :=
    zipV_rs_inv k _ fun x y => by unfold RelativeStrengthIndex.downward; rw [rs_lt, rs_sub_same]
  simp only [shift_rsl, hu, hd]

theorem half_rsl (sq : ℚ → ℚ) (p : ℕ) (xs : List Val) : RelativeVolatilityIndex.half sq p (rsl k xs) = RelativeVolatilityIndex.half sq p xs := by
  unfold RelativeVolatilityIndex.half RelativeVolatilityIndex.selected
  simp only [shift_rsl, subS_rsl_same, rolling_rsl k _ _ _ _ (up_std k sq 0), rsl_zero]

theorem moneyFlow_rsl (F : Frame) : moneyFlowVolume (F.raise k) = moneyFlowVolume F := by
  unfold moneyFlowVolume
  simp only [raise_col, part, String.reduceEq, if_false, if_true, subS_rsl_same, rsl_zero]

theorem signedVolume_rsl (xs ys zs : List Val) :
    zip3 OnBalanceVolume.signedVolume (rsl k xs) (rsl k ys) zs = zip3 OnBalanceVolume.signedVolume xs ys zs := by
  unfold zip3
  have : (rsl k ys).zip zs = (ys.zip zs).map fun p => (rs k p.1, p.2) := by unfold rsl; rw [List.zip_map_left]; rfl
  rw [this]
  unfold rsl
  rw [List.zipWith_map]
  congr 1
  funext x p
  unfold OnBalanceVolume.signedVolume
  simp only [rs_lt]

theorem seeText_rsl (ts xs ys : List Val) :
    zip3 RangeIndicator.seeText ts (rsl k xs) (rsl k ys) = zip3 RangeIndicator.seeText ts xs ys := by
  unfold zip3
  rw [zip_rsl, List.zipWith_map_right]
  congr 1
  funext x p
  unfold RangeIndicator.seeText
  simp only [rs_lt, rs_sub_same]

theorem wadRow_rsl (x y z w : Val) : WilliamsAccumulationDistribution.row (rs k x) (rs k y) (rs k z) (rs k w) =
    WilliamsAccumulationDistribution.row x y z w := by
  unfold WilliamsAccumulationDistribution.row
  simp only [rs_maxNan, rs_minNan, rs_sub_same]

theorem wad_rsl (xs ys zs ws : List Val) :
    List.zipWith (fun (p q : Val × Val) => WilliamsAccumulationDistribution.row p.1 p.2 q.1 q.2) ((rsl k xs).zip (rsl k ys)) ((rsl k zs).zip (rsl k ws)) =
      List.zipWith (fun (p q : Val × Val) => WilliamsAccumulationDistribution.row p.1 p.2 q.1 q.2) (xs.zip ys) (zs.zip ws) := by
  rw [zip_rsl, zip_rsl, List.zipWith_map]
  congr 1
  funext p q
  exact wadRow_rsl k _ _ _ _

theorem middle_rsl (w : ℕ) (F : Frame) : IchimokuCloud.middle w (F.raise k) = rsl k (IchimokuCloud.middle w F) := by
  unfold IchimokuCloud.middle
  simp only [raise_col, part, String.reduceEq, if_false, rolling_rsl k _ _ _ _ (up_max k), rolling_rsl k _ _ _ _ (up_min k), addS_rsl]
  have := divBy_rsl (k + k) 2 two_ne_zero (addS (rolling w 1 aggMax (F.col "high")) (rolling w 1 aggMin (F.col "low")))
  rw [add_self_div_two] at this
  exact this

namespace ParabolicSAR

/-- A row of the working frame on raised prices. -/
def rowRaise (r : Row) : Row := { r with ep := rs k r.ep, sar := rs k r.sar }

theorem sliceMax_rsl (xs : List Val) (a b : ℕ) : sliceMax (rsl k xs) a b = rs k (sliceMax xs a b) := by
  unfold sliceMax
  rw [rsl_take, rsl_drop]
  rcases (xs.take b).drop a with _ | ⟨x, l⟩
  · rfl
  · simp only [rsl, List.map_cons]
    induction l generalizing x with
    | nil => rfl
    | cons y l ih => simp only [List.map_cons, List.foldl_cons, rs_maxNan]; exact ih _

theorem sliceMin_rsl (xs : List Val) (a b : ℕ) : sliceMin (rsl k xs) a b = rs k (sliceMin xs a b) := by
  unfold sliceMin
  rw [rsl_take, rsl_drop]
  rcases (xs.take b).drop a with _ | ⟨x, l⟩
  · rfl
  · simp only [rsl, List.map_cons]
    induction l generalizing x with
    | nil => rfl
    | cons y l ih => simp only [List.map_cons, List.foldl_cons, rs_minNan]; exact ih _

theorem sarOf_rsl (h l : List Val) (i : ℕ) (r : Row) : sarOf (rsl k h) (rsl k l) i (rowRaise k r) = rs k (sarOf h l i r) := by
  unfold sarOf rowRaise
  simp only [rs_sub_same, rs_add_left, sliceMax_rsl, sliceMin_rsl, rs_pmin, rs_pmax]
  split_ifs <;> rfl

theorem rowAt_rsl (h l : List Val) (i : ℕ) : rowAt (rsl k h) (rsl k l) i = rowRaise k (rowAt h l i) := by
  induction i with
  | zero =>
    unfold rowAt firstRow
    simp only [getD_rsl, rs_lt]
    split_ifs <;> rfl
  | succ i ih =>
    unfold rowAt
    rw [ih]
    generalize rowAt h l i = r
    have hp : penetrated (rsl k h) (rsl k l) (i + 1) (rowRaise k r) = penetrated h l (i + 1) r := by
      unfold penetrated
      simp only [sarOf_rsl, getD_rsl, rs_lt]
      rfl
    unfold nextRow
    rw [hp]
    split_ifs
    · unfold reversed
      simp only [getD_rsl, sliceMax_rsl, sliceMin_rsl, rowRaise]
      split_ifs <;> rfl
    · have he : extreme (rsl k h) (rsl k l) (i + 1) (rowRaise k r) = rs k (extreme h l (i + 1) r) := by
        unfold extreme
        simp only [rowRaise, sliceMax_rsl, sliceMin_rsl]
        split_ifs <;> rfl
      have ha : accel (rowRaise k r) (rs k (extreme h l (i + 1) r)) = accel r (extreme h l (i + 1) r) := by
        unfold accel
        simp only [rowRaise, rs_lt]
      simp only [he, ha, sarOf_rsl]
      rfl

end ParabolicSAR
end Ind

end
end TTI
