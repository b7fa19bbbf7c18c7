import Verif.Lemmas.Col
import Verif.Lemmas.Order
import Verif.Props.Order

set_option autoImplicit false

/-!
# More operations on columns: rows of a frame, windows with `min_periods=1`, maxima of several columns
-/

namespace TTI

open Spec

/-! ## The frame of a constructed object has every required column once -/

theorem validated_nodup (f : RawFrame) (required : List String) (fill : Bool) (F : Frame)
    (h : (validateInputData (.frame f) required fill).2 = .ok F) : (F.cols.map (·.1)).Nodup := by
  obtain ⟨hv, hF⟩ := valid_of_ok _ _ _ _ h
  have hk : ((f.kept required).cols.map (·.1)).Nodup := by
    have := Props.kept_names_nodup f required hv
    simp only [RawFrame.kept, Frame.sortIndex, List.map_map]
    exact this
  rw [hF]
  cases fill
  · exact hk
  · simp only [if_true, fillMissingValues, Frame.sortIndex, List.map_map]
    exact hk

theorem Frame.sameCols_required (F : Frame) (required : List String) (hr : required.Nodup) (hn : (F.cols.map (·.1)).Nodup)
    (hg : F.Good required) : F.SameCols ⟨F.idx, required.map fun n => (n, F.col n)⟩ := by
  have e : F.cols = (F.cols.map (·.1)).map fun n => (n, F.col n) := by
    rw [List.map_map]
    conv_lhs => rw [← List.map_id F.cols]
    apply List.map_congr_left
    intro c hc
    have : F.col c.1 = c.2 := by
      unfold Frame.col
      cases h : F.cols.find? (fun d => d.1 == c.1) with
      | none =>
        rw [List.find?_eq_none] at h
        have := h c hc
        simp at this
      | some d =>
        have h1 : d.1 = c.1 := by simpa using List.find?_some h
        have h2 := List.inj_on_of_nodup_map hn (List.mem_of_find?_eq_some h) hc h1
        rw [h2]; rfl
    simp [this]
  have hp : (F.cols.map (·.1)).Perm required := by
    rw [List.perm_ext_iff_of_nodup hn hr]
    intro n
    exact ⟨hg.only n, fun h => hg.has n h⟩
  refine ⟨rfl, ?_, hn⟩
  show F.cols.Perm _
  rw [e]
  have := hp.map fun n => (n, F.col n)
  rwa [← e] at this ⊢

theorem Spec.BuiltOn.onSame {E : Env} {c : Call} {f : RawFrame} {fill : Bool} {o : Obj} {P : (String → ℚ) → Prop} {ind : Ind}
    (h : BuiltOn E c f fill o P) (ho : o.ind = ind) (hr' : ind.required.Nodup) :
    ∃ F : Frame, F.len = f.idx.length ∧ (∀ n ∈ ind.required, Nums F.len 0 (price f n) (F.col n)) ∧
      ind.calcTi E F = .ok o.getTiData ∧ ind.Pos ∧ F.SameCols ⟨F.idx, ind.required.map fun n => (n, F.col n)⟩ := by
  subst ho
  obtain ⟨ind, F, T, hc, hv, ht, rfl⟩ := (construct_ok_iff _ _ _ _ _).1 h.ok
  have hr := eachRow_validated f _ _ P fill F h.wf hv (fun n hn => hn) h.rows
  choose! x hx using hr
  have hg := validated_good f _ _ _ h.wf hv
  have hlen : F.len = f.idx.length := by unfold Frame.len; rw [hg.2, (sortIdx_perm _).length_eq]
  refine ⟨F, hlen, fun n hn => ⟨F.col_length hg.1.wf n (hg.1.has n hn), fun i hi => ?_⟩, ht, check_pos _ _ hc,
    F.sameCols_required _ hr' (validated_nodup f _ fill F hv) hg.1⟩
  rw [if_neg (by omega)]
  unfold price
  rw [← validated_day f _ P fill F h.wf hv h.rows n hn i, (hx i hi).1 n hn]
  rfl

/-- The same with the columns in the order in which the indicator asks for them. -/
theorem Spec.BuiltOn.onRows {E : Env} {c : Call} {f : RawFrame} {fill : Bool} {o : Obj} {P : (String → ℚ) → Prop} {ind : Ind}
    (h : BuiltOn E c f fill o P) (ho : o.ind = ind) (hr' : ind.required.Nodup) :
    ∃ F : Frame, F.len = f.idx.length ∧ (∀ n ∈ ind.required, Nums F.len 0 (price f n) (F.col n)) ∧
      ind.calcTi E F = .ok o.getTiData ∧ ind.Pos ∧ F.cols = ind.required.map fun n => (n, F.col n) := by
  obtain ⟨F, h1, h2, h3, h4, h5⟩ := h.onSame ho hr'
  refine ⟨⟨F.idx, ind.required.map fun n => (n, F.col n)⟩, h1, ?_, ?_, h4, ?_⟩
  · intro n hn
    rw [← h5.col n]
    exact h2 n hn
  · rw [← calcTi_order E ind h5]
    exact h3
  · apply List.map_congr_left
    intro n _
    rw [← h5.col n]

namespace Nums

variable {n k : ℕ} {g : ℕ → ℚ} {xs : List Val}

/-- A column that has a number on every day. -/
theorem all4 (h : Nums n k g xs) {i : ℕ} (hi : i < n) {q : ℚ} (hk : k = 0) (hv : g i = q) :
    TTI.val (roundS 4 xs) i = to4 q := by
  have := h.eq4 hi hk fun _ => hv
  rwa [since, if_neg (by omega)] at this

/-- Row-wise aggregation of the three price columns. -/
theorem rows3 {F : Frame} {a b c : String} {ga gb gc : ℕ → ℚ} (hF : F.cols = [a, b, c].map fun n => (n, F.col n))
    (ha : Nums F.len 0 ga (F.col a)) (hb : Nums F.len 0 gb (F.col b)) (hc : Nums F.len 0 gc (F.col c))
    (agg : List Val → Val) (g : ℕ → ℚ) (hg : ∀ i, agg [.fin (ga i), .fin (gb i), .fin (gc i)] = .fin (g i)) :
    Nums F.len 0 g (F.rows.map agg) := by
  refine ⟨by simp [Frame.rows], fun i hi => ?_⟩
  rw [if_neg (by omega), ← hg i, ← ha.fin hi (by omega), ← hb.fin hi (by omega), ← hc.fin hi (by omega)]
  unfold Frame.rows
  rw [List.map_map, val_lt _ _ (by simpa using hi)]
  simp only [List.getElem_map, List.getElem_range, Function.comp]
  rw [hF]
  rfl

theorem meanSkip3 (a b c : ℚ) : meanSkip [.fin a, .fin b, .fin c] = .fin ((a + b + c) / 3) := by
  have := meanSkip_fin [a, b, c] (by simp)
  simp only [List.map_cons, List.map_nil] at this
  rw [this]
  congr 1
  simp [add_assoc]

theorem sumSkip3 (a b c : ℚ) : sumSkip [.fin a, .fin b, .fin c] = .fin (a + b + c) := by
  show Val.add (Val.add (Val.add (.fin 0) (.fin a)) (.fin b)) (.fin c) = _
  simp

/-! ### Windows with `min_periods=1` -/

theorem rollMax1 (h : Nums n 0 g xs) (w : ℕ) (hw : 1 ≤ w) : Nums n 0 (highest w g) (rolling w 1 aggMax xs) := by
  refine ⟨by simp [h.len], fun i hi => ?_⟩
  rw [if_neg (by omega), val_rolling_fin w 1 aggMax xs g i (by rw [h.len]; exact hi) fun j h2 h3 => h.fin (by omega) (by omega),
    if_pos (by omega)]
  obtain ⟨m, h1, h2, h3⟩ := aggMax_spec ((List.range (Min.min w (i + 1))).map fun t => g (i + 1 - w + t)) (by simp; omega)
  obtain ⟨h4, t, ht, h5⟩ := highest_spec w hw g i
  rw [h1]
  congr 1
  apply le_antisymm
  · rw [List.mem_map] at h2
    obtain ⟨s, hs, rfl⟩ := h2
    rw [List.mem_range] at hs
    have := h4 (i - (i + 1 - w + s)) (by omega)
    rwa [show i - (i - (i + 1 - w + s)) = i + 1 - w + s by omega] at this
  · rw [h5]
    apply h3
    rw [List.mem_map]
    exact ⟨i - t - (i + 1 - w), by rw [List.mem_range]; omega, by congr 1; omega⟩

theorem rollMin1 (h : Nums n 0 g xs) (w : ℕ) (hw : 1 ≤ w) : Nums n 0 (lowest w g) (rolling w 1 aggMin xs) := by
  refine ⟨by simp [h.len], fun i hi => ?_⟩
  rw [if_neg (by omega), val_rolling_fin w 1 aggMin xs g i (by rw [h.len]; exact hi) fun j h2 h3 => h.fin (by omega) (by omega),
    if_pos (by omega)]
  obtain ⟨m, h1, h2, h3⟩ := aggMin_spec ((List.range (Min.min w (i + 1))).map fun t => g (i + 1 - w + t)) (by simp; omega)
  obtain ⟨h4, t, ht, h5⟩ := lowest_spec w hw g i
  rw [h1]
  congr 1
  apply le_antisymm
  · rw [h5]
    apply h3
    rw [List.mem_map]
    exact ⟨i - t - (i + 1 - w), by rw [List.mem_range]; omega, by congr 1; omega⟩
  · rw [List.mem_map] at h2
    obtain ⟨s, hs, rfl⟩ := h2
    rw [List.mem_range] at hs
    have := h4 (i - (i + 1 - w + s)) (by omega)
    rwa [show i - (i - (i + 1 - w + s)) = i + 1 - w + s by omega] at this

end Nums

end TTI
