import Verif.Lemmas.HoleInd
import Verif.Lemmas.Order
import Verif.Lemmas.UnderFrame
import Verif.Lemmas.MemoryInd
import Verif.Lemmas.Prices
import Verif.Lemmas.Built

set_option autoImplicit false

/-!
# Objects built without filling
-/

namespace TTI

open Spec Ind

/-- What is known of an object that was built with `fill_missing_values=False`. -/
theorem unfilled (E : Env) (c : Call) (f : RawFrame) (o : Obj) (hw : ∀ c ∈ f.cols, c.data.length = f.idx.length)
    (h : (construct E c (.frame f) (.bool false)).2 = .ok o) :
    (f.kept o.ind.required).Good o.ind.required ∧ (f.kept o.ind.required).len = f.idx.length ∧
      ((f.kept o.ind.required).cols.map (·.1)).Nodup ∧ f.Valid o.ind.required ∧ o.ind.Pos ∧ c.check = .ok o.ind ∧
      o.ind.calcTi E (f.kept o.ind.required) = .ok o.ti ∧
      ∀ n ∈ o.ind.required, ∀ i, val ((f.kept o.ind.required).col n) i = f.day n i := by
  obtain ⟨ind, F, T, hc, hv, ht, rfl⟩ := (construct_ok_iff _ _ _ _ _).1 h
  obtain ⟨hg, hi⟩ := validated_good f _ _ _ hw hv
  obtain ⟨hval, hF⟩ := valid_of_ok _ _ _ _ hv
  have hF' : F = f.kept ind.required := hF
  subst hF'
  refine ⟨hg, ?_, kept_nodup f _ hval, hval, check_pos _ _ hc, hc, ht, fun n hn i => kept_day f _ n hn hval.labels i⟩
  show (f.kept ind.required).idx.length = _
  rw [hi, (sortIdx_perm _).length_eq]

/-- A frame with the same dates and the same columns under the same names. -/
theorem sameCols_of_col {F G : Frame} (hi : F.idx = G.idx) (hn : (F.cols.map (·.1)).Nodup) (hn' : (G.cols.map (·.1)).Nodup)
    (hm : ∀ n, n ∈ F.cols.map (·.1) ↔ n ∈ G.cols.map (·.1)) (hc : ∀ n ∈ F.cols.map (·.1), F.col n = G.col n) :
    F.SameCols G := by
  have key : ∀ H : Frame, (H.cols.map (·.1)).Nodup → ∀ c : String × List Val, c ∈ H.cols ↔
      c.1 ∈ H.cols.map (·.1) ∧ c.2 = H.col c.1 := by
    intro H hH c
    constructor
    · intro hmem
      refine ⟨List.mem_map_of_mem hmem, ?_⟩
      unfold Frame.col
      cases hf : H.cols.find? (fun d => d.1 == c.1) with
      | none => rw [List.find?_eq_none] at hf; exact absurd (by simp) (hf c hmem)
      | some d =>
        have e : d.1 = c.1 := by simpa using List.find?_some hf
        rw [List.inj_on_of_nodup_map hH (List.mem_of_find?_eq_some hf) hmem e]; rfl
    · rintro ⟨hmem, he⟩
      unfold Frame.col at he
      cases hf : H.cols.find? (fun d => d.1 == c.1) with
      | none =>
        rw [List.mem_map] at hmem
        obtain ⟨d, hd, e⟩ := hmem
        rw [List.find?_eq_none] at hf; exact absurd (by simp [e]) (hf d hd)
      | some d =>
        have e : d.1 = c.1 := by simpa using List.find?_some hf
        rw [hf] at he
        have : c = d := Prod.ext e.symm he
        rw [this]; exact List.mem_of_find?_eq_some hf
  refine ⟨hi, (List.perm_ext_iff_of_nodup (List.Nodup.of_map _ hn) (List.Nodup.of_map _ hn')).2 fun c => ?_, hn⟩
  rw [key F hn, key G hn']
  constructor
  · rintro ⟨h1, h2⟩; exact ⟨(hm _).1 h1, by rw [h2, hc _ h1]⟩
  · rintro ⟨h1, h2⟩; exact ⟨(hm _).2 h1, by rw [h2, hc _ ((hm _).2 h1)]⟩

theorem drop_names (F : Frame) (k : ℕ) : (F.drop k).cols.map (·.1) = F.cols.map (·.1) := by
  unfold Frame.drop; rw [List.map_map]; rfl

theorem ext_val {xs ys : List Val} (hl : xs.length = ys.length) (h : ∀ i < xs.length, val xs i = val ys i) : xs = ys := by
  refine List.ext_getElem hl fun i h1 h2 => ?_
  rw [← val_lt _ _ h1, ← val_lt _ _ h2, h i h1]

/-- The value on a day depends on the last `N` days only. -/
theorem calcTi_local (E : Env) (ind : Ind) (F G T T' : Frame) (hF : F.Good ind.required) (hG : G.Good ind.required)
    (hp : ind.Pos) (hc : Causal ind) (hn : ¬ Nested ind) (hi : F.idx = G.idx) (nF : (F.cols.map (·.1)).Nodup)
    (nG : (G.cols.map (·.1)).Nodup) (hT : ind.calcTi E F = .ok T) (hT' : ind.calcTi E G = .ok T') (column : String) (M N i : ℕ)
    (hM : memory ind column = some M) (hMN : M ≤ N) (hRN : minRows ind ≤ N) (h1 : 1 ≤ N) (hNi : N ≤ i + 1) (hil : i < F.len)
    (hag : ∀ n ∈ ind.required, ∀ j, i < j + N → j ≤ i → val (F.col n) j = val (G.col n) j) :
    val (T.col column) i = val (T'.col column) i := by
  have hlen : G.len = F.len := by unfold Frame.len; rw [hi]
  obtain ⟨k, hk⟩ : ∃ k, k + N = i + 1 := ⟨i + 1 - N, by omega⟩
  have hd : ∀ H : Frame, H.Good ind.required → H.len = F.len → ∃ S, ind.calcTi E (H.drop k) = .ok S := by
    intro H hH hl
    have hw : (H.drop k).WF := by
      intro c hc
      unfold Frame.drop at hc ⊢
      simp only [List.mem_map] at hc
      obtain ⟨d, hd, rfl⟩ := hc
      simp only [List.length_drop]
      rw [hH.wf d hd]
    have hh : (H.drop k).Has ind.required := by
      intro n hn'
      rw [drop_names]; exact hH.has n hn'
    have hout := calcTi_outcome E ind (H.drop k) hw hh (by rw [Frame.drop_len]; omega)
    rcases hout with ⟨h, -⟩ | ⟨-, S, h, -⟩
    · rw [Frame.drop_len] at h; omega
    · exact ⟨S, h⟩
  obtain ⟨S, hS⟩ := hd F hF rfl
  obtain ⟨S', hS'⟩ := hd G hG hlen
  have r1 := (calcTi_recent E ind F T S k hF hp (by omega) (fun h => absurd h hn) (by omega) hT hS column M hM).val (N - 1)
    (by omega)
  have r2 := (calcTi_recent E ind G T' S' k hG hp (by omega) (fun h => absurd h hn) (by omega) hT' hS' column M hM).val (N - 1)
    (by omega)
  have e : N - 1 + k = i := by omega
  rw [e] at r1 r2
  have t1 := calcTi_take E ind (F.drop k) S N hc (fun h => absurd h hn) hRN (by rw [Frame.drop_len]; omega) hS
  have t2 := calcTi_take E ind (G.drop k) S' N hc (fun h => absurd h hn) hRN (by rw [Frame.drop_len]; omega) hS'
  have hsame : ((F.drop k).take N).SameCols ((G.drop k).take N) := by
    have names : ∀ H : Frame, ((H.drop k).take N).cols.map (·.1) = H.cols.map (·.1) := fun H => by
      rw [Frame.take_names, drop_names]
    refine sameCols_of_col ?_ ?_ ?_ ?_ ?_
    · rw [Frame.take_idx, Frame.take_idx, Frame.drop_idx, Frame.drop_idx, hi]
    · rw [names]; exact nF
    · rw [names]; exact nG
    · intro n
      rw [names, names]
      exact ⟨fun h => hG.has n (hF.only n h), fun h => hF.has n (hG.only n h)⟩
    · intro n hn'
      rw [names] at hn'
      have hr := hF.only n hn'
      have l1 := F.col_length hF.wf n (hF.has n hr)
      have l2 := G.col_length hG.wf n (hG.has n hr)
      rw [Frame.take_col, Frame.take_col, Frame.drop_col, Frame.drop_col]
      refine ext_val (by simp [l1, l2, hlen]) fun j hj => ?_
      rw [List.length_take, List.length_drop] at hj
      rw [val_lt _ _ (by rw [List.length_take, List.length_drop]; omega),
        val_lt _ _ (by rw [List.length_take, List.length_drop]; omega), List.getElem_take, List.getElem_take,
        List.getElem_drop, List.getElem_drop, ← val_lt, ← val_lt]
      exact hag n hr (k + j) (by omega) (by omega)
  rw [calcTi_order E ind hsame] at t1
  rw [t1] at t2
  have hST : S.take N = S'.take N := Except.ok.inj t2
  have hcol : (S.col column).take N = (S'.col column).take N := by
    rw [← Frame.take_col, ← Frame.take_col, hST]
  rw [← r1, ← r2]
  have hv : ∀ l : List Val, val (l.take N) (N - 1) = val l (N - 1) := by
    intro l
    unfold val
    rw [List.getD_eq_getElem?_getD, List.getD_eq_getElem?_getD, List.getElem?_take_of_lt (by omega)]
  rw [← hv, hcol, hv]

/-! ## The table with zeros -/

/-- The frame with zeros. -/
def Frame.zeros (F : Frame) : Frame := ⟨F.idx, F.cols.map fun c => (c.1, c.2.map orZero)⟩

theorem zeros_col (F : Frame) (n : String) : F.zeros.col n = (F.col n).map orZero := by
  unfold Frame.zeros Frame.col
  simp only [List.find?_map]
  have e : ((fun c : String × List Val => c.1 == n) ∘ fun c : String × List Val => (c.1, c.2.map orZero)) =
      fun c => c.1 == n := rfl
  rw [e]
  cases List.find? (fun c => c.1 == n) F.cols <;> rfl

theorem zeros_sort (F : Frame) : F.zeros.sortIndex = F.sortIndex.zeros := by
  unfold Frame.sortIndex Frame.zeros
  simp only [List.map_map, Function.comp_def]
  congr 1
  apply List.map_congr_left
  intro c _
  have : F.idx.zip (c.2.map orZero) = (F.idx.zip c.2).map fun r => (r.1, orZero r.2) := by
    rw [List.zip_map_right]; rfl
  rw [this, sortRows_map]
  simp only [List.map_map, Function.comp_def]

theorem zeroed_valid (f : RawFrame) (required : List String) (h : f.Valid required) : (zeroed f).Valid required := by
  obtain ⟨h1, h2, h3, h4, h5, h6⟩ := h
  refine ⟨h1, h2, ?_, ?_, ?_, ?_⟩
  · intro h; apply h3; simpa [zeroed] using h
  · intro c hc
    unfold zeroed at hc
    simp only [List.mem_map] at hc
    obtain ⟨d, hd, rfl⟩ := hc
    exact h4 d hd
  · intro r hr
    obtain ⟨d, hd, hnum⟩ := h5 r hr
    refine ⟨{ d with data := d.data.map orZero }, ?_, hnum⟩
    unfold zeroed
    simp only [List.filter_map]
    rw [show (f.cols.filter ((fun c : RawCol => c.name == r) ∘ fun c : RawCol => { c with data := c.data.map orZero })) = [d]
      from hd]
    rfl
  · have : (zeroed f).cols.map RawCol.name = f.cols.map RawCol.name := by
      unfold zeroed; rw [List.map_map]; rfl
    rwa [this]

theorem kept_zeroed (f : RawFrame) (required : List String) : (zeroed f).kept required = (f.kept required).zeros := by
  unfold RawFrame.kept
  rw [← zeros_sort]
  congr 1
  unfold Frame.zeros zeroed
  simp only [List.filter_map, List.map_map, Function.comp_def]
  rfl

theorem orZero_fillna (xs : List Val) : fillna 0 (xs.map orZero) = fillna 0 xs := by
  unfold fillna
  rw [List.map_map]
  apply List.map_congr_left
  intro x _
  cases x <;> rfl

theorem sumSkip_orZero (xs ys : List Val) (h : List.Forall₂ (fun v w => w = v ∨ v = .nan ∧ w = .fin 0) xs ys) :
    sumSkip ys = sumSkip xs := by
  unfold sumSkip
  generalize (0 : Val) = s
  induction h generalizing s with
  | nil => rfl
  | cons h _ ih =>
    rename_i a b l m _
    rcases h with rfl | ⟨rfl, rfl⟩
    · by_cases hb : b.isNan
      · simp only [List.filter_cons, hb, Bool.not_true]; exact ih s
      · simp only [List.filter_cons, hb]; exact ih _
    · simp only [List.filter_cons, Val.isNan, Bool.not_true, Bool.not_false, if_true, List.foldl_cons]
      have : Val.add s (.fin 0) = s := by cases s <;> simp [Val.add]
      rw [this]; exact ih s

theorem zeros_rows (F : Frame) : F.zeros.rows.map sumSkip = F.rows.map sumSkip := by
  have hr : RelatedValues (fun v w => w = v ∨ v = .nan ∧ w = .fin 0) F F.zeros := by
    refine ⟨rfl, ?_⟩
    unfold Frame.zeros
    rw [List.forall₂_map_right_iff]
    refine List.forall₂_same.2 fun c _ => ⟨rfl, ?_⟩
    rw [List.forall₂_map_right_iff]
    refine List.forall₂_same.2 fun v _ => ?_
    unfold orZero
    by_cases h : v = .nan
    · right; exact ⟨h, if_pos h⟩
    · left; exact if_neg h
  have := rel_rows (R := fun v w => w = v ∨ v = .nan ∧ w = .fin 0) (Or.inl rfl) hr
  generalize F.rows = a at this
  generalize F.zeros.rows = b at this
  induction this with
  | nil => rfl
  | cons h _ ih => rw [List.map_cons, List.map_cons, ih, sumSkip_orZero _ _ h]

theorem zeros_lri (p : ℕ) (F : Frame) : LinearRegressionIndicator.calcTi p F.zeros = LinearRegressionIndicator.calcTi p F := by
  unfold LinearRegressionIndicator.calcTi
  have hl : F.zeros.len = F.len := rfl
  have hi : F.zeros.idx = F.idx := rfl
  rw [hl, hi, zeros_col, orZero_fillna]

theorem zeros_cci (p : ℕ) (F : Frame) : CommodityChannelIndex.calcTi p F.zeros = CommodityChannelIndex.calcTi p F := by
  unfold CommodityChannelIndex.calcTi
  have hl : F.zeros.len = F.len := rfl
  have hi : F.zeros.idx = F.idx := rfl
  have hr : (F.zeros.rows.map fun r => Val.div (sumSkip r) 3) = F.rows.map fun r => Val.div (sumSkip r) 3 := by
    have := congrArg (List.map fun x => Val.div x 3) (zeros_rows F)
    rw [List.map_map, List.map_map] at this
    exact this
  rw [hl, hi, hr]

/-! ## Inner indicators fill -/

theorem fill_sub (F : Frame) (hs : F.idx.Pairwise (· ≤ ·)) (hw : F.WF) (names : List String) :
    (fillMissingValues F).sub names = F.sub names := by
  unfold fillMissingValues
  rw [sortIndex_of_sorted F hs hw]
  unfold Frame.sub Frame.restrict
  simp only [List.filter_map, List.map_map, Function.comp_def, Props.fill_fill]

theorem fill_idx (F : Frame) (hs : F.idx.Pairwise (· ≤ ·)) : (fillMissingValues F).idx = F.idx := by
  rw [fillMissingValues_idx, sortIdx_of_sorted _ hs]

end TTI
