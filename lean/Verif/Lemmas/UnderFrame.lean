import Verif.Lemmas.Under
import Verif.Props.Build

set_option autoImplicit false

/-!
# Frames whose entries are related row by row: validation and calculation (C70, C71)
-/

namespace TTI

open TTI.Spec

/-! ## Frames -/

section
variable {R : Val → Val → Prop}

/-- Columns of the user's frames that differ in their values only. -/
def RawColRel (R : Val → Val → Prop) (c c' : RawCol) : Prop :=
  c.label = c'.label ∧ c.numeric = c'.numeric ∧ List.Forall₂ R c.data c'.data

/-- The same exception, or results related by `S`. -/
def ExceptRel {α β : Type} (S : α → β → Prop) : Except Err α → Except Err β → Prop
  | .ok a, .ok b => S a b
  | .error e, .error e' => e = e'
  | _, _ => False

theorem lowerLabels_rel {cols cols' : List RawCol} (h : List.Forall₂ (RawColRel R) cols cols') :
    (lowerLabels cols = none ∧ lowerLabels cols' = none) ∨ ∃ l l', lowerLabels cols = some l ∧ lowerLabels cols' = some l' ∧
      List.Forall₂ (fun p p' => p.1 = p'.1 ∧ RawColRel R p.2 p'.2) l l' := by
  induction h with
  | nil => exact .inr ⟨[], [], rfl, rfl, .nil⟩
  | @cons c c' cs cs' hc _ ih =>
    simp only [lowerLabels, ← hc.1]
    rcases ih with ⟨h1, h2⟩ | ⟨l, l', h1, h2, h3⟩
    · rw [h1, h2]
      cases c.label.lower <;> exact .inl ⟨rfl, rfl⟩
    · rw [h1, h2]
      cases c.label.lower with
      | none => exact .inl ⟨rfl, rfl⟩
      | some s => exact .inr ⟨_, _, rfl, rfl, .cons ⟨rfl, hc⟩ h3⟩

/-- Labelled columns related by `R`. -/
abbrev LabelledRel (R : Val → Val → Prop) : List (String × RawCol) → List (String × RawCol) → Prop :=
  List.Forall₂ fun p p' => p.1 = p'.1 ∧ RawColRel R p.2 p'.2

theorem filter_rel {α β : Type} {S : α → β → Prop} (f : α → Bool) (g : β → Bool) (H : ∀ a b, S a b → f a = g b) {xs : List α}
    {ys : List β} (h : List.Forall₂ S xs ys) : List.Forall₂ S (xs.filter f) (ys.filter g) := by
  induction h with
  | nil => exact .nil
  | @cons a b _ _ h _ ih =>
    simp only [List.filter_cons, H a b h]
    split_ifs
    · exact .cons h ih
    · exact ih

theorem labels_eq {l l' : List (String × RawCol)} (h : LabelledRel R l l') : l.map (·.1) = l'.map (·.1) := by
  induction h with
  | nil => rfl
  | cons h _ ih => rw [List.map_cons, List.map_cons, ih, h.1]

theorem checkColumn_rel {l l' : List (String × RawCol)} (h : LabelledRel R l l') (r : String) :
    checkColumn l r = checkColumn l' r := by
  unfold checkColumn
  have hf := filter_rel (fun c : String × RawCol => c.1 == r) (fun c => c.1 == r) (fun a b hab => by simp only [hab.1]) h
  generalize l.filter (fun c => c.1 == r) = m at hf
  generalize l'.filter (fun c => c.1 == r) = m' at hf
  cases hf with
  | nil => rfl
  | cons h t =>
    cases t with
    | nil => simp only [h.2.2.1]
    | cons _ _ => rfl

theorem dropExtra_rel (required labels : List String) {l l' : List (String × RawCol)} (h : LabelledRel R l l') :
    ExceptRel (LabelledRel R) (dropExtra required labels l) (dropExtra required labels l') := by
  induction labels generalizing l l' with
  | nil => exact h
  | cons a ls ih =>
    simp only [dropExtra, labels_eq h]
    split_ifs
    · exact ih h
    · exact ih (filter_rel _ _ (fun a b hab => by simp only [hab.1]) h)
    · rfl

theorem sortIndex_rel {F G : Frame} (h : RelatedValues R F G) : RelatedValues R F.sortIndex G.sortIndex := by
  obtain ⟨h1, h2⟩ := h
  refine ⟨by simp only [Frame.sortIndex, h1], ?_⟩
  refine map_rel _ _ ?_ h2
  rintro c c' ⟨hn, hd⟩
  refine ⟨hn, ?_⟩
  refine map_rel (R := fun a b => a.1 = b.1 ∧ R a.2 b.2) _ _ (fun a b hab => hab.2) (sortRows_rel ?_)
  rw [h1]
  exact zipWith_rel (R := fun a b => a = b) Prod.mk Prod.mk (fun _ _ _ _ h g => ⟨h, g⟩) (List.forall₂_same.2 fun _ _ => rfl) hd

theorem fill_rel (hR : ∀ a b, R a b → a.isNan = b.isNan) (h0 : R .nan .nan) {F G : Frame} (h : RelatedValues R F G) :
    RelatedValues R (fillMissingValues F) (fillMissingValues G) := by
  obtain ⟨h1, h2⟩ := sortIndex_rel h
  refine ⟨h1, map_rel _ _ ?_ h2⟩
  rintro c c' ⟨hn, hd⟩
  exact ⟨hn, bfill_rel hR h0 (ffill_rel hR h0 hd)⟩

theorem checkColumns_rel {l l' : List (String × RawCol)} (h : LabelledRel R l l') (required : List String) :
    checkColumns l required = checkColumns l' required := by
  unfold checkColumns
  rw [show checkColumn l = checkColumn l' from funext (checkColumn_rel h)]

theorem validate_rel (hR : ∀ a b, R a b → a.isNan = b.isNan) (h0 : R .nan .nan) {f f' : RawFrame} (h : Related R f f')
    (required : List String) (fill : Bool) :
    ExceptRel (RelatedValues R) (validateInputData (.frame f) required fill).2
      (validateInputData (.frame f') required fill).2 := by
  obtain ⟨h1, h2, h3⟩ := h
  unfold validateInputData
  have hnil : (f.cols = []) = (f'.cols = []) := by
    generalize f.cols = a at h3
    generalize f'.cols = b at h3
    cases h3 <;> simp
  simp only [h1, h2, hnil]
  by_cases c1 : f'.datetimeIndex = false
  · simp only [if_pos c1]; exact rfl
  simp only [if_neg c1]
  by_cases c2 : f'.idx = [] ∨ f'.cols = []
  · simp only [if_pos c2]; exact rfl
  simp only [if_neg c2]
  · rcases lowerLabels_rel h3 with ⟨e1, e2⟩ | ⟨l, l', e1, e2, hl⟩
    · rw [e1, e2]; rfl
    · rw [e1, e2]
      simp only [checkColumns_rel hl, labels_eq hl]
      cases checkColumns l' required with
      | some e => rfl
      | none =>
        simp only
        have hd := dropExtra_rel required (l'.map (·.1)) hl
        cases e3 : dropExtra required (l'.map (·.1)) l with
        | error e =>
          rw [e3] at hd
          cases e4 : dropExtra required (l'.map (·.1)) l' with
          | error e' => rw [e4] at hd; exact hd
          | ok k' => rw [e4] at hd; exact False.elim hd
        | ok k =>
          rw [e3] at hd
          cases e4 : dropExtra required (l'.map (·.1)) l' with
          | error e' => rw [e4] at hd; exact False.elim hd
          | ok k' =>
            rw [e4] at hd
            have hk : RelatedValues R ⟨f'.idx, k.map fun c => (c.1, c.2.data)⟩ ⟨f'.idx, k'.map fun c => (c.1, c.2.data)⟩ :=
              ⟨rfl, map_rel _ _ (fun a b hab => ⟨hab.1, hab.2.2.2⟩) hd⟩
            cases fill
            · exact sortIndex_rel hk
            · exact fill_rel hR h0 (sortIndex_rel hk)

/-- Construction on related tables: what the calculation does to related frames decides. -/
theorem construct_rel {S : Frame → Frame → Prop} (hR : ∀ a b, R a b → a.isNan = b.isNan) (h0 : R .nan .nan) (E : Env)
    (c : Call) (fill : PyArg) {f f' : RawFrame} (h : Related R f f')
    (hcalc : ∀ ind, c.check = .ok ind → ∀ F G, RelatedValues R F G → ExceptRel S (ind.calcTi E F) (ind.calcTi E G)) :
    ExceptRel (fun o o' => S o.ti o'.ti) (construct E c (.frame f) fill).2 (construct E c (.frame f') fill).2 := by
  unfold construct
  cases hch : c.check with
  | error e => exact rfl
  | ok ind =>
    cases fill <;> first | exact rfl | skip
    rename_i b
    simp only
    have hv := validate_rel hR h0 h ind.required b
    rcases h1 : validateInputData (.frame f) ind.required b with ⟨a, r⟩
    rcases h2 : validateInputData (.frame f') ind.required b with ⟨a', r'⟩
    rw [h1, h2] at hv
    simp only at hv
    cases r with
    | error e =>
      cases r' with
      | error e' => exact hv
      | ok G => exact False.elim hv
    | ok F =>
      cases r' with
      | error e' => exact False.elim hv
      | ok G =>
        have hc := hcalc ind hch F G hv
        simp only
        cases h3 : ind.calcTi E F with
        | error e =>
          cases h4 : ind.calcTi E G with
          | error e' => rw [h3, h4] at hc; exact hc
          | ok T' => rw [h3, h4] at hc; exact False.elim hc
        | ok T =>
          cases h4 : ind.calcTi E G with
          | error e' => rw [h3, h4] at hc; exact False.elim hc
          | ok T' => rw [h3, h4] at hc; exact hc

theorem rel_col {F G : Frame} (h : RelatedValues R F G) (n : String) : List.Forall₂ R (F.col n) (G.col n) := by
  obtain ⟨-, h⟩ := h
  unfold Frame.col
  generalize F.cols = a at h
  generalize G.cols = b at h
  induction h with
  | nil => exact .nil
  | @cons c c' _ _ h _ ih =>
    simp only [List.find?_cons, ← h.1]
    cases c.1 == n
    · exact ih
    · exact h.2

theorem rel_len {F G : Frame} (h : RelatedValues R F G) : F.len = G.len := by unfold Frame.len; rw [h.1]

theorem rel_rows (h0 : R .nan .nan) {F G : Frame} (h : RelatedValues R F G) :
    List.Forall₂ (List.Forall₂ R) F.rows G.rows := by
  unfold Frame.rows
  rw [rel_len h, List.forall₂_map_left_iff, List.forall₂_map_right_iff]
  refine List.forall₂_same.2 fun i _ => map_rel _ _ ?_ h.2
  rintro c c' ⟨-, hd⟩
  generalize c.2 = xs at hd
  generalize c'.2 = ys at hd
  clear * - hd h0
  induction hd generalizing i with
  | nil => exact h0
  | cons h _ ih =>
    cases i with
    | zero => exact h
    | succ i => exact ih i

end

/-! ## Calculations -/

/-- Frames of values rounded to 4 decimals, which before the rounding exceed each other by at most `e`. -/
def Rounded (e : ℚ) (T T' : Frame) : Prop :=
  T.idx = T'.idx ∧ List.Forall₂ (fun c c' => c.1 = c'.1 ∧ ∃ xs ys, c.2 = roundS 4 xs ∧ c'.2 = roundS 4 ys ∧ Unders e xs ys)
    T.cols T'.cols

theorem Rounded.atMost {T T' : Frame} (h : Rounded 0 T T') : RelatedValues (under 0) T T' := by
  refine ⟨h.1, h.2.imp ?_⟩
  rintro c c' ⟨hn, xs, ys, e1, e2, hu⟩
  rw [e1, e2]
  exact ⟨hn, roundS_atMost 4 hu⟩

theorem Rounded.under {e : ℚ} {T T' : Frame} (h : Rounded e T T') : RelatedValues (under (e + 1 / 10000)) T T' := by
  refine ⟨h.1, h.2.imp ?_⟩
  rintro c c' ⟨hn, xs, ys, e1, e2, hu⟩
  rw [e1, e2]
  exact ⟨hn, roundS_under hu⟩

/-- One rounded column. -/
theorem rounded_one {e : ℚ} {idx : List ℤ} (n : String) {xs ys : List Val} (h : Unders e xs ys) :
    Rounded e ⟨idx, [(n, roundS 4 xs)]⟩ ⟨idx, [(n, roundS 4 ys)]⟩ :=
  ⟨rfl, .cons ⟨rfl, _, _, rfl, rfl, h⟩ .nil⟩

theorem rounded_two {e : ℚ} {idx : List ℤ} (n m : String) {xs ys us vs : List Val} (h : Unders e xs ys) (g : Unders e us vs) :
    Rounded e ⟨idx, [(n, roundS 4 xs), (m, roundS 4 us)]⟩ ⟨idx, [(n, roundS 4 ys), (m, roundS 4 vs)]⟩ :=
  ⟨rfl, .cons ⟨rfl, _, _, rfl, rfl, h⟩ (.cons ⟨rfl, _, _, rfl, rfl, g⟩ .nil)⟩

/-- By how much a class of `rising` can amplify. -/
def gain : Ind → ℚ
  | .envelopes _ s => 1 + s
  | _ => 1

theorem middle_under {e : ℚ} {F G : Frame} (h : RelatedValues (under e) F G) (w : ℕ) :
    Unders e (Ind.IchimokuCloud.middle w F) (Ind.IchimokuCloud.middle w G) := by
  have := divBy_under 2 (by norm_num) (addS_under (rolling_under w 1 aggMax (max_under e) (rel_col h "high"))
    (rolling_under w 1 aggMin (min_under e) (rel_col h "low")))
  rw [add_self_div_two] at this
  exact this

theorem calcTi_rising {e : ℚ} (he : 0 ≤ e) (E : Env) (ind : Ind) (hr : rising ind = true) (hp : ind.Pos) {F G : Frame}
    (h : RelatedValues (under e) F G) : ExceptRel (Rounded (gain ind * e)) (ind.calcTi E F) (ind.calcTi E G) := by
  have hi := h.1
  have hl := rel_len h
  cases ind <;> first | (simp [rising] at hr; done) | skip
  case envelopes p s =>
    obtain ⟨hp, hs, hs1⟩ := hp
    simp only [Ind.calcTi, Ind.Envelopes.calcTi, gain, hl, hi]
    split_ifs
    · rfl
    · have hm := rolling_under p p aggMean (mean_under e) (rel_col h "close")
      refine rounded_two _ _ (scaleS_under _ (by linarith) hm) ((scaleS_under _ (by linarith) hm).mono ?_)
      exact mul_le_mul_of_nonneg_right (by linarith) he
  case fibonacciRetracement =>
    have hh := maxOf_under (rel_col h "close")
    have hm := minOf_under (rel_col h "close")
    simp only [Ind.calcTi, Ind.FibonacciRetracement.calcTi, gain, one_mul, hl, hi]
    refine ⟨rfl, ?_⟩
    simp only
    rw [List.forall₂_map_left_iff, List.forall₂_map_right_iff]
    refine List.forall₂_same.2 fun l hmem => ⟨rfl, List.replicate _ _, List.replicate _ _, (List.map_replicate ..).symm, (List.map_replicate ..).symm, ?_⟩
    have hl01 : 0 ≤ l.2 ∧ l.2 ≤ 1 := by
      simp only [Ind.FibonacciRetracement.levels, List.mem_cons, List.not_mem_nil, or_false] at hmem
      rcases hmem with rfl | rfl | rfl | rfl | rfl | rfl <;> norm_num
    have hv : under e (Val.sub (maxOf (F.col "close")) (Val.mul (.fin l.2) (Val.sub (maxOf (F.col "close")) (minOf (F.col "close")))))
        (Val.sub (maxOf (G.col "close")) (Val.mul (.fin l.2) (Val.sub (maxOf (G.col "close")) (minOf (G.col "close"))))) := by
      rcases under_cases hh with ⟨e1, e2⟩ | ⟨p, q, e1, e2, hpq⟩
      · rw [e1, e2]; trivial
      rcases under_cases hm with ⟨e3, e4⟩ | ⟨r, s, e3, e4, hrs⟩
      · rw [e1, e2, e3, e4]; trivial
      rw [e1, e2, e3, e4]
      show p + -(l.2 * (p + -r)) ≤ q + -(l.2 * (q + -s)) + e
      nlinarith [mul_le_mul_of_nonneg_left hpq (by linarith : 0 ≤ 1 - l.2), mul_le_mul_of_nonneg_left hrs hl01.1]
    generalize G.len = n
    induction n with
    | zero => exact .nil
    | succ n ih => exact .cons hv ih
  case ichimokuCloud =>
    simp only [Ind.calcTi, Ind.IchimokuCloud.calcTi, gain, one_mul, hi]
    have h9 := middle_under h 9
    have h26 := middle_under h 26
    have ha := divBy_under 2 (by norm_num) (addS_under h9 h26)
    rw [add_self_div_two] at ha
    exact ⟨rfl, .cons ⟨rfl, _, _, rfl, rfl, h9⟩ (.cons ⟨rfl, _, _, rfl, rfl, h26⟩ (.cons ⟨rfl, _, _, rfl, rfl, shift_under 26 ha⟩
      (.cons ⟨rfl, _, _, rfl, rfl, shift_under 26 (middle_under h 52)⟩ .nil)))⟩
  case medianPrice p =>
    simp only [Ind.calcTi, Ind.MedianPrice.calcTi, gain, one_mul, hi]
    refine rounded_one _ ((scaleS_under _ (by norm_num) (addS_under (rel_col h "high") (rel_col h "low"))).mono ?_)
    linarith
  case movingAverage p t =>
    cases t <;> first | (simp [rising] at hr; done) | skip
    all_goals
      simp only [Ind.calcTi, Ind.MovingAverage.calcTi, gain, one_mul, hl, hi]
      by_cases hn : G.len < p
      · simp [hn, ExceptRel, throw, throwThe, MonadExceptOf.throw, bind, Except.bind]
      · simp only [hn, false_and, if_false, reduceCtorEq, and_false]
        refine rounded_one _ ?_
        first
        | exact rolling_under p p aggMean (mean_under e) (rel_col h "close")
        | exact ewm_under p p hp.1 (rel_col h "close")
        | exact rolling_under p p aggMean (mean_under e) (rolling_under p p aggMean (mean_under e) (rel_col h "close"))
  case priceChannel p =>
    simp only [Ind.calcTi, Ind.PriceChannel.calcTi, gain, one_mul, hl, hi]
    split_ifs
    · rfl
    · exact rounded_two _ _ (shift_under 1 (rolling_under p p aggMax (max_under e) (rel_col h "high")))
        (shift_under 1 (rolling_under p p aggMin (min_under e) (rel_col h "low")))
  case typicalPrice p =>
    simp only [Ind.calcTi, Ind.TypicalPrice.calcTi, gain, one_mul, hi]
    exact rounded_one _ (map_rel _ _ (fun _ _ h => meanSkip_under h) (rel_rows trivial h))
  case weightedClose =>
    simp only [Ind.calcTi, Ind.WeightedClose.calcTi, gain, one_mul, hi]
    refine rounded_one _ ((divBy_under 4 (by norm_num) (addS_under (addS_under (scaleS_under 2 (by norm_num) (rel_col h "close"))
      (rel_col h "high")) (rel_col h "low"))).mono ?_)
    linarith
  case wildersSmoothing p =>
    simp only [Ind.calcTi, Ind.WildersSmoothing.calcTi, gain, one_mul, hl, hi]
    split_ifs
    · rfl
    · exact rounded_one _ (wilder_under 0 p hp (rel_col h "close"))

theorem aggSum_mean (w : ℕ) (hw : 1 ≤ w) (xs : List Val) :
    ((rolling w w aggSum xs).map fun x => Val.div x (.fin w)) = rolling w w aggMean xs := by
  unfold rolling prefixMap
  rw [List.map_map]
  apply List.map_congr_left
  intro i _
  simp only [Function.comp]
  have hw0 : (w : ℚ) ≠ 0 := by positivity
  split_ifs with h
  · have h1 := finVals_length_le (window w (xs.take (i + 1)))
    have h2 : (window w (xs.take (i + 1))).length ≤ w := by unfold window; rw [List.length_drop]; omega
    have hl : (finVals (window w (xs.take (i + 1)))).length = w := by omega
    have hne : finVals (window w (xs.take (i + 1))) ≠ [] := by intro h0; rw [h0] at hl; simp at hl; omega
    simp only [aggSum, aggMean, if_neg hne, hl, Val.div, if_neg hw0]
  · rfl

theorem trueRange_under {e : ℚ} {F G : Frame} (h : RelatedValues (under e) F G) (g : RelatedValues (under e) G F) :
    Unders (e + e) (Ind.trueRange maxSkip F) (Ind.trueRange maxSkip G) := by
  unfold Ind.trueRange zip3
  have h1 := subS_under (rel_col h "high") (rel_col g "low")
  have h2 := subS_under (rel_col h "high") (shift_under 1 (rel_col g "close"))
  have h3 := subS_under (shift_under 1 (rel_col h "close")) (rel_col g "low")
  refine zipWith_rel (S := fun p p' => under (e + e) p.1 p'.1 ∧ under (e + e) p.2 p'.2) _ _ ?_ h1
    (zipWith_rel Prod.mk Prod.mk (fun _ _ _ _ h g => ⟨h, g⟩) h2 h3)
  rintro a a' ⟨b, c⟩ ⟨b', c'⟩ ha ⟨hb, hc⟩
  exact maxSkip_under (maxSkip_under ha hb) hc

theorem calcTi_amplifies {e a b : ℚ} (he : 0 ≤ e) (E : Env) (ind : Ind) (hr : amplification ind = some (a, b)) (hp : ind.Pos)
    {F G : Frame} (h : RelatedValues (under e) F G) (g : RelatedValues (under e) G F) :
    ExceptRel (Rounded (a * e + b - 1 / 10000)) (ind.calcTi E F) (ind.calcTi E G) := by
  have hi := h.1
  have hl := rel_len h
  have hc := rel_col h "close"
  have gc := rel_col g "close"
  by_cases hrise : rising ind = true
  · have : a * e + b - 1 / 10000 = gain ind * e := by
      cases ind <;> first | (simp [rising] at hrise; done) | skip
      case movingAverage p t =>
        cases t <;> first | (simp [rising] at hrise; done) | skip
        all_goals
          simp only [amplification, Option.some.injEq, Prod.mk.injEq] at hr
          rw [← hr.1, ← hr.2]; simp only [gain]; ring
      all_goals
        simp only [amplification, Option.some.injEq, Prod.mk.injEq] at hr
        rw [← hr.1, ← hr.2]; simp only [gain]; ring
    rw [this]
    exact calcTi_rising he E ind hrise hp h
  cases ind <;> first | (simp [amplification] at hr; done) | (simp [rising] at hrise; done) | skip
  case movingAverage p t =>
    cases t <;> first | (simp [amplification] at hr; done) | (simp [rising] at hrise; done)
  all_goals
    simp only [amplification, Option.some.injEq, Prod.mk.injEq] at hr
    obtain ⟨rfl, rfl⟩ := hr
  case averageTrueRange =>
    simp only [Ind.calcTi, Ind.AverageTrueRange.calcTi, hl, hi]
    split_ifs
    · rfl
    · have ht := trueRange_under h g
      have hs := ewmAlpha_under (1 / 14) (by norm_num) (by norm_num) 1
        (List.Forall₂.cons (meanSkip_under (List.forall₂_take 14 ht)) (List.forall₂_drop 14 ht))
      refine ⟨rfl, .cons ⟨rfl, _, _, ?_, ?_, Unders.mono (by linarith) (append_rel (nans_under _ 13) hs)⟩ .nil⟩
      · simp only [roundS, List.map_append, List.map_replicate]; rfl
      · simp only [roundS, List.map_append, List.map_replicate]; rfl
  case detrendedPriceOscillator p =>
    simp only [Ind.calcTi, Ind.DetrendedPriceOscillator.calcTi, hl, hi]
    split_ifs
    · rfl
    · exact rounded_one _ (List.forall₂_take _ ((subS_under hc
        (shiftBack_under _ (rolling_under p p aggMean (mean_under e) gc))).mono (by linarith)))
  case doubleExponentialMovingAverage p =>
    simp only [Ind.calcTi, Ind.DoubleExponentialMovingAverage.calcTi, hl, hi]
    split_ifs
    · rfl
    · exact rounded_one _ ((subS_under (scaleS_under 2 (by norm_num) (ewm_under p p hp hc))
        (ewm_under p p hp (ewm_under p p hp gc))).mono (by linarith))
  case movingAverageConvergenceDivergence =>
    simp only [Ind.calcTi, Ind.MovingAverageConvergenceDivergence.calcTi, hl, hi]
    split_ifs
    · rfl
    · have hm := (subS_under (roundS_under (ewm_under 12 12 (by norm_num) hc)) (roundS_under (ewm_under 26 26 (by norm_num) gc))).mono
        (show _ ≤ 2 * e + 3 / 10000 - 1 / 10000 by linarith)
      exact rounded_two _ _ hm (ewm_under 9 9 (by norm_num) hm)
  case qstick p =>
    simp only [Ind.calcTi, Ind.Qstick.calcTi, hl, hi]
    split_ifs
    · rfl
    · have hs := (subS_under hc (rel_col g "open")).mono (show e + e ≤ 2 * e + 1 / 10000 - 1 / 10000 by linarith)
      rw [aggSum_mean p hp, aggSum_mean p hp]
      exact rounded_one _ (rolling_under p p aggMean (mean_under _) hs)
  case tripleExponentialMovingAverage p =>
    simp only [Ind.calcTi, Ind.TripleExponentialMovingAverage.calcTi, hl, hi]
    split_ifs
    · rfl
    · have h1 := ewm_under p p hp hc
      have h2 := ewm_under p p hp (ewm_under p p hp gc)
      have h3 := ewm_under p p hp (ewm_under p p hp h1)
      exact rounded_one _ ((addS_under (subS_under (scaleS_under 3 (by norm_num) h1) (scaleS_under 3 (by norm_num) h2)) h3).mono
        (by linarith))

end TTI
