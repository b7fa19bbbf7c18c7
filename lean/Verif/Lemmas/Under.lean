import Verif.Lemmas.RaiseInd
import Verif.Lemmas.Identities
import Verif.Lemmas.Col
import Verif.Spec.Close

set_option autoImplicit false

/-!
# Series whose entries differ by a bounded amount (C70, C71)
-/

namespace TTI

open TTI.Spec

/-- Both missing, or both numbers and the first one at most the second plus `e`. -/
def under (e : ℚ) : Val → Val → Prop
  | .nan, .nan => True
  | .fin a, .fin b => a ≤ b + e
  | _, _ => False

/-- Row-wise `under`. -/
abbrev Unders (e : ℚ) : List Val → List Val → Prop := List.Forall₂ (under e)

theorem under_zero : under 0 = atMost := by
  funext a b
  cases a <;> cases b <;> simp [under, atMost]

theorem within_iff (e : ℚ) (a b : Val) : within e a b ↔ under e a b ∧ under e b a := by
  cases a <;> cases b <;> simp only [under, within, and_self]
  rw [abs_le]
  constructor
  · rintro ⟨h1, h2⟩; constructor <;> linarith
  · rintro ⟨h1, h2⟩; constructor <;> linarith

theorem under_cases {e : ℚ} {a b : Val} (h : under e a b) :
    (a = .nan ∧ b = .nan) ∨ ∃ p q, a = .fin p ∧ b = .fin q ∧ p ≤ q + e := by
  cases a <;> cases b <;> first | exact .inl ⟨rfl, rfl⟩ | exact .inr ⟨_, _, rfl, rfl, h⟩ | exact False.elim h

theorem under.mono {e d : ℚ} (hd : e ≤ d) {a b : Val} (h : under e a b) : under d a b := by
  rcases under_cases h with ⟨rfl, rfl⟩ | ⟨p, q, rfl, rfl, hpq⟩
  · trivial
  · show p ≤ q + d
    linarith

theorem Unders.mono {e d : ℚ} (hd : e ≤ d) {xs ys : List Val} (h : Unders e xs ys) : Unders d xs ys :=
  List.Forall₂.imp (fun _ _ => under.mono hd) h

theorem under_isNan {e : ℚ} {a b : Val} (h : under e a b) : a.isNan = b.isNan := by
  rcases under_cases h with ⟨rfl, rfl⟩ | ⟨p, q, rfl, rfl, -⟩ <;> rfl

theorem under_plain {e : ℚ} {a b : Val} (h : under e a b) : Plain a ∧ Plain b := by
  rcases under_cases h with ⟨rfl, rfl⟩ | ⟨p, q, rfl, rfl, -⟩
  · exact ⟨.inl rfl, .inl rfl⟩
  · exact ⟨.inr ⟨_, rfl⟩, .inr ⟨_, rfl⟩⟩

theorem Unders.plain {e : ℚ} {xs ys : List Val} (h : Unders e xs ys) : (∀ v ∈ xs, Plain v) ∧ ∀ v ∈ ys, Plain v := by
  induction h with
  | nil => exact ⟨by simp, by simp⟩
  | cons h _ ih =>
    obtain ⟨h1, h2⟩ := under_plain h
    exact ⟨by simpa [h1] using ih.1, by simpa [h2] using ih.2⟩

/-! ## One row -/

theorem under_add {e d : ℚ} {a b x y : Val} (h : under e a b) (g : under d x y) :
    under (e + d) (Val.add a x) (Val.add b y) := by
  rcases under_cases h with ⟨rfl, rfl⟩ | ⟨p, q, rfl, rfl, hpq⟩
  · cases x <;> cases y <;> trivial
  rcases under_cases g with ⟨rfl, rfl⟩ | ⟨r, s, rfl, rfl, hrs⟩
  · trivial
  show p + r ≤ q + s + (e + d)
  linarith

theorem under_neg {e : ℚ} {a b : Val} (h : under e a b) : under e (Val.neg b) (Val.neg a) := by
  rcases under_cases h with ⟨rfl, rfl⟩ | ⟨p, q, rfl, rfl, hpq⟩
  · trivial
  show -q ≤ -p + e
  linarith

theorem under_sub {e d : ℚ} {a b x y : Val} (h : under e a b) (g : under d y x) :
    under (e + d) (Val.sub a x) (Val.sub b y) := under_add h (under_neg g)

theorem under_mul {e : ℚ} {a b : Val} (c : ℚ) (hc : 0 ≤ c) (h : under e a b) :
    under (c * e) (Val.mul (.fin c) a) (Val.mul (.fin c) b) := by
  rcases under_cases h with ⟨rfl, rfl⟩ | ⟨p, q, rfl, rfl, hpq⟩
  · trivial
  show c * p ≤ c * q + c * e
  nlinarith

theorem under_div {e : ℚ} {a b : Val} (c : ℚ) (hc : 0 < c) (h : under e a b) :
    under (e / c) (Val.div a (.fin c)) (Val.div b (.fin c)) := by
  rcases under_cases h with ⟨rfl, rfl⟩ | ⟨p, q, rfl, rfl, hpq⟩
  · trivial
  simp only [Val.div, if_neg hc.ne', under]
  rw [← add_div]
  exact div_le_div_of_nonneg_right hpq hc.le

theorem under_round {a b : Val} (k : ℕ) (h : under 0 a b) : under 0 (Val.round k a) (Val.round k b) := by
  rcases under_cases h with ⟨rfl, rfl⟩ | ⟨p, q, rfl, rfl, hpq⟩
  · trivial
  show roundQ k p ≤ roundQ k q + 0
  rw [add_zero] at hpq ⊢
  exact roundQ_mono k hpq

theorem under_round4 {e : ℚ} {a b : Val} (h : under e a b) : under (e + 1 / 10000) (Val.round 4 a) (Val.round 4 b) := by
  rcases under_cases h with ⟨rfl, rfl⟩ | ⟨p, q, rfl, rfl, hpq⟩
  · trivial
  show roundQ 4 p ≤ roundQ 4 q + (e + 1 / 10000)
  have h1 := abs_le.1 (round4_close p)
  have h2 := abs_le.1 (round4_close q)
  linarith [h1.2, h2.1]

/-! ## Columns -/

theorem prefixMap_rel {α β γ δ : Type} {R : α → γ → Prop} {S : β → δ → Prop} (g : List α → β) (k : List γ → δ)
    {xs : List α} {ys : List γ} (h : List.Forall₂ R xs ys)
    (H : ∀ as bs, List.Forall₂ R as bs → S (g as) (k bs)) : List.Forall₂ S (prefixMap g xs) (prefixMap k ys) := by
  unfold prefixMap
  rw [h.length_eq, List.forall₂_map_left_iff, List.forall₂_map_right_iff]
  exact List.forall₂_same.2 fun i _ => H _ _ (List.forall₂_take _ h)

theorem window_rel {α β : Type} {R : α → β → Prop} (w : ℕ) {xs : List α} {ys : List β} (h : List.Forall₂ R xs ys) :
    List.Forall₂ R (window w xs) (window w ys) := by
  unfold window
  rw [h.length_eq]
  exact List.forall₂_drop _ h

/-- Numbers that differ by at most `e` in one direction. -/
abbrev UnderQ (e : ℚ) : List ℚ → List ℚ → Prop := List.Forall₂ fun a b => a ≤ b + e

theorem finVals_under {e : ℚ} {xs ys : List Val} (h : Unders e xs ys) : UnderQ e (finVals xs) (finVals ys) := by
  induction h with
  | nil => exact .nil
  | @cons a b l m hab _ ih =>
    cases a <;> cases b <;> first | exact False.elim hab | skip
    · exact ih
    · exact .cons hab ih

/-- An aggregation that moves at most as much as the prices. -/
def AggUnder (e : ℚ) (agg : List ℚ → Val) : Prop := ∀ v w, UnderQ e v w → under e (agg v) (agg w)

theorem sum_under {e : ℚ} {v w : List ℚ} (h : UnderQ e v w) : v.sum ≤ w.sum + v.length * e := by
  induction h with
  | nil => simp
  | cons h _ ih => simp only [List.sum_cons, List.length_cons]; push_cast; linarith

theorem mean_under (e : ℚ) : AggUnder e aggMean := by
  intro v w h
  cases h with
  | nil => trivial
  | @cons a b l m h t =>
    have hs := sum_under (List.Forall₂.cons h t)
    have hl : (l.length : ℚ) = m.length := by exact_mod_cast t.length_eq
    simp only [aggMean, List.cons_ne_nil, if_false, under]
    have hp : (0 : ℚ) < ((a :: l).length : ℕ) := by simp; positivity
    have hq : (((b :: m).length : ℕ) : ℚ) = ((a :: l).length : ℕ) := by simp [t.length_eq]
    rw [hq, div_add' _ _ _ hp.ne']
    apply div_le_div_of_nonneg_right _ hp.le
    linarith

theorem foldl_max_under {e : ℚ} {v w : List ℚ} (h : UnderQ e v w) : ∀ a b, a ≤ b + e → v.foldl max a ≤ w.foldl max b + e := by
  induction h with
  | nil => intro a b h; exact h
  | cons h _ ih =>
    intro a b hab
    simp only [List.foldl_cons]
    apply ih
    rw [← max_add_add_right]
    exact max_le_max hab h

theorem foldl_min_under {e : ℚ} {v w : List ℚ} (h : UnderQ e v w) : ∀ a b, a ≤ b + e → v.foldl min a ≤ w.foldl min b + e := by
  induction h with
  | nil => intro a b h; exact h
  | cons h _ ih =>
    intro a b hab
    simp only [List.foldl_cons]
    apply ih
    rw [← min_add_add_right]
    exact min_le_min hab h

theorem max_under (e : ℚ) : AggUnder e aggMax := by
  intro v w h
  cases h with
  | nil => trivial
  | cons h t => exact foldl_max_under t _ _ h

theorem min_under (e : ℚ) : AggUnder e aggMin := by
  intro v w h
  cases h with
  | nil => trivial
  | cons h t => exact foldl_min_under t _ _ h

theorem rolling_under {e : ℚ} (w m : ℕ) (agg : List ℚ → Val) (ha : AggUnder e agg) {xs ys : List Val} (h : Unders e xs ys) :
    Unders e (rolling w m agg xs) (rolling w m agg ys) := by
  refine prefixMap_rel _ _ h fun as bs hab => ?_
  have hv := finVals_under (window_rel w hab)
  simp only [hv.length_eq]
  split_ifs
  · exact ha _ _ hv
  · trivial

/-- States of the `ewm` loop whose means differ by at most `e`. -/
def EwmUnder (e : ℚ) (s t : EwmState) : Prop :=
  s.nobs = t.nobs ∧ ((s.mean = none ∧ t.mean = none) ∨ ∃ p q o, s.mean = some (p, o) ∧ t.mean = some (q, o) ∧ p ≤ q + e ∧
    0 ≤ o ∧ o ≤ 1)

theorem ewmMean (o n w c : ℚ) (h : o + n ≠ 0) : (if w = c then w else (o * w + n * c) / (o + n)) = (o * w + n * c) / (o + n) := by
  split_ifs with hc
  · subst hc; rw [← add_mul, mul_div_cancel_left₀ _ h]
  · rfl

theorem ewmStep_under {e : ℚ} (a : ℚ) (ha : 0 < a) (ha' : a ≤ 1) {s t : EwmState} (h : EwmUnder e s t) {x y : Val}
    (hxy : under e x y) : EwmUnder e (ewmStep a s x) (ewmStep a t y) := by
  obtain ⟨sm, sn⟩ := s
  obtain ⟨tm, tn⟩ := t
  obtain ⟨hn, hm⟩ := h
  simp only at hn hm
  subst hn
  rcases hm with ⟨rfl, rfl⟩ | ⟨p, q, o, rfl, rfl, hpq, ho, ho1⟩
  · cases x <;> cases y <;> first | exact False.elim hxy | skip
    · exact ⟨rfl, .inl ⟨rfl, rfl⟩⟩
    · exact ⟨rfl, .inr ⟨_, _, 1, rfl, rfl, hxy, zero_le_one, le_rfl⟩⟩
  · have h1 : 0 ≤ 1 - a := by linarith
    have ho' : 0 ≤ o * (1 - a) := mul_nonneg ho h1
    have ho1' : o * (1 - a) ≤ 1 := by nlinarith
    cases x <;> cases y <;> first | exact False.elim hxy | skip
    · exact ⟨rfl, .inr ⟨p, q, o * (1 - a), rfl, rfl, hpq, ho', ho1'⟩⟩
    · rename_i c d
      have hcd : c ≤ d + e := hxy
      refine ⟨rfl, .inr ⟨_, _, 1, rfl, rfl, ?_, zero_le_one, le_rfl⟩⟩
      generalize o * (1 - a) = u at ho' ho1'
      have hv0 : 0 ≤ (if a = 1 / 2 then 1 - u else a) := by split_ifs <;> linarith
      have hv : 0 < u + (if a = 1 / 2 then 1 - u else a) := by split_ifs <;> linarith
      generalize (if a = 1 / 2 then 1 - u else a) = v at hv0 hv
      rw [ewmMean u v p c hv.ne', ewmMean u v q d hv.ne', div_add' _ _ _ hv.ne']
      apply div_le_div_of_nonneg_right _ hv.le
      nlinarith [mul_le_mul_of_nonneg_left hpq ho', mul_le_mul_of_nonneg_left hcd hv0]

theorem ewmAlpha_under {e : ℚ} (a : ℚ) (ha : 0 < a) (ha' : a ≤ 1) (m : ℕ) {xs ys : List Val} (h : Unders e xs ys) :
    Unders e (ewmAlpha a m xs) (ewmAlpha a m ys) := by
  refine prefixMap_rel _ _ h fun as bs hab => ?_
  have H : ∀ s t, EwmUnder e s t → EwmUnder e (as.foldl (ewmStep a) s) (bs.foldl (ewmStep a) t) := by
    induction hab with
    | nil => intro s t h; exact h
    | cons h _ ih => intro s t hst; exact ih _ _ (ewmStep_under a ha ha' hst h)
  obtain ⟨hn, hm⟩ := H ⟨none, 0⟩ ⟨none, 0⟩ ⟨rfl, .inl ⟨rfl, rfl⟩⟩
  simp only [hn]
  split_ifs
  · rcases hm with ⟨h1, h2⟩ | ⟨p, q, o, h1, h2, h3, -⟩
    · rw [h1, h2]; trivial
    · rw [h1, h2]; exact h3
  · trivial

theorem ewm_under {e : ℚ} (s m : ℕ) (hs : 1 ≤ s) {xs ys : List Val} (h : Unders e xs ys) :
    Unders e (ewm s m xs) (ewm s m ys) := by
  have hs' : (1 : ℚ) ≤ s := by exact_mod_cast hs
  exact ewmAlpha_under _ (by positivity) (by rw [div_le_one (by positivity)]; linarith) _ h

theorem nans_under (e : ℚ) (n : ℕ) : Unders e (List.replicate n .nan) (List.replicate n .nan) :=
  List.forall₂_same.2 fun x hx => by rw [List.eq_of_mem_replicate hx]; trivial

theorem append_rel {α β : Type} {R : α → β → Prop} {as : List α} {bs : List β} {xs : List α} {ys : List β}
    (h : List.Forall₂ R as bs) (g : List.Forall₂ R xs ys) : List.Forall₂ R (as ++ xs) (bs ++ ys) := by
  induction h with
  | nil => exact g
  | cons h _ ih => exact .cons h ih

theorem shift_under {e : ℚ} (n : ℕ) {xs ys : List Val} (h : Unders e xs ys) : Unders e (shift n xs) (shift n ys) := by
  unfold shift
  rw [h.length_eq]
  exact List.forall₂_take _ (append_rel (nans_under e n) h)

theorem shiftBack_under {e : ℚ} (n : ℕ) {xs ys : List Val} (h : Unders e xs ys) :
    Unders e (shiftBack n xs) (shiftBack n ys) := by
  unfold shiftBack
  rw [h.length_eq]
  exact List.forall₂_take _ (List.forall₂_drop _ (append_rel h (nans_under e n)))

theorem zipWith_rel {α β γ α' β' γ' : Type} {R : α → α' → Prop} {S : β → β' → Prop} {T : γ → γ' → Prop} (f : α → β → γ)
    (g : α' → β' → γ') (H : ∀ a a' b b', R a a' → S b b' → T (f a b) (g a' b')) {xs : List α} {xs' : List α'} {ys : List β}
    {ys' : List β'} (hx : List.Forall₂ R xs xs') (hy : List.Forall₂ S ys ys') :
    List.Forall₂ T (List.zipWith f xs ys) (List.zipWith g xs' ys') := by
  induction hx generalizing ys ys' with
  | nil => exact .nil
  | cons h _ ih =>
    cases hy with
    | nil => exact .nil
    | cons h' t => exact .cons (H _ _ _ _ h h') (ih t)

theorem map_rel {α β γ δ : Type} {R : α → β → Prop} {S : γ → δ → Prop} (f : α → γ) (g : β → δ)
    (H : ∀ a b, R a b → S (f a) (g b)) {xs : List α} {ys : List β} (h : List.Forall₂ R xs ys) :
    List.Forall₂ S (xs.map f) (ys.map g) := by
  rw [List.forall₂_map_left_iff, List.forall₂_map_right_iff]
  exact h.imp H

theorem addS_under {e d : ℚ} {xs ys us vs : List Val} (h : Unders e xs ys) (g : Unders d us vs) :
    Unders (e + d) (addS xs us) (addS ys vs) := 
  zipWith_rel Val.add Val.add (fun _ _ _ _ h g => under_add h g) h g

theorem subS_under {e d : ℚ} {xs ys us vs : List Val} (h : Unders e xs ys) (g : Unders d vs us) :
    Unders (e + d) (subS xs us) (subS ys vs) :=
  zipWith_rel (S := fun a b => under d b a) Val.sub Val.sub (fun _ _ _ _ h g => under_sub h g) h g.flip

theorem scaleS_under {e : ℚ} (c : ℚ) (hc : 0 ≤ c) {xs ys : List Val} (h : Unders e xs ys) :
    Unders (c * e) (scaleS c xs) (scaleS c ys) := map_rel _ _ (fun _ _ h => under_mul c hc h) h

theorem divBy_under {e : ℚ} (c : ℚ) (hc : 0 < c) {xs ys : List Val} (h : Unders e xs ys) :
    Unders (e / c) (xs.map fun x => Val.div x (.fin c)) (ys.map fun x => Val.div x (.fin c)) :=
  map_rel _ _ (fun _ _ h => under_div c hc h) h

theorem roundS_under {e : ℚ} {xs ys : List Val} (h : Unders e xs ys) : Unders (e + 1 / 10000) (roundS 4 xs) (roundS 4 ys) :=
  map_rel _ _ (fun _ _ h => under_round4 h) h

theorem roundS_atMost (k : ℕ) {xs ys : List Val} (h : Unders 0 xs ys) : Unders 0 (roundS k xs) (roundS k ys) :=
  map_rel _ _ (fun _ _ h => under_round k h) h

/-! ## Means, maxima and minima of whole columns -/

theorem known_plain (xs : List Val) (h : ∀ v ∈ xs, Plain v) : (xs.filter fun x => !x.isNan) = (finVals xs).map .fin := by
  induction xs with
  | nil => rfl
  | cons x xs ih =>
    have ih := ih fun v hv => h v (List.mem_cons_of_mem _ hv)
    rcases h x List.mem_cons_self with rfl | ⟨q, rfl⟩
    · simpa [finVals, Val.isNan] using ih
    · simpa [finVals, Val.isNan] using ih

theorem meanSkip_plain (xs : List Val) (h : ∀ v ∈ xs, Plain v) : meanSkip xs = aggMean (finVals xs) := by
  by_cases hn : finVals xs = []
  · unfold meanSkip
    rw [known_plain xs h, hn]
    rfl
  · have : meanSkip xs = meanSkip ((finVals xs).map .fin) := by
      unfold meanSkip
      rw [known_plain xs h]
      have : ((finVals xs).map Val.fin).filter (fun x => !x.isNan) = (finVals xs).map .fin := by
        rw [List.filter_eq_self]
        intro a ha
        obtain ⟨q, -, rfl⟩ := List.mem_map.1 ha
        rfl
      rw [this]
    rw [this, Nums.meanSkip_fin _ hn, aggMean, if_neg hn]

theorem meanSkip_under {e : ℚ} {xs ys : List Val} (h : Unders e xs ys) : under e (meanSkip xs) (meanSkip ys) := by
  rw [meanSkip_plain _ h.plain.1, meanSkip_plain _ h.plain.2]
  exact mean_under e _ _ (finVals_under h)

theorem maxSkip_under {e : ℚ} {a b x y : Val} (h : under e a b) (g : under e x y) : under e (maxSkip a x) (maxSkip b y) := by
  rcases under_cases h with ⟨rfl, rfl⟩ | ⟨p, q, rfl, rfl, hpq⟩
  · rcases under_cases g with ⟨rfl, rfl⟩ | ⟨r, s, rfl, rfl, hrs⟩
    · trivial
    · exact hrs
  rcases under_cases g with ⟨rfl, rfl⟩ | ⟨r, s, rfl, rfl, hrs⟩
  · exact hpq
  simp only [maxSkip, Val.isNan, Val.lt, Bool.false_eq_true, if_false, decide_eq_true_eq]
  split_ifs <;> simp only [under] <;> linarith

theorem minSkip_under {e : ℚ} {a b x y : Val} (h : under e a b) (g : under e x y) : under e (minSkip a x) (minSkip b y) := by
  rcases under_cases h with ⟨rfl, rfl⟩ | ⟨p, q, rfl, rfl, hpq⟩
  · rcases under_cases g with ⟨rfl, rfl⟩ | ⟨r, s, rfl, rfl, hrs⟩
    · trivial
    · exact hrs
  rcases under_cases g with ⟨rfl, rfl⟩ | ⟨r, s, rfl, rfl, hrs⟩
  · exact hpq
  simp only [minSkip, Val.isNan, Val.lt, Bool.false_eq_true, if_false, decide_eq_true_eq]
  split_ifs <;> simp only [under] <;> linarith

theorem foldl_rel {α β γ δ : Type} {R : α → β → Prop} {S : γ → δ → Prop} (f : γ → α → γ) (g : δ → β → δ)
    (H : ∀ a b c d, R a b → S c d → S (f c a) (g d b)) {xs : List α} {ys : List β} (h : List.Forall₂ R xs ys) :
    ∀ c d, S c d → S (xs.foldl f c) (ys.foldl g d) := by
  induction h with
  | nil => intro c d h; exact h
  | cons h _ ih => intro c d hcd; exact ih _ _ (H _ _ _ _ h hcd)

theorem maxOf_under {e : ℚ} {xs ys : List Val} (h : Unders e xs ys) : under e (maxOf xs) (maxOf ys) :=
  foldl_rel (S := under e) maxSkip maxSkip (fun _ _ _ _ h g => maxSkip_under g h) h .nan .nan trivial

theorem minOf_under {e : ℚ} {xs ys : List Val} (h : Unders e xs ys) : under e (minOf xs) (minOf ys) :=
  foldl_rel (S := under e) minSkip minSkip (fun _ _ _ _ h g => minSkip_under g h) h .nan .nan trivial

theorem wilder_under {e : ℚ} (s p : ℕ) (hp : 1 ≤ p) {xs ys : List Val} (h : Unders e xs ys) :
    Unders e (wilder s p xs) (wilder s p ys) := by
  refine prefixMap_rel _ _ h fun as bs hab => ?_
  simp only [hab.length_eq]
  split_ifs
  · trivial
  · refine foldl_rel _ _ ?_ (List.forall₂_drop _ hab) _ _ (meanSkip_under (List.forall₂_take _ (List.forall₂_drop _ hab)))
    intro x y c d hxy hcd
    have hp' : (1 : ℚ) ≤ p := by exact_mod_cast hp
    rcases under_cases hcd with ⟨rfl, rfl⟩ | ⟨u, v, rfl, rfl, huv⟩
    · cases x <;> cases y <;> trivial
    rcases under_cases hxy with ⟨rfl, rfl⟩ | ⟨r, t, rfl, rfl, hrt⟩
    · trivial
    have h0 : (p : ℚ) ≠ 0 := by positivity
    simp only [Val.sub, Val.neg, Val.add, Val.div, if_neg h0, under]
    have e1 : u + (r + -u) / p = ((p - 1) * u + r) / p := by field_simp; ring
    have e2 : v + (t + -v) / p + e = ((p - 1) * (v + e) + (t + e)) / p := by field_simp; ring
    rw [e1, e2]
    apply div_le_div_of_nonneg_right _ (by linarith)
    nlinarith [mul_le_mul_of_nonneg_left huv (by linarith : (0 : ℚ) ≤ p - 1)]

/-! ## Filling and sorting -/

theorem known_rel {R : Val → Val → Prop} (hR : ∀ a b, R a b → a.isNan = b.isNan) {xs ys : List Val}
    (h : List.Forall₂ R xs ys) : List.Forall₂ R (xs.filter fun x => !x.isNan) (ys.filter fun x => !x.isNan) := by
  induction h with
  | nil => exact .nil
  | @cons a b _ _ h _ ih =>
    simp only [List.filter_cons, hR a b h]
    split_ifs
    · exact .cons h ih
    · exact ih

theorem reverse_rel {α β : Type} {R : α → β → Prop} {xs : List α} {ys : List β} (h : List.Forall₂ R xs ys) :
    List.Forall₂ R xs.reverse ys.reverse := by
  induction h with
  | nil => exact .nil
  | cons h _ ih =>
    rw [List.reverse_cons, List.reverse_cons]
    exact append_rel ih (.cons h .nil)

theorem getLast_rel {α β : Type} {R : α → β → Prop} (u : α) (v : β) (huv : R u v) {xs : List α} {ys : List β}
    (h : List.Forall₂ R xs ys) : R (xs.getLast?.getD u) (ys.getLast?.getD v) := by
  have h' := reverse_rel h
  rw [← List.head?_reverse, ← List.head?_reverse]
  generalize xs.reverse = as at h'
  generalize ys.reverse = bs at h'
  cases h' with
  | nil => exact huv
  | cons h _ => exact h

theorem ffill_rel {R : Val → Val → Prop} (hR : ∀ a b, R a b → a.isNan = b.isNan) (h0 : R .nan .nan) {xs ys : List Val}
    (h : List.Forall₂ R xs ys) : List.Forall₂ R (ffill xs) (ffill ys) :=
  prefixMap_rel _ _ h fun _ _ hab => getLast_rel _ _ h0 (known_rel hR hab)

theorem bfill_rel {R : Val → Val → Prop} (hR : ∀ a b, R a b → a.isNan = b.isNan) (h0 : R .nan .nan) {xs ys : List Val}
    (h : List.Forall₂ R xs ys) : List.Forall₂ R (bfill xs) (bfill ys) :=
  reverse_rel (ffill_rel hR h0 (reverse_rel h))

theorem sortRows_rel {R : Val → Val → Prop} {xs ys : List (ℤ × Val)}
    (h : List.Forall₂ (fun a b => a.1 = b.1 ∧ R a.2 b.2) xs ys) :
    List.Forall₂ (fun a b => a.1 = b.1 ∧ R a.2 b.2) (sortRows xs) (sortRows ys) := by
  unfold sortRows
  have H : ∀ a b, (a : ℤ × Val).1 = (b : ℤ × Val).1 ∧ R a.2 b.2 → ∀ as bs,
      List.Forall₂ (fun a b => (a : ℤ × Val).1 = (b : ℤ × Val).1 ∧ R a.2 b.2) as bs →
      List.Forall₂ (fun a b => a.1 = b.1 ∧ R a.2 b.2) (as.orderedInsert (fun a b => a.1 ≤ b.1) a)
        (bs.orderedInsert (fun a b => a.1 ≤ b.1) b) := by
    intro a b hab as bs h
    induction h with
    | nil => exact .cons hab .nil
    | @cons c d _ _ h t ih =>
      simp only [List.orderedInsert_cons, hab.1, h.1]
      split_ifs
      · exact .cons hab (.cons h t)
      · exact .cons h ih
  induction h with
  | nil => exact .nil
  | cons h _ ih => exact H _ _ h _ _ ih

end TTI
