import Verif.Props.LastClose8
import Verif.Props.WarmUp

set_option autoImplicit false

/-!
# A higher last close: median price and mass index (C106)
-/

namespace TTI.Props

open Spec LastClose

variable {E : Env} {c : Call} {f g : RawFrame} {fill : Bool} {o p : Obj}

/-- The two columns the signal of median price looks at. -/
theorem median_columns {P : (String → ℚ) → Prop} (hB : BuiltOn E c f fill o P) (n : ℕ) (hi : o.ind = .medianPrice n) :
    1 ≤ n ∧ o.ti.idx.length = f.idx.length ∧ Nums f.idx.length (n - 1) (ema n 0 (close f)) (o.input.col "close_ema") ∧
      Nums f.idx.length 0 (fun i => roundQ 4 (1 / 2 * (high f i + low f i))) (o.ti.col "mp") := by
  obtain ⟨F, x, hg, hlen, -, h1, h2, h3, -, ht, hin, hc⟩ := construct_days E c f fill o _ hB.wf hB.ok hB.rows
  have hpos := check_pos _ _ hc
  rw [hi] at hg h1 h2 h3 ht hin hpos
  have hn : 1 ≤ n := hpos
  have key : ∀ s ∈ (Ind.medianPrice n).required, Nums f.idx.length 0 (price f s) (F.col s) := fun s hs =>
    ⟨by rw [h1 s hs, hlen], fun i hl => by
      rw [if_neg (by omega), h2 s hs i (by omega)]; unfold price; rw [h3 s hs i (by omega)]; rfl⟩
  have hnot : F.cols.find? (fun c => c.1 == "close_ema") = none := by
    rw [List.find?_eq_none]
    intro q hq
    have := hg.only _ (List.mem_map_of_mem hq)
    simp only [Ind.required, List.mem_cons, List.not_mem_nil, or_false] at this
    rcases this with h | h | h <;> simp [h]
  have hcol : ((Ind.medianPrice n).inputAfter F).col "close_ema" = ewm n n (F.col "close") := by
    simp only [Ind.inputAfter, Ind.MedianPrice.inputAfter, Frame.col, List.find?_append, hnot, Option.none_or]
    rfl
  obtain hT := (Except.ok.inj ht).symm
  refine ⟨hn, by rw [hT]; exact hlen, ?_, ?_⟩
  · rw [hin, hcol]
    have := (key "close" (by simp [Ind.required])).ewm n n hn
    rwa [zero_add] at this
  · rw [hT]
    exact (((key "high" (by simp [Ind.required])).add (key "low" (by simp [Ind.required]))).scale (1 / 2)).round 4

/-- C106: median price follows the market. -/
theorem C106_median_price (ho : BuiltOn E c f fill o Quoted) (hp : BuiltOn E c g fill p Quoted) (hr : LastCloseRaised f g) (n : ℕ)
    (hi : o.ind = .medianPrice n) {s t : Signal} (h1 : o.getTiSignal = .ok s) (h2 : p.getTiSignal = .ok t) : TowardsBuy s t := by
  have hi' : p.ind = .medianPrice n := (same_ind ho hp).trans hi
  obtain ⟨hn, l1, e1, m1⟩ := median_columns ho n hi
  obtain ⟨-, l2, e2, m2⟩ := median_columns hp n hi'
  obtain ⟨a1, a2⟩ := C47_signal_table o ⟨E, c, f, fill, o, ho.wf, ho.ok, .inl rfl⟩
  obtain ⟨b1, b2⟩ := C47_signal_table p ⟨E, c, g, fill, p, hp.wf, hp.ok, .inl rfl⟩
  rw [show o.getTiData.idx.length = f.idx.length from l1, hi, h1] at a1 a2
  rw [show p.getTiData.idx.length = g.idx.length from l2, hi', h2] at b1 b2
  rw [hr.days] at b1 b2 e2 m2
  have hm : ∀ k, before k (p.ti.col "mp") = before k (o.ti.col "mp") := fun k => by
    by_cases hk : k < f.idx.length
    · rw [before_nums m1 k hk, before_nums m2 k hk]
      unfold high low
      rw [hr.other "high" (by simp) _ (by omega), hr.other "low" (by simp) _ (by omega)]
    · rw [before_val, before_val, m1.len, m2.len, if_neg hk, if_neg hk]
  have key : 1 < f.idx.length → before 1 (p.input.col "close_ema") = before 1 (o.input.col "close_ema") ∧
      (∀ x, x <ᵥ before 0 (o.input.col "close_ema") → x <ᵥ before 0 (p.input.col "close_ema")) ∧
      (∀ x, before 0 (p.input.col "close_ema") <ᵥ x → before 0 (o.input.col "close_ema") <ᵥ x) := fun hl => by
    have hx : Exactly 0 (f.idx.length - 1) (close g (f.idx.length - 1) - close f (f.idx.length - 1)) (close f) (close g) :=
      ⟨fun j _ h => hr.before j (by omega), by ring⟩
    have hy := hx.ema n (by omega)
    have hle : ema n 0 (close f) (f.idx.length - 1) ≤ ema n 0 (close g) (f.idx.length - 1) := by
      rw [hy.at_]
      have h3 : 0 ≤ close g (f.idx.length - 1) - close f (f.idx.length - 1) := sub_nonneg.2 hr.last
      have h4 : (0 : ℚ) ≤ 2 / ((n : ℚ) + 1) := by positivity
      nlinarith [mul_nonneg h4 h3]
    rw [before_nums e1 1 hl, before_nums e2 1 hl, before_nums e1 0 (by omega), before_nums e2 0 (by omega)]
    refine ⟨by rw [hy.same _ (by omega) (by omega)], ?_, ?_⟩
    all_goals
      intro x
      unfold since
      split
      · exact id
      · cases x <;> simp [Val.lt]
        intro h
        linarith
  have two : ∀ (q : Obj), (q.ti.col "mp").length = f.idx.length →
      (before 1 (q.ti.col "mp") = .nan ∨ 1 < f.idx.length) := fun q hq => by
    by_cases h : 1 < f.idx.length
    · exact .inr h
    · exact .inl (by rw [before_val, hq, if_neg h])
  have up : (rule o.input o.ti (.medianPrice n)).buy → (rule p.input p.ti (.medianPrice n)).buy := by
    rintro ⟨u, v⟩
    change before 1 (o.input.col "close_ema") <ᵥ before 1 (o.ti.col "mp") at u
    change before 0 (o.ti.col "mp") <ᵥ before 0 (o.input.col "close_ema") at v
    rcases two o m1.len with h | h
    · rw [h] at u; cases hh : before 1 (o.input.col "close_ema") <;> simp [hh, Val.lt] at u
    · obtain ⟨k1, k2, -⟩ := key h
      exact ⟨by show before 1 (p.input.col "close_ema") <ᵥ before 1 (p.ti.col "mp"); rw [k1, hm]; exact u,
        by show before 0 (p.ti.col "mp") <ᵥ before 0 (p.input.col "close_ema"); rw [hm]; exact k2 _ v⟩
  have down : (rule p.input p.ti (.medianPrice n)).sell → (rule o.input o.ti (.medianPrice n)).sell := by
    rintro ⟨u, v⟩
    change before 1 (p.ti.col "mp") <ᵥ before 1 (p.input.col "close_ema") at u
    change before 0 (p.input.col "close_ema") <ᵥ before 0 (p.ti.col "mp") at v
    rcases two p m2.len with h | h
    · rw [h] at u; simp [Val.lt] at u
    · obtain ⟨k1, -, k3⟩ := key h
      rw [k1, hm] at u
      rw [hm] at v
      exact ⟨u, k3 _ v⟩
  cases s with
  | sell => exact .inr (.inl rfl)
  | buy =>
    obtain ⟨k1, k2⟩ := a1.1 rfl
    exact .inr (.inr (Except.ok.inj (b1.2 ⟨k1, up k2⟩)))
  | hold =>
    cases t with
    | buy => exact .inr (.inr rfl)
    | hold => exact .inl rfl
    | sell =>
      obtain ⟨k1, k2⟩ := b2.1 rfl
      have := a2.2 ⟨k1, down k2⟩
      cases Except.ok.inj this

/-- The hypotheses of `C106_median_price`: the signal goes from hold to buy. -/
example : Moves (.medianPrice (.int 3)) .hold .buy :=
  moves_of (.medianPrice (.int 3)) (.medianPrice 3) [20, 16, 12, 10] 12 24 [21, 19, 18, 18, 25] [15, 13, 10, 9, 5] [12, 18, 14, 10, 17]
    [11, 10, 9, 9, 10] (by decide +kernel) (by decide +kernel) (by decide) (by decide) (by decide +kernel) (by decide +kernel)

/-- The two columns the signal of mass index looks at. -/
theorem mass_columns {P : (String → ℚ) → Prop} (hB : BuiltOn E c f fill o P) (hi : o.ind = .massIndex) :
    ∃ xs ys, Nums f.idx.length 0 (high f) xs ∧ Nums f.idx.length 0 (low f) ys ∧ 25 ≤ f.idx.length ∧ o.ti.idx.length = f.idx.length ∧
      Nums f.idx.length 8 (ema 9 0 (close f)) (o.input.col "9_ema") ∧
      o.ti.col "mi" = roundS 4 (rolling 25 25 aggSum (divS (ewm 9 9 (subS xs ys)) (ewm 9 9 (ewm 9 9 (subS xs ys))))) := by
  obtain ⟨F, x, hg, hlen, -, h1, h2, h3, -, ht, hin, hc⟩ := construct_days E c f fill o _ hB.wf hB.ok hB.rows
  rw [hi] at hg h1 h2 h3 ht hin
  have key : ∀ s ∈ Ind.massIndex.required, Nums f.idx.length 0 (price f s) (F.col s) := fun s hs =>
    ⟨by rw [h1 s hs, hlen], fun i hl => by
      rw [if_neg (by omega), h2 s hs i (by omega)]; unfold price; rw [h3 s hs i (by omega)]; rfl⟩
  have hnot : F.cols.find? (fun c => c.1 == "9_ema") = none := by
    rw [List.find?_eq_none]
    intro q hq
    have := hg.only _ (List.mem_map_of_mem hq)
    simp only [Ind.required, List.mem_cons, List.not_mem_nil, or_false] at this
    rcases this with h | h | h <;> simp [h]
  have hcol : (Ind.massIndex.inputAfter F).col "9_ema" = ewm 9 9 (F.col "close") := by
    simp only [Ind.inputAfter, Ind.MassIndex.inputAfter, Frame.col, List.find?_append, hnot, Option.none_or]
    rfl
  have h25 : 25 ≤ F.len := by
    by_contra h
    simp [Ind.calcTi, Ind.MassIndex.calcTi, show F.len < 25 by omega] at ht
  have hT := guard_ok ht
  refine ⟨_, _, key "high" (by simp [Ind.required]), key "low" (by simp [Ind.required]), by omega, by rw [hT]; exact hlen, ?_, by rw [hT]; rfl⟩
  rw [hin, hcol]
  exact (key "close" (by simp [Ind.required])).ewm 9 9 (by omega)

theorem nums_same {n : ℕ} {u v : ℕ → ℚ} {xs ys : List Val} (h1 : Nums n 0 u xs) (h2 : Nums n 0 v ys) (h : ∀ i < n, u i = v i) :
    xs = ys := by
  apply List.ext_getElem (by rw [h1.len, h2.len])
  intro i a b
  have e1 := h1.val i (by rw [← h1.len]; exact a)
  have e2 := h2.val i (by rw [← h1.len]; exact a)
  rw [h i (by rw [← h1.len]; exact a)] at e1
  have := e1.trans e2.symm
  unfold val at this
  rwa [List.getD_eq_getElem _ _ a, List.getD_eq_getElem _ _ b] at this

/-- C106: mass index opposes the market. -/
theorem C106_mass_index (ho : BuiltOn E c f fill o Quoted) (hp : BuiltOn E c g fill p Quoted) (hr : LastCloseRaised f g)
    (hi : o.ind = .massIndex) {s t : Signal} (h1 : o.getTiSignal = .ok s) (h2 : p.getTiSignal = .ok t) : TowardsBuy t s := by
  have hi' : p.ind = .massIndex := (same_ind ho hp).trans hi
  obtain ⟨x1, y1, n1, k1, hl, l1, e1, m1⟩ := mass_columns ho hi
  obtain ⟨x2, y2, n2, k2, -, l2, e2, m2⟩ := mass_columns hp hi'
  obtain ⟨a1, a2⟩ := C47_signal_table o ⟨E, c, f, fill, o, ho.wf, ho.ok, .inl rfl⟩
  obtain ⟨b1, b2⟩ := C47_signal_table p ⟨E, c, g, fill, p, hp.wf, hp.ok, .inl rfl⟩
  rw [show o.getTiData.idx.length = f.idx.length from l1, hi, h1] at a1 a2
  rw [show p.getTiData.idx.length = g.idx.length from l2, hi', h2] at b1 b2
  rw [hr.days] at b1 b2 e2 n2 k2
  have hm : p.ti.col "mi" = o.ti.col "mi" := by
    rw [m1, m2, nums_same n2 n1 fun i h => hr.other "high" (by simp) i h, nums_same k2 k1 fun i h => hr.other "low" (by simp) i h]
  have hx : Exactly 0 (f.idx.length - 1) (close g (f.idx.length - 1) - close f (f.idx.length - 1)) (close f) (close g) :=
    ⟨fun j _ h => hr.before j (by omega), by ring⟩
  have hy := hx.ema 9 (by omega)
  have hle : ema 9 0 (close f) (f.idx.length - 1) ≤ ema 9 0 (close g) (f.idx.length - 1) := by
    rw [hy.at_]
    have h3 : 0 ≤ close g (f.idx.length - 1) - close f (f.idx.length - 1) := sub_nonneg.2 hr.last
    have h4 : (0 : ℚ) ≤ 2 / (((9 : ℕ) : ℚ) + 1) := by positivity
    nlinarith [mul_nonneg h4 h3]
  have f0 : before 0 (o.input.col "9_ema") = .fin (ema 9 0 (close f) (f.idx.length - 1)) := by
    rw [before_nums e1 0 (by omega)]; unfold since; rw [if_neg (by omega)]; rfl
  have g0 : before 0 (p.input.col "9_ema") = .fin (ema 9 0 (close g) (f.idx.length - 1)) := by
    rw [before_nums e2 0 (by omega)]; unfold since; rw [if_neg (by omega)]; rfl
  have f1 : before 1 (o.input.col "9_ema") = .fin (ema 9 0 (close f) (f.idx.length - 1 - 1)) := by
    rw [before_nums e1 1 (by omega)]; unfold since; rw [if_neg (by omega)]
  have g1 : before 1 (p.input.col "9_ema") = .fin (ema 9 0 (close f) (f.idx.length - 1 - 1)) := by
    rw [before_nums e2 1 (by omega)]; unfold since; rw [if_neg (by omega), hy.same _ (by omega) (by omega)]
  have up : (rule p.input p.ti .massIndex).buy → (rule o.input o.ti .massIndex).buy := by
    rintro ⟨u, v⟩
    change before 0 (p.input.col "9_ema") <ᵥ before 1 (p.input.col "9_ema") at v
    rw [g0, g1] at v
    refine ⟨by rw [← hm]; exact u, ?_⟩
    show before 0 (o.input.col "9_ema") <ᵥ before 1 (o.input.col "9_ema")
    rw [f0, f1]
    simp only [Val.lt, decide_eq_true_eq] at v ⊢
    exact lt_of_le_of_lt hle v
  have down : (rule o.input o.ti .massIndex).sell → (rule p.input p.ti .massIndex).sell := by
    rintro ⟨u, v⟩
    change before 1 (o.input.col "9_ema") <ᵥ before 0 (o.input.col "9_ema") at v
    rw [f0, f1] at v
    refine ⟨by rw [hm]; exact u, ?_⟩
    show before 1 (p.input.col "9_ema") <ᵥ before 0 (p.input.col "9_ema")
    rw [g0, g1]
    simp only [Val.lt, decide_eq_true_eq] at v ⊢
    exact lt_of_lt_of_le v hle
  cases t with
  | sell => exact .inr (.inl rfl)
  | buy =>
    obtain ⟨q1, q2⟩ := b1.1 rfl
    exact .inr (.inr (Except.ok.inj (a1.2 ⟨q1, up q2⟩)))
  | hold =>
    cases s with
    | buy => exact .inr (.inr rfl)
    | hold => exact .inl rfl
    | sell =>
      obtain ⟨q1, q2⟩ := a2.1 rfl
      cases Except.ok.inj (b2.2 ⟨q1, down q2⟩)

/-- The hypotheses of `C106_mass_index`: the signal goes from buy to sell. -/
example : Moves .massIndex .buy .sell :=
  moves_of .massIndex .massIndex [50, 50, 50, 50, 50, 50, 50, 50, 50, 50, 50, 50, 50, 50, 50, 50, 50, 50, 50, 50, 50, 50, 50, 50, 50, 50,
      50, 50, 50, 50, 50, 50, 50, 50, 50, 50, 50, 50, 50, 50, 50, 50, 50, 50, 50] 20 80 [51, 51, 51, 51, 51, 51, 51, 51, 51, 51, 51, 51,
      51, 51, 51, 51, 51, 51, 51, 51, 51, 51, 51, 51, 51, 51, 51, 51, 51, 51, 51, 51, 51, 51, 51, 51, 55, 59, 63, 67, 71, 75, 79, 83, 87,
      91] [49, 49, 49, 49, 49, 49, 49, 49, 49, 49, 49, 49, 49, 49, 49, 49, 49, 49, 49, 49, 49, 49, 49, 49, 49, 49, 49, 49, 49, 49, 49, 49,
      49, 49, 49, 49, 45, 41, 37, 33, 29, 25, 21, 17, 13, 9] [50, 50, 50, 50, 50, 50, 50, 50, 50, 50, 50, 50, 50, 50, 50, 50, 50, 50, 50,
      50, 50, 50, 50, 50, 50, 50, 50, 50, 50, 50, 50, 50, 50, 50, 50, 50, 50, 50, 50, 50, 50, 50, 50, 50, 50, 50]
    [10, 10, 10, 10, 10, 10, 10, 10, 10, 10, 10, 10, 10, 10, 10, 10, 10, 10, 10, 10, 10, 10, 10, 10, 10, 10, 10, 10, 10, 10, 10, 10, 10, 10, 10, 10, 10, 10, 10, 10, 10, 10, 10, 10, 10, 10] (by decide +kernel) (by decide +kernel) (by decide) (by decide) (by decide +kernel) (by decide +kernel)

end TTI.Props
