import Verif.Spec.Ties
import Verif.Props.Errors3
import Verif.Props.TrendSignals

set_option autoImplicit false

/-!
# An error of the prices changes a signal only near a tie: C108

`compares`, `Quantity.of`, `Quantity.margin` and `Tie` are in Spec/Ties.
-/

namespace TTI.Props

open Spec Errors

variable {E : Env} {c : Call} {f g : RawFrame} {fill : Bool} {o p o' p' : Obj} {e : ℚ}

theorem same_side {a b : ℚ} {x y x' y' : Val} (hx : DifferBy a x x') (hy : DifferBy b y y') (h : ¬ Tie (a + b) x y) :
    ((x' <ᵥ y') = (x <ᵥ y)) ∧ ((y' <ᵥ x') = (y <ᵥ x)) := by
  rcases hx with ⟨rfl, rfl⟩ | ⟨u, u', rfl, rfl, hu⟩ <;> rcases hy with ⟨rfl, rfl⟩ | ⟨v, v', rfl, rfl, hv⟩
  · exact ⟨rfl, rfl⟩
  · exact ⟨rfl, rfl⟩
  · exact ⟨rfl, rfl⟩
  · have h1 : a + b < |u - v| := not_le.1 fun q => h ⟨u, v, rfl, rfl, q⟩
    have := abs_le.1 hu
    have := abs_le.1 hv
    simp only [Val.fin_lt]
    rcases lt_abs.1 h1 with h2 | h2 <;> constructor <;> congr 1 <;> apply propext <;> constructor <;> intro <;> linarith

/-- The pairs that the signal compares lie on the same sides. -/
def SameSides (F T F' T' : Frame) (l : List (Quantity × Quantity)) : Prop :=
  ∀ x ∈ l, ((x.1.of F' T' <ᵥ x.2.of F' T') = (x.1.of F T <ᵥ x.2.of F T)) ∧ ((x.2.of F' T' <ᵥ x.1.of F' T') = (x.2.of F T <ᵥ x.1.of F T))

theorem rule_same_sides (ind : Ind) (F T F' T' : Frame) (h : compares ind ≠ []) (hs : SameSides F T F' T' (compares ind)) :
    (rule F' T' ind).rows = (rule F T ind).rows ∧ ((rule F' T' ind).buy ↔ (rule F T ind).buy) ∧
      ((rule F' T' ind).sell ↔ (rule F T ind).sell) := by
  unfold SameSides at hs
  cases ind <;> simp only [compares, ne_eq, not_true_eq_false, not_false_eq_true] at h
  all_goals
    simp only [compares, crossing, List.cons_append, List.nil_append, List.mem_cons, List.not_mem_nil, or_false, forall_eq_or_imp, forall_eq, Quantity.of] at hs
    simp only [rule, follow, contrary, zeroLine, extremes, outside, macdRule, Overtakes, Rises, Falls, List.mem_cons, List.not_mem_nil,
      or_false, exists_eq_or_imp, exists_eq_left]
    simp only [hs, true_and, and_self, iff_self]

theorem compares_plain (ind : Ind) (h : compares ind ≠ []) : (∀ F, ind.inputAfter F = F) ∧ (∀ n, ind ≠ .detrendedPriceOscillator n) ∧
    ind ≠ .medianPrice 1 ∧ (∀ a b, ind ≠ .rangeIndicator a b) ∧ "close" ∈ ind.required ∧ ∀ x ∈ compares ind, ∀ column k,
      (x.1 = .value column k ∨ x.2 = .value column k) → column ∈ columns ind := by
  cases ind <;> simp only [compares, ne_eq, not_true_eq_false, not_false_eq_true] at h
  all_goals
    refine ⟨fun _ => rfl, by simp, by simp, by simp, by simp [Ind.required], ?_⟩
    simp [compares, crossing, columns, Ind.MaType.column]
  all_goals first
    | (rename_i t; cases t <;> exact List.mem_singleton.2 (by decide))
    | constructor <;> rintro _ _ (⟨rfl, -⟩ | ⟨rfl, -⟩) <;> simp

theorem compares_rows (ind : Ind) (F T : Frame) : ∀ x ∈ compares ind, ∀ k, (x.1 = .close k ∨ x.2 = .close k) → k < (rule F T ind).rows := by
  intro x hx k hk
  cases ind <;> first | exact absurd hx List.not_mem_nil | skip
  all_goals
    simp only [compares, crossing, List.cons_append, List.nil_append, List.mem_cons, List.not_mem_nil, or_false] at hx
    revert hk
    (try casesm* _ ∨ _) <;> subst_vars <;> intro hk <;> simp only [reduceCtorEq, false_or, or_false, Quantity.close.injEq] at hk <;> subst hk <;>
      first | exact Nat.zero_lt_succ _ | exact Nat.succ_lt_succ (Nat.zero_lt_succ _)

/-- The two objects, or what a simulation sees of them on a day. -/
def SameDay (o p o' p' : Obj) : Prop :=
  (o' = o ∧ p' = p) ∨ ∃ i, o.cut i = some o' ∧ p.cut i = some p' ∧ p'.getTiData.len = o'.getTiData.len

/-- C108: if the prices of two tables differ by at most `e` and the signals differ, on the last day or on a day of a simulation, then
the numbers of one of the compared pairs differ by at most what the error can move them. -/
theorem C108_ties (ho : BuiltOn E c f fill o AnyPrices) (hp : BuiltOn E c g fill p AnyPrices) (hw : Within e f g)
    (hd : SameDay o p o' p') (hc : compares o.ind ≠ [])
    (hm : ∀ x ∈ compares o.ind, (x.1.margin o.ind e).isSome ∧ (x.2.margin o.ind e).isSome)
    (hs : p'.getTiSignal ≠ o'.getTiSignal) :
    ∃ x ∈ compares o.ind, ∃ a b, x.1.margin o.ind e = some a ∧ x.2.margin o.ind e = some b ∧
      Tie (a + b) (x.1.of o'.input o'.ti) (x.2.of o'.input o'.ti) := by
  obtain ⟨c1, c2, c3, c4, c5, c6⟩ := compares_plain o.ind hc
  have hi : p.ind = o.ind := same_ind ho hp
  obtain ⟨m, V⟩ := day_view ho c1 c2 (o' := o') (hd.imp (·.1) fun ⟨i, h, _⟩ => ⟨i, h⟩)
  obtain ⟨m', W⟩ := day_view hp (by rw [hi]; exact c1) (by rw [hi]; exact c2) (o' := p') (hd.imp (·.2) fun ⟨i, _, h, _⟩ => ⟨i, h⟩)
  have hlen : ∀ {f : RawFrame} {o : Obj}, BuiltOn E c f fill o AnyPrices → (∀ n, o.ind ≠ .detrendedPriceOscillator n) →
      o.getTiData.len = f.idx.length := fun {f o} h hd => by
    rw [Frame.len, (C33_shape E c f fill o h.wf h.ok).2.2.1 hd]
    simp [sortIdx]
  have hlo := hlen ho c2
  have hlp := hlen hp (by rw [hi]; exact c2)
  obtain rfl : m' = m := by
    have v := V.rows
    have w := W.rows
    rcases hd with ⟨rfl, rfl⟩ | ⟨i, -, -, h⟩
    · rw [Frame.len] at hlo hlp
      rw [← v, ← w, hlo, hlp, hw.days]
    · rw [← v, ← w]
      exact h
  have hmf : m' ≤ f.idx.length := V.le
  by_contra hno
  push Not at hno
  apply hs
  have hq : ∀ x ∈ compares o.ind, ∀ q, q = x.1 ∨ q = x.2 → ∀ d, q.margin o.ind e = some d →
      (∀ k, q = .close k → k < m') → DifferBy d (q.of o'.input o'.ti) (q.of p'.input p'.ti) := fun x hx q hq d hd hk => by
    cases q with
    | zero =>
      simp only [Quantity.margin, Option.some.injEq] at hd
      exact .inr ⟨0, 0, rfl, rfl, by simp [← hd]⟩
    | close k =>
      simp only [Quantity.margin, Option.some.injEq] at hd
      have hk' := hk k rfl
      refine .inr ⟨_, _, V.px "close" c5 k hk', W.px "close" (by rw [hi]; exact c5) k hk', ?_⟩
      rw [← hd]
      exact near_close hw _ (by omega)
    | value column k =>
      have hcol := c6 x hx column k (hq.imp Eq.symm Eq.symm)
      simp only [Quantity.margin, Option.map_eq_some_iff] at hd
      obtain ⟨⟨a, b⟩, h1, h2⟩ := hd
      simp only [Quantity.of]
      rcases Nat.lt_or_ge k m' with hk | hk
      · rw [V.ti column hcol k hk, W.ti column (by rw [hi]; exact hcol) k hk, ← h2]
        exact C107_errors ho hp hw column a b h1 _ (by omega)
      · rw [V.none column hcol k hk, W.none column (by rw [hi]; exact hcol) k hk]
        exact .inl ⟨rfl, rfl⟩
  have hsig : ∀ {f : RawFrame} {o o' : Obj}, BuiltOn E c f fill o AnyPrices → o.ind ≠ .medianPrice 1 → (∀ a b, o.ind ≠ .rangeIndicator a b) →
      (o' = o ∨ ∃ i, o.cut i = some o') → ∃ s, o'.getTiSignal = .ok s := fun {f o o'} h n1 n2 hd => by
    obtain ⟨h1, h2⟩ := C34_other_indicators E c f fill o h.wf h.ok n1 n2
    rcases hd with rfl | ⟨i, hi⟩
    · exact h1
    · exact h2 i o' hi
  obtain ⟨s, hs1⟩ := hsig ho c3 c4 (o' := o') (hd.imp (·.1) fun ⟨i, h, _⟩ => ⟨i, h⟩)
  obtain ⟨t, ht1⟩ := hsig hp (by rw [hi]; exact c3) (by rw [hi]; exact c4) (o' := p') (hd.imp (·.2) fun ⟨i, _, h, _⟩ => ⟨i, h⟩)
  obtain ⟨b1, s1⟩ := C47_signal_table o' V.reach
  obtain ⟨b2, s2⟩ := C47_signal_table p' W.reach
  rw [V.rows, V.ind] at b1 s1
  rw [W.rows, W.ind, hi] at b2 s2
  have hrows : (rule p'.input p'.ti o.ind).rows = (rule o'.input o'.ti o.ind).rows := by
    generalize o.ind = ind at hc
    cases ind <;> rfl
  have key : (p'.getTiSignal = .ok .buy ↔ o'.getTiSignal = .ok .buy) ∧ (p'.getTiSignal = .ok .sell ↔ o'.getTiSignal = .ok .sell) := by
    rw [b1, s1, b2, s2, hrows]
    by_cases hr : (rule o'.input o'.ti o.ind).rows ≤ m'
    · obtain ⟨-, r1, r2⟩ := rule_same_sides o.ind o'.input o'.ti p'.input p'.ti hc fun x hx => by
        obtain ⟨m1, m2⟩ := hm x hx
        obtain ⟨a, ha⟩ := Option.isSome_iff_exists.1 m1
        obtain ⟨b, hb⟩ := Option.isSome_iff_exists.1 m2
        have hk := compares_rows o.ind o'.input o'.ti x hx
        exact same_side (hq x hx x.1 (.inl rfl) a ha fun k h => (hk k (.inl h)).trans_le hr)
          (hq x hx x.2 (.inr rfl) b hb fun k h => (hk k (.inr h)).trans_le hr) (hno x hx a b ha hb)
      rw [r1, r2]
      exact ⟨Iff.rfl, Iff.rfl⟩
    · simp [hr]
  rw [hs1, ht1] at key ⊢
  simp only [Except.ok.injEq] at key ⊢
  revert key
  cases s <;> cases t <;> simp

/-- Rounds with the same signals. -/
theorem rounds_same (S : SimSetup) (l : List ℕ) (now now' : Obj) (st : Sim.State Val)
    (h : ∀ i ∈ l, ∃ a b s, o.cut i = some a ∧ p.cut i = some b ∧ a.getTiSignal = .ok s ∧ b.getTiSignal = .ok s) :
    (simRounds p S l now' st).2 = (simRounds o S l now st).2 := by
  induction l generalizing now now' st with
  | nil => rfl
  | cons i l ih =>
    obtain ⟨a, b, s, h1, h2, h3, h4⟩ := h i (by simp)
    simp only [simRounds, h1, h2, h3, h4]
    exact ih _ _ _ fun j hj => h j (by simp [hj])

/-- C108: two tables with the same dates whose prices differ by at most `e`: if on no day the numbers of a compared pair differ by at
most what the error can move them, then every simulation has the same result, whatever close values and other arguments it is given. -/
theorem C108_same_simulation (ho : BuiltOn E c f fill o AnyPrices) (hp : BuiltOn E c g fill p AnyPrices) (hw : Within e f g)
    (hdates : g.idx = f.idx) (hc : compares o.ind ≠ [])
    (hm : ∀ x ∈ compares o.ind, (x.1.margin o.ind e).isSome ∧ (x.2.margin o.ind e).isSome)
    (hno : ∀ i o', o.cut i = some o' → ∀ x ∈ compares o.ind, ∀ a b, x.1.margin o.ind e = some a → x.2.margin o.ind e = some b →
      ¬ Tie (a + b) (x.1.of o'.input o'.ti) (x.2.of o'.input o'.ti))
    (closes : InputArg) (m fac : PyArg) : (p.getTiSimulation closes m fac).2 = (o.getTiSimulation closes m fac).2 := by
  obtain ⟨c1, c2, c3, c4, c5, c6⟩ := compares_plain o.ind hc
  have hi : p.ind = o.ind := same_ind ho hp
  obtain ⟨so, -, io, -⟩ := construct_sound E c f fill o ho.wf ho.ok
  obtain ⟨sp, -, ip, -⟩ := construct_sound E c g fill p hp.wf hp.ok
  have tio := (C33_shape E c f fill o ho.wf ho.ok).2.2.1 c2
  have tip := (C33_shape E c g fill p hp.wf hp.ok).2.2.1 (by rw [hi]; exact c2)
  rw [hdates] at ip tip
  have hin : p.input.idx = o.input.idx := ip.trans io.symm
  have hti : p.ti.idx = o.ti.idx := tip.trans tio.symm
  have hlen : p.ti.len = o.ti.len := by rw [Frame.len, Frame.len, hti]
  obtain ⟨-, cutso⟩ := C34_other_indicators E c f fill o ho.wf ho.ok c3 c4
  have ex := (C34_signal_total E c f fill o ho.wf ho.ok).2.2.1
  have ex' := (C34_signal_total E c g fill p hp.wf hp.ok).2.2.1
  have key : ∀ i ∈ List.range o.ti.len, ∃ a b s, o.cut i = some a ∧ p.cut i = some b ∧ a.getTiSignal = .ok s ∧ b.getTiSignal = .ok s := by
    intro i hi'
    rw [List.mem_range] at hi'
    obtain ⟨a, ha, -⟩ := ex i hi'
    obtain ⟨b, hb, -⟩ := ex' i (by change i < p.ti.len; rw [hlen]; exact hi')
    obtain ⟨s, hs⟩ := cutso i a ha
    refine ⟨a, b, s, ha, hb, hs, ?_⟩
    have hl : b.getTiData.len = a.getTiData.len := by
      unfold Obj.cut at ha hb
      rw [hin, hti] at hb
      split at ha
      · next di dt h1 h2 =>
        rw [h1, h2] at hb
        simp only [Option.some.injEq] at ha hb
        subst ha hb
        simp [Obj.getTiData, Frame.len, Frame.upTo, hti]
      · cases ha
    by_contra hne
    obtain ⟨x, hx, u, v, hu, hv, ht⟩ := C108_ties ho hp hw (.inr ⟨i, ha, hb, hl⟩) hc hm (by rw [hs]; exact hne)
    exact hno i a ha x hx u v hu hv ht
  unfold Obj.getTiSimulation
  rw [hin, hlen]
  split
  · rfl
  · next S _ =>
    have := rounds_same (p := p) S (List.range o.ti.len) o p Sim.State.init key
    rcases h1 : simRounds p S (List.range o.ti.len) p Sim.State.init with ⟨q, _ | st⟩ <;>
      rcases h2 : simRounds o S (List.range o.ti.len) o Sim.State.init with ⟨q', _ | st'⟩ <;> rw [h1, h2] at this <;> simp_all

/-- Two closes, and three closes. -/
def twoCloses (x : ℚ) : RawFrame := shaky 2 (fun j => if j = 0 then 10 else x) 20 5 1

def threeCloses (x : ℚ) : RawFrame := shaky 3 (fun j => if j = 0 then x else if j = 1 then 20 else 40) 50 5 1

/-- What is read off a built object. -/
theorem read_built {α : Type} {o : Obj} {c : Call} {f : RawFrame} (h : (construct demoEnv c (.frame f) (.bool true)).2 = .ok o) (F : Obj → α)
    (a : α) (hF : (match (construct demoEnv c (.frame f) (.bool true)).2 with | .ok o => some (F o) | .error _ => none) = some a) : F o = a := by
  rw [h] at hF
  exact Option.some.inj hF

theorem simple_column : Ind.MaType.column .simple = "ma-simple" := by decide

/-- The hypotheses of `C108_ties`: closes 10, 10.5 and 10, 9.5 differ by at most 1, the signals of the average of two days differ. -/
example : ∃ o p, BuiltOn demoEnv (.movingAverage (.int 2) (.str "simple")) (twoCloses (21 / 2)) true o AnyPrices ∧
    BuiltOn demoEnv (.movingAverage (.int 2) (.str "simple")) (twoCloses (19 / 2)) true p AnyPrices ∧
    Within 1 (twoCloses (21 / 2)) (twoCloses (19 / 2)) ∧ SameDay o p o p ∧ compares o.ind ≠ [] ∧
    (∀ x ∈ compares o.ind, (x.1.margin o.ind 1).isSome ∧ (x.2.margin o.ind 1).isSome) ∧ p.getTiSignal ≠ o.getTiSignal := by
  have hc : (Call.movingAverage (.int 2) (.str "simple")).check = .ok (.movingAverage 2 .simple) := by decide +kernel
  obtain ⟨o, ho, hoi⟩ := shaky_built demoEnv _ _ hc 2 (fun j => if j = 0 then 10 else 21 / 2) 20 5 1 (by norm_num) (by decide)
  obtain ⟨p, hp, hpi⟩ := shaky_built demoEnv _ _ hc 2 (fun j => if j = 0 then 10 else 19 / 2) 20 5 1 (by norm_num) (by decide)
  have h1 : decide (o.getTiSignal = .ok .buy) = true := read_built ho.ok (fun o => decide (o.getTiSignal = .ok .buy)) _ (by decide +kernel)
  have h2 : decide (p.getTiSignal = .ok .buy) = false := read_built hp.ok (fun o => decide (o.getTiSignal = .ok .buy)) _ (by decide +kernel)
  refine ⟨o, p, ho, hp, shaky_within (by norm_num) 2 _ _ _ _ _ fun j hj => by interval_cases j <;> norm_num, .inl ⟨rfl, rfl⟩, ?_, ?_, ?_⟩
  · rw [hoi]; simp [compares]
  · rw [hoi]; simp [compares, Quantity.margin, errorFactor, simple_column]
  · intro h
    rw [h] at h2
    rw [h1] at h2
    cases h2

/-- The hypotheses of `C108_same_simulation`: closes 10, 20, 40 and 11, 20, 40; the average of two days is 5 and 10 below the close. -/
example : ∃ o p, BuiltOn demoEnv (.movingAverage (.int 2) (.str "simple")) (threeCloses 10) true o AnyPrices ∧
    BuiltOn demoEnv (.movingAverage (.int 2) (.str "simple")) (threeCloses 11) true p AnyPrices ∧
    Within 1 (threeCloses 10) (threeCloses 11) ∧ (threeCloses 11).idx = (threeCloses 10).idx ∧ compares o.ind ≠ [] ∧
    (∀ x ∈ compares o.ind, (x.1.margin o.ind 1).isSome ∧ (x.2.margin o.ind 1).isSome) ∧
    (∀ i o', o.cut i = some o' → ∀ x ∈ compares o.ind, ∀ a b, x.1.margin o.ind 1 = some a → x.2.margin o.ind 1 = some b →
      ¬ Tie (a + b) (x.1.of o'.input o'.ti) (x.2.of o'.input o'.ti)) := by
  have hc : (Call.movingAverage (.int 2) (.str "simple")).check = .ok (.movingAverage 2 .simple) := by decide +kernel
  obtain ⟨o, ho, hoi⟩ := shaky_built demoEnv _ _ hc 3 (fun j => if j = 0 then 10 else if j = 1 then 20 else 40) 50 5 1 (by norm_num) (by decide)
  obtain ⟨p, hp, hpi⟩ := shaky_built demoEnv _ _ hc 3 (fun j => if j = 0 then 11 else if j = 1 then 20 else 40) 50 5 1 (by norm_num) (by decide)
  have h1 := read_built ho.ok (fun o => (List.range 3).map fun i => (o.cut i).map fun o' =>
    (before 0 (o'.ti.col "ma-simple"), before 0 (o'.input.col "close")))
    [some (.nan, .fin 10), some (.fin 15, .fin 20), some (.fin 30, .fin 40)] (by decide +kernel)
  have hl : o.ti.len = 3 := read_built ho.ok (fun o => o.ti.len) 3 (by decide +kernel)
  refine ⟨o, p, ho, hp, shaky_within (by norm_num) 3 _ _ _ _ _ fun j hj => by interval_cases j <;> norm_num, rfl, ?_, ?_, ?_⟩
  · rw [hoi]; simp [compares]
  · rw [hoi]; simp [compares, Quantity.margin, errorFactor, simple_column]
  · intro i o' hi x hx a b ha hb
    have h3 : i < 3 := by
      by_contra hge
      unfold Obj.cut at hi
      rw [List.getElem?_eq_none (l := o.ti.idx) (by rw [Frame.len] at hl; omega)] at hi
      split at hi <;> simp_all
    rw [hoi] at hx ha hb
    simp only [compares, List.mem_singleton] at hx
    subst hx
    simp [Quantity.margin, errorFactor, simple_column] at ha hb
    simp [List.range_succ] at h1
    obtain ⟨⟨a0, b0, c0, d0⟩, ⟨a1, b1, c1, d1⟩, a2, b2, c2, d2⟩ := h1
    rintro ⟨u, v, hu, hv, huv⟩
    simp only [Quantity.of, simple_column] at hu hv
    interval_cases i
    · rw [hi] at b0; cases b0; rw [c0] at hu; cases hu
    · rw [hi] at b1; cases b1; rw [c1] at hu; rw [d1] at hv; cases hu; cases hv; norm_num [← ha, ← hb] at huv
    · rw [hi] at b2; cases b2; rw [c2] at hu; rw [d2] at hv; cases hu; cases hv; norm_num [← ha, ← hb] at huv

end TTI.Props
