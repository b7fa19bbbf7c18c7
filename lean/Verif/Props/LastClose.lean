import Verif.Lemmas.LastClose2
import Verif.Props.TrendSignals
import Verif.Props.Basket
import Verif.Props.Table
import Verif.Props.FormulaStrength
import Verif.Props.FormulaRange2
import Verif.Props.FormulaProjection
import Verif.Props.Sar

set_option autoImplicit false

/-!
# What a higher last close does to the signal: C106

`LastCloseRaised`, `Quoted`, `TowardsBuy` and the table `stance` are in Spec/LastClose.
-/

namespace TTI.Props

open Spec LastClose

variable {E : Env} {c : Call} {f g : RawFrame} {fill : Bool} {o p : Obj}

theorem built_any {P : (String → ℚ) → Prop} (h : BuiltOn E c f fill o P) : BuiltOn E c f fill o AnyPrices :=
  ⟨h.wf, h.ok, fun j hj => by obtain ⟨x, hx, -⟩ := h.rows j hj; exact ⟨x, hx, trivial⟩⟩

theorem built_nonzero (h : BuiltOn E c f fill o Quoted) : f.EachRow o.ind.required NonzeroClose := fun j hj => by
  obtain ⟨x, hx, h1, -⟩ := h.rows j hj
  exact ⟨x, hx, h1.ne'⟩

theorem pos_of {P : (String → ℚ) → Prop} (hB : BuiltOn E c f fill o P) {ind : Ind} (hi : o.ind = ind) : ind.Pos := by
  rw [← hi]
  exact check_pos c o.ind (construct_sound E c f fill o hB.wf hB.ok).2.1

/-- Two objects, the second one on a higher last close; `L` is the last day. -/
structure Pair (f g : RawFrame) (o p : Obj) (L : ℕ) : Prop where
  rows : f.idx.length = L + 1
  rows' : g.idx.length = L + 1
  ind : p.ind = o.ind
  left : View f o o (L + 1)
  right : View g p p (L + 1)
  high : high g = high f
  low : low g = low f
  opening : opening g = opening f
  volume : volume g = volume f
  earlier : ∀ j, j < L → close g j = close f j
  last : close f L ≤ close g L

theorem own_view {P : (String → ℚ) → Prop} (hB : BuiltOn E c f fill o P) (hm : ∀ F, o.ind.inputAfter F = F)
    (hd : ∀ n, o.ind ≠ .detrendedPriceOscillator n) : View f o o f.idx.length := by
  obtain ⟨m, h⟩ := day_view hB hm hd (.inl rfl)
  have h1 := (C33_shape E c f fill o hB.wf hB.ok).2.2.1 hd
  have h2 := h.rows
  rw [h1] at h2
  have : (sortIdx f.idx).length = f.idx.length := by simp [sortIdx]
  rw [this] at h2
  rw [h2]
  exact h

theorem pair_of (ho : BuiltOn E c f fill o Quoted) (hp : BuiltOn E c g fill p Quoted) (hr : LastCloseRaised f g)
    (hm : ∀ F, o.ind.inputAfter F = F) (hd : ∀ n, o.ind ≠ .detrendedPriceOscillator n) : ∃ L, Pair f g o p L := by
  have hi : p.ind = o.ind := same_ind ho hp
  have h1 := own_view ho hm hd
  have h2 := own_view hp (by rw [hi]; exact hm) (by rw [hi]; exact hd)
  have h0 : 0 < f.idx.length := by
    have h3 := (construct_sound E c f fill o ho.wf ho.ok).2.2.2.2
    have h4 := (construct_sound E c f fill o ho.wf ho.ok).2.2.1
    unfold Frame.len at h3
    rw [h4, (sortIdx_perm _).length_eq] at h3
    exact h3
  have hs : ∀ s ∈ ["open", "high", "low", "volume"], price g s = price f s := fun s hs => by
    funext j
    by_cases hj : j < f.idx.length
    · exact hr.other s hs j hj
    · rw [Basket.price_beyond f s j (by omega), Basket.price_beyond g s j (by have := hr.days; omega)]
  have hb := hr.days
  have hl := hr.last
  refine ⟨f.idx.length - 1, by omega, by omega, hi, by rwa [Nat.sub_add_cancel h0], ?_, hs _ (by simp), hs _ (by simp), hs _ (by simp),
    hs _ (by simp), fun j hj => hr.before j (by omega), hl⟩
  rw [Nat.sub_add_cancel h0, ← hb]
  exact h2

theorem towards {s t : Signal} {R R' : Rule} {L : ℕ} (hl : View f o o (L + 1)) (hr : View g p p (L + 1))
    (h1 : o.getTiSignal = .ok s) (h2 : p.getTiSignal = .ok t) (e1 : rule o.input o.ti o.ind = R) (e2 : rule p.input p.ti p.ind = R')
    (hrows : R.rows = R'.rows) (h : R.rows ≤ L + 1 → (R.buy → R'.buy) ∧ (R'.sell → R.sell)) : TowardsBuy s t := by
  obtain ⟨a1, a2⟩ := C47_signal_table o hl.reach
  obtain ⟨b1, b2⟩ := C47_signal_table p hr.reach
  rw [hl.rows, e1, h1] at a1 a2
  rw [hr.rows, e2, h2] at b1 b2
  rw [← hrows] at b1 b2
  cases s with
  | sell => exact .inr (.inl rfl)
  | buy =>
    obtain ⟨k1, k2⟩ := a1.1 rfl
    have := b1.2 ⟨k1, (h k1).1 k2⟩
    exact .inr (.inr (Except.ok.inj this))
  | hold =>
    cases t with
    | buy => exact .inr (.inr rfl)
    | hold => exact .inl rfl
    | sell =>
      obtain ⟨k1, k2⟩ := b2.1 rfl
      have := a2.2 ⟨k1, (h k1).2 k2⟩
      simp at this

section
variable {L : ℕ} (h : Pair f g o p L)
include h

theorem Pair.follows {s t : Signal} (h1 : o.getTiSignal = .ok s) (h2 : p.getTiSignal = .ok t) {ind : Ind} (hi : o.ind = ind)
    (hrows : (rule o.input o.ti ind).rows = (rule p.input p.ti ind).rows)
    (hh : (rule o.input o.ti ind).rows ≤ L + 1 → ((rule o.input o.ti ind).buy → (rule p.input p.ti ind).buy) ∧
      ((rule p.input p.ti ind).sell → (rule o.input o.ti ind).sell)) : TowardsBuy s t :=
  towards h.left h.right h1 h2 (by rw [hi]) (by rw [h.ind, hi]) hrows hh

theorem Pair.opposes {s t : Signal} (h1 : o.getTiSignal = .ok s) (h2 : p.getTiSignal = .ok t) {ind : Ind} (hi : o.ind = ind)
    (hrows : (rule o.input o.ti ind).rows = (rule p.input p.ti ind).rows)
    (hh : (rule o.input o.ti ind).rows ≤ L + 1 → ((rule p.input p.ti ind).buy → (rule o.input o.ti ind).buy) ∧
      ((rule o.input o.ti ind).sell → (rule p.input p.ti ind).sell)) : TowardsBuy t s :=
  towards h.right h.left h2 h1 (by rw [h.ind, hi]) (by rw [hi]) hrows.symm (by rw [← hrows]; exact hh)

theorem Pair.ti (name : String) (hn : name ∈ columns o.ind) (k : ℕ) (hk : k ≤ L) :
    before k (o.ti.col name) = o.getTiData.day name (L - k) ∧ before k (p.ti.col name) = p.getTiData.day name (L - k) := by
  have h1 := h.left.ti name hn k (by omega)
  have h2 := h.right.ti name (by rw [h.ind]; exact hn) k (by omega)
  rw [show L + 1 - 1 - k = L - k by omega] at h1 h2
  exact ⟨h1, h2⟩

theorem Pair.px (hn : "close" ∈ o.ind.required) (k : ℕ) (hk : k ≤ L) :
    before k (o.input.col "close") = .fin (close f (L - k)) ∧ before k (p.input.col "close") = .fin (close g (L - k)) := by
  have h1 := h.left.px "close" hn k (by omega)
  have h2 := h.right.px "close" (by rw [h.ind]; exact hn) k (by omega)
  rw [show L + 1 - 1 - k = L - k by omega] at h1 h2
  exact ⟨h1, h2⟩

theorem Pair.lift : Lift 0 L (close g L - close f L) (close f) (close g) :=
  ⟨fun j _ hj => h.earlier j hj, h.last, by linarith⟩

end

/-- What is known about the closes. -/
theorem quoted_close (hB : BuiltOn E c f fill o Quoted) (hr : "close" ∈ o.ind.required) (j : ℕ) (hj : j < f.idx.length) :
    0 < close f j ∧ ∃ m : ℤ, close f j = m / 10000 := by
  obtain ⟨F, hl, -, hP, -, -, -⟩ := hB.on rfl
  obtain ⟨x, hx, h1, h2, -⟩ := hP j (by omega)
  rw [hx _ hr] at h1 h2
  exact ⟨h1, h2⟩

theorem quoted_range (hB : BuiltOn E c f fill o Quoted) (hh : "high" ∈ o.ind.required) (hl' : "low" ∈ o.ind.required) (j : ℕ)
    (hj : j < f.idx.length) : low f j ≤ high f j := by
  obtain ⟨F, hl, -, hP, -, -, -⟩ := hB.on rfl
  obtain ⟨x, hx, -, -, h3, -⟩ := hP j (by omega)
  rw [hx _ hh, hx _ hl'] at h3
  exact h3

theorem quoted_volume (hB : BuiltOn E c f fill o Quoted) (hh : "volume" ∈ o.ind.required) (j : ℕ) (hj : j < f.idx.length) :
    0 ≤ volume f j := by
  obtain ⟨F, hl, -, hP, -, -, -⟩ := hB.on rfl
  obtain ⟨x, hx, -, -, -, h4⟩ := hP j (by omega)
  rw [hx _ hh] at h4
  exact h4

section
variable {s t : Signal} {L : ℕ} (ho : BuiltOn E c f fill o Quoted) (hp : BuiltOn E c g fill p Quoted) (h : Pair f g o p L)
  (h1 : o.getTiSignal = .ok s) (h2 : p.getTiSignal = .ok t)
include ho hp h h1 h2

/-- A line that moves slower than the close. -/
theorem line_nearer (hc : "close" ∈ o.ind.required) (column : String) (hn : column ∈ columns o.ind) (k : ℕ) (x y : ℚ)
    (e1 : o.getTiData.day column L = since k L (to4 x)) (e2 : p.getTiData.day column L = since k L (to4 y))
    (hs : k ≤ L → Slower (close f L) (close g L) x y) :
    Nearer (before 0 (o.ti.col column)) (before 0 (p.ti.col column)) (before 0 (o.input.col "close")) (before 0 (p.input.col "close")) := by
  have hi : p.ind = o.ind := h.ind
  have r := h.rows
  have r' := h.rows'
  rw [(h.ti column hn 0 (by omega)).1, (h.ti column hn 0 (by omega)).2, (h.px hc 0 (by omega)).1, (h.px hc 0 (by omega)).2, Nat.sub_zero,
    e1, e2]
  exact nearer_since k L fun hk => nearer_slower (hs hk) h.last (quoted_close ho hc L (by omega)).2
    (quoted_close hp (by rw [hi]; exact hc) L (by omega)).2

/-- The lines of the day before are the same. -/
theorem line_before (column : String) (hn : column ∈ columns o.ind) (D D' : ℕ → Val)
    (e1 : ∀ i ≤ L, o.getTiData.day column i = D i) (e2 : ∀ i ≤ L, p.getTiData.day column i = D' i) (hs : ∀ i < L, D' i = D i) :
    before 0 (o.ti.col column) = D L ∧ before 0 (p.ti.col column) = D' L ∧
      ∀ k, 1 ≤ k → before k (p.ti.col column) = before k (o.ti.col column) := by
  refine ⟨by rw [(h.ti column hn 0 (by omega)).1, e1 _ (by omega), Nat.sub_zero],
    by rw [(h.ti column hn 0 (by omega)).2, e2 _ (by omega), Nat.sub_zero], fun k hk => ?_⟩
  rcases Nat.lt_or_ge k (L + 1) with hl | hl
  · rw [(h.ti column hn k (by omega)).1, (h.ti column hn k (by omega)).2, e1 _ (by omega), e2 _ (by omega), hs _ (by omega)]
  · rw [h.left.none column hn k hl, h.right.none column (by rw [h.ind]; exact hn) k hl]

theorem close_before (hc : "close" ∈ o.ind.required) (hL : 1 ≤ L) :
    before 1 (p.input.col "close") = before 1 (o.input.col "close") := by
  rw [(h.px hc 1 hL).1, (h.px hc 1 hL).2, h.earlier _ (by omega)]

/-! ## Lines -/

theorem last_simple (n : ℕ) (hi : o.ind = .movingAverage n .simple) : TowardsBuy s t := by
  have hi' : p.ind = .movingAverage n .simple := by rw [h.ind, hi]
  have hn : 1 ≤ n := (pos_of ho hi).1
  refine h.follows h1 h2 hi rfl fun _ => ⟨fun hb => ?_, fun hb => hb⟩
  refine (line_nearer ho hp h h1 h2 (by rw [hi]; simp [Ind.required]) "ma-simple" (by rw [hi]; simp [columns]) (n - 1) _ _
    (C52_simple (built_any ho) n hi L (by have := h.rows; omega)) (C52_simple (built_any hp) n hi' L (by have := h.rows'; omega)) fun hk => ?_).below hb
  rcases Nat.lt_or_ge n 2 with h3 | h3
  · obtain rfl : n = 1 := by omega
    exact ⟨by simp [meanLast, sumLast, h.last], .inr (.inr ⟨by simp [meanLast, sumLast], by simp [meanLast, sumLast]⟩)⟩
  · have hq : (2 : ℚ) ≤ n := by exact_mod_cast h3
    refine Slower.of_lift (1 / n) (by rw [div_lt_one (by linarith)]; linarith) h.last (s := n - 1) ?_
    have := h.lift.mean n hn (by omega)
    rw [Nat.zero_add] at this
    rwa [one_div_mul_eq_div]

theorem last_exponential (n : ℕ) (hi : o.ind = .movingAverage n .exponential) : TowardsBuy s t := by
  have hi' : p.ind = .movingAverage n .exponential := by rw [h.ind, hi]
  have hn : 1 ≤ n := (pos_of ho hi).1
  refine h.follows h1 h2 hi rfl fun _ => ⟨fun hb => ?_, fun hb => hb⟩
  refine (line_nearer ho hp h h1 h2 (by rw [hi]; simp [Ind.required]) "ma-exponential" (by rw [hi]; simp [columns]) (n - 1) _ _
    (C52_exponential (built_any ho) n hi L (by have := h.rows; omega)) (C52_exponential (built_any hp) n hi' L (by have := h.rows'; omega)) fun hk => ?_).below hb
  rcases Nat.lt_or_ge n 2 with h3 | h3
  · obtain rfl : n = 1 := by omega
    rw [LastClose.ema_one _ _ _ (by omega), LastClose.ema_one _ _ _ (by omega)]
    exact ⟨h.last, .inr (.inr ⟨rfl, rfl⟩)⟩
  · obtain ⟨θ, hθ, hl⟩ := ema_lift n h3 h.lift (by omega)
    exact Slower.of_lift θ hθ h.last hl

theorem last_triangular (n : ℕ) (hi : o.ind = .movingAverage n .triangular) : TowardsBuy s t := by
  have hi' : p.ind = .movingAverage n .triangular := by rw [h.ind, hi]
  have hn : 1 ≤ n := (pos_of ho hi).1
  refine h.follows h1 h2 hi rfl fun _ => ⟨fun hb => ?_, fun hb => hb⟩
  refine (line_nearer ho hp h h1 h2 (by rw [hi]; simp [Ind.required]) "ma-triangular" (by rw [hi]; simp [columns]) (2 * n - 2) _ _
    (C52_triangular (built_any ho) n hi L (by have := h.rows; omega)) (C52_triangular (built_any hp) n hi' L (by have := h.rows'; omega)) fun hk => ?_).below hb
  rcases Nat.lt_or_ge n 2 with h3 | h3
  · obtain rfl : n = 1 := by omega
    exact ⟨by simp [meanLast, sumLast, h.last], .inr (.inr ⟨by simp [meanLast, sumLast], by simp [meanLast, sumLast]⟩)⟩
  · have hq : (2 : ℚ) ≤ n := by exact_mod_cast h3
    refine Slower.of_lift (1 / n / n) (by rw [div_lt_one (by linarith)]; rw [div_lt_iff₀ (by linarith)]; nlinarith) h.last
      (s := n - 1 + n - 1) ?_
    have := (h.lift.mean n hn (by omega)).mean n hn (by omega)
    rw [Nat.zero_add] at this
    convert this using 1
    ring

theorem last_dema (n : ℕ) (hi : o.ind = .doubleExponentialMovingAverage n) : TowardsBuy t s := by
  have hi' : p.ind = .doubleExponentialMovingAverage n := by rw [h.ind, hi]
  have hn : 1 ≤ n := pos_of ho hi
  refine h.opposes h1 h2 hi rfl fun _ => ⟨fun hb => ?_, fun hb => hb⟩
  refine (line_nearer ho hp h h1 h2 (by rw [hi]; simp [Ind.required]) "dema" (by rw [hi]; simp [columns]) (2 * n - 2) _ _
    (C52_double_exponential (built_any ho) n hi L (by have := h.rows; omega))
    (C52_double_exponential (built_any hp) n hi' L (by have := h.rows'; omega)) fun hk => ?_).above hb
  rcases Nat.lt_or_ge n 2 with h3 | h3
  · obtain rfl : n = 1 := by omega
    simp only [LastClose.ema_one _ _ _ (show 1 - 1 ≤ L by omega), LastClose.ema_one _ _ _ (show 0 ≤ L by omega)]
    exact ⟨by linarith [h.last], .inr (.inr ⟨by ring, by ring⟩)⟩
  · obtain ⟨θ, hθ, hl⟩ := dema_lift n h3 h.lift (by omega)
    exact Slower.of_lift θ hθ h.last hl

theorem last_tema (n : ℕ) (hi : o.ind = .tripleExponentialMovingAverage n) : TowardsBuy t s := by
  have hi' : p.ind = .tripleExponentialMovingAverage n := by rw [h.ind, hi]
  have hn : 1 ≤ n := pos_of ho hi
  have key := line_nearer ho hp h h1 h2 (by rw [hi]; simp [Ind.required]) "tema" (by rw [hi]; simp [columns]) (3 * n - 3) _ _
    (C52_triple_exponential (built_any ho) n hi L (by have := h.rows; omega))
    (C52_triple_exponential (built_any hp) n hi' L (by have := h.rows'; omega)) fun hk => by
      rcases Nat.lt_or_ge n 2 with h3 | h3
      · obtain rfl : n = 1 := by omega
        simp only [LastClose.ema_one _ _ _ (show 1 - 1 ≤ L by omega), LastClose.ema_one _ _ _ (show 2 * 1 - 2 ≤ L by omega), LastClose.ema_one _ _ _ (show 0 ≤ L by omega)]
        exact ⟨by linarith [h.last], .inr (.inr ⟨by ring, by ring⟩)⟩
      · obtain ⟨θ, hθ, hl⟩ := tema_lift n h3 h.lift (by omega)
        exact Slower.of_lift θ hθ h.last hl
  exact h.opposes h1 h2 hi rfl fun _ => ⟨key.above, key.below⟩

theorem last_wilder (n : ℕ) (hi : o.ind = .wildersSmoothing n) : TowardsBuy t s := by
  have hi' : p.ind = .wildersSmoothing n := by rw [h.ind, hi]
  have hn : 1 ≤ n := pos_of ho hi
  have e1 := fun i hl => C52_wilders_smoothing (built_any ho) n hi i hl
  have e2 := fun i hl => C52_wilders_smoothing (built_any hp) n hi' i hl
  have r := h.rows
  have r' := h.rows'
  have key := line_nearer ho hp h h1 h2 (by rw [hi]; simp [Ind.required]) "ws" (by rw [hi]; simp [columns]) (n - 1) _ _
    (e1 L (by omega)) (e2 L (by omega)) fun hk => by
      have hw := h.lift.wilder n hn (by omega)
      rcases Nat.lt_or_ge n 2 with h3 | h3
      · obtain rfl : n = 1 := by omega
        have one : ∀ u : ℕ → ℚ, wilderAverage 1 0 u L = u L := fun u => by
          have := LastClose.ema_one 0 u L (by omega)
          unfold Spec.ema at this
          unfold wilderAverage
          norm_num [meanLast, sumLast] at this ⊢
          exact this
        rw [one, one]
        exact ⟨h.last, .inr (.inr ⟨rfl, rfl⟩)⟩
      · have hq : (2 : ℚ) ≤ n := by exact_mod_cast h3
        refine Slower.of_lift (1 / n) (by rw [div_lt_one (by linarith)]; linarith) h.last (s := 0 + n - 1) ?_
        rwa [one_div_mul_eq_div]
  refine h.opposes h1 h2 hi rfl fun hL => contrary_opposes ?_ (close_before ho hp h h1 h2 (by rw [hi]; simp [Ind.required]) (by
    change 2 ≤ L + 1 at hL; omega)) key
  refine (line_before ho hp h h1 h2 "ws" (by rw [hi]; simp [columns]) _ _ (fun i hl => e1 i (by omega)) (fun i hl => e2 i (by omega))
    fun i hl => ?_).2.2 1 le_rfl
  unfold since
  split
  · rfl
  · rw [(h.lift.wilder n hn (by omega)).same i (by omega) hl]

theorem last_weighted_close (hi : o.ind = .weightedClose) : TowardsBuy t s := by
  have hi' : p.ind = .weightedClose := by rw [h.ind, hi]
  have e1 := fun i hl => C56_weighted_close (built_any ho) hi i hl
  have e2 := fun i hl => C56_weighted_close (built_any hp) hi' i hl
  have r := h.rows
  have r' := h.rows'
  have key := line_nearer ho hp h h1 h2 (by rw [hi]; simp [Ind.required]) "wc" (by rw [hi]; simp [columns]) 0 ((2 * close f L + high f L + low f L) / 4)
    ((2 * close g L + high g L + low g L) / 4) ((e1 L (by omega)).trans (by simp [since])) ((e2 L (by omega)).trans (by simp [since])) fun hk => by
      rw [h.high, h.low]
      have := h.last
      refine ⟨by linarith, ?_⟩
      rcases this.lt_or_eq with h3 | h3
      · exact .inl (by linarith)
      · exact .inr (.inl (by rw [h3]))
  refine h.opposes h1 h2 hi rfl fun hL => contrary_opposes ?_ (close_before ho hp h h1 h2 (by rw [hi]; simp [Ind.required]) (by
    change 2 ≤ L + 1 at hL; omega)) key
  refine (line_before ho hp h h1 h2 "wc" (by rw [hi]; simp [columns]) _ _ (fun i hl => e1 i (by omega)) (fun i hl => e2 i (by omega))
    fun i hl => ?_).2.2 1 le_rfl
  rw [h.high, h.low, h.earlier i hl]

theorem last_lri (n : ℕ) (hi : o.ind = .linearRegressionIndicator n) : TowardsBuy t s := by
  have hi' : p.ind = .linearRegressionIndicator n := by rw [h.ind, hi]
  have hn : 2 ≤ n := pos_of ho hi
  have e1 := fun i hl => line_since (built_any ho) n (by omega) hi i hl
  have e2 := fun i hl => line_since (built_any hp) n (by omega) hi' i hl
  have r := h.rows
  have r' := h.rows'
  have key := line_nearer ho hp h h1 h2 (by rw [hi]; simp [Ind.required]) "lri" (by rw [hi]; simp [columns]) (n - 1) _ _
    (e1 L (by omega)) (e2 L (by omega)) fun hk => by
      rcases Nat.lt_or_ge n 3 with h3 | h3
      · obtain rfl : n = 2 := by omega
        rw [line_two _ _ (by omega), line_two _ _ (by omega)]
        exact ⟨h.last, .inr (.inr ⟨rfl, rfl⟩)⟩
      · obtain ⟨k1, k2⟩ := lri_coefficient n h3
        have e := (slope_last h.earlier n hn (by omega)).2
        have hl := h.last
        refine ⟨by rw [e]; nlinarith [mul_nonneg k1 (sub_nonneg.2 hl)], ?_⟩
        rcases hl.lt_or_eq with h4 | h4
        · exact .inl (by rw [e]; nlinarith [mul_lt_mul_of_pos_right k2 (sub_pos.2 h4)])
        · exact .inr (.inl (by rw [e, h4]; ring))
  refine h.opposes h1 h2 hi rfl fun hL => contrary_opposes ?_ (close_before ho hp h h1 h2 (by rw [hi]; simp [Ind.required]) (by
    change 2 ≤ L + 1 at hL; omega)) key
  refine (line_before ho hp h h1 h2 "lri" (by rw [hi]; simp [columns]) _ _ (fun i hl => e1 i (by omega)) (fun i hl => e2 i (by omega))
    fun i hl => ?_).2.2 1 le_rfl
  unfold since
  split
  · rfl
  · obtain ⟨k1, k2⟩ := slope_same h.earlier n i (by omega) hl
    rw [k1, k2]

end

end TTI.Props
