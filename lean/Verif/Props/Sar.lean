import Verif.Lemmas.Sar
import Verif.Props.Averages
import Verif.Props.Bands

set_option autoImplicit false

/-!
# Parabolic SAR: C46, C51
-/

namespace TTI.Props

open Spec

/-- The user's prices by day. -/
def highOf (f : RawFrame) (i : ℕ) : ℚ := number (f.day "high" i)
def lowOf (f : RawFrame) (i : ℕ) : ℚ := number (f.day "low" i)

/-- A run only depends on the prices of its days. -/
theorem sarRun_congr (high low high' low' : ℕ → ℚ) (n : ℕ) (hn : 2 ≤ n) (D : ℕ → SarDay) (hh : ∀ i < n, high i = high' i)
    (hl : ∀ i < n, low i = low' i) (h : SarRun high low n D) : SarRun high' low' n D := by
  have hi1 : ∀ a b m, b < n → (Highest high a b m → Highest high' a b m) := by
    rintro a b m hb ⟨⟨k, k1, k2, k3⟩, h2⟩
    exact ⟨⟨k, k1, k2, by rw [← hh k (by omega), k3]⟩, fun j j1 j2 => by rw [← hh j (by omega)]; exact h2 j j1 j2⟩
  have lo1 : ∀ a b m, b < n → (Lowest low a b m → Lowest low' a b m) := by
    rintro a b m hb ⟨⟨k, k1, k2, k3⟩, h2⟩
    exact ⟨⟨k, k1, k2, by rw [← hl k (by omega), k3]⟩, fun j j1 j2 => by rw [← hl j (by omega)]; exact h2 j j1 j2⟩
  have nh : ∀ a b, b < n → newHighs high a b = newHighs high' a b := by
    intro a b hb
    unfold newHighs
    congr 1
    apply Finset.filter_congr
    intro j hj
    rw [Finset.mem_Ioc] at hj
    constructor <;> intro H k hk <;> have := H k hk <;> rw [Finset.mem_Ico] at hk <;>
      rw [hh k (by omega), hh j (by omega)] at * <;> exact this
  have nl : ∀ a b, b < n → newLows low a b = newLows low' a b := by
    intro a b hb
    unfold newLows
    congr 1
    apply Finset.filter_congr
    intro j hj
    rw [Finset.mem_Ioc] at hj
    constructor <;> intro H k hk <;> have := H k hk <;> rw [Finset.mem_Ico] at hk <;>
      rw [hl k (by omega), hl j (by omega)] at * <;> exact this
  have e1 : ∀ i d, i + 1 < n → longStop low i d = longStop low' i d := fun i d hi => by
    unfold longStop; rw [hl i (by omega), hl (i - 1) (by omega)]
  have e2 : ∀ i d, i + 1 < n → shortStop high i d = shortStop high' i d := fun i d hi => by
    unfold shortStop; rw [hh i (by omega), hh (i - 1) (by omega)]
  refine ⟨?_, h.since, ?_, ?_, ?_, ?_⟩
  · rw [← hh 0 (by omega), ← hh 1 (by omega), ← hl 0 (by omega)]; exact h.first
  · intro i hi
    have := h.extreme i hi
    split
    · next hc => rw [if_pos hc] at this; exact hi1 _ _ _ hi this
    · next hc => rw [if_neg hc] at this; exact lo1 _ _ _ hi this
  · intro i hi
    rw [h.accel i hi, nh _ _ hi, nl _ _ hi]
  · intro i hi hc
    have := h.long i hi hc
    rw [hl (i + 1) hi, e1 i _ hi] at this
    split
    · next hd => rw [if_pos hd] at this; exact ⟨this.1, hi1 _ _ _ (by omega) this.2⟩
    · next hd => rw [if_neg hd] at this; exact this
  · intro i hi hc
    have := h.short i hi hc
    rw [hh (i + 1) hi, e2 i _ hi] at this
    split
    · next hd => rw [if_pos hd] at this; exact ⟨this.1, lo1 _ _ _ (by omega) this.2⟩
    · next hd => rw [if_neg hd] at this; exact this

/-- C46: the values of ParabolicSAR are the stops of a run of the documented rules over the user's prices, rounded to 4
decimals. -/
theorem C46_run (E : Env) (c : Call) (f : RawFrame) (fill : Bool) (o : Obj) (hw : WF f)
    (h : (construct E c (.frame f) (.bool fill)).2 = .ok o) (hb : f.EachRow o.ind.required AnyPrices)
    (ho : o.ind = .parabolicSAR) :
    ∃ D, SarRun (highOf f) (lowOf f) f.idx.length D ∧
      ∀ i < f.idx.length, o.getTiData.day "sar" i = .fin (roundQ 4 (D i).sar) := by
  obtain ⟨F, x, hg, hlen, -, h1, h2, h3, h4, ht, -, hc⟩ := construct_days E c f fill o _ hw h hb
  rcases o with ⟨ind, input, T⟩
  simp only [Obj.getTiData] at *
  subst ho
  replace ht : Ind.ParabolicSAR.calcTi F = .ok T := ht
  unfold Ind.ParabolicSAR.calcTi at ht
  split at ht
  · simp at ht
  next hn =>
  simp only [Except.ok.injEq] at ht
  have m1 : "high" ∈ Ind.parabolicSAR.required := by simp [Ind.required]
  have m2 : "low" ∈ Ind.parabolicSAR.required := by simp [Ind.required]
  rw [← hlen]
  refine ⟨_, sarRun_congr _ _ _ _ _ (by omega) _ ?_ ?_
    (Ind.ParabolicSAR.run (h1 _ m1) (h1 _ m2) (h2 _ m1) (h2 _ m2) (by omega)), fun i hi => ?_⟩
  · intro i hi
    unfold highOf
    rw [h3 _ m1 i (by omega)]; rfl
  · intro i hi
    unfold lowOf
    rw [h3 _ m2 i (by omega)]; rfl
  · have e := Ind.ParabolicSAR.sar_fin (h1 _ m1) (h1 _ m2) (h2 _ m1) (h2 _ m2) (by omega) i hi
    rw [← ht]
    show val (Frame.col _ "sar") i = _
    rw [Frame.col_single, val_lt _ _ (by simpa using hi), List.getElem_map, List.getElem_range, e]
    rfl

/-- C46: the rules leave no choice, so the run of `C46_run` is the only one. -/
theorem C46_one_run (high low : ℕ → ℚ) (n : ℕ) (D D' : ℕ → SarDay) (h : SarRun high low n D) (h' : SarRun high low n D')
    (i : ℕ) (hi : i < n) : D i = D' i := by
  induction i using Nat.strong_induction_on with
  | _ i ih =>
  have hlong : (D i).long = (D' i).long ∧ (D i).sar = (D' i).sar := by
    cases i with
    | zero => rw [h.first.1, h.first.2, h'.first.1, h'.first.2]; exact ⟨rfl, rfl⟩
    | succ i =>
      have e := ih i (by omega) (by omega)
      cases hl : (D i).long with
      | true =>
        have a := h.long i hi hl
        have b := h'.long i hi (e ▸ hl)
        rw [← e] at b
        split at a
        · next hd =>
          rw [if_pos hd] at b
          exact ⟨a.1.trans b.1.symm, Ind.ParabolicSAR.highest_unique a.2 b.2⟩
        · next hd =>
          rw [if_neg hd] at b
          exact ⟨a.1.trans b.1.symm, a.2.trans b.2.symm⟩
      | false =>
        have a := h.short i hi hl
        have b := h'.short i hi (e ▸ hl)
        rw [← e] at b
        split at a
        · next hd =>
          rw [if_pos hd] at b
          exact ⟨a.1.trans b.1.symm, Ind.ParabolicSAR.lowest_unique a.2 b.2⟩
        · next hd =>
          rw [if_neg hd] at b
          exact ⟨a.1.trans b.1.symm, a.2.trans b.2.symm⟩
  have heq : ∀ k ≤ i, (D k).long = (D' k).long := fun k hk => by
    rcases Nat.lt_or_ge k i with hk' | hk'
    · rw [ih k hk' (by omega)]
    · rw [show k = i by omega]; exact hlong.1
  have hsince : (D i).since = (D' i).since := by
    obtain ⟨a1, a2, a3⟩ := h.since i hi
    obtain ⟨b1, b2, b3⟩ := h'.since i hi
    rcases Nat.lt_trichotomy (D i).since (D' i).since with hlt | heq' | hgt
    · exfalso
      have p := b3 (by omega)
      have q := a2 ((D' i).since - 1) (by omega) (by omega)
      rw [heq _ (by omega), p, ← hlong.1] at q
      simp at q
    · exact heq'
    · exfalso
      have p := a3 (by omega)
      have q := b2 ((D i).since - 1) (by omega) (by omega)
      rw [← heq _ (by omega), p, ← hlong.1] at q
      simp at q
  have hep : (D i).ep = (D' i).ep := by
    have a := h.extreme i hi
    have b := h'.extreme i hi
    rw [← hlong.1, ← hsince] at b
    split at a
    · next hd => rw [if_pos hd] at b; exact Ind.ParabolicSAR.highest_unique a b
    · next hd => rw [if_neg hd] at b; exact Ind.ParabolicSAR.lowest_unique a b
  have haf : (D i).af = (D' i).af := by
    rw [h.accel i hi, h'.accel i hi, hlong.1, hsince]
  clear heq ih
  revert hlong hsince hep haf
  generalize D i = d
  generalize D' i = d'
  cases d
  cases d'
  simp only [SarDay.mk.injEq]
  tauto

/-- C46: the acceleration factor stays within [0.02, 0.2]. -/
theorem C46_acceleration (high low : ℕ → ℚ) (n : ℕ) (D : ℕ → SarDay) (h : SarRun high low n D) (i : ℕ) (hi : i < n) :
    2 / 100 ≤ (D i).af ∧ (D i).af ≤ 20 / 100 := by
  rw [h.accel i hi]
  constructor
  · apply le_min (by norm_num)
    have : (0 : ℚ) ≤ ((if (D i).long then newHighs high (D i).since i else newLows low (D i).since i : ℕ) : ℚ) := Nat.cast_nonneg _
    linarith
  · exact (min_le_left _ _).trans (by norm_num)

/-- C46: while a long position continues, the SAR is not above the lows of the two days before and of the day itself; while
a short position continues, it is not below their highs. -/
theorem C46_stop_side (high low : ℕ → ℚ) (n : ℕ) (D : ℕ → SarDay) (h : SarRun high low n D) (i : ℕ) (hi : i + 1 < n)
    (hsame : (D (i + 1)).long = (D i).long) :
    ((D i).long = true → (D (i + 1)).sar ≤ low (i - 1) ∧ (D (i + 1)).sar ≤ low i ∧ (D (i + 1)).sar ≤ low (i + 1)) ∧
    ((D i).long = false → high (i - 1) ≤ (D (i + 1)).sar ∧ high i ≤ (D (i + 1)).sar ∧ high (i + 1) ≤ (D (i + 1)).sar) := by
  constructor
  · intro hl
    have := h.long i hi hl
    split at this
    · rw [this.1, hl] at hsame; simp at hsame
    · next hd =>
      rw [this.2]
      refine ⟨?_, ?_, not_lt.1 hd⟩
      · exact (min_le_right _ _).trans (min_le_left _ _)
      · exact (min_le_right _ _).trans (min_le_right _ _)
  · intro hl
    have := h.short i hi hl
    split at this
    · rw [this.1, hl] at hsame; simp at hsame
    · next hd =>
      rw [this.2]
      refine ⟨?_, ?_, not_lt.1 hd⟩
      · exact (le_max_left _ _).trans (le_max_right _ _)
      · exact (le_max_right _ _).trans (le_max_right _ _)

/-- C46: the position changes exactly on the days on which the price penetrates the stop. -/
theorem C46_reversal (high low : ℕ → ℚ) (n : ℕ) (D : ℕ → SarDay) (h : SarRun high low n D) (i : ℕ) (hi : i + 1 < n) :
    (D (i + 1)).long ≠ (D i).long ↔
      if (D i).long then low (i + 1) < longStop low i (D i) else shortStop high i (D i) < high (i + 1) := by
  cases hl : (D i).long with
  | true =>
    have := h.long i hi hl
    simp only [if_true]
    split at this
    · next hd => rw [this.1]; simp [hd]
    · next hd => rw [this.1]; simpa using hd
  | false =>
    have := h.short i hi hl
    simp only [Bool.false_eq_true, if_false]
    split at this
    · next hd => rw [this.1]; simp [hd]
    · next hd => rw [this.1]; simpa using hd

/-- On bars with low not above high the stop lies inside the prices seen so far. -/
theorem sar_inside (high low : ℕ → ℚ) (n : ℕ) (D : ℕ → SarDay) (h : SarRun high low n D) (lo hi : ℚ) (i : ℕ) (hin : i < n)
    (hb : ∀ j ≤ i, lo ≤ low j ∧ low j ≤ high j ∧ high j ≤ hi) : lo ≤ (D i).sar ∧ (D i).sar ≤ hi := by
  induction i with
  | zero =>
    rw [h.first.2]
    have := hb 0 le_rfl
    split <;> constructor <;> linarith
  | succ i ih =>
    have ih := ih (by omega) fun j hj => hb j (by omega)
    have haf := C46_acceleration high low n D h i (by omega)
    have b1 := hb i (by omega)
    have b2 := hb (i - 1) (by omega)
    have hep : lo ≤ (D i).ep ∧ (D i).ep ≤ hi := by
      have := h.extreme i (by omega)
      split at this
      all_goals
        obtain ⟨⟨k, k1, k2, k3⟩, -⟩ := this
        have := hb k (by omega)
        rw [k3] at this
        constructor <;> linarith
    have hmix : lo ≤ (D i).sar + (D i).af * ((D i).ep - (D i).sar) ∧ (D i).sar + (D i).af * ((D i).ep - (D i).sar) ≤ hi := by
      have e : (D i).sar + (D i).af * ((D i).ep - (D i).sar) = (1 - (D i).af) * (D i).sar + (D i).af * (D i).ep := by ring
      rw [e]
      have p1 : 0 ≤ 1 - (D i).af := by linarith
      have p2 : 0 ≤ (D i).af := by linarith
      constructor <;> nlinarith
    cases hl : (D i).long with
    | true =>
      have := h.long i hin hl
      split at this
      · obtain ⟨-, ⟨k, k1, k2, k3⟩, -⟩ := this
        have := hb k (by omega)
        rw [← k3]; constructor <;> linarith
      · rw [this.2]
        unfold longStop
        exact ⟨le_min hmix.1 (le_min (by linarith) (by linarith)), (min_le_left _ _).trans hmix.2⟩
    | false =>
      have := h.short i hin hl
      split at this
      · obtain ⟨-, ⟨k, k1, k2, k3⟩, -⟩ := this
        have := hb k (by omega)
        rw [← k3]; constructor <;> linarith
      · rw [this.2]
        unfold shortStop
        exact ⟨hmix.1.trans (le_max_left _ _), max_le hmix.2 (max_le (by linarith) (by linarith))⟩

/-- C51: on bars with low not above high, ParabolicSAR lies between the lowest low and the highest high seen so far (bounds
rounded to 4 decimals like the indicator); it is never missing. -/
theorem C51_sar_inside (E : Env) (c : Call) (f : RawFrame) (fill : Bool) (o : Obj) (hw : WF f)
    (h : (construct E c (.frame f) (.bool fill)).2 = .ok o) (hb : f.EachRow o.ind.required fun x => x "low" ≤ x "high")
    (ho : o.ind = .parabolicSAR) (i : ℕ) (hi : i < f.idx.length) (lo up : ℚ)
    (hlu : ∀ j ≤ i, lo ≤ lowOf f j ∧ highOf f j ≤ up) :
    ∃ q, o.getTiData.day "sar" i = .fin q ∧ roundQ 4 lo ≤ q ∧ q ≤ roundQ 4 up := by
  obtain ⟨D, hD, hv⟩ := C46_run E c f fill o hw h (eachRow_mono hb fun _ _ => trivial) ho
  refine ⟨_, hv i hi, ?_⟩
  obtain ⟨F, x, hg, hlen, -, h1, h2, h3, h4, ht, -, hc⟩ := construct_days E c f fill o _ hw h hb
  have m1 : "high" ∈ o.ind.required := by rw [ho]; simp [Ind.required]
  have m2 : "low" ∈ o.ind.required := by rw [ho]; simp [Ind.required]
  have := sar_inside (highOf f) (lowOf f) _ D hD lo up i hi fun j hj => by
    refine ⟨(hlu j hj).1, ?_, (hlu j hj).2⟩
    unfold lowOf highOf
    rw [h3 _ m1 j (by omega), h3 _ m2 j (by omega)]
    exact h4 j (by omega)
  exact ⟨roundQ_mono 4 this.1, roundQ_mono 4 this.2⟩

/-- The hypotheses on concrete bars: a long position that is stopped out. -/
def demoSar : RawFrame := ⟨true, [4, 1, 2, 3], [⟨.str "high", true, [.fin 11, .fin 10, .fin 12, .fin 14]⟩,
  ⟨.str "low", true, [.fin 7, .fin 8, .fin 9, .fin 11]⟩, ⟨.str "close", true, [.fin 8, .fin 9, .fin 11, .fin 13]⟩]⟩

theorem demoSar_rows : demoSar.EachRow Ind.parabolicSAR.required fun x => x "low" ≤ x "high" := by
  intro j hj
  have hj' : j < 4 := hj
  refine ⟨fun n => match demoSar.cell n j with
    | .fin q => q
    | _ => 0, ?_, ?_⟩
  · intro n hn
    simp only [Ind.required, List.mem_cons, List.not_mem_nil, or_false] at hn
    rcases hn with rfl | rfl | rfl <;> interval_cases j <;> decide +kernel
  · interval_cases j <;> decide +kernel

example : WF demoSar ∧ ((construct demoEnv .parabolicSAR (.frame demoSar) (.bool true)).2.map fun o =>
    (o.ind, (List.range 4).map (o.getTiData.day "sar"))) = .ok (.parabolicSAR, [.fin 8, .fin 8, .fin 8, .fin 14]) := by
  refine ⟨by unfold WF; decide, by decide +kernel⟩

end TTI.Props
