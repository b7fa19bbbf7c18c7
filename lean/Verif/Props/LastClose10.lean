import Verif.Props.LastClose9

set_option autoImplicit false

/-!
# A higher last close: classes it has no influence on (C106)
-/

namespace TTI.Props

open Spec LastClose

variable {E : Env} {c : Call} {f g : RawFrame} {fill : Bool} {o p : Obj}

/-- The frames behind two objects whose tables differ in the last close. -/
theorem raised_frames {P : (String → ℚ) → Prop} (ho : BuiltOn E c f fill o P) (hp : BuiltOn E c g fill p P) (hr : LastCloseRaised f g) :
    ∃ F G : Frame, o.ind.calcTi E F = .ok o.ti ∧ p.ind.calcTi E G = .ok p.ti ∧ F.len = G.len ∧
      (∀ n ∈ o.ind.required, n ≠ "close" → n ∈ ["open", "high", "low", "volume"] → F.col n = G.col n) ∧
      ("close" ∈ o.ind.required → shift 1 (F.col "close") = shift 1 (G.col "close")) := by
  have hi := same_ind ho hp
  obtain ⟨F, l1, n1, -, t1, -, -⟩ := ho.cols
  obtain ⟨G, l2, n2, -, t2, -, -⟩ := hp.cols
  have hl : G.len = F.len := by rw [l1, l2, hr.days]
  rw [hi, hl] at n2
  refine ⟨F, G, t1, t2, hl.symm, fun n hn _ hm => ?_, fun hn => ?_⟩
  · exact nums_same (n1 n hn) (n2 n hn) fun i h => (hr.other n hm i (by omega)).symm
  · have c1 := n1 _ hn
    have c2 := n2 _ hn
    refine val_ext (by rw [shift_length, shift_length, c1.len, c2.len]) fun i h => ?_
    rw [shift_length, c1.len] at h
    rw [val_shift _ _ _ (by rw [c1.len]; exact h), val_shift _ _ _ (by rw [c2.len]; exact h)]
    split
    · rfl
    · rw [c1.val _ (by omega), c2.val _ (by omega), hr.before _ (by omega)]

/-- Two tables of indicator data with the same columns, and maybe other dates. -/
theorem guard_same {n l : ℕ} {e e' : Err} {i j : List ℤ} {C : List (String × List Val)} {T T' : Frame}
    (h1 : (if l < n then .error e else .ok ⟨i, C⟩ : Except Err Frame) = .ok T)
    (h2 : (if l < n then .error e' else .ok ⟨j, C⟩ : Except Err Frame) = .ok T') (hl : i.length = j.length) :
    T.cols = T'.cols ∧ T.idx.length = T'.idx.length := by
  rw [guard_ok h1, guard_ok h2]
  exact ⟨rfl, hl⟩

/-- C106: the values and the signal of these classes do not depend on the last close. -/
theorem C106_unmoved {P : (String → ℚ) → Prop} (ho : BuiltOn E c f fill o P) (hp : BuiltOn E c g fill p P) (hr : LastCloseRaised f g)
    (hi : ignoresLastClose o.ind = true) :
    (∀ name, p.getTiData.col name = o.getTiData.col name) ∧ p.getTiSignal = o.getTiSignal := by
  obtain ⟨F, G, t1, t2, hl, hc, hs⟩ := raised_frames ho hp hr
  have hind := same_ind ho hp
  have hl' : F.idx.length = G.idx.length := hl
  rw [hind] at t2
  have key : o.ti.cols = p.ti.cols ∧ o.ti.idx.length = p.ti.idx.length := by
    cases h : o.ind <;> rw [h] at hi t1 t2 hc hs <;> simp [ignoresLastClose] at hi
    case directionalMovementIndex =>
      have e1 := hc "high" (by simp [Ind.required]) (by simp) (by simp)
      have e2 := hc "low" (by simp [Ind.required]) (by simp) (by simp)
      have e3 := hs (by simp [Ind.required])
      simp only [Ind.calcTi, Ind.DirectionalMovementIndex.calcTi, Ind.DirectionalMovementIndex.dm, Ind.trueRange, e1, e2, e3, hl] at t1 t2
      exact guard_same t1 t2 hl'
    case easeOfMovement n =>
      have e1 := hc "high" (by simp [Ind.required]) (by simp) (by simp)
      have e2 := hc "low" (by simp [Ind.required]) (by simp) (by simp)
      have e3 := hc "volume" (by simp [Ind.required]) (by simp) (by simp)
      simp only [Ind.calcTi, Ind.EaseOfMovement.calcTi, e1, e2, e3, hl] at t1 t2
      exact guard_same t1 t2 hl'
    case marketFacilitationIndex =>
      have e1 := hc "high" (by simp [Ind.required]) (by simp) (by simp)
      have e2 := hc "low" (by simp [Ind.required]) (by simp) (by simp)
      have e3 := hc "volume" (by simp [Ind.required]) (by simp) (by simp)
      simp only [Ind.calcTi, Ind.MarketFacilitationIndex.calcTi, e1, e2, e3] at t1 t2
      rw [← Except.ok.inj t1, ← Except.ok.inj t2]
      exact ⟨rfl, hl'⟩
    case relativeVolatilityIndex n =>
      have e1 := hc "high" (by simp [Ind.required]) (by simp) (by simp)
      have e2 := hc "low" (by simp [Ind.required]) (by simp) (by simp)
      simp only [Ind.calcTi, Ind.RelativeVolatilityIndex.calcTi, e1, e2, hl] at t1 t2
      exact guard_same t1 t2 hl'
    case volatilityChaikins a b =>
      have e1 := hc "high" (by simp [Ind.required]) (by simp) (by simp)
      have e2 := hc "low" (by simp [Ind.required]) (by simp) (by simp)
      simp only [Ind.calcTi, Ind.VolatilityChaikins.calcTi, e1, e2, hl] at t1 t2
      exact guard_same t1 t2 hl'
    case volumeOscillator a b =>
      have e1 := hc "volume" (by simp [Ind.required]) (by simp) (by simp)
      simp only [Ind.calcTi, Ind.VolumeOscillator.calcTi, e1, hl] at t1 t2
      exact guard_same t1 t2 hl'
    case volumeRateOfChange a =>
      have e1 := hc "volume" (by simp [Ind.required]) (by simp) (by simp)
      simp only [Ind.calcTi, Ind.VolumeRateOfChange.calcTi, e1, hl] at t1 t2
      exact guard_same t1 t2 hl'
  obtain ⟨k1, k2⟩ := key
  have hcol : ∀ name, p.ti.col name = o.ti.col name := fun name => by unfold Frame.col; rw [k1]
  have hlen : p.ti.len = o.ti.len := k2.symm
  refine ⟨hcol, ?_⟩
  unfold Obj.getTiSignal
  rw [hind]
  cases h : o.ind <;> rw [h] at hi <;> simp [ignoresLastClose] at hi <;>
    simp only [Ind.signal, Ind.DirectionalMovementIndex.signal, Ind.EaseOfMovement.signal, Ind.MarketFacilitationIndex.signal,
      Ind.RelativeVolatilityIndex.signal, Ind.VolatilityChaikins.signal, Ind.VolumeOscillator.signal, Ind.VolumeRateOfChange.signal,
      levelSignal, trendSignal, hcol, hlen]

/-- The hypotheses of `C106_unmoved`, with the signals buy and sell. -/
example : Moves (.easeOfMovement (.int 2)) .buy .buy ∧ Moves (.volumeRateOfChange (.int 1)) .sell .sell ∧
    Moves .directionalMovementIndex .buy .buy := by
  refine ⟨?_, ?_, ?_⟩
  · exact moves_of (.easeOfMovement (.int 2)) (.easeOfMovement 2) [20, 18, 16] 26 33 [22, 20, 18, 34] [18, 16, 14, 26] [20, 20, 20, 20]
      [10, 10, 10, 10] (by decide +kernel) (by decide +kernel) (by decide) (by decide) (by decide +kernel) (by decide +kernel)
  · exact moves_of (.volumeRateOfChange (.int 1)) (.volumeRateOfChange 1) [20, 18, 16] 26 33 [22, 20, 18, 34] [18, 16, 14, 26] [20, 20,
      20, 20] [100, 110, 130, 200] (by decide +kernel) (by decide +kernel) (by decide) (by decide) (by decide +kernel)
      (by decide +kernel)
  · exact moves_of (.directionalMovementIndex) (.directionalMovementIndex) [98, 97, 96, 95, 94, 93, 92, 91, 90, 89, 88, 87, 86, 85, 84,
      83, 82, 81, 80, 79, 78, 77, 76, 75, 74, 73, 72, 71, 70, 69, 68, 67, 66, 65, 64, 63, 62, 61, 60, 59, 58, 57, 56] 80 125 [100, 99,
      98, 97, 96, 95, 94, 93, 92, 91, 90, 89, 88, 87, 86, 85, 84, 83, 82, 81, 80, 79, 78, 77, 76, 75, 74, 73, 72, 71, 70, 69, 68, 67,
      66, 65, 64, 63, 62, 61, 60, 59, 58, 130] [96, 95, 94, 93, 92, 91, 90, 89, 88, 87, 86, 85, 84, 83, 82, 81, 80, 79, 78, 77, 76, 75,
      74, 73, 72, 71, 70, 69, 68, 67, 66, 65, 64, 63, 62, 61, 60, 59, 58, 57, 56, 55, 54, 70] [20, 20, 20, 20, 20, 20, 20, 20, 20, 20,
      20, 20, 20, 20, 20, 20, 20, 20, 20, 20, 20, 20, 20, 20, 20, 20, 20, 20, 20, 20, 20, 20, 20, 20, 20, 20, 20, 20, 20, 20, 20, 20,
      20, 20] [10, 10, 10, 10, 10, 10, 10, 10, 10, 10, 10, 10, 10, 10, 10, 10, 10, 10, 10, 10, 10, 10, 10, 10, 10, 10, 10, 10, 10, 10,
      10, 10, 10, 10, 10, 10, 10, 10, 10, 10, 10, 10, 10, 10] (by decide +kernel) (by decide +kernel) (by decide) (by decide)
      (by decide +kernel) (by decide +kernel)

end TTI.Props
