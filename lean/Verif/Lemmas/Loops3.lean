import Verif.Lemmas.Loops2
import Verif.Lemmas.Shape
import Verif.Lemmas.Signal

set_option autoImplicit false

/-! The loops of the code and the columns of `Model/Ind`. -/

namespace TTI.Ind.Loops

open Spec (LastSame)

section repeated

variable (idx : List ℤ) (j k : ℕ) (hj : j < idx.length) (hk : LastSame idx j k)
include hj hk

theorem volumeIndex_last (moves : Val → Val → Bool) (close volume : List Val) (hc : close.length = idx.length)
    (hv : volume.length = idx.length) :
    val (volumeIndex moves idx close volume) j = val (Ind.volumeIndex moves (close.zip volume)) k := by
  rw [volumeIndex_recur moves close volume (by omega) k (by have := hk.1; omega)]
  unfold volumeIndex
  refine label_loop idx 0 1000 (fun i v => if moves (at_ volume (i - 1)) (at_ volume i) then
        Val.add v (Val.mul (Val.sub (at_ close i) (at_ close (i - 1))) (Val.div v (at_ close (i - 1)))) else v) _ ?_ (by omega)
        j k hj hk
  intro i col
  split <;> rfl

theorem trend_last (close volume : List Val) (hc : close.length = idx.length) (hv : volume.length = idx.length) :
    val (trend idx close volume) j = val (Ind.PriceAndVolumeTrend.trend (close.zip volume)) k := by
  rw [trend_recur close volume (by omega) k (by have := hk.1; omega)]
  unfold trend
  exact label_loop idx 0 0 (fun i v => Val.add v (Val.mul (Val.sub (at_ close i) (at_ close (i - 1)))
        (Val.div (at_ volume i) (at_ close (i - 1))))) _ (fun _ _ => rfl) (by omega) j k hj hk

theorem wilder_last (skip period : ℕ) (hp : 1 ≤ period) (hn : skip + period ≤ idx.length) (xs : List Val)
    (hx : xs.length = idx.length) : val (wilder idx skip period xs) j = val (TTI.wilder skip period xs) k := by
  rw [wilder_recur skip period hp xs k (by have := hk.1; omega)]
  unfold wilder
  have := label_loop idx (skip + period - 1) (meanSkip ((xs.drop skip).take period)) (fun j p =>
    Val.add p (Val.div (Val.sub (at_ xs j) p) (.fin period))) _ (fun _ _ => rfl) (by omega) j k hj hk
  rw [show skip + period - 1 + 1 = skip + period by omega] at this
  exact this

theorem variableMa_last (period : ℕ) (close vr : List Val) (hc : close.length = idx.length) (hv : vr.length = idx.length)
    (hn : 22 ≤ idx.length) :
    val (variableMa idx period close vr) j = val (MovingAverage.variableMa period (close.zip vr)) k := by
  rw [variableMa_recur period close vr (by omega) (by omega) k (by have := hk.1; omega)]
  unfold variableMa
  exact label_loop idx 21 (at_ close 21) (fun i p =>
      Val.add (Val.mul (Val.mul (.fin (2 / ((period : ℚ) + 1))) (at_ close i)) (at_ vr i))
        (Val.mul (Val.sub 1 (Val.mul (.fin (2 / ((period : ℚ) + 1))) (at_ vr i))) p)) _ (fun _ _ => rfl) (by omega) j k hj hk

end repeated

theorem volumeIndex_length (idx : List ℤ) (h : 0 < idx.length) (moves : Val → Val → Bool) (close volume : List Val) :
    (volumeIndex moves idx close volume).length = idx.length := by
  refine label_loop_length idx 0 1000 (fun i v => if moves (at_ volume (i - 1)) (at_ volume i) then
        Val.add v (Val.mul (Val.sub (at_ close i) (at_ close (i - 1))) (Val.div v (at_ close (i - 1)))) else v) _ ?_ h
  intro i col
  split <;> rfl

theorem trend_length (idx : List ℤ) (h : 0 < idx.length) (close volume : List Val) :
    (trend idx close volume).length = idx.length :=
  label_loop_length idx 0 0 (fun i v => Val.add v (Val.mul (Val.sub (at_ close i) (at_ close (i - 1)))
        (Val.div (at_ volume i) (at_ close (i - 1))))) _ (fun _ _ => rfl) h

theorem wilder_length' (idx : List ℤ) (skip period : ℕ) (hp : 1 ≤ period) (hn : skip + period ≤ idx.length) (xs : List Val) :
    (wilder idx skip period xs).length = idx.length := by
  unfold wilder
  have := label_loop_length idx (skip + period - 1) (meanSkip ((xs.drop skip).take period)) (fun j p =>
    Val.add p (Val.div (Val.sub (at_ xs j) p) (.fin period))) _ (fun _ _ => rfl) (by omega)
  rw [show skip + period - 1 + 1 = skip + period by omega] at this
  exact this

theorem variableMa_length (idx : List ℤ) (period : ℕ) (close vr : List Val) (hn : 22 ≤ idx.length) :
    (variableMa idx period close vr).length = idx.length :=
  label_loop_length idx 21 (at_ close 21) (fun i p =>
      Val.add (Val.mul (Val.mul (.fin (2 / ((period : ℚ) + 1))) (at_ close i)) (at_ vr i))
        (Val.mul (Val.sub 1 (Val.mul (.fin (2 / ((period : ℚ) + 1))) (at_ vr i))) p)) _ (fun _ _ => rfl) (by omega)

/-! ## Distinct dates -/

section distinct

variable (idx : List ℤ) (hnd : idx.Nodup)
include hnd

theorem volumeIndex_eq (h : 0 < idx.length) (moves : Val → Val → Bool) (close volume : List Val) (hc : close.length = idx.length)
    (hv : volume.length = idx.length) : volumeIndex moves idx close volume = Ind.volumeIndex moves (close.zip volume) := by
  have hl := volumeIndex_length idx h moves close volume
  apply val_ext
  · rw [hl]; simp [Ind.volumeIndex, hc, hv]
  · intro j hj
    rw [hl] at hj
    exact volumeIndex_last idx j j hj (lastSame_nodup idx hnd j hj) moves close volume hc hv

theorem trend_eq (h : 0 < idx.length) (close volume : List Val) (hc : close.length = idx.length)
    (hv : volume.length = idx.length) : trend idx close volume = Ind.PriceAndVolumeTrend.trend (close.zip volume) := by
  have hl := trend_length idx h close volume
  apply val_ext
  · rw [hl]; simp [Ind.PriceAndVolumeTrend.trend, hc, hv]
  · intro j hj
    rw [hl] at hj
    exact trend_last idx j j hj (lastSame_nodup idx hnd j hj) close volume hc hv

theorem wilder_eq (skip period : ℕ) (hp : 1 ≤ period) (hn : skip + period ≤ idx.length) (xs : List Val)
    (hx : xs.length = idx.length) : wilder idx skip period xs = TTI.wilder skip period xs := by
  have hl := wilder_length' idx skip period hp hn xs
  apply val_ext
  · rw [hl]; simp [hx]
  · intro j hj
    rw [hl] at hj
    exact wilder_last idx j j hj (lastSame_nodup idx hnd j hj) skip period hp hn xs hx

theorem variableMa_eq (period : ℕ) (close vr : List Val) (hc : close.length = idx.length) (hv : vr.length = idx.length)
    (hn : 22 ≤ idx.length) : variableMa idx period close vr = MovingAverage.variableMa period (close.zip vr) := by
  have hl := variableMa_length idx period close vr hn
  apply val_ext
  · rw [hl]; simp [MovingAverage.variableMa, hc, hv]
  · intro j hj
    rw [hl] at hj
    exact variableMa_last idx j j hj (lastSame_nodup idx hnd j hj) period close vr hc hv hn

theorem smoothRsi_eq (period : ℕ) (xs : List Val) (hx : xs.length = idx.length) (hn : period < idx.length) :
    smoothRsi idx period xs = RelativeStrengthIndex.smooth period xs := by
  obtain ⟨hl, hv⟩ := row_loop idx hnd period (meanSkip (xs.take (period + 1)))
    (fun j p => Val.round 4 (Val.add p (Val.div (Val.sub (at_ xs j) p) (.fin period)))) _ (fun _ _ => rfl) hn
  apply val_ext
  · exact hl.trans (by simp [RelativeStrengthIndex.smooth, hx])
  · intro j hj
    have hj' : j < idx.length := lt_of_lt_of_eq hj hl
    rw [smoothRsi_recur period xs j (by omega)]
    exact hv j hj'

theorem smooth14_eq (xs : List Val) (hx : xs.length = idx.length) (hn : 13 < idx.length) :
    smooth14 idx xs = DirectionalMovementIndex.smooth14 xs := by
  obtain ⟨hl, hv⟩ := row_loop idx hnd 13 (sumSkip (xs.take 14))
    (fun j p => Val.add (Val.sub p (Val.div p 14)) (at_ xs j)) _ (fun _ _ => rfl) hn
  apply val_ext
  · exact hl.trans (by simp [DirectionalMovementIndex.smooth14, hx])
  · intro j hj
    have hj' : j < idx.length := lt_of_lt_of_eq hj hl
    rw [smooth14_recur xs j (by omega)]
    exact hv j hj'

theorem adx_eq (xs : List Val) (hx : xs.length = idx.length) (hn : 27 < idx.length) :
    adx idx xs = DirectionalMovementIndex.adxOf xs := by
  obtain ⟨hl, hv⟩ := row_loop idx hnd 27 (Val.div (sumSkip (xs.take 28)) 14)
    (fun j p => Val.div (Val.add (Val.mul 13 p) (at_ xs j)) 14) _ (fun _ _ => rfl) hn
  apply val_ext
  · exact hl.trans (by simp [DirectionalMovementIndex.adxOf, hx])
  · intro j hj
    have hj' : j < idx.length := lt_of_lt_of_eq hj hl
    rw [adx_recur xs j (by omega)]
    exact hv j hj'

theorem seeText_eq (range close : List Val) (hr : range.length = idx.length) (hc : close.length = idx.length) :
    seeText idx range close = maskBefore 1 (zip3 RangeIndicator.seeText range close (shift 1 close)) := by
  obtain ⟨hl, hv⟩ := label_fill idx hnd (fun i => RangeIndicator.seeText (at_ range i) (at_ close i) (at_ close (i - 1)))
    (fun i col => if at_ close (i - 1) <ᵥ at_ close i then
      writeLabel idx i (Val.div (at_ range i) (Val.sub (at_ close i) (at_ close (i - 1)))) col
    else writeLabel idx i (at_ range i) col) (by
      intro i col
      unfold RangeIndicator.seeText
      split <;> rfl) 1
  apply val_ext
  · exact hl.trans (by simp [hr, hc])
  · intro j hj
    have hj' : j < idx.length := lt_of_lt_of_eq hj hl
    refine (hv j hj').trans ?_
    rw [val_maskBefore]
    split
    · rfl
    · rw [val_zip3 _ _ _ _ _ (by omega) (by omega) (by rw [shift_length]; omega), val_shift _ _ _ (by omega), if_neg (by omega)]
      rfl

theorem scaled_eq (text lo hi : List Val) (ht : text.length = idx.length) (hlo : lo.length = idx.length)
    (hhi : hi.length = idx.length) : scaled idx text lo hi = zip3 RangeIndicator.scaled text lo hi := by
  unfold scaled
  dsimp only
  set r := subS hi lo with hr
  have hrl : r.length = idx.length := by simp [hr, hlo, hhi]
  set r' := writeAligned idx (r.map fun x => (0 : Val) <ᵥ x) (divS (scaleS 100 (subS text lo)) (subS hi lo)) r with hr'
  have hrl' : r'.length = idx.length := writeAligned_length _ _ _ _ (by simp [hrl]) hrl
  have h1 : ∀ j < idx.length, val r' j = if (0 : Val) <ᵥ val r j then
      Val.div (Val.mul 100 (Val.sub (val text j) (val lo j))) (Val.sub (val hi j) (val lo j)) else val r j := by
    intro j hj
    rw [hr', val_writeAligned idx hnd _ _ _ (by simp [hrl]) (by simp [ht, hlo, hhi]) hrl j hj, List.getElem_map,
      ← val_lt r j (by omega), val_divS, val_scaleS, val_subS, val_subS]
    rfl
  apply val_ext
  · rw [writeAligned_length _ _ _ _ (by simp [hrl']) hrl']
    simp [ht, hlo, hhi]
  · intro j hj
    rw [writeAligned_length _ _ _ _ (by simp [hrl']) hrl'] at hj
    rw [val_writeAligned idx hnd _ _ _ (by simp [hrl']) (by simp [ht, hlo]) hrl' j hj, List.getElem_map,
      ← val_lt r' j (by omega), h1 j hj, val_scaleS, val_zip3 _ _ _ _ _ (by omega) (by omega) (by omega), hr]
    simp only [val_subS]
    rfl

theorem upc_eq (change : List Val) (hc : change.length = idx.length) :
    upc idx change = change.map RelativeMomentumIndex.upward := by
  unfold upc
  have hl : (writeAligned idx (change.map fun x => (0 : Val) <ᵥ x) change (blank idx.length)).length = idx.length :=
    writeAligned_length _ _ _ _ (by simp [hc]) (by simp)
  have hm : ∀ f : Val → Bool, (change.map f).length = idx.length := fun f => by simp [hc]
  apply val_ext
  · rw [writeMask_length _ _ _ (by rw [hl, hm]), hm, List.length_map, hc]
  · intro j hj
    rw [writeMask_length _ _ _ (by rw [hl, hm]), hm] at hj
    rw [val_writeMask _ _ _ (by rw [hl, hm]) j (by rw [hm]; exact hj), List.getElem_map,
      val_writeAligned idx hnd _ _ _ (hm _) hc (by simp) j hj, List.getElem_map, ← val_lt _ _ (by omega), val_blank,
      val_map_lt _ _ _ (by omega)]
    rfl

theorem dpc_eq (change : List Val) (hc : change.length = idx.length) :
    dpc idx change = change.map RelativeMomentumIndex.downward := by
  unfold dpc
  have hl : (writeAligned idx (change.map fun x => x <ᵥ 0) (change.map Val.abs) (blank idx.length)).length = idx.length :=
    writeAligned_length _ _ _ _ (by simp [hc]) (by simp)
  have hm : ∀ f : Val → Bool, (change.map f).length = idx.length := fun f => by simp [hc]
  apply val_ext
  · rw [writeMask_length _ _ _ (by rw [hl, hm]), hm, List.length_map, hc]
  · intro j hj
    rw [writeMask_length _ _ _ (by rw [hl, hm]), hm] at hj
    rw [val_writeMask _ _ _ (by rw [hl, hm]) j (by rw [hm]; exact hj), List.getElem_map,
      val_writeAligned idx hnd _ _ _ (hm _) (by simp [hc]) (by simp) j hj, List.getElem_map, ← val_lt _ _ (by omega), val_blank,
      val_map_lt _ _ _ (by omega), val_map_lt _ _ _ (by omega)]
    rfl

theorem selected_eq (sq : ℚ → ℚ) (sel : Val → Bool) (price : List Val) (hp : price.length = idx.length) :
    selected sq idx sel price = RelativeVolatilityIndex.selected sq sel price := by
  unfold selected RelativeVolatilityIndex.selected
  have hl : ∀ f : Val → Bool, ((subS price (shift 1 price)).map f).length = idx.length := fun f => by simp [hp]
  have hz : (List.replicate idx.length (0 : Val)).length = idx.length := by simp
  apply val_ext
  · rw [writeAligned_length _ _ _ _ (hl _) hz]; simp [hp]
  · intro j hj
    rw [writeAligned_length _ _ _ _ (hl _) hz] at hj
    rw [val_writeAligned idx hnd _ _ _ (hl _) (by simp [hp]) hz j hj, List.getElem_map,
      ← val_lt (subS price (shift 1 price)) j (by simp [hp]; omega), val_zipV _ _ _ _ (by simp [hp]; omega) (by simp [hp]; omega)]
    congr 1
    rw [val_lt _ _ (by omega)]
    simp

theorem signedVolume_eq (close volume : List Val) (hc : close.length = idx.length) (hv : volume.length = idx.length) :
    signedVolume idx close volume = zip3 OnBalanceVolume.signedVolume close (shift 1 close) volume := by
  unfold signedVolume
  dsimp only
  have hz : (List.replicate idx.length (0 : Val)).length = idx.length := by simp
  have hw : ∀ f : Val → Val → Bool, (List.zipWith f close (shift 1 close)).length = idx.length := fun f => by simp [hc]
  have h1 : (writeAligned idx (List.zipWith (fun c p => p <ᵥ c) close (shift 1 close)) volume
      (List.replicate idx.length 0)).length = idx.length := writeAligned_length _ _ _ _ (hw _) hz
  apply val_ext
  · rw [writeAligned_length _ _ _ _ (hw _) h1]; simp [hc, hv]
  · intro j hj
    rw [writeAligned_length _ _ _ _ (hw _) h1] at hj
    have hs : val (shift 1 close) j = (shift 1 close)[j]'(by rw [shift_length]; omega) := val_lt _ _ (by rw [shift_length]; omega)
    rw [val_writeAligned idx hnd _ _ _ (hw _) (by simp [hv]) h1 j hj, val_writeAligned idx hnd _ _ _ (hw _) hv hz j hj,
      val_zip3 _ _ _ _ _ (by omega) (by rw [shift_length]; omega) (by omega)]
    simp only [List.getElem_zipWith]
    rw [← hs, ← val_lt close j (by omega), val_map_lt _ _ _ (by omega), val_lt (List.replicate _ _) _ (by omega)]
    simp only [List.getElem_replicate]
    rfl

theorem wad_eq (close high low : List Val) (hc : close.length = idx.length) (hh : high.length = idx.length)
    (hl : low.length = idx.length) :
    wad idx close high low = List.zipWith (fun (p q : Val × Val) => WilliamsAccumulationDistribution.row p.1 p.2 q.1 q.2)
      (close.zip (shift 1 close)) (high.zip low) := by
  unfold wad
  dsimp only
  set w := subS close (shift 1 close) with hw
  have hwl : w.length = idx.length := by simp [hw, hc]
  have hm : ∀ f : Val → Bool, (w.map f).length = idx.length := fun f => by simp [hwl]
  have h1 : (writeAligned idx (w.map fun x => (0 : Val) <ᵥ x) (subS close (zipV minNan (shift 1 close) low)) w).length =
      idx.length := writeAligned_length _ _ _ _ (hm _) hwl
  apply val_ext
  · rw [writeAligned_length _ _ _ _ (hm _) h1]; simp [hc, hh, hl]
  · intro j hj
    rw [writeAligned_length _ _ _ _ (hm _) h1] at hj
    rw [val_writeAligned idx hnd _ _ _ (hm _) (by simp [hc, hh]) h1 j hj,
      val_writeAligned idx hnd _ _ _ (hm _) (by simp [hc, hl]) hwl j hj, List.getElem_map, List.getElem_map,
      ← val_lt w j (by omega), hw]
    simp only [val_subS]
    rw [val_zipV minNan _ _ _ (by rw [shift_length]; omega) (by omega),
      val_zipV maxNan _ _ _ (by rw [shift_length]; omega) (by omega)]
    have : val (List.zipWith (fun (p q : Val × Val) => WilliamsAccumulationDistribution.row p.1 p.2 q.1 q.2)
        (close.zip (shift 1 close)) (high.zip low)) j =
        WilliamsAccumulationDistribution.row (val close j) (val (shift 1 close) j) (val high j) (val low j) := by
      rw [val_lt _ _ (by simp [hc, hh, hl]; omega), val_lt close j (by omega), val_lt (shift 1 close) j (by rw [shift_length]; omega),
        val_lt high j (by omega), val_lt low j (by omega)]
      simp
    rw [this]
    rfl

theorem di_eq (dm14 tr14 : List Val) (h1 : dm14.length = idx.length) (h2 : tr14.length = idx.length) :
    di idx dm14 tr14 = maskBefore 14 (divS (scaleS 100 dm14) tr14) := by
  unfold di
  have hf : (fromRow 14 idx.length).length = idx.length := by simp [fromRow]
  apply val_ext
  · rw [writeAligned_length _ _ _ _ hf (by simp)]; simp [h1, h2]
  · intro j hj
    rw [writeAligned_length _ _ _ _ hf (by simp)] at hj
    rw [val_writeAligned idx hnd _ _ _ hf (by simp [h1, h2]) (by simp) j hj, val_blank, val_maskBefore]
    simp only [fromRow, List.getElem_map, List.getElem_range, decide_eq_true_eq]
    by_cases h : j < 14
    · rw [if_neg (by omega), if_pos h]
    · rw [if_pos (by omega), if_neg h]

end distinct

theorem changes_eq (f : Val → Val → Val) (close : List Val) :
    changes f close.length close = maskBefore 1 (zipV f close (shift 1 close)) := by
  obtain ⟨hl, hv⟩ := fill_loop 1 close.length (fun i => f (at_ close i) (at_ close (i - 1))) _ (fun _ _ => rfl)
  apply val_ext
  · exact hl.trans (by simp)
  · intro j hj
    have hj' : j < close.length := lt_of_lt_of_eq hj hl
    refine (hv j hj').trans ?_
    rw [val_maskBefore]
    split
    · rfl
    · rw [val_zipV _ _ _ _ hj' (by rw [shift_length]; omega), val_shift _ _ _ hj', if_neg (by omega)]
      rfl

theorem dm_eq (f : Val → Val → Val → Val → Val) (F : Frame) (hh : (F.col "high").length = F.len)
    (hl' : (F.col "low").length = F.len) :
    dm f F.len (F.col "high") (F.col "low") = DirectionalMovementIndex.dm f F := by
  obtain ⟨hl, hv⟩ := fill_loop 1 F.len (fun i => f (at_ (F.col "high") i) (at_ (F.col "high") (i - 1))
    (at_ (F.col "low") i) (at_ (F.col "low") (i - 1))) _ (fun _ _ => rfl)
  unfold DirectionalMovementIndex.dm
  apply val_ext
  · exact hl.trans (by simp [hh, hl'])
  · intro j hj
    have hj' : j < F.len := lt_of_lt_of_eq hj hl
    refine (hv j hj').trans ?_
    rw [val_maskBefore]
    split
    · rfl
    · rw [val_lt (List.zipWith _ _ _) j (by simp [hh, hl', hj'])]
      simp only [List.getElem_zipWith, List.getElem_zip]
      rw [← val_lt (shift 1 (F.col "high")) j (by rw [shift_length]; omega), ← val_lt (shift 1 (F.col "low")) j (by rw [shift_length]; omega),
        val_shift _ _ _ (by omega), val_shift _ _ _ (by omega), if_neg (by omega), if_neg (by omega), ← val_lt _ j, ← val_lt _ j]
      rfl

theorem dmiRange_eq (F : Frame) (hh : (F.col "high").length = F.len) (hl' : (F.col "low").length = F.len)
    (hc : (F.col "close").length = F.len) :
    dmiRange F.len (F.col "high") (F.col "low") (F.col "close") = maskBefore 1 (trueRange maxNan F) := by
  obtain ⟨hl, hv⟩ := fill_loop 1 F.len (fun i => maxNan (maxNan (Val.sub (at_ (F.col "high") i) (at_ (F.col "low") i))
    (Val.sub (at_ (F.col "high") i) (at_ (F.col "close") (i - 1)))) (Val.sub (at_ (F.col "close") (i - 1)) (at_ (F.col "low") i))) _
    (fun _ _ => rfl)
  unfold trueRange
  apply val_ext
  · exact hl.trans (by simp [hh, hl', hc])
  · intro j hj
    have hj' : j < F.len := lt_of_lt_of_eq hj hl
    refine (hv j hj').trans ?_
    rw [val_maskBefore]
    split
    · rfl
    · rw [val_zip3 _ _ _ _ _ (by simp [hh, hl', hj']) (by simp [hh, hc, hj']) (by simp [hc, hl', hj']), val_subS, val_subS, val_subS,
        val_shift _ _ _ (by omega), if_neg (by omega)]
      rfl

theorem adxr_eq (xs : List Val) :
    adxr xs.length xs = maskBefore 40 ((addS xs (shift 13 xs)).map fun x => Val.div x 2) := by
  obtain ⟨hl, hv⟩ := fill_loop 40 xs.length (fun i => Val.div (Val.add (at_ xs i) (at_ xs (i - 13))) 2) _ (fun _ _ => rfl)
  apply val_ext
  · exact hl.trans (by simp)
  · intro j hj
    have hj' : j < xs.length := lt_of_lt_of_eq hj hl
    refine (hv j hj').trans ?_
    rw [val_maskBefore]
    split
    · rfl
    · rw [val_map_lt _ _ _ (by simp [hj']), val_addS, val_shift _ _ _ hj', if_neg (by omega)]
      rfl

end TTI.Ind.Loops
