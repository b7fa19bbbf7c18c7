import Verif.Lemmas.Loops

set_option autoImplicit false

/-! The columns of `Model/Ind` as recursions over the rows. -/

namespace TTI.Ind.Loops

theorem take_drop_succ {α : Type} (xs : List α) (s i : ℕ) (hs : s ≤ i) (hi : i + 1 < xs.length) :
    (xs.take (i + 1 + 1)).drop (s + 1) = (xs.take (i + 1)).drop (s + 1) ++ [xs[i + 1]] := by
  rw [List.take_add_one, List.getElem?_eq_getElem hi, List.drop_append_of_le_length (by rw [List.length_take]; omega)]
  rfl

theorem fold_recur {α : Type} (xs : List α) (s : ℕ) (v : Val) (f : Val → α → Val) (g : ℕ → α)
    (hg : ∀ j (h : j < xs.length), xs[j] = g j) (i : ℕ) (hs : s ≤ i) (hi : i < xs.length) :
    ((xs.take (i + 1)).drop (s + 1)).foldl f v = recur s v (fun j p => f p (g j)) i := by
  induction i with
  | zero =>
    obtain rfl : s = 0 := by omega
    rw [List.drop_eq_nil_of_le (by rw [List.length_take]; omega), List.foldl_nil, recur_start]
  | succ i ih =>
    by_cases h : s = i + 1
    · subst h
      rw [List.drop_eq_nil_of_le (by rw [List.length_take]; omega), List.foldl_nil, recur_start]
    · rw [take_drop_succ xs s i (by omega) hi, List.foldl_append, ih (by omega) (by omega), recur_succ _ _ _ _ (by omega),
        List.foldl_cons, List.foldl_nil, hg]

theorem volumeIndex_recur (moves : Val → Val → Bool) (close volume : List Val) (hl : volume.length = close.length) (i : ℕ)
    (hi : i < close.length) :
    val (Ind.volumeIndex moves (close.zip volume)) i =
      recur 0 1000 (fun i v => if moves (at_ volume (i - 1)) (at_ volume i) then
        Val.add v (Val.mul (Val.sub (at_ close i) (at_ close (i - 1))) (Val.div v (at_ close (i - 1)))) else v) i := by
  have hz : (close.zip volume).length = close.length := by simp [hl]
  unfold Ind.volumeIndex
  rw [val_prefixMap' _ _ _ (by omega)]
  obtain ⟨first, rest, hfr⟩ : ∃ first rest, close.zip volume = first :: rest := by
    cases h : close.zip volume with
    | nil => rw [h] at hz; simp at hz; omega
    | cons a b => exact ⟨a, b, rfl⟩
  have hget : ∀ j, (h : j < (close.zip volume).length) → (close.zip volume)[j] = (at_ close j, at_ volume j) := by
    intro j h
    rw [hz] at h
    rw [List.getElem_zip, at_val, at_val, val_lt _ _ h, val_lt _ _ (by omega)]
  rw [hfr] at hz hget ⊢
  simp only [List.take_succ_cons]
  have key : ∀ i, i < close.length →
      (rest.take i).foldl (fun (st : Val × (Val × Val)) r =>
        (if moves st.2.2 r.2 then Val.add st.1 (Val.mul (Val.sub r.1 st.2.1) (Val.div st.1 st.2.1)) else st.1, r))
        ((1000 : Val), first) = (recur 0 1000 (fun i v => if moves (at_ volume (i - 1)) (at_ volume i) then
        Val.add v (Val.mul (Val.sub (at_ close i) (at_ close (i - 1))) (Val.div v (at_ close (i - 1)))) else v) i,
          (at_ close i, at_ volume i)) := by
    intro i
    induction i with
    | zero =>
      intro _
      rw [List.take_zero, List.foldl_nil, recur_start, ← hget 0 (by omega)]
      rfl
    | succ i ih =>
      intro hi
      have hir : i < rest.length := by rw [List.length_cons] at hz; omega
      rw [List.take_add_one, List.getElem?_eq_getElem hir, List.foldl_append, ih (by omega)]
      have hg := hget (i + 1) (by omega)
      rw [List.getElem_cons_succ] at hg
      simp only [Option.toList_some, List.foldl_cons, List.foldl_nil, hg, recur_succ _ _ _ _ (Nat.zero_le i),
        Nat.add_sub_cancel]
  rw [key i hi]

theorem trend_recur (close volume : List Val) (hl : volume.length = close.length) (i : ℕ) (hi : i < close.length) :
    val (Ind.PriceAndVolumeTrend.trend (close.zip volume)) i =
      recur 0 0 (fun i v => Val.add v (Val.mul (Val.sub (at_ close i) (at_ close (i - 1)))
        (Val.div (at_ volume i) (at_ close (i - 1))))) i := by
  have hz : (close.zip volume).length = close.length := by simp [hl]
  unfold Ind.PriceAndVolumeTrend.trend
  rw [val_prefixMap' _ _ _ (by omega)]
  obtain ⟨first, rest, hfr⟩ : ∃ first rest, close.zip volume = first :: rest := by
    cases h : close.zip volume with
    | nil => rw [h] at hz; simp at hz; omega
    | cons a b => exact ⟨a, b, rfl⟩
  have hget : ∀ j, (h : j < (close.zip volume).length) → (close.zip volume)[j] = (at_ close j, at_ volume j) := by
    intro j h
    rw [hz] at h
    rw [List.getElem_zip, at_val, at_val, val_lt _ _ h, val_lt _ _ (by omega)]
  rw [hfr] at hz hget ⊢
  simp only [List.take_succ_cons]
  have key : ∀ i, i < close.length →
      (rest.take i).foldl (fun (st : Val × Val) r =>
        (Val.add st.1 (Val.mul (Val.sub r.1 st.2) (Val.div r.2 st.2)), r.1)) ((0 : Val), first.1) =
        (recur 0 0 (fun i v => Val.add v (Val.mul (Val.sub (at_ close i) (at_ close (i - 1)))
        (Val.div (at_ volume i) (at_ close (i - 1))))) i, at_ close i) := by
    intro i
    induction i with
    | zero =>
      intro _
      have := hget 0 (by omega)
      rw [List.getElem_cons_zero] at this
      rw [List.take_zero, List.foldl_nil, recur_start, this]
    | succ i ih =>
      intro hi
      have hir : i < rest.length := by rw [List.length_cons] at hz; omega
      rw [List.take_add_one, List.getElem?_eq_getElem hir, List.foldl_append, ih (by omega)]
      have hg := hget (i + 1) (by omega)
      rw [List.getElem_cons_succ] at hg
      simp only [Option.toList_some, List.foldl_cons, List.foldl_nil, hg, recur_succ _ _ _ _ (Nat.zero_le i),
        Nat.add_sub_cancel]
  rw [key i hi]

theorem val_get (xs : List Val) (j : ℕ) (h : j < xs.length) : xs[j] = at_ xs j := by rw [at_val, val_lt _ _ h]

/-- A recursion over the rows of one column that starts from a value of its first `s + 1` rows. -/
theorem start_recur (xs : List Val) (s : ℕ) (v : List Val → Val) (f : Val → Val → Val) (w : Val)
    (hv : ∀ i, s ≤ i → i < xs.length → v (xs.take (i + 1)) = w) (i : ℕ) (hi : i < xs.length) :
    val (prefixMap (fun pre => if pre.length < s + 1 then .nan else (pre.drop (s + 1)).foldl f (v pre)) xs) i =
      recur s w (fun j p => f p (at_ xs j)) i := by
  rw [val_prefixMap _ _ _ hi]
  have hl : (xs.take (i + 1)).length = i + 1 := by rw [List.length_take]; omega
  rw [hl]
  by_cases h : i < s
  · rw [if_pos (by omega)]
    unfold recur
    rw [if_pos h]
  · rw [if_neg (by omega), hv i (by omega) hi]
    exact fold_recur xs s w f (at_ xs) (fun j h => val_get xs j h) i (by omega) hi

theorem wilder_recur (skip period : ℕ) (hp : 1 ≤ period) (xs : List Val) (i : ℕ) (hi : i < xs.length) :
    val (TTI.wilder skip period xs) i = recur (skip + period - 1) (meanSkip ((xs.drop skip).take period))
      (fun j p => Val.add p (Val.div (Val.sub (at_ xs j) p) (.fin period))) i := by
  have := start_recur xs (skip + period - 1) (fun pre => meanSkip ((pre.drop skip).take period))
    (fun prev x => Val.add prev (Val.div (Val.sub x prev) (.fin period))) (meanSkip ((xs.drop skip).take period)) (by
      intro i h1 h2
      rw [List.drop_take, List.take_take, show min period (i + 1 - skip) = period by omega]) i hi
  rw [show skip + period - 1 + 1 = skip + period by omega] at this
  exact this

theorem smoothRsi_recur (period : ℕ) (xs : List Val) (i : ℕ) (hi : i < xs.length) :
    val (RelativeStrengthIndex.smooth period xs) i = recur period (meanSkip (xs.take (period + 1)))
      (fun j p => Val.round 4 (Val.add p (Val.div (Val.sub (at_ xs j) p) (.fin period)))) i :=
  start_recur xs period (fun pre => meanSkip (pre.take (period + 1))) _ _ (by
    intro i h1 h2
    rw [List.take_take, show min (period + 1) (i + 1) = period + 1 by omega]) i hi

theorem smooth14_recur (xs : List Val) (i : ℕ) (hi : i < xs.length) :
    val (DirectionalMovementIndex.smooth14 xs) i = recur 13 (sumSkip (xs.take 14))
      (fun j p => Val.add (Val.sub p (Val.div p 14)) (at_ xs j)) i :=
  start_recur xs 13 (fun pre => sumSkip (pre.take 14)) _ _ (by
    intro i h1 h2
    rw [List.take_take, show min 14 (i + 1) = 14 by omega]) i hi

theorem adx_recur (xs : List Val) (i : ℕ) (hi : i < xs.length) :
    val (DirectionalMovementIndex.adxOf xs) i = recur 27 (Val.div (sumSkip (xs.take 28)) 14)
      (fun j p => Val.div (Val.add (Val.mul 13 p) (at_ xs j)) 14) i :=
  start_recur xs 27 (fun pre => Val.div (sumSkip (pre.take 28)) 14) _ _ (by
    intro i h1 h2
    rw [List.take_take, show min 28 (i + 1) = 28 by omega]) i hi

theorem variableMa_recur (period : ℕ) (close vr : List Val) (hl : vr.length = close.length) (hn : 22 ≤ close.length) (i : ℕ)
    (hi : i < close.length) :
    val (MovingAverage.variableMa period (close.zip vr)) i = recur 21 (at_ close 21) (fun j p =>
      Val.add (Val.mul (Val.mul (.fin (2 / ((period : ℚ) + 1))) (at_ close j)) (at_ vr j))
        (Val.mul (Val.sub 1 (Val.mul (.fin (2 / ((period : ℚ) + 1))) (at_ vr j))) p)) i := by
  have hz : (close.zip vr).length = close.length := by simp [hl]
  have hget : ∀ j, (h : j < (close.zip vr).length) → (close.zip vr)[j] = (at_ close j, at_ vr j) := by
    intro j h
    rw [hz] at h
    rw [List.getElem_zip, at_val, at_val, val_lt _ _ h, val_lt _ _ (by omega)]
  unfold MovingAverage.variableMa
  rw [val_prefixMap' _ _ _ (by omega)]
  by_cases h : i < 21
  · rw [List.drop_eq_nil_of_le (by rw [List.length_take]; omega)]
    unfold recur
    rw [if_pos h]
  · have hd : ((close.zip vr).take (i + 1)).drop 21 = (at_ close 21, at_ vr 21) :: ((close.zip vr).take (i + 1)).drop 22 := by
      rw [List.drop_eq_getElem_cons (by rw [List.length_take]; omega), List.getElem_take, hget]
    rw [hd]
    exact fold_recur (close.zip vr) 21 (at_ close 21) _ (fun j => (at_ close j, at_ vr j)) hget i (by omega) (by omega)

end TTI.Ind.Loops
