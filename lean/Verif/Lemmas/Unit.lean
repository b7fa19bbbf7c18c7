import Verif.Lemmas.ScaleObj

set_option autoImplicit false

/-!
# Price-like indicators of scaled prices
-/

namespace TTI

open Spec

theorem round_close (d : ℕ) (q : ℚ) : |roundQ d q - q| ≤ 1 / (2 * 10 ^ d) := by
  unfold roundQ
  have h := rint_close (q * 10 ^ d)
  have hp : (0 : ℚ) < 10 ^ d := by positivity
  have e : (rint (q * 10 ^ d) : ℚ) / 10 ^ d - q = ((rint (q * 10 ^ d) : ℚ) - q * 10 ^ d) / 10 ^ d := by field_simp
  rw [e, abs_div, abs_of_pos hp, div_le_div_iff₀ hp (by positivity)]
  nlinarith

section
variable {c : ℚ} (hc : 0 < c)

/-! ## `Follows` -/

theorem Follows.mono {k l : ℚ} (h : k ≤ l) (hc : 0 < c) {v w : Val} (hv : Follows k c v w) : Follows l c v w := by
  unfold Follows at *
  split at hv
  · have : k * (1 + c) ≤ l * (1 + c) := by nlinarith
    linarith
  · exact hv

theorem follows_nan (k : ℚ) (p : ℚ) : Follows k p .nan .nan := rfl

include hc in
theorem follows_sc (v : Val) : Follows 0 c v (sc c v) := by
  cases v <;> simp [Follows, sc]

include hc in
theorem Follows.roundTo (d : ℕ) {k : ℚ} {v w : Val} (h : Follows k c v w) :
    Follows (k + 1 / (2 * 10 ^ d)) c (Val.round d v) (Val.round d w) := by
  unfold Follows at h
  split at h
  · rename_i a b
    show |roundQ d b - c * roundQ d a| ≤ _
    have h1 := round_close d a
    have h2 := round_close d b
    generalize 1 / (2 * 10 ^ d : ℚ) = e at *
    rw [abs_le] at *
    constructor <;> nlinarith [h1.1, h1.2, h2.1, h2.2, h.1, h.2]
  · subst h
    rename_i hv _
    cases v <;> simp_all [Follows, Val.round]

include hc in
theorem Follows.round {k : ℚ} {v w : Val} (h : Follows k c v w) : Follows (k + 1 / 20000) c (Val.round 4 v) (Val.round 4 w) := by
  have := Follows.roundTo hc 4 h
  norm_num at this ⊢
  exact this

include hc in
theorem Follows.add {k l : ℚ} {v w v' w' : Val} (h : Follows k c v w) (h' : Follows l c v' w') :
    Follows (k + l) c (Val.add v v') (Val.add w w') := by
  cases v <;> cases w <;> simp [Follows] at h <;> cases v' <;> cases w' <;> simp [Follows] at h' <;>
    simp [Follows, Val.add]
  rw [abs_le] at *
  constructor <;> nlinarith [h.1, h.2, h'.1, h'.2]

theorem Follows.neg {k : ℚ} {v w : Val} (h : Follows k c v w) : Follows k c (Val.neg v) (Val.neg w) := by
  cases v <;> cases w <;> simp [Follows] at h <;> simp [Follows, Val.neg]
  rw [abs_le] at *
  constructor <;> linarith [h.1, h.2]

include hc in
theorem Follows.sub {k l : ℚ} {v w v' w' : Val} (h : Follows k c v w) (h' : Follows l c v' w') :
    Follows (k + l) c (Val.sub v v') (Val.sub w w') := Follows.add hc h (Follows.neg h')

/-- Columns that follow row by row. -/
def FollowsS (k : ℚ) (c : ℚ) (xs ys : List Val) : Prop := List.Forall₂ (Follows k c) xs ys

theorem FollowsS.mono {k l : ℚ} (h : k ≤ l) (hc : 0 < c) {xs ys : List Val} (hv : FollowsS k c xs ys) : FollowsS l c xs ys :=
  List.Forall₂.imp (fun _ _ => Follows.mono h hc) hv

include hc in
theorem followsS_scl (xs : List Val) : FollowsS 0 c xs (scl c xs) := by
  induction xs with
  | nil => exact .nil
  | cons x xs ih => exact .cons (follows_sc hc x) ih

include hc in
theorem FollowsS.round {k : ℚ} {xs ys : List Val} (h : FollowsS k c xs ys) : FollowsS (k + 1 / 20000) c (roundS 4 xs) (roundS 4 ys) := by
  induction h with
  | nil => exact .nil
  | cons h _ ih => exact .cons (Follows.round hc h) ih

include hc in
theorem FollowsS.round' {k l : ℚ} {xs ys : List Val} (h : FollowsS k c xs ys) (hl : k + 1 / 20000 = l) :
    FollowsS l c (roundS 4 xs) (roundS 4 ys) := hl ▸ h.round hc

include hc in
theorem FollowsS.rounded (xs : List Val) : FollowsS (1 / 20000) c (roundS 4 xs) (roundS 4 (scl c xs)) := by
  have := (followsS_scl hc xs).round hc
  rwa [zero_add] at this

theorem FollowsS.zip {k l : ℚ} (f : Val → Val → Val) (m : ℚ)
    (hf : ∀ v w v' w', Follows k c v w → Follows l c v' w' → Follows m c (f v v') (f w w')) {xs ys xs' ys' : List Val}
    (h : FollowsS k c xs ys) (h' : FollowsS l c xs' ys') : FollowsS m c (zipV f xs xs') (zipV f ys ys') := by
  induction h generalizing xs' ys' with
  | nil => simp only [zipV, List.zipWith_nil_left]; exact .nil
  | cons h1 _ ih =>
    cases h' with
    | nil => simp only [zipV, List.zipWith_nil_right]; exact .nil
    | cons h2 h3 => exact .cons (hf _ _ _ _ h1 h2) (ih h3)

include hc in
theorem FollowsS.subS {k l : ℚ} {xs ys xs' ys' : List Val} (h : FollowsS k c xs ys) (h' : FollowsS l c xs' ys') :
    FollowsS (k + l) c (TTI.subS xs xs') (TTI.subS ys ys') := h.zip _ _ (fun _ _ _ _ => Follows.sub hc) h'

include hc in
theorem FollowsS.addS {k l : ℚ} {xs ys xs' ys' : List Val} (h : FollowsS k c xs ys) (h' : FollowsS l c xs' ys') :
    FollowsS (k + l) c (TTI.addS xs xs') (TTI.addS ys ys') := h.zip _ _ (fun _ _ _ _ => Follows.add hc) h'

theorem FollowsS.take {k : ℚ} {xs ys : List Val} (h : FollowsS k c xs ys) (n : ℕ) : FollowsS k c (xs.take n) (ys.take n) :=
  List.forall₂_take n h

theorem followsS_replicate (k : ℚ) (n : ℕ) {v w : Val} (h : Follows k c v w) : FollowsS k c (List.replicate n v) (List.replicate n w) := by
  induction n with
  | zero => exact .nil
  | succ n ih => exact .cons h ih

theorem FollowsS.append {k : ℚ} {xs ys xs' ys' : List Val} (h : FollowsS k c xs ys) (h' : FollowsS k c xs' ys') :
    FollowsS k c (xs ++ xs') (ys ++ ys') := List.rel_append h h'

theorem FollowsS.length {k : ℚ} {xs ys : List Val} (h : FollowsS k c xs ys) : xs.length = ys.length := h.length_eq

theorem FollowsS.val {k : ℚ} {xs ys : List Val} (h : FollowsS k c xs ys) (i : ℕ) : Follows k c (xs.getD i .nan) (ys.getD i .nan) := by
  induction h generalizing i with
  | nil => exact rfl
  | cons h _ ih =>
    cases i with
    | zero => exact h
    | succ i => exact ih i

theorem FollowsS.drop {k : ℚ} {xs ys : List Val} (h : FollowsS k c xs ys) (n : ℕ) : FollowsS k c (xs.drop n) (ys.drop n) :=
  List.forall₂_drop n h

theorem FollowsS.maskBefore {k : ℚ} {xs ys : List Val} (h : FollowsS k c xs ys) (n : ℕ) :
    FollowsS k c (TTI.maskBefore n xs) (TTI.maskBefore n ys) := by
  unfold TTI.maskBefore
  rw [h.length]
  exact ((followsS_replicate k n (follows_nan k c)).append (h.drop n)).take _

include hc in
/-- An exponential average does not enlarge the error. -/
theorem FollowsS.ewm {k : ℚ} {xs ys : List Val} (h : FollowsS k c xs ys) (s m : ℕ) (hs : 1 ≤ s) :
    FollowsS k c (TTI.ewm s m xs) (TTI.ewm s m ys) := by
  set a : ℚ := 2 / ((s : ℚ) + 1) with ha
  have hs' : (1 : ℚ) ≤ s := by exact_mod_cast hs
  have ha0 : 0 < a := by positivity
  have ha1 : a ≤ 1 := by rw [ha, div_le_one (by positivity)]; linarith
  have key : ∀ (xs ys : List Val) (st st' : EwmState), FollowsS k c xs ys →
      st.nobs = st'.nobs → (st.mean = none ∧ st'.mean = none ∨ ∃ w w' o, st.mean = some (w, o) ∧ st'.mean = some (w', o) ∧
        0 ≤ o ∧ o ≤ 1 ∧ |w' - c * w| ≤ k * (1 + c)) →
      (xs.foldl (ewmStep a) st).nobs = (ys.foldl (ewmStep a) st').nobs ∧
      Follows k c (ofOption ((xs.foldl (ewmStep a) st).mean.map Prod.fst)) (ofOption ((ys.foldl (ewmStep a) st').mean.map Prod.fst)) := by
    intro xs ys st st' hxy
    induction hxy generalizing st st' with
    | nil =>
      rintro h1 (⟨h2, h3⟩ | ⟨w, w', o, h2, h3, -, -, h4⟩)
      · exact ⟨h1, by simp [h2, h3, ofOption, Follows]⟩
      · exact ⟨h1, by simpa [h2, h3, ofOption, Follows] using h4⟩
    | @cons x y xs ys hx _ ih =>
      rintro h1 h2
      simp only [List.foldl_cons]
      obtain ⟨mean, nobs⟩ := st
      obtain ⟨mean', nobs'⟩ := st'
      simp only at h1 h2
      subst h1
      cases x <;> cases y <;> simp [Follows] at hx
      case nan.nan | pinf.pinf | ninf.ninf =>
        rcases h2 with ⟨rfl, rfl⟩ | ⟨w, w', o, rfl, rfl, h3, h4, h5⟩
        · exact ih _ _ rfl (.inl ⟨rfl, rfl⟩)
        · exact ih _ _ rfl (.inr ⟨w, w', o * (1 - a), rfl, rfl, by nlinarith, by nlinarith, h5⟩)
      rename_i q q'
      rcases h2 with ⟨rfl, rfl⟩ | ⟨w, w', o, rfl, rfl, h3, h4, h5⟩
      · exact ih _ _ rfl (.inr ⟨q, q', 1, rfl, rfl, zero_le_one, le_refl _, hx⟩)
      · refine ih _ _ rfl (.inr ⟨_, _, 1, rfl, rfl, zero_le_one, le_refl _, ?_⟩)
        set o' := o * (1 - a) with ho'
        have p1 : 0 ≤ o' := mul_nonneg h3 (by linarith)
        have p2 : o' ≤ 1 - a := by nlinarith
        set n := if a = 1 / 2 then 1 - o' else a with hn
        have p3 : 0 < n := by rw [hn]; split <;> linarith
        have e : ∀ u t : ℚ, (if u = t then u else (o' * u + n * t) / (o' + n)) = (o' * u + n * t) / (o' + n) := by
          intro u t
          split
          · next hut => rw [hut]; field_simp
          · rfl
        rw [e, e]
        have e2 : (o' * w' + n * q') / (o' + n) - c * ((o' * w + n * q) / (o' + n)) =
            (o' * (w' - c * w) + n * (q' - c * q)) / (o' + n) := by field_simp; ring
        rw [e2, abs_div, abs_of_pos (by linarith : 0 < o' + n), div_le_iff₀ (by linarith)]
        calc |o' * (w' - c * w) + n * (q' - c * q)| ≤ |o' * (w' - c * w)| + |n * (q' - c * q)| := abs_add_le _ _
          _ = o' * |w' - c * w| + n * |q' - c * q| := by rw [abs_mul o', abs_mul n, abs_of_nonneg p1, abs_of_pos p3]
          _ ≤ _ := by nlinarith
  have hlen := h.length
  unfold TTI.ewm ewmAlpha prefixMap
  rw [← ha, ← hlen]
  rw [FollowsS, List.forall₂_map_left_iff, List.forall₂_map_right_iff, List.forall₂_same]
  intro i _
  obtain ⟨h1, h2⟩ := key _ _ ⟨none, 0⟩ ⟨none, 0⟩ (h.take (i + 1)) rfl (.inl ⟨rfl, rfl⟩)
  simp only [h1]
  split
  · exact h2
  · exact rfl

end
end TTI
