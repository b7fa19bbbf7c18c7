import Verif.Lemmas.Shape
import Mathlib.Data.List.GetD
import Mathlib.Algebra.Order.Floor.Ring
import Mathlib.Algebra.BigOperators.Intervals
import Mathlib.Algebra.Order.BigOperators.Group.Finset
import Mathlib.Tactic.FieldSimp
import Mathlib.Tactic.Positivity
import Mathlib.Tactic.NormNum

set_option autoImplicit false

/-!
# Rounding, and the values of the series operations row by row
-/

namespace TTI

/-! ## Rounding -/

theorem rint_intCast (n : ℤ) : rint (n : ℚ) = n := by
  unfold rint; simp

theorem rint_mono {p q : ℚ} (h : p ≤ q) : rint p ≤ rint q := by
  have hf : ⌊p⌋ ≤ ⌊q⌋ := Int.floor_mono h
  rcases hf.lt_or_eq with hlt | heq
  · have h1 : rint p ≤ ⌊p⌋ + 1 := by unfold rint; simp only; split_ifs <;> omega
    have h2 : ⌊q⌋ ≤ rint q := by unfold rint; simp only; split_ifs <;> omega
    omega
  · unfold rint
    rw [heq]
    simp only
    have hd : p - (⌊q⌋ : ℚ) ≤ q - (⌊q⌋ : ℚ) := by linarith
    split_ifs <;> first | omega | (exfalso; linarith)

theorem roundQ_mono (k : ℕ) {p q : ℚ} (h : p ≤ q) : roundQ k p ≤ roundQ k q := by
  unfold roundQ
  have h10 : (0 : ℚ) < 10 ^ k := by positivity
  apply div_le_div_of_nonneg_right _ h10.le
  exact_mod_cast rint_mono (mul_le_mul_of_nonneg_right h h10.le)

/-- Multiples of `10^-k` are not changed by rounding to `k` decimals. -/
theorem roundQ_div (k : ℕ) (n : ℤ) : roundQ k ((n : ℚ) / 10 ^ k) = (n : ℚ) / 10 ^ k := by
  unfold roundQ
  have h10 : (10 : ℚ) ^ k ≠ 0 := by positivity
  rw [div_mul_cancel₀ _ h10, rint_intCast]

theorem roundQ_intCast (k : ℕ) (n : ℤ) : roundQ k (n : ℚ) = n := by
  have h10 : (10 : ℚ) ^ k ≠ 0 := by positivity
  have := roundQ_div k (n * 10 ^ k)
  push_cast at this
  rwa [mul_div_assoc, div_self h10, mul_one] at this

@[simp] theorem roundQ_natCast (k : ℕ) (n : ℕ) : roundQ k (n : ℚ) = n := by
  have := roundQ_intCast k n; exact_mod_cast this

@[simp] theorem roundQ_zero (k : ℕ) : roundQ k 0 = 0 := by have := roundQ_natCast k 0; exact_mod_cast this
@[simp] theorem roundQ_one (k : ℕ) : roundQ k 1 = 1 := by have := roundQ_natCast k 1; exact_mod_cast this
@[simp] theorem roundQ_ofNat (k n : ℕ) [n.AtLeastTwo] : roundQ k (OfNat.ofNat n) = OfNat.ofNat n := by
  have := roundQ_natCast k n; exact_mod_cast this
@[simp] theorem roundQ_neg_ofNat (k n : ℕ) [n.AtLeastTwo] : roundQ k (-OfNat.ofNat n) = -OfNat.ofNat n := by
  have := roundQ_intCast k (-n); push_cast at this; exact_mod_cast this
@[simp] theorem roundQ_neg_one (k : ℕ) : roundQ k (-1) = -1 := by
  have := roundQ_intCast k (-1); push_cast at this; exact_mod_cast this

theorem roundQ_idem (k : ℕ) (q : ℚ) : roundQ k (roundQ k q) = roundQ k q := roundQ_div k _

theorem rint_close (q : ℚ) : |(rint q : ℚ) - q| ≤ 1 / 2 := by
  have h1 := Int.floor_le q
  have h2 := Int.lt_floor_add_one q
  unfold rint
  simp only
  split_ifs <;> (rw [abs_le]; push_cast; constructor <;> linarith)

/-- Rounding to `k` decimals moves a number by at most half a unit of the last decimal. -/
theorem roundQ_close (k : ℕ) (q : ℚ) : |roundQ k q - q| ≤ 1 / 2 / 10 ^ k := by
  have h10 : (0 : ℚ) < 10 ^ k := by positivity
  have h := rint_close (q * 10 ^ k)
  have e : roundQ k q - q = ((rint (q * 10 ^ k) : ℚ) - q * 10 ^ k) / 10 ^ k := by
    unfold roundQ; field_simp
  rw [e, abs_div, abs_of_pos h10]
  exact div_le_div_of_nonneg_right h h10.le

/-! ## Row access -/

/-- The value of a column at a row (NaN past the end). -/
def val (xs : List Val) (i : ℕ) : Val := xs.getD i .nan

theorem val_lt (xs : List Val) (i : ℕ) (h : i < xs.length) : val xs i = xs[i] := by
  unfold val; rw [List.getD_eq_getElem]

theorem val_ge (xs : List Val) (i : ℕ) (h : xs.length ≤ i) : val xs i = .nan := by
  unfold val; rw [List.getD_eq_default _ _ h]

theorem mem_val {xs : List Val} {v : Val} (h : v ∈ xs) : ∃ i < xs.length, v = val xs i := by
  obtain ⟨i, hi, rfl⟩ := List.getElem_of_mem h
  exact ⟨i, hi, (val_lt xs i hi).symm⟩

theorem val_getElem? (xs : List Val) (i : ℕ) (h : i < xs.length) : xs[i]? = some (val xs i) := by
  rw [val_lt _ _ h, List.getElem?_eq_getElem h]

theorem val_ext {xs ys : List Val} (hl : xs.length = ys.length) (h : ∀ i < xs.length, val xs i = val ys i) : xs = ys := by
  apply List.ext_getElem hl
  intro i h1 h2
  rw [← val_lt, ← val_lt]; exact h i h1

theorem val_map (f : Val → Val) (hf : f .nan = .nan) (xs : List Val) (i : ℕ) : val (xs.map f) i = f (val xs i) := by
  by_cases h : i < xs.length
  · rw [val_lt _ _ (by simpa using h), val_lt _ _ h]; simp
  · rw [val_ge _ _ (by simpa using h), val_ge _ _ (by omega), hf]

theorem val_map_lt (f : Val → Val) (xs : List Val) (i : ℕ) (h : i < xs.length) : val (xs.map f) i = f (val xs i) := by
  rw [val_lt _ _ (by simpa using h), val_lt _ _ h]; simp

theorem val_zipV (f : Val → Val → Val) (xs ys : List Val) (i : ℕ) (hx : i < xs.length) (hy : i < ys.length) :
    val (zipV f xs ys) i = f (val xs i) (val ys i) := by
  rw [val_lt _ _ (by simp; omega), val_lt _ _ hx, val_lt _ _ hy]; simp [zipV]

theorem val_zipV_nan (f : Val → Val → Val) (h1 : ∀ y, f .nan y = .nan) (h2 : ∀ x, f x .nan = .nan) (xs ys : List Val)
    (i : ℕ) : val (zipV f xs ys) i = f (val xs i) (val ys i) := by
  by_cases hx : i < xs.length
  · by_cases hy : i < ys.length
    · exact val_zipV f xs ys i hx hy
    · rw [val_ge ys i (by omega), h2, val_ge _ _ (by simp; omega)]
  · rw [val_ge xs i (by omega), h1, val_ge _ _ (by simp; omega)]

theorem Val.nan_add (y : Val) : Val.add .nan y = .nan := rfl
theorem Val.add_nan (x : Val) : Val.add x .nan = .nan := by cases x <;> rfl
theorem Val.nan_sub (y : Val) : Val.sub .nan y = .nan := rfl
theorem Val.sub_nan (x : Val) : Val.sub x .nan = .nan := by cases x <;> rfl
theorem Val.nan_mul (y : Val) : Val.mul .nan y = .nan := rfl
theorem Val.mul_nan (x : Val) : Val.mul x .nan = .nan := by cases x <;> rfl
theorem Val.nan_div (y : Val) : Val.div .nan y = .nan := rfl
theorem Val.div_nan (x : Val) : Val.div x .nan = .nan := by cases x <;> rfl
@[simp] theorem Val.fin_add (a b : ℚ) : Val.add (.fin a) (.fin b) = .fin (a + b) := rfl
@[simp] theorem Val.fin_sub (a b : ℚ) : Val.sub (.fin a) (.fin b) = .fin (a - b) := by
  simp [Val.sub, Val.neg, Val.add, sub_eq_add_neg]
@[simp] theorem Val.fin_mul (a b : ℚ) : Val.mul (.fin a) (.fin b) = .fin (a * b) := rfl
theorem Val.fin_div (a b : ℚ) (h : b ≠ 0) : Val.div (.fin a) (.fin b) = .fin (a / b) := by simp [Val.div, h]
@[simp] theorem Val.fin_abs (a : ℚ) : Val.abs (.fin a) = .fin |a| := rfl
@[simp] theorem Val.fin_lt (a b : ℚ) : Val.lt (.fin a) (.fin b) = decide (a < b) := rfl
@[simp] theorem Val.fin_le (a b : ℚ) : Val.le (.fin a) (.fin b) = decide (a ≤ b) := rfl
@[simp] theorem Val.fin_round (k : ℕ) (a : ℚ) : Val.round k (.fin a) = .fin (roundQ k a) := rfl
theorem Val.ofNat_eq (n : ℕ) : (OfNat.ofNat n : Val) = .fin n := rfl

attribute [simp] Val.nan_add Val.add_nan Val.nan_sub Val.sub_nan Val.nan_mul Val.mul_nan Val.nan_div Val.div_nan
@[simp] theorem Val.nan_round (k : ℕ) : Val.round k .nan = .nan := rfl
@[simp] theorem Val.nan_abs : Val.abs .nan = .nan := rfl

section
variable (xs ys : List Val) (i : ℕ)
@[simp] theorem val_addS : val (addS xs ys) i = Val.add (val xs i) (val ys i) := val_zipV_nan _ Val.nan_add Val.add_nan _ _ _
@[simp] theorem val_subS : val (subS xs ys) i = Val.sub (val xs i) (val ys i) := val_zipV_nan _ Val.nan_sub Val.sub_nan _ _ _
@[simp] theorem val_mulS : val (mulS xs ys) i = Val.mul (val xs i) (val ys i) := val_zipV_nan _ Val.nan_mul Val.mul_nan _ _ _
@[simp] theorem val_divS : val (divS xs ys) i = Val.div (val xs i) (val ys i) := val_zipV_nan _ Val.nan_div Val.div_nan _ _ _
@[simp] theorem val_scaleS (c : ℚ) : val (scaleS c xs) i = Val.mul (.fin c) (val xs i) := val_map _ rfl _ _
@[simp] theorem val_roundS (k : ℕ) : val (roundS k xs) i = Val.round k (val xs i) := val_map _ rfl _ _
@[simp] theorem val_zeroBelow : val (zeroBelow xs) i = if Val.lt (val xs i) 0 then 0 else val xs i :=
  val_map (fun x => if Val.lt x 0 then 0 else x) rfl _ _
@[simp] theorem val_zeroAbove : val (zeroAbove xs) i = if Val.lt 0 (val xs i) then 0 else val xs i :=
  val_map (fun x => if Val.lt 0 x then 0 else x) rfl _ _
end

theorem val_shift (k : ℕ) (xs : List Val) (i : ℕ) (h : i < xs.length) :
    val (shift k xs) i = if i < k then .nan else val xs (i - k) := by
  rw [val_lt _ _ (by simpa using h)]
  unfold shift
  rw [List.getElem_take]
  split
  · next hk => rw [List.getElem_append_left (by simpa using hk)]; simp
  · next hk =>
    rw [List.getElem_append_right (by simpa using hk), val_lt _ _ (by omega)]
    simp

theorem val_shift_nan (k : ℕ) (xs : List Val) (i : ℕ) (h : i < k) : val (shift k xs) i = .nan := by
  by_cases hl : i < xs.length
  · rw [val_shift k xs i hl, if_pos h]
  · exact val_ge _ _ (by simp; omega)

theorem val_shiftBack (k : ℕ) (xs : List Val) (i : ℕ) (h : i < xs.length) :
    val (shiftBack k xs) i = val xs (i + k) := by
  rw [val_lt _ _ (by simpa using h)]
  unfold shiftBack
  rw [List.getElem_take, List.getElem_drop]
  by_cases hk : k + i < xs.length
  · rw [List.getElem_append_left hk, val_lt _ _ (by omega)]; congr 1; omega
  · rw [List.getElem_append_right (by omega), val_ge _ _ (by omega)]; simp

theorem val_maskBefore (k : ℕ) (xs : List Val) (i : ℕ) : val (maskBefore k xs) i = if i < k then .nan else val xs i := by
  by_cases h : i < xs.length
  · rw [val_lt _ _ (by simpa using h)]
    unfold maskBefore
    rw [List.getElem_take]
    split
    · next hk => rw [List.getElem_append_left (by simpa using hk)]; simp
    · next hk =>
      rw [List.getElem_append_right (by simpa using hk), List.getElem_drop, val_lt _ _ h]
      congr 1; simp; omega
  · rw [val_ge _ _ (by simpa using h), val_ge _ _ (by omega)]; simp

theorem val_zip3 (f : Val → Val → Val → Val) (xs ys zs : List Val) (i : ℕ) (hx : i < xs.length) (hy : i < ys.length)
    (hz : i < zs.length) : val (zip3 f xs ys zs) i = f (val xs i) (val ys i) (val zs i) := by
  rw [val_lt _ _ (by simp; omega), val_lt _ _ hx, val_lt _ _ hy, val_lt _ _ hz]; simp [zip3]

theorem val_prefixMap (g : List Val → Val) (xs : List Val) (i : ℕ) (h : i < xs.length) :
    val (prefixMap g xs) i = g (xs.take (i + 1)) := by
  rw [val_lt _ _ (by simpa using h)]
  have := prefixMap_getElem?_of_lt g xs i h
  rw [List.getElem?_eq_getElem (by simpa using h)] at this
  simpa using this

theorem val_prefixMap' {α : Type} (g : List α → Val) (xs : List α) (i : ℕ) (h : i < xs.length) :
    val (prefixMap g xs) i = g (xs.take (i + 1)) := by
  rw [val_lt _ _ (by simpa using h)]
  have := prefixMap_getElem?_of_lt g xs i h
  rw [List.getElem?_eq_getElem (by simpa using h)] at this
  simpa using this

theorem mem_take_val {xs : List Val} {i : ℕ} {v : Val} (h : v ∈ xs.take (i + 1)) : ∃ j ≤ i, j < xs.length ∧ v = val xs j := by
  obtain ⟨j, hj, rfl⟩ := List.getElem_of_mem h
  rw [List.length_take] at hj
  refine ⟨j, by omega, by omega, ?_⟩
  rw [List.getElem_take, val_lt]

/-! ## Values that are missing or numbers with a property -/

/-- Not a number, or a number with the property (in particular not infinite). -/
def Val.Sat (P : ℚ → Prop) : Val → Prop
  | .nan => True
  | .fin q => P q
  | _ => False

/-- Two values of which one is missing, or two numbers in the relation. -/
def Val.Sat2 (Q : ℚ → ℚ → Prop) : Val → Val → Prop
  | .nan, .nan => True
  | .nan, .fin _ => True
  | .fin _, .nan => True
  | .fin a, .fin b => Q a b
  | _, _ => False

/-- Both values missing, or two numbers in the relation. -/
def Val.Both (Q : ℚ → ℚ → Prop) : Val → Val → Prop
  | .nan, .nan => True
  | .fin a, .fin b => Q a b
  | _, _ => False

@[simp] theorem Val.sat_nan (P : ℚ → Prop) : Val.Sat P .nan := trivial
@[simp] theorem Val.sat_fin (P : ℚ → Prop) (q : ℚ) : Val.Sat P (.fin q) ↔ P q := Iff.rfl
@[simp] theorem Val.sat2_nan_nan (Q : ℚ → ℚ → Prop) : Val.Sat2 Q .nan .nan := trivial
@[simp] theorem Val.sat2_nan_fin (Q : ℚ → ℚ → Prop) (q : ℚ) : Val.Sat2 Q .nan (.fin q) := trivial
@[simp] theorem Val.sat2_fin_nan (Q : ℚ → ℚ → Prop) (q : ℚ) : Val.Sat2 Q (.fin q) .nan := trivial
@[simp] theorem Val.sat2_fin (Q : ℚ → ℚ → Prop) (a b : ℚ) : Val.Sat2 Q (.fin a) (.fin b) ↔ Q a b := Iff.rfl
@[simp] theorem Val.both_nan (Q : ℚ → ℚ → Prop) : Val.Both Q .nan .nan := trivial
@[simp] theorem Val.both_fin (Q : ℚ → ℚ → Prop) (a b : ℚ) : Val.Both Q (.fin a) (.fin b) ↔ Q a b := Iff.rfl

theorem Val.Sat.cases {P : ℚ → Prop} {v : Val} (h : Val.Sat P v) : v = .nan ∨ ∃ q, v = .fin q ∧ P q := by
  cases v
  · exact Or.inl rfl
  · exact False.elim h
  · exact False.elim h
  · exact Or.inr ⟨_, rfl, h⟩

theorem Val.Sat.mono {P P' : ℚ → Prop} (h : ∀ q, P q → P' q) {v : Val} (hv : Val.Sat P v) : Val.Sat P' v := by
  cases v <;> first | exact hv | exact h _ hv

theorem Val.Sat2.cases {Q : ℚ → ℚ → Prop} {x y : Val} (h : Val.Sat2 Q x y) :
    (x = .nan ∧ (y = .nan ∨ ∃ b, y = .fin b)) ∨ (y = .nan ∧ ∃ a, x = .fin a) ∨ ∃ a b, x = .fin a ∧ y = .fin b ∧ Q a b := by
  cases x <;> cases y <;> first | exact False.elim h | simp_all

theorem Val.Sat2.mono {Q Q' : ℚ → ℚ → Prop} (h : ∀ a b, Q a b → Q' a b) {x y : Val} (hv : Val.Sat2 Q x y) :
    Val.Sat2 Q' x y := by
  cases x <;> cases y <;> first | exact hv | exact h _ _ hv

theorem Val.Both.cases {Q : ℚ → ℚ → Prop} {x y : Val} (h : Val.Both Q x y) :
    (x = .nan ∧ y = .nan) ∨ ∃ a b, x = .fin a ∧ y = .fin b ∧ Q a b := by
  cases x <;> cases y <;> first | exact False.elim h | simp_all

theorem Val.Both.sat2 {Q : ℚ → ℚ → Prop} {x y : Val} (h : Val.Both Q x y) : Val.Sat2 Q x y := by
  cases x <;> cases y <;> first | exact h | exact False.elim h

theorem Val.Sat.both {P : ℚ → Prop} {x : Val} (h : Val.Sat P x) : Val.Both (fun a b => P a ∧ a = b) x x := by
  cases x <;> first | exact h | exact ⟨h, rfl⟩

theorem Val.Sat2.of_sat {P P' : ℚ → Prop} {x y : Val} (hx : Val.Sat P x) (hy : Val.Sat P' y) :
    Val.Sat2 (fun a b => P a ∧ P' b) x y := by
  cases x <;> cases y <;> first | exact trivial | exact False.elim hx | exact False.elim hy | exact ⟨hx, hy⟩

/-- Rounding keeps a value in a range whose ends are not changed by it. -/
theorem Val.Sat.round {lo hi : ℚ} {k : ℕ} (hlo : roundQ k lo = lo) (hhi : roundQ k hi = hi) {v : Val}
    (h : Val.Sat (fun q => lo ≤ q ∧ q ≤ hi) v) : Val.Sat (fun q => lo ≤ q ∧ q ≤ hi) (Val.round k v) := by
  cases v <;> first | exact h | exact ⟨by rw [← hlo]; exact roundQ_mono k h.1, by rw [← hhi]; exact roundQ_mono k h.2⟩

theorem Val.Sat.round_between {lo hi : ℚ} {k : ℕ} {v : Val}
    (h : Val.Sat (fun q => lo ≤ q ∧ q ≤ hi) v) : Val.Sat (fun q => roundQ k lo ≤ q ∧ q ≤ roundQ k hi) (Val.round k v) := by
  cases v <;> first | exact h | exact ⟨roundQ_mono k h.1, roundQ_mono k h.2⟩

theorem Val.Sat.round_nonneg {k : ℕ} {v : Val} (h : Val.Sat (fun q => 0 ≤ q) v) : Val.Sat (fun q => 0 ≤ q) (Val.round k v) := by
  cases v <;> first | exact h | (show (0:ℚ) ≤ _; rw [← roundQ_zero k]; exact roundQ_mono k h)

theorem Val.Sat2.round_le {k : ℕ} {x y : Val} (h : Val.Sat2 (· ≤ ·) x y) :
    Val.Sat2 (· ≤ ·) (Val.round k x) (Val.round k y) := by
  cases x <;> cases y <;> first | exact h | exact roundQ_mono k h

/-- A quotient of numbers `0 <= a <= b` lies in [0, 1]; `0/0` is missing. -/
theorem Val.Sat2.div_unit {x y : Val} (h : Val.Sat2 (fun a b => 0 ≤ a ∧ a ≤ b) x y) :
    Val.Sat (fun q => 0 ≤ q ∧ q ≤ 1) (Val.div x y) := by
  rcases h.cases with ⟨rfl, -⟩ | ⟨rfl, a, rfl⟩ | ⟨a, b, rfl, rfl, h0, h1⟩
  · simp
  · simp
  · rcases eq_or_ne b 0 with rfl | hb
    · have : a = 0 := le_antisymm h1 h0
      simp [this, Val.div]
    · rw [Val.fin_div _ _ hb]
      have hb' : 0 < b := lt_of_le_of_ne (h0.trans h1) (Ne.symm hb)
      exact ⟨div_nonneg h0 hb'.le, (div_le_one hb').2 h1⟩

/-- A quotient of numbers `|a| <= b` lies in [-1, 1]. -/
theorem Val.Sat2.div_sym {x y : Val} (h : Val.Sat2 (fun a b => |a| ≤ b) x y) :
    Val.Sat (fun q => -1 ≤ q ∧ q ≤ 1) (Val.div x y) := by
  rcases h.cases with ⟨rfl, -⟩ | ⟨rfl, a, rfl⟩ | ⟨a, b, rfl, rfl, h⟩
  · simp
  · simp
  · rcases eq_or_ne b 0 with rfl | hb
    · have : a = 0 := abs_nonpos_iff.1 h
      simp [this, Val.div]
    · rw [Val.fin_div _ _ hb]
      have hb' : 0 < b := lt_of_le_of_ne ((abs_nonneg a).trans h) (Ne.symm hb)
      have := abs_le.1 h
      exact ⟨by rw [le_div_iff₀ hb']; linarith, (div_le_one hb').2 this.2⟩

theorem Val.Sat.scale {lo hi c : ℚ} (hc : 0 ≤ c) {v : Val} (h : Val.Sat (fun q => lo ≤ q ∧ q ≤ hi) v) :
    Val.Sat (fun q => c * lo ≤ q ∧ q ≤ c * hi) (Val.mul (.fin c) v) := by
  cases v <;> first | exact h | exact False.elim h |
    exact ⟨mul_le_mul_of_nonneg_left h.1 hc, mul_le_mul_of_nonneg_left h.2 hc⟩

theorem Val.div_scale (c : ℚ) (hc : 0 < c) (x y : Val) (hx : x.isFin ∨ x = .nan) :
    Val.div (Val.mul (.fin c) x) y = Val.mul (.fin c) (Val.div x y) := by
  have hc0 : c ≠ 0 := hc.ne'
  rcases hx with hx | rfl
  · cases x <;> simp [Val.isFin] at hx
    next a =>
    cases y <;> simp [Val.div, Val.mul, hc0]
    next b =>
    by_cases hb : b = 0
    · by_cases ha : a = 0
      · simp [hb, ha]
      · by_cases hp : 0 < a
        · simp [hb, ha, hp, mul_pos hc hp, Val.infMul, hc, hc0]
        · have : ¬ 0 < c * a := by
            have : a < 0 := lt_of_le_of_ne (not_lt.1 hp) ha
            have := mul_neg_of_pos_of_neg hc this; linarith
          simp [hb, ha, hp, this, Val.infMul, hc, hc0]
    · simp [hb, mul_div_assoc]
  · simp

end TTI
