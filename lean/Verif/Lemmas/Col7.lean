import Verif.Lemmas.Col6
import Verif.Lemmas.Regression

set_option autoImplicit false

/-!
# Columns of the indicators built on regression lines
-/

namespace TTI

open Spec

variable {n k l : ℕ} {v : ℕ → Val} {g : ℕ → ℚ} {xs : List Val}

theorem fitError_eq (g : ℕ → ℚ) (p i : ℕ) (hi : p ≤ i + 1) (a b : ℚ) :
    fitError g p i a b = ∑ t ∈ Finset.range p, (g (i + 1 - p + t) - (a + b * ((i + 1 - p + t : ℕ) : ℚ))) ^ 2 := by
  unfold fitError
  rw [← Finset.sum_range_reflect]
  refine Finset.sum_congr rfl fun t ht => ?_
  rw [Finset.mem_range] at ht
  rw [show i - (p - 1 - t) = i + 1 - p + t by omega]

theorem bestLine_iff (g : ℕ → ℚ) (p i : ℕ) (hp : 2 ≤ p) (hi : p ≤ i + 1) (a b : ℚ) :
    BestLine g p i a b ↔ a = interceptQ g (i + 1 - p) p ∧ b = slopeQ g (i + 1 - p) p := by
  unfold BestLine
  simp only [fitError_eq g p i hi]
  constructor
  · intro h
    have h' := h (interceptQ g (i + 1 - p) p) (slopeQ g (i + 1 - p) p)
    rw [sq_error g _ p hp a b] at h'
    have h0 := Finset.sum_nonneg (s := Finset.range p) (fun t _ =>
      sq_nonneg (interceptQ g (i + 1 - p) p - a + (slopeQ g (i + 1 - p) p - b) * ((i + 1 - p + t : ℕ) : ℚ)))
    obtain ⟨ha, hb⟩ := line_eq (i + 1 - p) p hp _ _ (le_antisymm (by linarith) h0)
    constructor <;> linarith
  · rintro ⟨rfl, rfl⟩ a' b'
    rw [sq_error g _ p hp a' b']
    have h0 := Finset.sum_nonneg (s := Finset.range p) (fun t _ =>
      sq_nonneg (interceptQ g (i + 1 - p) p - a' + (slopeQ g (i + 1 - p) p - b') * ((i + 1 - p + t : ℕ) : ℚ)))
    linarith

theorem bestSlope_iff (g : ℕ → ℚ) (p i : ℕ) (hp : 2 ≤ p) (hi : p ≤ i + 1) (b : ℚ) :
    BestSlope g p i b ↔ b = slopeQ g (i + 1 - p) p := by
  unfold BestSlope
  simp only [bestLine_iff g p i hp hi]
  exact ⟨fun ⟨_, _, h⟩ => h, fun h => ⟨_, rfl, h⟩⟩

/-! ## Projection bands -/

theorem Nums.slopes (h : Nums n 0 g xs) (p : ℕ) (hp : 1 ≤ p) :
    Nums n (p - 1) (fun i => slopeQ g (i + 1 - p) p) ((rollingOLS p (fillna 0 xs)).map (·.2)) := by
  rw [Ind.fillna_fin xs g fun j hj => h.fin (by rw [h.len] at hj; exact hj) (by omega)]
  refine ⟨by simp [rollingOLS, h.len], fun i hi => ?_⟩
  have h1 := val_rollingOLS p hp xs g i (by rw [h.len]; exact hi) fun j hj => h.fin (by rw [h.len] at hj; exact hj) (by omega)
  have hl : i < (rollingOLS p xs).length := by simp [rollingOLS, h.len]; exact hi
  rw [List.getD_eq_getElem _ _ hl] at h1
  rw [val_lt _ _ (by simpa using hl), List.getElem_map, h1]
  by_cases h2 : p ≤ i + 1
  · rw [if_pos h2, if_neg (by omega)]
  · rw [if_neg h2, if_pos (by omega)]

theorem foldl_fin (pick : Val → Val → Val) (q : ℚ → ℚ → ℚ) (hq : ∀ a b, pick (.fin a) (.fin b) = .fin (q a b)) (l : List ℕ)
    (h : ℕ → ℚ) (a : ℚ) : (l.map fun t => Val.fin (h t)).foldl pick (.fin a) = .fin (l.foldl (fun m t => q m (h t)) a) := by
  induction l generalizing a with
  | nil => rfl
  | cons t l ih => simp only [List.map_cons, List.foldl_cons, hq, ih]

theorem Nums.band {s : ℕ → ℚ} {ys : List Val} (h : Nums n 0 g xs) (p : ℕ) (hp : 1 ≤ p) (h2 : Nums n (p - 1) s ys)
    (pick : Val → Val → Val) (q : ℚ → ℚ → ℚ) (hq : ∀ a b, pick (.fin a) (.fin b) = .fin (q a b)) (hqq : ∀ a, q a a = a) :
    Nums n (p - 1) (fun i => (List.range p).foldl (fun m t => q m (g (i - t) + (i - (i - t) : ℕ) * s i)) (g i + (i - i : ℕ) * s i))
      (Ind.ProjectionBands.band pick p xs ys) := by
  have hlen : (xs.zip ys).length = n := by simp [h.len, h2.len]
  refine ⟨by simp [Ind.ProjectionBands.band, prefixMap, h.len, h2.len], fun i hi => ?_⟩
  unfold Ind.ProjectionBands.band
  rw [val_prefixMap' _ _ _ (by omega)]
  rw [List.length_take, hlen]
  by_cases h1 : i < p - 1
  · rw [if_pos (by omega), if_pos h1]
  · rw [if_neg (by omega), if_neg h1]
    have htake : (xs.zip ys).take (i + 1) = (xs.zip ys).take i ++ [(.fin (g i), .fin (s i))] := by
      rw [List.take_succ_eq_append_getElem (by omega), ← h.fin hi (by omega), ← h2.fin hi (by omega),
        val_lt _ _ (by rw [h.len]; exact hi), val_lt _ _ (by rw [h2.len]; exact hi)]
      simp
    rw [htake, List.reverse_append]
    simp only [List.reverse_singleton, List.singleton_append]
    have e : ((((xs.zip ys).take i).reverse.take (p - 1)).map (·.1)).zipIdx.map
        (fun q => Val.add (Val.mul (.fin ((q.2 : ℚ) + 1)) (.fin (s i))) q.1) =
        (List.range (p - 1)).map fun t => Val.fin (g (i - (t + 1)) + (t + 1 : ℕ) * s i) := by
      refine List.ext_getElem (by simp [h.len, h2.len]; omega) fun t h3 h4 => ?_
      simp only [List.length_map, List.length_range] at h4
      simp only [List.getElem_map, List.getElem_zipIdx, List.getElem_take, List.getElem_reverse, List.getElem_zip, List.length_take,
        hlen, List.getElem_range, zero_add]
      rw [← val_lt _ _ (by rw [h.len]; omega), h.fin (by omega) (by omega), Val.fin_mul, Val.fin_add,
        show min i n - 1 - t = i - (t + 1) by omega]
      push_cast
      rw [add_comm]
    rw [e, foldl_fin pick q hq]
    obtain ⟨m, rfl⟩ : ∃ m, p = m + 1 := ⟨p - 1, by omega⟩
    rw [List.range_succ_eq_map, List.foldl_cons, List.foldl_map]
    simp only [Nat.sub_zero, Nat.sub_self, Nat.cast_zero, zero_mul, add_zero, hqq, Nat.add_sub_cancel]
    congr 1
    have key : ∀ (L : List ℕ) (a : ℚ), (∀ t ∈ L, t + 1 ≤ i) →
        L.foldl (fun m t => q m (g (i - (t + 1)) + ((t + 1 : ℕ) : ℚ) * s i)) a =
        L.foldl (fun m t => q m (g (i - t.succ) + ((i - (i - t.succ) : ℕ) : ℚ) * s i)) a := by
      intro L
      induction L with
      | nil => intro a _; rfl
      | cons t L ih =>
        intro a hL
        have := hL t (by simp)
        simp only [List.foldl_cons]
        rw [ih _ fun t ht => hL t (by simp [ht]), show i - (i - t.succ) = t + 1 by omega]
    exact key _ _ fun t ht => by rw [List.mem_range] at ht; omega

theorem Nums.upperBand {f : RawFrame} (h : Nums n 0 (high f) xs) (p : ℕ) (hp : 1 ≤ p) :
    Nums n (p - 1) (fun i => upperProjection f p (slopeQ (high f) (i + 1 - p) p) i)
      (Ind.ProjectionBands.band Val.pmax p xs ((rollingOLS p (fillna 0 xs)).map (·.2))) :=
  (h.band p hp (h.slopes p hp) Val.pmax max (fun a b => by
    unfold Val.pmax
    by_cases h : a < b
    · simp [Val.lt, h, h.le]
    · simp [Val.lt, h, not_lt.1 h]) max_self).congr rfl fun _ _ _ => rfl

theorem Nums.lowerBand {f : RawFrame} (h : Nums n 0 (low f) xs) (p : ℕ) (hp : 1 ≤ p) :
    Nums n (p - 1) (fun i => lowerProjection f p (slopeQ (low f) (i + 1 - p) p) i)
      (Ind.ProjectionBands.band Val.pmin p xs ((rollingOLS p (fillna 0 xs)).map (·.2))) :=
  (h.band p hp (h.slopes p hp) Val.pmin min (fun a b => by
    unfold Val.pmin
    by_cases h : b < a
    · simp [Val.lt, h, h.le]
    · simp [Val.lt, h, not_lt.1 h]) min_self).congr rfl fun _ _ _ => rfl

end TTI
