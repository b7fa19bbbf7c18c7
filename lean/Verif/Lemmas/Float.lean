import Verif.Spec.Float
import Verif.Lemmas.Rounding
import Verif.Lemmas.Col3

set_option autoImplicit false

/-! Indicators in rounded arithmetic: the columns. -/

namespace TTI

open Spec Flt Sim

/-! ## The constructed object -/

theorem Flt.construct_ok_iff (A : Arith) (E : Env) (c : Call) (data : InputArg) (fill : Bool) (o : Obj) :
    (Flt.construct A E c data (.bool fill)).2 = .ok o ↔
      ∃ ind F T, c.check = .ok ind ∧ (validateInputData data ind.required fill).2 = .ok F ∧
        Flt.calcTi A E F ind = .ok T ∧ o = ⟨ind, Flt.inputAfter A ind F, T⟩ := by
  unfold Flt.construct
  cases hc : c.check with
  | error e => simp
  | ok ind =>
    simp only [Except.ok.injEq]
    rcases hv : validateInputData data ind.required fill with ⟨caller, r⟩
    cases r with
    | error e =>
      simp only [reduceCtorEq, false_iff, not_exists]
      rintro ind' F T ⟨rfl, h, -⟩
      rw [hv] at h; simp at h
    | ok F =>
      simp only
      cases ht : Flt.calcTi A E F ind with
      | error e =>
        simp only [reduceCtorEq, false_iff, not_exists]
        rintro ind' F' T ⟨rfl, h, h2, -⟩
        rw [hv] at h
        simp only [Except.ok.injEq] at h
        subst h
        rw [ht] at h2; simp at h2
      | ok T =>
        simp only [Except.ok.injEq]
        constructor
        · rintro rfl
          exact ⟨ind, F, T, rfl, by rw [hv], ht, rfl⟩
        · rintro ⟨ind', F', T', rfl, h, h2, rfl⟩
          rw [hv] at h
          simp only [Except.ok.injEq] at h
          subst h
          rw [ht] at h2
          simp only [Except.ok.injEq] at h2
          subst h2; rfl

/-- The columns of an object constructed in rounded arithmetic. -/
theorem Spec.FloatBuilt.on {A : Arith} {E : Env} {c : Call} {f : RawFrame} {fill : Bool} {o : Obj} {P : (String → ℚ) → Prop} {ind : Ind}
    (h : FloatBuilt A E c f fill o P) (ho : o.ind = ind) (hr' : ind.required.Nodup) :
    ∃ F : Frame, F.len = f.idx.length ∧ (∀ n ∈ ind.required, Nums F.len 0 (price f n) (F.col n)) ∧
      Flt.calcTi A E F ind = .ok o.getTiData ∧ ind.Pos ∧ F.SameCols ⟨F.idx, ind.required.map fun n => (n, F.col n)⟩ ∧
      o.input = Flt.inputAfter A ind F ∧ (∀ i < F.len, ∃ x : String → ℚ, (∀ n ∈ ind.required, x n = price f n i) ∧ P x) := by
  subst ho
  obtain ⟨ind, F, T, hc, hv, ht, rfl⟩ := (Flt.construct_ok_iff _ _ _ _ _ _).1 h.ok
  have hr := eachRow_validated f _ _ P fill F h.wf hv (fun n hn => hn) h.rows
  choose! x hx using hr
  have hg := validated_good f _ _ _ h.wf hv
  have hlen : F.len = f.idx.length := by unfold Frame.len; rw [hg.2, (sortIdx_perm _).length_eq]
  have key : ∀ n ∈ ind.required, ∀ i < F.len, x i n = price f n i := fun n hn i hi => by
    unfold price
    rw [← validated_day f _ P fill F h.wf hv h.rows n hn i, (hx i hi).1 n hn]
    rfl
  refine ⟨F, hlen, fun n hn => ⟨F.col_length hg.1.wf n (hg.1.has n hn), fun i hi => ?_⟩, ht, check_pos _ _ hc,
    F.sameCols_required _ hr' (validated_nodup f _ fill F hv) hg.1, rfl, fun i hi => ⟨x i, fun n hn => key n hn i hi, (hx i hi).2⟩⟩
  rw [if_neg (by omega), (hx i hi).1 n hn, key n hn i hi]

/-! ## Operations on columns -/

namespace Nums

variable {n k l : ℕ} {g h' : ℕ → ℚ} {xs ys : List Val} (A : Arith)

theorem fadd (h : Nums n k g xs) (h2 : Nums n l h' ys) : Nums n (max k l) (fun i => A.fl (g i + h' i)) (A.addS xs ys) :=
  h.op h2 _ (fun a b => A.fl (a + b)) (fun y => by simp [Arith.add, Arith.rd]) (fun x => by simp [Arith.add, Arith.rd])
    fun _ _ => rfl

theorem fsub (h : Nums n k g xs) (h2 : Nums n l h' ys) : Nums n (max k l) (fun i => A.fl (g i - h' i)) (A.subS xs ys) :=
  h.op h2 _ (fun a b => A.fl (a - b)) (fun y => by simp [Arith.sub, Arith.rd]) (fun x => by simp [Arith.sub, Arith.rd])
    fun _ _ => by simp [Arith.sub, Arith.rd]

theorem fdiv (h : Nums n k g xs) (h2 : Nums n l h' ys) (h0 : ∀ i < n, max k l ≤ i → h' i ≠ 0) :
    Nums n (max k l) (fun i => A.fl (g i / h' i)) (A.divS xs ys) :=
  ⟨by simp [Arith.divS, h.len, h2.len, zipV], fun i hi => by
    rw [Arith.divS, val_zipV_nan _ (fun y => by simp [Arith.div, Arith.rd]) (fun x => by simp [Arith.div, Arith.rd]),
      h.val i hi, h2.val i hi]
    split_ifs <;> first | omega | skip
    all_goals try simp [Arith.div, Arith.rd]
    rw [Val.fin_div _ _ (h0 i hi (by omega))]⟩

theorem fscale (h : Nums n k g xs) (c : ℚ) : Nums n k (fun i => A.fl (c * g i)) (A.scaleS c xs) :=
  h.mapV _ (fun a => A.fl (c * a)) (by simp [Arith.mul, Arith.rd]) fun _ => rfl

theorem fdivConst (h : Nums n k g xs) (c : ℚ) (hc : c ≠ 0) :
    Nums n k (fun i => A.fl (g i / c)) (xs.map fun x => A.div x (.fin c)) :=
  h.mapV _ (fun a => A.fl (a / c)) (by simp [Arith.div, Arith.rd]) fun a => by simp [Arith.div, Arith.rd, Val.fin_div _ _ hc]

/-- A number as numpy rounds it to `d` decimals. -/
def _root_.TTI.Flt.Arith.roundNum (d : ℕ) (q : ℚ) : ℚ := A.fl ((rint (A.fl (q * 10 ^ d)) : ℚ) / 10 ^ d)

theorem fround (h : Nums n k g xs) (d : ℕ) : Nums n k (fun i => A.roundNum d (g i)) (A.roundS d xs) :=
  h.mapV _ (A.roundNum d) rfl fun _ => rfl

/-! ## Exponential averages -/

/-- The new average after a number. -/
def _root_.TTI.Flt.Arith.emaNext (s : ℕ) (w c : ℚ) : ℚ :=
  let o := A.fl (1 * A.oldFactor s)
  let m := if A.com s = 1 then A.fl (1 - o) else A.alpha s
  if w = c then w else A.fl (A.fl (A.fl (o * w) + A.fl (m * c)) / A.fl (o + m))

/-- The average in rounded arithmetic. -/
def _root_.TTI.Flt.Arith.ema (s k : ℕ) (g : ℕ → ℚ) : ℕ → ℚ := running k (g k) (A.emaNext s) g

theorem fewm (h : Nums n k g xs) (s m : ℕ) (hm : 1 ≤ m) : Nums n (k + m - 1) (A.ema s k g) (A.ewm s m xs) :=
  ⟨by simp [Arith.ewm, h.len], fun i hi => by
    have key : ∀ j ≤ n, (xs.take j).foldl (A.ewmStep s) ⟨none, 0⟩ =
        if j ≤ k then ⟨none, 0⟩ else ⟨some (A.ema s k g (j - 1), 1), j - k⟩ := by
      intro j
      induction j with
      | zero => intro _; simp
      | succ j ih =>
        intro hj
        rw [foldl_take_succ _ _ _ _ (by rw [h.len]; omega), ih (by omega), ← val_lt xs j (by rw [h.len]; omega), h.val j (by omega)]
        by_cases h1 : j < k
        · rw [if_pos (by omega), if_pos h1, if_pos (by omega)]; rfl
        · rw [if_neg h1, if_neg (show ¬ j + 1 ≤ k by omega)]
          by_cases h2 : j ≤ k
          · have : j = k := by omega
            subst this
            rw [if_pos (le_refl _), show j + 1 - j = 1 by omega, show j + 1 - 1 = j by omega]
            unfold Arith.ema
            rw [running_start _ _ _ _ _ (le_refl _)]
            rfl
          · rw [if_neg h2, show j + 1 - k = j - k + 1 by omega, show j + 1 - 1 = (j - 1) + 1 by omega]
            have e : A.ema s k g (j - 1 + 1) = A.emaNext s (A.ema s k g (j - 1)) (g j) := by
              unfold Arith.ema
              rw [running_next _ _ _ _ _ (show k ≤ j - 1 by omega), show j - 1 + 1 = j by omega]
            rw [e]
            rfl
    unfold Arith.ewm
    rw [val_prefixMap _ _ _ (by rw [h.len]; exact hi)]
    simp only
    rw [key (i + 1) (by omega)]
    by_cases h1 : i + 1 ≤ k
    · rw [if_pos h1, if_neg (show ¬ m ≤ 0 by omega), if_pos (by omega)]
    · rw [if_neg h1]
      by_cases h2 : i < k + m - 1
      · rw [if_pos h2, if_neg (show ¬ m ≤ i + 1 - k by omega)]
      · rw [if_neg h2, if_pos (show m ≤ i + 1 - k by omega)]; rfl⟩

/-! ## Means -/

theorem _root_.TTI.Flt.Arith.mean_fin (v : List ℚ) (hv : v ≠ []) : A.mean (v.map Val.fin) = .fin (A.fl (A.sum v / v.length)) := by
  have h1 : (v.map Val.fin).all Val.isFin = true := by simp [List.all_eq_true, Val.isFin]
  have h2 : finVals (v.map Val.fin) = v := by
    unfold finVals
    rw [List.filterMap_map]
    simp [Function.comp_def]
  unfold Arith.mean
  rw [filter_fin]
  simp only [h1, h2, if_true, List.map_eq_nil_iff, hv, if_false, List.length_map]

/-- One step of Wilder's average. -/
def _root_.TTI.Flt.Arith.wilderNext (p : ℕ) (w c : ℚ) : ℚ := A.fl (w + A.fl (A.fl (c - w) / p))

/-- Wilder's average in rounded arithmetic. -/
def _root_.TTI.Flt.Arith.wilderNum (p : ℕ) (g : ℕ → ℚ) : ℕ → ℚ :=
  running (p - 1) (A.fl (A.sum ((List.range p).map g) / p)) (A.wilderNext p) g

theorem fwilder (h : Nums n 0 g xs) (p : ℕ) (hp : 1 ≤ p) : Nums n (p - 1) (A.wilderNum p g) (A.wilder 0 p xs) :=
  ⟨by simp [Arith.wilder, h.len], fun i hi => by
    have hp0 : (p : ℚ) ≠ 0 := by positivity
    unfold Arith.wilder
    rw [val_prefixMap _ _ _ (by rw [h.len]; exact hi), List.length_take, h.len]
    by_cases h1 : i < p - 1
    · rw [if_pos h1, if_pos (by omega)]
    · rw [if_neg h1, if_neg (by omega)]
      have e1 : ((xs.take (i + 1)).drop 0).take p = (xs.drop 0).take p := by
        rw [List.drop_take, List.take_take]; congr 1; omega
      rw [e1, h.take_drop 0 p (le_refl _) (by omega), Arith.mean_fin A _ (by simp; omega), List.length_map, List.length_range]
      simp only [zero_add]
      have key : ∀ t, p + t ≤ n → ((xs.take (p + t)).drop p).foldl
          (fun prev x => A.add prev (A.div (A.sub x prev) (.fin (p : ℚ)))) (.fin (A.fl (A.sum ((List.range p).map fun t => g t) / p))) =
          .fin (A.wilderNum p g (p - 1 + t)) := by
        intro t
        induction t with
        | zero =>
          intro _
          rw [List.drop_take]
          simp only [add_zero, Nat.sub_self, List.take_zero, List.foldl_nil]
          unfold Arith.wilderNum
          rw [running_start _ _ _ _ _ (le_refl _)]
        | succ t ih =>
          intro ht
          have e : (xs.take (p + (t + 1))).drop p = (xs.take (p + t)).drop p ++ [Val.fin (g (p + t))] := by
            rw [← h.fin (by omega) (by omega), val_lt _ _ (by rw [h.len]; omega), ← add_assoc,
              List.take_succ_eq_append_getElem (by rw [h.len]; omega), List.drop_append]
            simp [h.len]
            rw [show p - min (p + t) n = 0 by omega]
            rfl
          rw [e, List.foldl_append, ih (by omega), List.foldl_cons, List.foldl_nil]
          have e2 : A.wilderNum p g (p - 1 + (t + 1)) = A.wilderNext p (A.wilderNum p g (p - 1 + t)) (g (p + t)) := by
            unfold Arith.wilderNum
            rw [show p - 1 + (t + 1) = (p - 1 + t) + 1 by omega, running_next _ _ _ _ _ (by omega),
              show p - 1 + t + 1 = p + t by omega]
          rw [e2]
          simp only [Arith.add, Arith.sub, Arith.div, Arith.rd, Val.fin_sub, Val.fin_div _ _ hp0, Val.fin_add, Arith.wilderNext]
      have := key (i + 1 - p) (by omega)
      rw [show p + (i + 1 - p) = i + 1 by omega, show p - 1 + (i + 1 - p) = i by omega] at this
      exact this⟩

end Nums
end TTI
