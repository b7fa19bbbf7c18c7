import Verif.Lemmas.MirrorInd
import Verif.Lemmas.Col6

set_option autoImplicit false

/-!
# The classes on mirrored prices
-/

namespace TTI

open Spec

theorem zero_sub_val : Val.sub (.fin 0) = Val.neg := by
  funext v; cases v <;> simp [Val.sub, Val.neg, Val.add]

/-! ## Parts of the classes -/

theorem moneyFlow_flip (F : Frame) : Ind.moneyFlowVolume F.flip = ngl (Ind.moneyFlowVolume F) := by
  simp only [Ind.moneyFlowVolume, flip_high, flip_low, flip_close, flip_volume, subS_ngl']
  rw [subS_swap (subS (F.col "close") (F.col "low")) (subS (F.col "high") (F.col "close")), mulS_ngl_right, divS_ngl]

theorem trueRange_flip (pick : Val → Val → Val) (h : ∀ x y z, pick (pick x y) z = pick (pick x z) y) (F : Frame) :
    Ind.trueRange pick F.flip = Ind.trueRange pick F := by
  simp only [Ind.trueRange, flip_high, flip_low, flip_close, shift_ngl, subS_ngl']
  exact zip3_swap _ h _ _ _

theorem truncQ_neg (q : ℚ) : Ind.truncQ (-q) = -Ind.truncQ q := by
  unfold Ind.truncQ
  rcases lt_trichotomy q 0 with h | h | h
  · rw [if_pos (by linarith), if_neg (by linarith), neg_neg]
  · subst h; simp
  · rw [if_neg (by linarith), if_pos (by linarith), neg_neg]

theorem astypeInt_ngl (xs : List Val) : Ind.astypeInt (ngl xs) = ngl (Ind.astypeInt xs) := by
  unfold Ind.astypeInt
  rw [allFin_ngl]
  cases allFin xs with
  | none => rfl
  | some v =>
    simp only [Option.map_some, ngl, List.map_map]
    apply List.map_congr_left
    intro q _
    simp only [Function.comp, truncQ_neg, Val.neg]
    push_cast
    rfl

theorem dm_flip (f g : Val → Val → Val → Val → Val)
    (h : ∀ x y z w, f (Val.neg x) (Val.neg y) (Val.neg z) (Val.neg w) = g z w x y) (F : Frame) :
    Ind.DirectionalMovementIndex.dm f F.flip = Ind.DirectionalMovementIndex.dm g F := by
  simp only [Ind.DirectionalMovementIndex.dm, flip_high, flip_low, shift_ngl, zip_ngl, List.zipWith_map, h]
  rw [List.zipWith_comm]

theorem plusDm_neg (x y z w : Val) : Ind.DirectionalMovementIndex.plusDm (Val.neg x) (Val.neg y) (Val.neg z) (Val.neg w) =
    Ind.DirectionalMovementIndex.minusDm z w x y := by
  simp only [Ind.DirectionalMovementIndex.plusDm, Ind.DirectionalMovementIndex.minusDm, ng_sub']
theorem minusDm_neg (x y z w : Val) : Ind.DirectionalMovementIndex.minusDm (Val.neg x) (Val.neg y) (Val.neg z) (Val.neg w) =
    Ind.DirectionalMovementIndex.plusDm z w x y := by
  simp only [Ind.DirectionalMovementIndex.plusDm, Ind.DirectionalMovementIndex.minusDm, ng_sub']

theorem differences_ngl (p : ℕ) (xs ys : List Val) :
    Ind.CommodityChannelIndex.differences p ((ngl xs).zip (ngl ys)) = Ind.CommodityChannelIndex.differences p (xs.zip ys) := by
  unfold Ind.CommodityChannelIndex.differences
  rw [zip_ngl]
  rw [← List.map_id (prefixMap _ (xs.zip ys))]
  apply prefixMap_map
  intro pre
  have hw : window p (pre.map fun q : Val × Val => (Val.neg q.1, Val.neg q.2)) =
      (window p pre).map fun q : Val × Val => (Val.neg q.1, Val.neg q.2) := by
    unfold window; rw [List.length_map, List.map_drop]
  simp only [hw, List.length_map, List.getLast?_map, id]
  split_ifs
  · rfl
  · cases (window p pre).getLast? with
    | none => rfl
    | some l =>
      simp only [Option.map_some, List.map_map, Function.comp_def]
      congr 1
      apply List.map_congr_left
      intro r _
      rw [ng_sub, ng_abs]

theorem signedVolume_flip (xs ys zs : List Val) :
    zip3 Ind.OnBalanceVolume.signedVolume (ngl xs) (ngl ys) zs = ngl (zip3 Ind.OnBalanceVolume.signedVolume xs ys zs) := by
  have h : ∀ x y z, Ind.OnBalanceVolume.signedVolume (Val.neg x) (Val.neg y) z = Val.neg (Ind.OnBalanceVolume.signedVolume x y z) := by
    intro x y z
    simp only [Ind.OnBalanceVolume.signedVolume, ng_lt]
    by_cases h1 : x <ᵥ y <;> by_cases h2 : y <ᵥ x
    · exfalso
      cases x <;> cases y <;> simp [Val.lt] at h1 h2
      exact absurd h1 (not_lt.2 h2.le)
    · simp [h1, h2, ng_ng]
    · simp [h1, h2]
    · simp [h1, h2, ng_zero]
  unfold zip3 ngl
  rw [List.zip_map_left, List.zipWith_map, List.map_zipWith]
  congr 1
  funext x p
  exact h _ _ _

theorem wadRow_neg (x y z w : Val) : Ind.WilliamsAccumulationDistribution.row (Val.neg x) (Val.neg y) (Val.neg z) (Val.neg w) =
    Val.neg (Ind.WilliamsAccumulationDistribution.row x y w z) := by
  simp only [Ind.WilliamsAccumulationDistribution.row, ng_sub, ng_maxNan, ng_minNan, ng_lt_zero, zero_lt_ng]
  generalize hd : Val.sub x y = d
  by_cases h1 : d <ᵥ 0 <;> by_cases h2 : (0 : Val) <ᵥ d
  · exfalso
    cases d <;> simp [Val.lt, show (0 : Val) = .fin 0 from rfl] at h1 h2
    exact absurd h1 (not_lt.2 h2.le)
  all_goals simp [h1, h2]

theorem wad_flip (xs ys zs ws : List Val) :
    List.zipWith (fun (p q : Val × Val) => Ind.WilliamsAccumulationDistribution.row p.1 p.2 q.1 q.2) ((ngl xs).zip (ngl ys))
      ((ngl zs).zip (ngl ws)) =
    ngl (List.zipWith (fun (p q : Val × Val) => Ind.WilliamsAccumulationDistribution.row p.1 p.2 q.1 q.2) (xs.zip ys) (ws.zip zs)) := by
  have : ws.zip zs = (zs.zip ws).map Prod.swap := by rw [List.zip_swap]
  rw [zip_ngl, zip_ngl, List.zipWith_map, this, List.zipWith_map_right]
  unfold ngl
  rw [List.map_zipWith]
  congr 1
  funext p q
  exact wadRow_neg _ _ _ _

theorem clip_neg (x : Val) : Ind.SwingIndex.clip (Val.neg x) = Val.neg (Ind.SwingIndex.clip x) := by
  have e : (100 : Val) = .fin 100 := rfl
  cases x <;> simp only [Ind.SwingIndex.clip, Val.neg, Val.lt, e] <;> try rfl
  rename_i q
  by_cases h1 : (100 : ℚ) < q
  · have h2 : ¬ (100 : ℚ) < -q := by linarith
    have h3 : -q < -100 := by linarith
    simp [h1, h2, h3]
    norm_num [Val.neg]
  · by_cases h2 : (100 : ℚ) < -q
    · have h3 : q < -100 := by linarith
      simp [h1, h2, h3, Val.neg]
    · have h3 : ¬ q < -100 := by linarith
      have h4 : ¬ -q < -100 := by linarith
      simp [h1, h2, h3, h4, Val.lt, Val.neg]

theorem variableMa_ngl (p : ℕ) (xs ys : List Val) :
    Ind.MovingAverage.variableMa p ((ngl xs).zip ys) = ngl (Ind.MovingAverage.variableMa p (xs.zip ys)) := by
  unfold Ind.MovingAverage.variableMa
  have hz : (ngl xs).zip ys = (xs.zip ys).map fun q => (Val.neg q.1, q.2) := by
    unfold ngl; rw [List.zip_map_left]; rfl
  rw [hz]
  apply prefixMap_map
  intro pre
  rw [← List.map_drop]
  cases pre.drop 21 with
  | nil => rfl
  | cons first rest =>
    simp only [List.map_cons]
    generalize first.1 = z
    induction rest generalizing z with
    | nil => rfl
    | cons r rest ih =>
      simp only [List.map_cons, List.foldl_cons]
      rw [ng_mul_right, ng_mul_left, ng_mul_right, ng_add, ih]

theorem sumRows_ngl (xs ys : List Val) : sumRows (ngl xs) (ngl ys) = ngl (sumRows xs ys) :=
  zipV_ngl _ _ (fun x y => sumSkip_ngl [x, y]) _ _

theorem zeroBelow_ngl (xs : List Val) : zeroBelow (ngl xs) = ngl (zeroAbove xs) := by
  refine map_ngl _ _ (fun x => ?_) xs
  rw [ng_lt_zero]
  split_ifs
  · exact ng_zero.symm
  · rfl
theorem zeroAbove_ngl (xs : List Val) : zeroAbove (ngl xs) = ngl (zeroBelow xs) := by
  refine map_ngl _ _ (fun x => ?_) xs
  rw [zero_lt_ng]
  split_ifs
  · exact ng_zero.symm
  · rfl

theorem up_abs (w : ℕ) (xs : List Val) : (rolling w w aggSum (zeroBelow xs)).map Val.abs = rolling w w aggSum (zeroBelow xs) := by
  conv_rhs => rw [← List.map_id (rolling w w aggSum (zeroBelow xs))]
  apply List.map_congr_left
  intro v hv
  have := sum_nonneg_rolling w (zeroBelow xs) (by
    intro v hv q hq
    obtain ⟨x, _, rfl⟩ := List.mem_map.1 hv
    exact zeroBelow_nonneg x q hq) v hv
  rcases this with rfl | ⟨q, rfl, hq⟩
  · rfl
  · simp [Val.abs, abs_of_nonneg hq]

theorem cmo_flip (w : ℕ) (xs : List Val) :
    rolling w w aggSum (zeroBelow (ngl xs)) = (rolling w w aggSum (zeroAbove xs)).map Val.abs ∧
    (rolling w w aggSum (zeroAbove (ngl xs))).map Val.abs = rolling w w aggSum (zeroBelow xs) := by
  constructor
  · rw [← up_abs, zeroBelow_ngl, sum_ngl, abs_ngl]
  · rw [zeroAbove_ngl, sum_ngl, abs_ngl, up_abs]

/-! ## Indices between 0 and 100 -/

theorem share_line (us ds : List Val) (hu : ∀ v ∈ us, Plain v) (hd : ∀ v ∈ ds, Plain v) :
    divS (scaleS 100 ds) (addS ds us) = (divS (scaleS 100 us) (addS us ds)).map (Val.sub (.fin 100)) := by
  apply List.ext_getElem
  · simp [divS, scaleS, addS, zipV, min_comm]
  intro i h1 h2
  simp only [divS, scaleS, addS, zipV, List.getElem_zipWith, List.getElem_map]
  exact share_other _ _ (hu _ (List.getElem_mem _)) (hd _ (List.getElem_mem _))

theorem range_line (cs ts bs : List Val) (ht : ∀ v ∈ ts, Plain v) (hb : ∀ v ∈ bs, Plain v) :
    divS (scaleS 100 (subS ts cs)) (subS ts bs) = (divS (scaleS 100 (subS cs bs)) (subS ts bs)).map (Val.sub (.fin 100)) := by
  apply List.ext_getElem
  · simp [divS, scaleS, subS, zipV, min_comm, min_left_comm]
  intro i h1 h2
  simp only [divS, scaleS, subS, zipV, List.getElem_zipWith, List.getElem_map]
  exact range_other _ _ _ (ht _ (List.getElem_mem _)) (hb _ (List.getElem_mem _))

theorem range_line_neg (cs ts bs : List Val) (ht : ∀ v ∈ ts, Plain v) (hb : ∀ v ∈ bs, Plain v) :
    scaleS (-100) (divS (subS cs bs) (subS ts bs)) = (scaleS (-100) (divS (subS ts cs) (subS ts bs))).map (Val.sub (.fin (-100))) := by
  apply List.ext_getElem
  · simp [divS, scaleS, subS, zipV, min_comm, min_left_comm]
  intro i h1 h2
  simp only [divS, scaleS, subS, zipV, List.getElem_zipWith, List.getElem_map]
  exact range_other_neg _ _ _ (ht _ (List.getElem_mem _)) (hb _ (List.getElem_mem _))

theorem plain_rolling (agg : List ℚ → Val) (ha : ∀ v, Plain (agg v)) (w n : ℕ) (xs : List Val) :
    ∀ v ∈ rolling w n agg xs, Plain v := by
  intro v hv
  unfold rolling prefixMap at hv
  obtain ⟨j, -, rfl⟩ := List.mem_map.1 hv
  dsimp only
  split_ifs
  · exact ha _
  · exact Or.inl rfl

theorem plain_max (v : List ℚ) : Plain (aggMax v) := by
  unfold aggMax; cases v <;> [exact Or.inl rfl; exact Or.inr ⟨_, rfl⟩]
theorem plain_min (v : List ℚ) : Plain (aggMin v) := by
  unfold aggMin; cases v <;> [exact Or.inl rfl; exact Or.inr ⟨_, rfl⟩]
theorem plain_std (sq : ℚ → ℚ) (v : List ℚ) : Plain (aggStd sq 0 v) := by
  unfold aggStd; cases variance 0 v <;> [exact Or.inl rfl; exact Or.inr ⟨_, rfl⟩]

theorem plain_add {x y : Val} (hx : Plain x) (hy : Plain y) : Plain (Val.add x y) := by
  rcases hx with rfl | ⟨a, rfl⟩ <;> rcases hy with rfl | ⟨b, rfl⟩ <;> first | exact Or.inl rfl | exact Or.inr ⟨_, rfl⟩
theorem plain_sub {x y : Val} (hx : Plain x) (hy : Plain y) : Plain (Val.sub x y) := by
  rcases hx with rfl | ⟨a, rfl⟩ <;> rcases hy with rfl | ⟨b, rfl⟩ <;> first | exact Or.inl rfl | exact Or.inr ⟨_, rfl⟩
theorem plain_div {x : Val} {q : ℚ} (hx : Plain x) (hq : q ≠ 0) : Plain (Val.div x (.fin q)) := by
  rcases hx with rfl | ⟨a, rfl⟩
  · exact Or.inl rfl
  · rw [Val.div, if_neg hq]; exact Or.inr ⟨_, rfl⟩

theorem plain_meanSkip (xs : List Val) (h : ∀ v ∈ xs, Plain v) : Plain (meanSkip xs) := by
  unfold meanSkip
  dsimp only
  split_ifs with h0
  · exact Or.inl rfl
  · refine plain_div ?_ (by simpa using h0)
    have : ∀ (l : List Val) (z : Val), Plain z → (∀ v ∈ l, Plain v) → Plain (l.foldl Val.add z) := by
      intro l
      induction l with
      | nil => intro z hz _; exact hz
      | cons x l ih => intro z hz hl; exact ih _ (plain_add hz (hl x (by simp))) fun v hv => hl v (by simp [hv])
    exact this _ _ (Or.inr ⟨0, rfl⟩) fun v hv => h v (List.mem_of_mem_filter hv)

theorem plain_wilder (s p : ℕ) (hp : 1 ≤ p) (xs : List Val) (h : ∀ v ∈ xs, Plain v) : ∀ v ∈ wilder s p xs, Plain v := by
  intro v hv
  unfold wilder prefixMap at hv
  obtain ⟨j, -, rfl⟩ := List.mem_map.1 hv
  dsimp only
  split_ifs
  · exact Or.inl rfl
  · have hp' : (p : ℚ) ≠ 0 := by exact_mod_cast (by omega : p ≠ 0)
    have : ∀ (l : List Val) (z : Val), Plain z → (∀ v ∈ l, Plain v) →
        Plain (l.foldl (fun prev x => Val.add prev (Val.div (Val.sub x prev) (.fin p))) z) := by
      intro l
      induction l with
      | nil => intro z hz _; exact hz
      | cons x l ih =>
        intro z hz hl
        exact ih _ (plain_add hz (plain_div (plain_sub (hl x (by simp)) hz) hp')) fun v hv => hl v (by simp [hv])
    exact this _ _ (plain_meanSkip _ fun v hv => h v (List.mem_of_mem_take (List.mem_of_mem_drop (List.mem_of_mem_take hv))))
      fun v hv => h v (List.mem_of_mem_take (List.mem_of_mem_drop hv))

theorem plain_selected (sq : ℚ → ℚ) (sel : Val → Bool) (xs : List Val) :
    ∀ v ∈ Ind.RelativeVolatilityIndex.selected sq sel xs, Plain v := by
  intro v hv
  unfold Ind.RelativeVolatilityIndex.selected zipV at hv
  obtain ⟨i, hi, rfl⟩ := List.mem_iff_getElem.1 hv
  rw [List.getElem_zipWith]
  split_ifs
  · exact plain_rolling _ (plain_std sq) _ _ _ _ (List.getElem_mem _)
  · exact Or.inr ⟨0, rfl⟩

theorem selected_ngl (sq : ℚ → ℚ) (sel sel' : Val → Bool) (h : ∀ x, sel (Val.neg x) = sel' x) (xs : List Val) :
    Ind.RelativeVolatilityIndex.selected sq sel (ngl xs) = Ind.RelativeVolatilityIndex.selected sq sel' xs := by
  unfold Ind.RelativeVolatilityIndex.selected
  rw [shift_ngl, subS_ngl, std_ngl]
  unfold zipV ngl
  rw [List.zipWith_map_left]
  simp only [h]

theorem half_ngl (sq : ℚ → ℚ) (p : ℕ) (hp : 1 ≤ p) (xs : List Val) :
    Ind.RelativeVolatilityIndex.half sq p (ngl xs) = (Ind.RelativeVolatilityIndex.half sq p xs).map (Val.sub (.fin 100)) := by
  unfold Ind.RelativeVolatilityIndex.half
  rw [selected_ngl sq _ (fun x => x <ᵥ 0) (fun x => zero_lt_ng x), selected_ngl sq _ (fun x => (0 : Val) <ᵥ x) (fun x => ng_lt_zero x)]
  exact share_line _ _ (plain_wilder _ _ hp _ (plain_selected _ _ _)) (plain_wilder _ _ hp _ (plain_selected _ _ _))

theorem halves_other (a b : List Val) :
    ((addS (a.map (Val.sub (.fin 100))) (b.map (Val.sub (.fin 100)))).map fun x => Val.div x 2) =
      ((addS a b).map fun x => Val.div x 2).map (Val.sub (.fin 100)) := by
  unfold addS zipV
  rw [List.zipWith_map, List.map_zipWith, List.map_zipWith, List.map_zipWith]
  congr 1
  funext x y
  cases x <;> cases y <;> simp [Val.sub, Val.neg, Val.add, Val.div, Val.infMul, show (2 : Val) = .fin 2 from rfl]
  ring

theorem ratio_other (w : ℕ) (c h l : List Val) (h1 : c.length = h.length) (h2 : l.length = h.length) :
    Ind.UltimateOscillator.ratio w (subS h c) (subS h l) =
      (Ind.UltimateOscillator.ratio w (subS c l) (subS h l)).map (Val.sub (.fin 1)) := by
  have h0 : ∀ xs : List Val, scaleS 1 xs = xs := fun xs => by
    unfold scaleS
    conv_rhs => rw [← List.map_id xs]
    exact List.map_congr_left fun x _ => one_mul_val x
  have := rolling_ends_div w 1 c h l h1 h2
  rw [h0, h0] at this
  exact this

theorem ultimate_line (a b c : List Val) :
    ((scaleS 100 (addS (addS (scaleS 4 (a.map (Val.sub (.fin 1)))) (scaleS 2 (b.map (Val.sub (.fin 1))))) (c.map (Val.sub (.fin 1))))).map
      fun x => Val.div x 7) =
    ((scaleS 100 (addS (addS (scaleS 4 a) (scaleS 2 b)) c)).map fun x => Val.div x 7).map (Val.sub (.fin 100)) := by
  apply List.ext_getElem
  · simp [scaleS, addS, zipV]
  intro i h1 h2
  simp only [scaleS, addS, zipV, List.getElem_zipWith, List.getElem_map]
  exact ultimate_other _ _ _

/-! ## RSI -/

/-- What a mean of upward (or downward) changes can be. -/
def UpVal (v : Val) : Prop := v = .nan ∨ v = .pinf ∨ ∃ q : ℚ, v = .fin q ∧ 0 ≤ q

theorem upval_round {v : Val} (h : UpVal v) : UpVal (Val.round 4 v) := by
  rcases h with rfl | rfl | ⟨q, rfl, hq⟩
  · exact Or.inl rfl
  · exact Or.inr (Or.inl rfl)
  · exact Or.inr (Or.inr ⟨_, rfl, roundQ_nonneg 4 hq⟩)

theorem upval_add {x y : Val} (hx : UpVal x) (hy : UpVal y) : UpVal (Val.add x y) := by
  rcases hx with rfl | rfl | ⟨a, rfl, ha⟩ <;> rcases hy with rfl | rfl | ⟨b, rfl, hb⟩ <;> first
  | exact Or.inl rfl
  | exact Or.inr (Or.inl rfl)
  | exact Or.inr (Or.inr ⟨_, rfl, add_nonneg ha hb⟩)

theorem upval_div {x : Val} {n : ℕ} (hx : UpVal x) (hn : n ≠ 0) : UpVal (Val.div x (.fin n)) := by
  have hn' : (0 : ℚ) < n := by exact_mod_cast Nat.pos_of_ne_zero hn
  rcases hx with rfl | rfl | ⟨a, rfl, ha⟩
  · exact Or.inl rfl
  · right; left; simp [Val.div, Val.infMul, hn'.ne', hn']
  · rw [Val.div, if_neg hn'.ne']; exact Or.inr (Or.inr ⟨_, rfl, div_nonneg ha hn'.le⟩)

theorem upval_step {x y : Val} {n : ℕ} (hx : UpVal x) (hy : UpVal y) (hn : n ≠ 0) :
    UpVal (Val.add x (Val.div (Val.sub y x) (.fin n))) := by
  have hn' : (1 : ℚ) ≤ n := by exact_mod_cast Nat.pos_of_ne_zero hn
  have h0 : (0 : ℚ) < n := by linarith
  rcases hx with rfl | rfl | ⟨a, rfl, ha⟩ <;> rcases hy with rfl | rfl | ⟨b, rfl, hb⟩ <;>
    simp only [Val.sub, Val.neg, Val.add, Val.div, Val.infMul, if_neg h0.ne', h0, if_true] <;> first
    | exact Or.inl rfl
    | exact Or.inr (Or.inl rfl)
    | skip
  refine Or.inr (Or.inr ⟨_, rfl, ?_⟩)
  have : a + (b + -a) / n = (b + (n - 1) * a) / n := by field_simp; ring
  rw [this]
  have : (0 : ℚ) ≤ (n - 1) * a := mul_nonneg (by linarith) ha
  positivity

theorem upval_meanSkip (xs : List Val) (h : ∀ v ∈ xs, UpVal v) : UpVal (meanSkip xs) := by
  unfold meanSkip
  dsimp only
  split_ifs with h0
  · exact Or.inl rfl
  · refine upval_div ?_ (by simpa using h0)
    have : ∀ (l : List Val) (z : Val), UpVal z → (∀ v ∈ l, UpVal v) → UpVal (l.foldl Val.add z) := by
      intro l
      induction l with
      | nil => intro z hz _; exact hz
      | cons x l ih => intro z hz hl; exact ih _ (upval_add hz (hl x (by simp))) fun v hv => hl v (by simp [hv])
    exact this _ _ (Or.inr (Or.inr ⟨0, rfl, le_refl _⟩)) fun v hv => h v (List.mem_of_mem_filter hv)

theorem upval_smooth (p : ℕ) (hp : 1 ≤ p) (xs : List Val) (h : ∀ v ∈ xs, UpVal v) :
    ∀ v ∈ Ind.RelativeStrengthIndex.smooth p xs, UpVal v := by
  intro v hv
  unfold Ind.RelativeStrengthIndex.smooth prefixMap at hv
  obtain ⟨j, -, rfl⟩ := List.mem_map.1 hv
  dsimp only
  split_ifs
  · exact Or.inl rfl
  · have : ∀ (l : List Val) (z : Val), UpVal z → (∀ v ∈ l, UpVal v) →
        UpVal (l.foldl (fun prev x => Val.round 4 (Val.add prev (Val.div (Val.sub x prev) (.fin p)))) z) := by
      intro l
      induction l with
      | nil => intro z hz _; exact hz
      | cons x l ih =>
        intro z hz hl
        exact ih _ (upval_round (upval_step hz (hl x (by simp)) (by omega))) fun v hv => hl v (by simp [hv])
    exact this _ _ (upval_meanSkip _ fun v hv => h v (List.mem_of_mem_take (List.mem_of_mem_take hv)))
      fun v hv => h v (List.mem_of_mem_take (List.mem_of_mem_drop hv))

theorem upval_upward (x y : Val) : UpVal (Ind.RelativeStrengthIndex.upward x y) := by
  apply upval_round
  split_ifs with h
  · cases x <;> cases y <;> simp [Val.lt] at h <;> first
    | exact Or.inr (Or.inl rfl)
    | exact Or.inr (Or.inr ⟨_, rfl, by linarith⟩)
  · exact Or.inr (Or.inr ⟨0, rfl, le_refl _⟩)

theorem downward_eq (x y : Val) : Ind.RelativeStrengthIndex.downward x y = Ind.RelativeStrengthIndex.upward y x := rfl

theorem upward_ng (x y : Val) : Ind.RelativeStrengthIndex.upward (Val.neg x) (Val.neg y) = Ind.RelativeStrengthIndex.downward x y := by
  simp only [Ind.RelativeStrengthIndex.upward, Ind.RelativeStrengthIndex.downward, ng_lt, ng_sub']
theorem downward_ng (x y : Val) : Ind.RelativeStrengthIndex.downward (Val.neg x) (Val.neg y) = Ind.RelativeStrengthIndex.upward x y := by
  simp only [Ind.RelativeStrengthIndex.upward, Ind.RelativeStrengthIndex.downward, ng_lt, ng_sub']

theorem rsi_other (u d : Val) (hu : UpVal u) (hd : UpVal d) :
    Val.sub 100 (Val.div 100 (Val.add (Val.div d u) 1)) =
      Val.sub (.fin 100) (Val.sub 100 (Val.div 100 (Val.add (Val.div u d) 1))) := by
  have e : (100 : Val) = .fin 100 := rfl
  have e1 : (1 : Val) = .fin 1 := rfl
  rw [e, e1]
  have hinf : ∀ a : ℚ, 0 ≤ a → Val.div .pinf (.fin a) = .pinf := by
    intro a ha
    rcases ha.eq_or_lt with h | h
    · subst h; simp [Val.div]
    · simp [Val.div, Val.infMul, h.ne', h]
  rcases hu with rfl | rfl | ⟨a, rfl, ha⟩ <;> rcases hd with rfl | rfl | ⟨b, rfl, hb⟩ <;> try rfl
  · rw [hinf b hb]; norm_num [Val.div, Val.add, Val.sub, Val.neg]
  · rw [hinf a ha]; norm_num [Val.div, Val.add, Val.sub, Val.neg]
  · rcases ha.eq_or_lt with h | h <;> rcases hb.eq_or_lt with h' | h'
    · subst h; subst h'; rfl
    · subst h
      norm_num [Val.div, h'.ne', h', Val.add, Val.sub, Val.neg]
    · subst h'
      norm_num [Val.div, h.ne', h, Val.add, Val.sub, Val.neg]
    · have h1 : b / a + 1 ≠ 0 := by positivity
      have h2 : a / b + 1 ≠ 0 := by positivity
      simp only [Val.div, if_neg h.ne', if_neg h'.ne', Val.add, if_neg h1, if_neg h2, Val.sub, Val.neg, Val.fin.injEq]
      have h3 : b + a ≠ 0 := by positivity
      have h4 : a + b ≠ 0 := by positivity
      field_simp
      ring

theorem rsi_ngl (p : ℕ) (hp : 1 ≤ p) (xs : List Val) :
    Ind.RelativeStrengthIndex.raw p (ngl xs) = (Ind.RelativeStrengthIndex.raw p xs).map (Val.sub (.fin 100)) := by
  unfold Ind.RelativeStrengthIndex.raw
  have hz : ∀ (f g : Val → Val → Val), (∀ x y, f (Val.neg x) (Val.neg y) = g x y) → ∀ a b : List Val,
      zipV f (ngl a) (ngl b) = zipV g a b := by
    intro f g h a b
    unfold zipV ngl
    rw [List.zipWith_map]
    simp only [h]
  rw [shift_ngl, hz _ _ upward_ng, hz _ _ downward_ng]
  have hu : ∀ (f : Val → Val → Val), (∀ x y, UpVal (f x y)) → ∀ v ∈ maskBefore 1 (zipV f xs (shift 1 xs)), UpVal v := by
    intro f hf v hv
    unfold maskBefore at hv
    rcases List.mem_append.1 (List.mem_of_mem_take hv) with h | h
    · rw [List.mem_replicate] at h; exact Or.inl h.2
    · have := List.mem_of_mem_drop h
      unfold zipV at this
      obtain ⟨i, hi, rfl⟩ := List.mem_iff_getElem.1 this
      rw [List.getElem_zipWith]
      exact hf _ _
  have hU := upval_smooth p hp _ (hu _ upval_upward)
  have hD := upval_smooth p hp _ (hu Ind.RelativeStrengthIndex.downward (fun x y => upval_upward y x))
  dsimp only
  revert hU hD
  generalize Ind.RelativeStrengthIndex.smooth p (maskBefore 1 (zipV Ind.RelativeStrengthIndex.upward xs (shift 1 xs))) = U
  generalize Ind.RelativeStrengthIndex.smooth p (maskBefore 1 (zipV Ind.RelativeStrengthIndex.downward xs (shift 1 xs))) = D
  intro hU hD
  apply List.ext_getElem
  · simp [divS, zipV, min_comm]
  intro i h1 h2
  simp only [divS, zipV, List.getElem_map, List.getElem_zipWith]
  exact rsi_other _ _ (hU _ (List.getElem_mem _)) (hD _ (List.getElem_mem _))

end TTI
