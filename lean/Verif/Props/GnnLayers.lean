import Verif.Props.GnnSetup
import Verif.Spec.Network
import Mathlib.Algebra.BigOperators.Field
import Mathlib.Analysis.SpecialFunctions.Trigonometric.DerivHyp

/-!
# C125: layers of the graph network
-/

namespace Verif

variable {d a b : ℕ}

theorem rowMean_eq (x : Row d) : rowMean x = Spec.meanOf x := by
  unfold rowMean Spec.meanOf
  rw [div_eq_inv_mul]

theorem rowVar_eq (x : Row d) : rowVar x = Spec.varOf x := by
  rcases Nat.eq_zero_or_pos d with rfl | hd
  · simp [rowVar, Spec.varOf, Spec.meanOf]
  · have hd' : (d : ℝ) ≠ 0 := by exact_mod_cast hd.ne'
    unfold rowVar Spec.varOf
    rw [rowMean_eq]
    have hs : ∑ j, x j = d * Spec.meanOf x := by
      unfold Spec.meanOf
      rw [mul_inv_cancel_left₀ hd']
    have h2 : ∑ j, x j ^ 2 = d * Spec.meanOf fun j => x j ^ 2 := by
      unfold Spec.meanOf
      rw [mul_inv_cancel_left₀ hd']
    have : ∑ j, (x j - Spec.meanOf x) ^ 2 =
        ∑ j, x j ^ 2 - 2 * Spec.meanOf x * ∑ j, x j + d * Spec.meanOf x ^ 2 := by
      have : ∀ j, (x j - Spec.meanOf x) ^ 2 =
          x j ^ 2 - 2 * Spec.meanOf x * x j + Spec.meanOf x ^ 2 := fun j => by ring
      simp only [this, Finset.sum_add_distrib, Finset.sum_sub_distrib, Finset.mul_sum]
      simp
    rw [this, hs, h2]
    field_simp
    ring

theorem varOf_nonneg (x : Row d) : 0 ≤ Spec.varOf x := by
  rw [← rowVar_eq]
  unfold rowVar
  positivity

/-- C125: a linear layer is the affine map with its weights: the bias at the origin, a column of the
weights for each unit vector, and affine combinations to affine combinations. -/
theorem C125_linear (l : Linear a b) (x : Row a) :
    l.apply x = Spec.affine (Matrix.of l.weight) l.bias x ∧
    l.apply 0 = l.bias ∧
    (∀ j k, l.apply (Pi.single j 1) k = l.weight k j + l.bias k) ∧
    ∀ (y : Row a) (s t : ℝ), s + t = 1 →
      l.apply (s • x + t • y) = s • l.apply x + t • l.apply y := by
  refine ⟨?_, ?_, ?_, ?_⟩
  · funext k
    simp [Linear.apply, Spec.affine, Matrix.mulVec, dotProduct]
  · funext k
    simp [Linear.apply]
  · intro j k
    simp [Linear.apply, Pi.single_apply]
  · intro y s t hst
    funext k
    have : s * l.bias k + t * l.bias k = l.bias k := by rw [← add_mul, hst, one_mul]
    simp only [Linear.apply, Pi.add_apply, Pi.smul_apply, smul_eq_mul, mul_add, Finset.mul_sum,
      Finset.sum_add_distrib]
    have h1 : ∀ (c : ℝ) (z : Row a), ∑ j, l.weight k j * (c * z j) = ∑ j, c * (l.weight k j * z j) :=
      fun c z => Finset.sum_congr rfl fun j _ => by ring
    rw [h1, h1]
    linarith

/-- C125: layer normalisation standardises the entries and then applies gain and offset. -/
theorem C125_layer_norm (l : LayerNorm d) (x : Row d) :
    l.apply x = Spec.layerNorm l.weight l.bias x := by
  funext k
  unfold LayerNorm.apply Spec.layerNorm Spec.standardised
  rw [rowMean_eq, rowVar_eq, show (10 : ℝ) ^ 5 = 100000 by norm_num]
  ring

/-- C125: standardised entries have mean zero and variance `v / (v + 1e-5)`, and do not change when
the same number is added to all entries. -/
theorem C125_standardised (l : LayerNorm d) (hw : ∀ k, l.weight k = 1) (hb : ∀ k, l.bias k = 0)
    (x : Row d) :
    ∑ k, l.apply x k = 0 ∧
    Spec.varOf (l.apply x) = Spec.varOf x / (Spec.varOf x + 1 / 100000) ∧
    (∀ c : ℝ, l.apply (fun k => x k + c) = l.apply x) := by
  have hle : l.apply x = Spec.standardised x := by
    rw [C125_layer_norm]
    funext k
    simp [Spec.layerNorm, hw, hb]
  rcases Nat.eq_zero_or_pos d with rfl | hd
  · refine ⟨by simp, ?_, fun c => ?_⟩
    · simp [Spec.varOf, Spec.meanOf]
    · funext k; exact k.elim0
  have hd' : (d : ℝ) ≠ 0 := by exact_mod_cast hd.ne'
  have hpos : 0 < Spec.varOf x + 1 / 100000 := by have := varOf_nonneg x; positivity
  have hsum : ∑ k, (x k - Spec.meanOf x) = 0 := by
    rw [Finset.sum_sub_distrib]
    simp only [Finset.sum_const, Finset.card_univ, Fintype.card_fin, nsmul_eq_mul]
    unfold Spec.meanOf
    rw [mul_inv_cancel_left₀ hd', sub_self]
  have hzero : ∑ k, l.apply x k = 0 := by
    rw [hle]
    unfold Spec.standardised
    rw [← Finset.sum_div, hsum, zero_div]
  refine ⟨hzero, ?_, ?_⟩
  · have hm : Spec.meanOf (l.apply x) = 0 := by
      unfold Spec.meanOf
      rw [hzero, mul_zero]
    have hv : Spec.meanOf (fun j => l.apply x j ^ 2) =
        Spec.varOf x / (Spec.varOf x + 1 / 100000) := by
      rw [hle]
      unfold Spec.standardised
      simp only [div_pow, Real.sq_sqrt hpos.le]
      have h1 : Spec.varOf x = Spec.meanOf fun j => (x j - Spec.meanOf x) ^ 2 := by
        rw [← rowVar_eq]
        unfold rowVar
        rw [rowMean_eq]
        unfold Spec.meanOf
        rw [div_eq_inv_mul]
      rw [h1]
      unfold Spec.meanOf
      rw [← Finset.sum_div, mul_div_assoc]
    unfold Spec.varOf at *
    rw [hm, hv]
    ring
  · intro c
    have hm : rowMean (fun k => x k + c) = rowMean x + c := by
      unfold rowMean
      rw [Finset.sum_add_distrib]
      simp only [Finset.sum_const, Finset.card_univ, Fintype.card_fin, nsmul_eq_mul]
      field_simp
    funext k
    simp only [LayerNorm.apply, rowVar, hm, add_sub_add_right_eq_sub]

theorem sigmoid_eq (x : ℝ) : sigmoid x = Spec.logistic x := by
  unfold sigmoid Spec.logistic
  have := Real.exp_pos x
  rw [Real.exp_neg]
  field_simp

theorem logistic_bounds (x : ℝ) : 0 < Spec.logistic x ∧ Spec.logistic x < 1 := by
  unfold Spec.logistic
  have := Real.exp_pos x
  constructor
  · positivity
  · rw [div_lt_one (by positivity)]; linarith

theorem abs_tanh_lt (x : ℝ) : |Real.tanh x| < 1 :=
  abs_lt.2 ⟨Real.neg_one_lt_tanh x, Real.tanh_lt_one x⟩

theorem tanh_pos_iff (x : ℝ) : 0 < Real.tanh x ↔ 0 < x := by
  rw [Real.tanh_eq_sinh_div_cosh, div_pos_iff_of_pos_right (Real.cosh_pos x), Real.sinh_pos_iff]

/-- C125: the gate multiplies the logistic function of the first half with the hyperbolic tangent of
the second half; it lies strictly between -1 and 1, has the sign of the second half, and grows in
size with the first half. -/
theorem C125_gate (x : Row (d + d)) (k : Fin d) :
    gate x = Spec.gated x ∧ |gate x k| < 1 ∧
    (0 < gate x k ↔ 0 < x (Fin.natAdd d k)) ∧ (gate x k < 0 ↔ x (Fin.natAdd d k) < 0) ∧
    ∀ y : Row (d + d), y (Fin.natAdd d k) = x (Fin.natAdd d k) →
      x (Fin.natAdd d k) ≠ 0 → x (Fin.castAdd d k) < y (Fin.castAdd d k) →
      |gate x k| < |gate y k| := by
  have hg : ∀ x : Row (d + d), gate x = Spec.gated x := by
    intro x
    funext k
    simp only [gate, Spec.gated, chunkFst, chunkSnd, sigmoid_eq]
  have hl := logistic_bounds (x (Fin.castAdd d k))
  refine ⟨hg x, ?_, ?_, ?_, ?_⟩
  · rw [hg]
    unfold Spec.gated
    rw [abs_mul, abs_of_pos hl.1]
    have := abs_tanh_lt (x (Fin.natAdd d k))
    nlinarith [abs_nonneg (Real.tanh (x (Fin.natAdd d k)))]
  · rw [hg]
    unfold Spec.gated
    rw [mul_pos_iff_of_pos_left hl.1, tanh_pos_iff]
  · rw [hg]
    unfold Spec.gated
    rw [← neg_pos, ← mul_neg, mul_pos_iff_of_pos_left hl.1, ← Real.tanh_neg, tanh_pos_iff, neg_pos]
  · intro y hy h0 hlt
    rw [hg, hg]
    unfold Spec.gated
    rw [hy, abs_mul, abs_mul, abs_of_pos hl.1, abs_of_pos (logistic_bounds _).1]
    have hne : 0 < |Real.tanh (x (Fin.natAdd d k))| := by
      rw [abs_pos]
      intro h
      rcases lt_or_gt_of_ne h0 with h' | h'
      · have := (tanh_pos_iff (-x (Fin.natAdd d k))).2 (by linarith)
        rw [Real.tanh_neg, h] at this
        simp at this
      · have := (tanh_pos_iff _).2 h'
        rw [h] at this
        exact lt_irrefl _ this
    apply mul_lt_mul_of_pos_right _ hne
    unfold Spec.logistic
    have h1 := Real.exp_pos (x (Fin.castAdd d k))
    have h2 := Real.exp_lt_exp.2 hlt
    rw [div_lt_div_iff₀ (by linarith) (by linarith)]
    nlinarith

/-- C125: the activation vanishes at zero, is strictly increasing and bounded below by `-log 2`. -/
theorem C125_softplus (x y : ℝ) :
    shiftedSoftplus x = Spec.softplus0 x ∧ shiftedSoftplus 0 = 0 ∧ -Real.log 2 < shiftedSoftplus x ∧
    (x < y → shiftedSoftplus x < shiftedSoftplus y) := by
  have hx := Real.exp_pos x
  refine ⟨?_, ?_, ?_, ?_⟩
  · unfold shiftedSoftplus Spec.softplus0
    rw [Real.log_div (by positivity) (by norm_num)]
  · unfold shiftedSoftplus
    rw [Real.exp_zero]
    norm_num
  · unfold shiftedSoftplus
    have : 0 < Real.log (1 + Real.exp x) := Real.log_pos (by linarith)
    linarith
  · intro hxy
    unfold shiftedSoftplus
    have := Real.log_lt_log (by positivity : 0 < 1 + Real.exp x)
      (by linarith [Real.exp_lt_exp.2 hxy] : 1 + Real.exp x < 1 + Real.exp y)
    linarith

/-- C125: batch normalisation in evaluation mode maps the stored mean to the offset, and a stored
standard deviation (of the regularised variance) above it to gain plus offset. -/
theorem C125_batch_norm (l : BatchNorm d) (k : Fin d) (hv : 0 ≤ l.runningVar k) (x : Row d) (t : ℝ)
    (hx : x k = l.runningMean k + t * Real.sqrt (l.runningVar k + 1 / 100000)) :
    l.eval x k = t * l.weight k + l.bias k := by
  unfold BatchNorm.eval
  have h : 0 < Real.sqrt (l.runningVar k + 1 / 100000) := Real.sqrt_pos.2 (by positivity)
  rw [hx, show (10 : ℝ) ^ 5 = 100000 by norm_num]
  field_simp
  ring

/-- C125: a Gaussian filter has evenly spaced centres from the lower to the upper bound; the
response to a distance is 1 at a centre, decreases with the distance from it, and is `exp(-1/2)` one
spacing away from it. -/
theorem C125_filter {lower upper : ℝ} {steps : ℕ} {f : GaussianFilter steps}
    (h : GaussianFilter.new lower upper steps = .ok f) :
    ∃ s : ℝ, s ≠ 0 ∧ 1 < steps ∧
      (∀ k : Fin steps, k.1 = 0 → f.offset k = lower) ∧
      (∀ k : Fin steps, k.1 + 1 = steps → f.offset k = upper) ∧
      (∀ k l : Fin steps, l.1 = k.1 + 1 → f.offset l = f.offset k + s) ∧
      ∀ (k : Fin steps) (x : ℝ),
        f.apply (f.offset k) k = 1 ∧ 0 < f.apply x k ∧
        (|x - f.offset k| = |s| → f.apply x k = Real.exp (-(1 / 2))) ∧
        ∀ y : ℝ, |x - f.offset k| < |y - f.offset k| → f.apply y k < f.apply x k := by
  unfold GaussianFilter.new at h
  by_cases hs : 1 < steps
  · rw [dif_pos hs] at h
    dsimp only at h
    have hstep : linspaceRow lower upper steps ⟨1, hs⟩ - linspaceRow lower upper steps ⟨0, by omega⟩ =
        (upper - lower) / (steps - 1) := by
      simp [linspaceRow]
    rw [hstep] at h
    by_cases h0 : ((upper - lower) / ((steps : ℝ) - 1)) ^ 2 = 0
    · rw [if_pos h0] at h; cases h
    · rw [if_neg h0] at h
      cases h
      have hs' : (0 : ℝ) < steps - 1 := by
        have : (1 : ℝ) < steps := by exact_mod_cast hs
        linarith
      have hne : (upper - lower) / ((steps : ℝ) - 1) ≠ 0 := fun h => h0 (by rw [h]; norm_num)
      refine ⟨(upper - lower) / (steps - 1), hne, hs, ?_, ?_, ?_, ?_⟩
      · intro k hk
        simp [linspaceRow, hk]
      · intro k hk
        have : (k.1 : ℝ) = steps - 1 := by
          have : ((k.1 + 1 : ℕ) : ℝ) = steps := by exact_mod_cast hk
          push_cast at this
          linarith
        simp only [linspaceRow, this]
        field_simp
        ring
      · intro k l hl
        simp only [linspaceRow, hl]
        push_cast
        ring
      · intro k x
        have hpos : 0 < ((upper - lower) / ((steps : ℝ) - 1)) ^ 2 := by positivity
        refine ⟨?_, Real.exp_pos _, ?_, ?_⟩
        · simp [GaussianFilter.apply]
        · intro hx
          have : (x - linspaceRow lower upper steps k) ^ 2 =
              ((upper - lower) / ((steps : ℝ) - 1)) ^ 2 := sq_eq_sq_iff_abs_eq_abs _ _ |>.2 hx
          simp only [GaussianFilter.apply, this]
          rw [div_mul_cancel₀ _ h0]
        · intro y hxy
          simp only [GaussianFilter.apply]
          apply Real.exp_lt_exp.2
          have h2 := sq_lt_sq.2 hxy
          have hc : -(1 / 2) / ((upper - lower) / ((steps : ℝ) - 1)) ^ 2 < 0 :=
            div_neg_of_neg_of_pos (by norm_num) hpos
          exact mul_lt_mul_of_neg_left h2 hc
  · rw [dif_neg hs] at h
    cases h

/-- C125, concrete: the filter from 0 to 4 with five steps. -/
example : ∃ f : GaussianFilter 5, GaussianFilter.new 0 4 5 = .ok f ∧ f.offset 3 = 3 ∧
    f.apply 2 3 = Real.exp (-(1 / 2)) := by
  obtain ⟨f, hf⟩ := filter_new (a := 0) (b := 4) (steps := 5) (by norm_num) (by norm_num)
  obtain ⟨s, hs, -, h0, h4, hstep, hf'⟩ := C125_filter hf
  have e1 := hstep 0 1 rfl
  have e2 := hstep 1 2 rfl
  have e3 := hstep 2 3 rfl
  have e4 := hstep 3 4 rfl
  rw [h0 0 rfl] at e1
  rw [h4 4 rfl] at e4
  have hs1 : s = 1 := by linarith
  have h3 : f.offset 3 = 3 := by linarith
  refine ⟨f, hf, h3, (hf' 3 2).2.2.1 ?_⟩
  rw [h3, hs1]
  norm_num

/-- C125, concrete: a layer with gain 2 and offset 1 on the entries 1 and 3. -/
example : (⟨fun _ => 2, fun _ => 1⟩ : LayerNorm 2).apply ![1, 3] 1 =
    2 * (1 / Real.sqrt (1 + 1 / 100000)) + 1 := by
  rw [C125_layer_norm]
  have hm : Spec.meanOf (![1, 3] : Fin 2 → ℝ) = 2 := by simp [Spec.meanOf]; norm_num
  have hv : Spec.varOf (![1, 3] : Fin 2 → ℝ) = 1 := by
    unfold Spec.varOf
    rw [hm]
    simp [Spec.meanOf]
    norm_num
  simp only [Spec.layerNorm, Spec.standardised, hm, hv]
  norm_num

/-- C125, concrete: a linear layer. -/
example : (⟨![![1, 2], ![3, 4]], ![10, 20]⟩ : Linear 2 2).apply ![1, -1] = ![9, 19] := by
  rw [(C125_linear _ _).1]
  funext k
  fin_cases k <;> simp [Spec.affine, Matrix.mulVec, dotProduct] <;> norm_num

theorem gather_rows (rows : List α) (index : List ℕ) (r : List α) :
    gather rows index = .ok r ↔ index.map (fun k => rows[k]?) = r.map some := by
  unfold gather
  rw [mapM_except_ok]
  constructor
  · intro h
    induction h with
    | nil => rfl
    | @cons k x ks xs h _ ih =>
      rw [List.map_cons, List.map_cons, ih]
      cases hk : rows[k]? with
      | none => rw [hk] at h; cases h
      | some y => rw [hk] at h; cases h; rfl
  · intro h
    induction index generalizing r with
    | nil =>
      cases r with
      | nil => exact .nil
      | cons x r => cases h
    | cons k ks ih =>
      cases r with
      | nil => cases h
      | cons x r =>
        rw [List.map_cons, List.map_cons, List.cons.injEq] at h
        refine .cons ?_ (ih r h.2)
        rw [h.1]

theorem gather_error (rows : List α) (index : List ℕ) (h : ∃ k ∈ index, rows.length ≤ k) :
    gather rows index = .error .indexError := by
  obtain ⟨k, hk, hl⟩ := h
  induction index with
  | nil => simp at hk
  | cons j js ih =>
    unfold gather at *
    rw [List.mapM_cons]
    cases hj : rows[j]? with
    | none => rfl
    | some x =>
      rw [ih (by
        rcases List.mem_cons.1 hk with rfl | h
        · rw [List.getElem?_eq_none hl] at hj; cases hj
        · exact h)]
      rfl

/-- C125, indexing: `tensor[index]` gives the rows in the order of the indexes, and `IndexError` exactly
if some index is beyond the last row. -/
theorem C125_index {α : Type} (rows : List α) (index : List ℕ) :
    (∀ r, gather rows index = .ok r ↔ index.map (fun k => rows[k]?) = r.map some) ∧
    ((∃ k ∈ index, rows.length ≤ k) ↔ gather rows index = .error .indexError) := by
  have h1 := gather_rows rows index
  refine ⟨h1, ⟨gather_error rows index, ?_⟩⟩
  · intro h
    by_contra hcon
    push Not at hcon
    have : gather rows index = .ok (index.attach.map fun k => rows[k.1]'(hcon k.1 k.2)) := by
      rw [h1, List.map_map]
      conv_lhs => rw [← List.attach_map_subtype_val index, List.map_map]
      refine List.map_congr_left fun k _ => ?_
      simp
    rw [h] at this
    cases this

example : gather ["a", "b"] [1, 0, 1] = .ok ["b", "a", "b"] ∧
    gather ["a", "b"] [0, 2] = .error .indexError :=
  ⟨((C125_index _ _).1 _).2 rfl, (C125_index _ _).2.1 ⟨2, by simp, by simp⟩⟩

end Verif
