import Verif.Proofs.GnnSmooth
import Verif.Props.GnnFormula
import Mathlib.Analysis.Calculus.Deriv.Slope
import Mathlib.Analysis.Calculus.Deriv.Comp

/-!
# C156: predictions of the network are smooth functions of the positions
-/

namespace Verif
open Spec Topology

variable {dn de n T : ℕ}

theorem smooth_head (m : PotGNN dn de) {X : Type} [NormedAddCommGroup X] [NormedSpace ℝ X] {p : X}
    {k : WithTop ℕ∞} {y : X → Fin de → ℝ} (hy : ContDiffAt ℝ k y p) :
    ContDiffAt ℝ k (fun q => m.headOf (y q)) p := by
  unfold PotGNN.headOf
  refine smooth_affine _ _ ?_
  rw [contDiffAt_pi]
  intro i
  refine smooth_softplus ?_
  have h2 : ContDiffAt ℝ k (fun q => Spec.affine (Matrix.of m.headLinear2.weight) m.headLinear2.bias
      (fun j => Spec.softplus0 (m.headNorm.weight j *
        ((Spec.affine (Matrix.of m.headLinear1.weight) m.headLinear1.bias (y q) j -
          m.headNorm.runningMean j) / Real.sqrt (m.headNorm.runningVar j + 1 / 100000)) +
        m.headNorm.bias j))) p := by
    refine smooth_affine _ _ ?_
    rw [contDiffAt_pi]
    intro j
    have h1 := smooth_affine (Matrix.of m.headLinear1.weight) m.headLinear1.bias hy
    rw [contDiffAt_pi] at h1
    exact smooth_softplus ((contDiffAt_const.mul (((h1 j).sub contDiffAt_const).div_const _)).add
      contDiffAt_const)
  rw [contDiffAt_pi] at h2
  exact h2 i

/-- C156: consider a structure of known elements in which no pair of bonded atoms coincides or is half
a cell apart along an axis.  In a neighbourhood the prediction is an infinitely often differentiable
function of the positions. -/
theorem C156_smooth {m : PotGNN dn de} {ref : Triplets} (hm : m.Fits n ref) {st : GnnState}
    (hst : st.Eval ref n m.refEdges.length) (hne : m.refEdges ≠ []) (L : Mat3 ℝ) (numbers : Fin n → ℕ)
    (hk : ∀ a, m.Knows (numbers a)) (p : Pos n ℝ)
    (hp : ∀ a b : Fin n, (a.1, b.1) ∈ m.refEdges → ClearBond L (p a) (p b)) :
    ∃ F : Pos n ℝ → Fin 6 → ℝ, (∀ k : WithTop ℕ∞, ContDiffAt ℝ k F p) ∧
      ∀ᶠ q in 𝓝 p, (m.forward st [⟨L, numbers, q⟩]).1 = .ok [some (F q)] := by
  obtain ⟨G, hG⟩ := hm.triplets.describes
  obtain ⟨f, hf⟩ := knows_features hk
  have hend : ∀ e : Fin m.refEdges.length, ∃ a b : Fin n, m.refEdges[e] = (a.1, b.1) := by
    intro e
    obtain ⟨h1, h2⟩ := hm.edges m.refEdges[e] (List.getElem_mem _)
    exact ⟨⟨_, h1⟩, ⟨_, h2⟩, rfl⟩
  choose a b hab using hend
  have hclear : ∀ e, ClearBond L (p (a e)) (p (b e)) := fun e =>
    hp _ _ (by rw [← hab e]; exact List.getElem_mem _)
  choose w hw hw0 using hclear
  let disp : Fin m.refEdges.length → Pos n ℝ → Fin 3 → ℝ := fun e q i =>
    w e i + (q (b e) i - p (b e) i) - (q (a e) i - p (a e) i)
  let vec : Fin m.refEdges.length → Pos n ℝ → Fin 3 → ℝ := fun e q j => ∑ i, disp e q i * L i j
  let len2 : Fin m.refEdges.length → Pos n ℝ → ℝ := fun e q => ∑ j, vec e q j ^ 2
  have hproj : ∀ (k : WithTop ℕ∞) (x : Fin n) (i : Fin 3), ContDiffAt ℝ k (fun q : Pos n ℝ => q x i) p := by
    intro k x i
    exact (contDiff_apply_apply ℝ ℝ x i).contDiffAt
  have hdisp : ∀ (k : WithTop ℕ∞) e i, ContDiffAt ℝ k (fun q => disp e q i) p := fun k e i =>
    (contDiffAt_const.add ((hproj k _ i).sub contDiffAt_const)).sub ((hproj k _ i).sub contDiffAt_const)
  have hvec : ∀ (k : WithTop ℕ∞) e j, ContDiffAt ℝ k (fun q => vec e q j) p := fun k e j =>
    ContDiffAt.sum fun i _ => (hdisp k e i).mul contDiffAt_const
  have hlen2 : ∀ (k : WithTop ℕ∞) e, ContDiffAt ℝ k (len2 e) p := fun k e =>
    ContDiffAt.sum fun j _ => (hvec k e j).pow 2
  have hdp : ∀ e i, disp e p i = w e i := by
    intro e i
    simp [disp]
  have hlen0 : ∀ e, len2 e p ≠ 0 := by
    intro e h0
    refine hw0 e ?_
    funext j
    have h1 := (Finset.sum_eq_zero_iff_of_nonneg fun j _ => sq_nonneg (vec e p j)).1 h0 j
      (Finset.mem_univ j)
    have h2 : vec e p j = 0 := by simpa using h1
    simp only [vec, hdp] at h2
    simpa using h2
  let r : Pos n ℝ → Fin m.refEdges.length → ℝ := fun q e => Real.sqrt (len2 e q)
  let u : Pos n ℝ → Fin m.refEdges.length → Fin 3 → ℝ := fun q e j => vec e q j / r q e
  have hr : ∀ (k : WithTop ℕ∞) e, ContDiffAt ℝ k (fun q => r q e) p := fun k e =>
    (hlen2 k e).sqrt (hlen0 e)
  have hr0 : ∀ e, r p e ≠ 0 := fun e => by
    have h1 : 0 ≤ len2 e p := Finset.sum_nonneg fun j _ => sq_nonneg _
    exact (Real.sqrt_pos.2 (lt_of_le_of_ne h1 (hlen0 e).symm)).ne'
  have hu : ∀ (k : WithTop ℕ∞) e, ContDiffAt ℝ k (fun q => u q e) p := by
    intro k e
    rw [contDiffAt_pi]
    exact fun j => (hvec k e j).div (hr k e) (hr0 e)
  refine ⟨fun q => predict G (m.blocks.map roundOf) m.headOf f (m.edgeFeatures (r q)) (u q), ?_, ?_⟩
  · intro k
    rw [contDiffAt_pi]
    intro c
    unfold predict
    refine ContDiffAt.div_const (ContDiffAt.sum fun e _ => ?_) _
    have hfeat : ∀ e, ContDiffAt ℝ k (fun q => m.edgeFeatures (r q) e) p := by
      intro e
      rw [contDiffAt_pi]
      intro i
      unfold PotGNN.edgeFeatures
      exact (contDiffAt_const.mul (((hr k e).sub contDiffAt_const).pow 2)).exp
    have := smooth_edgeTensor (smooth_head m (smooth_embed G m.blocks (fun _ => f) _
      (fun _ => contDiffAt_const) hfeat e)) (hu k e)
    rw [contDiffAt_pi] at this
    exact this c
  · have h1 : ∀ᶠ q in 𝓝 p, ∀ e i, |disp e q i| < 1 / 2 := by
      refine Filter.eventually_all.2 fun e => Filter.eventually_all.2 fun i => ?_
      have hc : ContinuousAt (fun q => |disp e q i|) p := (hdisp 0 e i).continuousAt.abs
      refine hc.eventually_lt continuousAt_const ?_
      rw [hdp]
      exact (hw e i).2
    have h2 : ∀ᶠ q in 𝓝 p, ∀ e, len2 e q ≠ 0 :=
      Filter.eventually_all.2 fun e => (hlen2 0 e).continuousAt.eventually_ne (hlen0 e)
    filter_upwards [h1, h2] with q hq1 hq2
    have := C126_formula hm hst hG hne [⟨L, numbers, q⟩] (fun _ => f) (by simpa using hf) (fun _ => u q)
      (fun _ => r q) ?_
    · simpa using this
    · intro x hx
      obtain rfl := List.mem_singleton.1 hx
      intro e
      have hpos : 0 < len2 e q :=
        lt_of_le_of_ne (Finset.sum_nonneg fun j _ => sq_nonneg _) (hq2 e).symm
      have hrp : 0 < r q e := Real.sqrt_pos.2 hpos
      refine ⟨a e, b e, hab e, vec e q, ⟨disp e q, fun i => ⟨?_, ?_, ?_⟩, fun j => rfl⟩, ⟨?_, r q e, hrp,
        fun i => ?_⟩, rfl⟩
      · obtain ⟨z, hz⟩ := (hw e i).1
        exact ⟨z, by simp only [disp]; linarith⟩
      · linarith [(abs_lt.1 (hq1 e i)).1]
      · exact (abs_lt.1 (hq1 e i)).2.le
      · simp only [u, div_pow]
        rw [← Finset.sum_div, show r q e ^ 2 = len2 e q from Real.sq_sqrt hpos.le]
        exact div_self hpos.ne'
      · simp only [u]
        field_simp

/-- C156: in a neighbourhood of such a structure `calc_polarizabilities` succeeds for every list of
configurations and returns the values of one infinitely often differentiable tensor field, whichever
batch the configurations are in. -/
theorem C156_predictions {m : PotGNN dn de} {ref : Triplets} (hm : m.Fits n ref)
    (hne : m.refEdges ≠ []) (L : Mat3 ℝ) (numbers : Fin n → ℕ)
    (hk : ∀ a, m.Knows (numbers a)) (p : Pos n ℝ)
    (hp : ∀ a b : Fin n, (a.1, b.1) ∈ m.refEdges → ClearBond L (p a) (p b)) (st : GnnState)
    (hst : st.triplets.Ready ref n m.refEdges.length) :
    ∃ A : Pos n ℝ → Mat3 ℝ, (∀ (k : WithTop ℕ∞) i j, ContDiffAt ℝ k (fun q => A q i j) p) ∧
      ∃ U ∈ 𝓝 p, ∀ positions : List (Pos n ℝ), (∀ q ∈ positions, q ∈ U) →
        (m.calcPolarizabilities L numbers st positions).1 =
          .ok (positions.map fun q => finiteTensor (A q)) := by
  have hst' : GnnState.Eval { st with training := false } ref n m.refEdges.length := ⟨rfl, hst⟩
  obtain ⟨F, hF, hU⟩ := C156_smooth hm hst' hne L numbers hk p hp
  have hv : ∀ i j : Fin 3, ∃ k, VoigtIndex i j k := by
    intro i j
    fin_cases i <;> fin_cases j
    exacts [⟨0, .xx⟩, ⟨3, .xy⟩, ⟨4, .xz⟩, ⟨3, .yx⟩, ⟨1, .yy⟩, ⟨5, .yz⟩, ⟨4, .zx⟩, ⟨5, .zy⟩, ⟨2, .zz⟩]
  choose v hv using hv
  refine ⟨fun q => Matrix.of fun i j => F q (v i j) * m.stddev i j + m.mean i j, ?_, _, hU, ?_⟩
  · intro k i j
    have := hF k
    rw [contDiffAt_pi] at this
    exact ((this (v i j)).mul contDiffAt_const).add contDiffAt_const
  · intro positions hpos
    have hnd : ∀ q ∈ positions, ¬ Degenerate m ⟨L, numbers, q⟩ := by
      intro q hq hd
      have h1 := (C84_nan_spreads hm hst' [⟨L, numbers, q⟩] (by simpa using hk) ⟨_, by simp, hd⟩).1
      have h2 := hpos q hq
      change (m.forward _ [⟨L, numbers, q⟩]).1 = _ at h2
      rw [h1] at h2
      simp at h2
    obtain ⟨Ts, h1, h2, -, -⟩ := C85_samplewise hm L numbers hk positions hnd st hst
    rw [h1]
    congr 1
    clear h1 hnd
    induction h2 with
    | nil => rfl
    | @cons q T qs Ts hT _ ih =>
      rw [List.map_cons, ← ih fun x hx => hpos x (List.mem_cons_of_mem _ hx)]
      congr 1
      obtain ⟨w, hw1, hw2⟩ := hT _ hst'
      have h3 : (m.forward { st with training := false } [⟨L, numbers, q⟩]).1 = .ok [some (F q)] :=
        hpos q List.mem_cons_self
      rw [h3] at hw1
      simp only [Except.ok.injEq, List.cons.injEq, and_true] at hw1
      subst hw1
      funext i j
      rw [hw2 i j _ (hv i j)]
      rfl

/-- C156: the Raman tensor formed from two predictions at the structure displaced by `± h d`, divided
by `h`, tends to twice the derivative of the predicted polarizability along `d`. -/
theorem C156_raman {m : PotGNN dn de} {ref : Triplets} (hm : m.Fits n ref)
    (hne : m.refEdges ≠ []) (L : Mat3 ℝ) (numbers : Fin n → ℕ)
    (hk : ∀ a, m.Knows (numbers a)) (p d : Pos n ℝ)
    (hp : ∀ a b : Fin n, (a.1, b.1) ∈ m.refEdges → ClearBond L (p a) (p b)) (st : GnnState)
    (hst : st.triplets.Ready ref n m.refEdges.length) :
    ∃ (A : Pos n ℝ → Mat3 ℝ) (A' : Mat3 ℝ),
      (∀ i j, HasDerivAt (fun t : ℝ => A (p + t • d) i j) (A' i j) 0) ∧
      (∀ᶠ h in 𝓝 (0 : ℝ), (m.calcPolarizabilities L numbers st [p + h • d, p - h • d]).1 =
          .ok [finiteTensor (A (p + h • d)), finiteTensor (A (p - h • d))]) ∧
      ∀ i j, Filter.Tendsto (fun h : ℝ => (A (p + h • d) i j - A (p - h • d) i j) / h) (𝓝[≠] 0)
        (𝓝 (2 * A' i j)) := by
  obtain ⟨A, hA, U, hU, hc⟩ := C156_predictions hm hne L numbers hk p hp st hst
  have hplus : HasDerivAt (fun t : ℝ => p + t • d) d 0 := by
    simpa using ((hasDerivAt_id (0 : ℝ)).smul_const d).const_add p
  have hd : ∀ i j, HasDerivAt (fun t : ℝ => A (p + t • d) i j)
      (fderiv ℝ (fun q => A q i j) p d) 0 := by
    intro i j
    have h1 : HasFDerivAt (fun q => A q i j) (fderiv ℝ (fun q => A q i j) p) (p + (0 : ℝ) • d) := by
      rw [zero_smul, add_zero]
      exact ((hA 1 i j).differentiableAt one_ne_zero).hasFDerivAt
    exact h1.comp_hasDerivAt (0 : ℝ) hplus
  refine ⟨A, Matrix.of fun i j => fderiv ℝ (fun q => A q i j) p d, hd, ?_, ?_⟩
  · have c1 : Filter.Tendsto (fun h : ℝ => p + h • d) (𝓝 0) (𝓝 p) := by
      have : Continuous fun h : ℝ => p + h • d := by fun_prop
      simpa using this.tendsto 0
    have c2 : Filter.Tendsto (fun h : ℝ => p - h • d) (𝓝 0) (𝓝 p) := by
      have : Continuous fun h : ℝ => p - h • d := by fun_prop
      simpa using this.tendsto 0
    filter_upwards [c1 hU, c2 hU] with h h1 h2
    rw [hc]
    · rfl
    · intro q hq
      simp only [List.mem_cons, List.not_mem_nil, or_false] at hq
      rcases hq with rfl | rfl
      · exact h1
      · exact h2
  · intro i j
    have h2 : HasDerivAt (fun t : ℝ => A (p + (-t) • d) i j)
        (-(fderiv ℝ (fun q => A q i j) p d)) 0 := by
      have h3 : HasDerivAt (fun t : ℝ => A (p + t • d) i j) (fderiv ℝ (fun q => A q i j) p d) (-0) := by
        rw [neg_zero]; exact hd i j
      have h5 := h3.comp (0 : ℝ) (hasDerivAt_neg (0 : ℝ))
      rw [mul_neg_one] at h5
      exact h5
    have h4 := ((hd i j).sub h2).tendsto_slope_zero
    refine (h4.congr fun h => ?_).congr' .rfl |>.trans_eq ?_
    · simp [neg_smul, ← sub_eq_add_neg, div_eq_inv_mul]
    · congr 1; simp; ring

/-- Two hydrogen atoms in a cubic cell, a quarter of a cell apart along y and `x` along x. -/
noncomputable def slantedPair (x : ℝ) : Pos 2 ℝ := ![0, ![x, 1 / 4, 0]]

theorem slantedPair_geometry (x s : ℝ) (hx : SameImage x s) (hs : |s| < 1 / 2) :
    sampleGnn.EdgeGeometry ⟨1, fun _ => 1, slantedPair x⟩
      ![fun j => ![s, 1 / 4, 0] j / Real.sqrt (s ^ 2 + 1 / 16),
        fun j => ![-s, -(1 / 4), 0] j / Real.sqrt (s ^ 2 + 1 / 16)]
      ![Real.sqrt (s ^ 2 + 1 / 16), Real.sqrt (s ^ 2 + 1 / 16)] := by
  obtain ⟨z, hz⟩ := hx
  obtain ⟨hs1, hs2⟩ := abs_lt.1 hs
  have hpos : 0 < s ^ 2 + 1 / 16 := by positivity
  have hr : 0 < Real.sqrt (s ^ 2 + 1 / 16) := Real.sqrt_pos.2 hpos
  have hsq : Real.sqrt (s ^ 2 + 1 / 16) ^ 2 = s ^ 2 + 1 / 16 := Real.sq_sqrt hpos.le
  intro e
  change Fin 2 at e
  fin_cases e
  · refine ⟨0, 1, rfl, ![s, 1 / 4, 0], ⟨![s, 1 / 4, 0], ?_, ?_⟩,
      ⟨?_, Real.sqrt (s ^ 2 + 1 / 16), hr, ?_⟩, ?_⟩
    · intro i
      fin_cases i
      · exact ⟨⟨z, by simpa [slantedPair] using hz⟩, by simpa [InHalfBox] using ⟨by linarith, by linarith⟩⟩
      · exact ⟨⟨0, by simp [slantedPair]⟩, by simp [InHalfBox]; norm_num⟩
      · exact ⟨⟨0, by simp [slantedPair]⟩, by simp [InHalfBox]⟩
    · intro j
      change _ = ∑ i, _ * (1 : Matrix (Fin 3) (Fin 3) ℝ) i j
      simp [Matrix.one_apply]
    · simp only [Fin.zero_eta, Matrix.cons_val_zero, div_pow, hsq, ← Finset.sum_div]
      rw [div_eq_one_iff_eq hpos.ne']
      simp [Fin.sum_univ_three]; norm_num
    · intro j
      simp only [Fin.zero_eta, Matrix.cons_val_zero]
      field_simp
    · simp [Fin.sum_univ_three]; norm_num
  · refine ⟨1, 0, rfl, ![-s, -(1 / 4), 0], ⟨![-s, -(1 / 4), 0], ?_, ?_⟩,
      ⟨?_, Real.sqrt (s ^ 2 + 1 / 16), hr, ?_⟩, ?_⟩
    · intro i
      fin_cases i
      · exact ⟨⟨-z, by simp [slantedPair, hz]; ring⟩, by
          simpa [InHalfBox] using ⟨by linarith, by linarith⟩⟩
      · exact ⟨⟨0, by simp [slantedPair]⟩, by simp [InHalfBox]; norm_num⟩
      · exact ⟨⟨0, by simp [slantedPair]⟩, by simp [InHalfBox]⟩
    · intro j
      change _ = ∑ i, _ * (1 : Matrix (Fin 3) (Fin 3) ℝ) i j
      simp [Matrix.one_apply]
    · simp only [Fin.mk_one, Matrix.cons_val_one, Matrix.cons_val_fin_one, div_pow, hsq, ← Finset.sum_div]
      rw [div_eq_one_iff_eq hpos.ne']
      simp [Fin.sum_univ_three]; norm_num
    · intro j
      simp only [Fin.mk_one, Matrix.cons_val_one, Matrix.cons_val_fin_one]
      field_simp
    · simp [Fin.sum_univ_three]; norm_num

theorem slantedPair_predicts (x s : ℝ) (hx : SameImage x s) (hs : |s| < 1 / 2) :
    ∃ v : Fin 6 → ℝ, (sampleGnn.forward sampleState [⟨1, fun _ => 1, slantedPair x⟩]).1 = .ok [some v] ∧
      v 3 = -(s / 4 / (s ^ 2 + 1 / 16)) := by
  obtain ⟨f, hf⟩ := knows_features (m := sampleGnn) (numbers := fun _ : Fin 2 => 1)
    (fun a => sampleGnn_knows a (1 / 4))
  refine ⟨_, C126_formula sampleGnn_fits sampleState_eval pairWiring_describes (by simp [sampleGnn])
    [⟨1, fun _ => 1, slantedPair x⟩] (fun _ => f) (by simpa using hf) (fun _ => _) (fun _ => _)
    (by simpa using slantedPair_geometry x s hx hs), ?_⟩
  have hpos : 0 < s ^ 2 + 1 / 16 := by positivity
  have hsq : Real.sqrt (s ^ 2 + 1 / 16) * Real.sqrt (s ^ 2 + 1 / 16) = s ^ 2 + 1 / 16 :=
    Real.mul_self_sqrt hpos.le
  unfold Spec.predict
  have h2 : ∀ F : Fin sampleGnn.refEdges.length → ℝ, ∑ e, F e = F (0 : Fin 2) + F (1 : Fin 2) :=
    fun F => Fin.sum_univ_two F
  have hc : ((Fintype.card (Fin sampleGnn.refEdges.length) : ℕ) : ℝ) = 2 := by
    rw [Fintype.card_fin]; norm_num [sampleGnn]
  rw [h2, hc, sampleGnn_head, sampleGnn_head]
  simp [Spec.edgeTensor, Spec.axial]
  rw [one_div] at hsq hpos
  generalize Real.sqrt (s ^ 2 + 16⁻¹) = r at hsq
  rw [← hsq] at hpos ⊢
  have hr : r ≠ 0 := by rintro rfl; simp at hpos
  field_simp
  ring

/-- C156, negation of the unrestricted claim: the prediction jumps where two bonded atoms are half a
cell apart.  However small `δ`, moving one atom by `2 δ` changes a component by at least 4/5. -/
theorem C156_counterexample (δ : ℝ) (h0 : 0 < δ) (h1 : δ ≤ 1 / 4) :
    ∃ v v' : Fin 6 → ℝ,
      (sampleGnn.forward sampleState [⟨1, fun _ => 1, slantedPair (1 / 2 - δ)⟩]).1 = .ok [some v] ∧
      (sampleGnn.forward sampleState [⟨1, fun _ => 1, slantedPair (1 / 2 + δ)⟩]).1 = .ok [some v'] ∧
      4 / 5 ≤ |v' 3 - v 3| := by
  obtain ⟨v, hv, hv3⟩ := slantedPair_predicts (1 / 2 - δ) (1 / 2 - δ) ⟨0, by simp⟩
    (abs_lt.2 ⟨by linarith, by linarith⟩)
  obtain ⟨v', hv', hv3'⟩ := slantedPair_predicts (1 / 2 + δ) (-(1 / 2 - δ)) ⟨-1, by push_cast; ring⟩
    (abs_lt.2 ⟨by linarith, by linarith⟩)
  refine ⟨v, v', hv, hv', le_trans ?_ (le_abs_self _)⟩
  rw [hv3, hv3']
  generalize hs : 1 / 2 - δ = s
  have hs1 : 1 / 4 ≤ s := by linarith
  have hs2 : s ≤ 1 / 2 := by linarith
  have hpos : 0 < s ^ 2 + 1 / 16 := by positivity
  rw [show -(-s / 4 / ((-s) ^ 2 + 1 / 16)) - -(s / 4 / (s ^ 2 + 1 / 16)) = s / 2 / (s ^ 2 + 1 / 16) by
    ring, le_div_iff₀ hpos]
  nlinarith

theorem slantedPair_clear : ∀ a b : Fin 2, (a.1, b.1) ∈ sampleGnn.refEdges →
    ClearBond 1 (slantedPair (1 / 4) a) (slantedPair (1 / 4) b) := by
  intro a b hab
  simp only [sampleGnn, List.mem_cons, List.not_mem_nil, or_false, Prod.mk.injEq] at hab
  have key : ∀ c : ℝ, c ≠ 0 → (fun j => ∑ i, ![c, c, 0] i * (1 : Matrix (Fin 3) (Fin 3) ℝ) i j) ≠ 0 := by
    intro c hc h
    have := congrFun h 0
    simp [Matrix.one_apply] at this
    exact hc this
  rcases hab with ⟨ha, hb⟩ | ⟨ha, hb⟩
  · obtain rfl : a = 0 := Fin.ext ha
    obtain rfl : b = 1 := Fin.ext hb
    refine ⟨![1 / 4, 1 / 4, 0], fun i => ⟨⟨0, ?_⟩, ?_⟩, key _ (by norm_num)⟩
    · fin_cases i <;> simp [slantedPair]
    · fin_cases i <;> simp [abs_of_pos] <;> norm_num
  · obtain rfl : a = 1 := Fin.ext ha
    obtain rfl : b = 0 := Fin.ext hb
    refine ⟨![-(1 / 4), -(1 / 4), 0], fun i => ⟨⟨0, ?_⟩, ?_⟩, key _ (by norm_num)⟩
    · fin_cases i <;> simp [slantedPair]
    · fin_cases i <;> simp [abs_of_pos] <;> norm_num

/-- C156, concrete: two atoms displaced by (1/4, 1/4, 0). -/
example : ∃ F : Pos 2 ℝ → Fin 6 → ℝ, (∀ k : WithTop ℕ∞, ContDiffAt ℝ k F (slantedPair (1 / 4))) ∧
    ∀ᶠ q in 𝓝 (slantedPair (1 / 4)), (sampleGnn.forward sampleState [⟨1, fun _ => 1, q⟩]).1 =
      .ok [some (F q)] :=
  C156_smooth sampleGnn_fits sampleState_eval (by simp [sampleGnn]) 1 _
    (fun a => sampleGnn_knows a (1 / 4)) _ slantedPair_clear

end Verif
