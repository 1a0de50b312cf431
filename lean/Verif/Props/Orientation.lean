import Verif.Spec.Orientation
import Verif.Props.Spectrum
import Mathlib.MeasureTheory.Integral.Bochner.Set
import Mathlib.MeasureTheory.Measure.Haar.Basic
import Mathlib.MeasureTheory.Group.Integral
import Mathlib.Topology.Algebra.Star.Unitary

/-!
# C140: polycrystalline intensities are averages over all orientations
-/

namespace Verif

open MeasureTheory Spec Matrix

/-- Component of the product with a vector. -/
theorem component_eq (R Q : Mat3 ℝ) (e e' : Fin 3 → ℝ) :
    component R Q e e' = ∑ i, ∑ j, (Q.mulVec e') i * R i j * (Q.mulVec e) j := by
  unfold component
  simp only [Matrix.mul_apply, Matrix.transpose_apply, Matrix.mulVec, dotProduct,
    Fin.sum_univ_three]
  ring

theorem component_mul (R Q g : Mat3 ℝ) (e e' : Fin 3 → ℝ) :
    component R (Q * g) e e' = component R Q (g.mulVec e) (g.mulVec e') := by
  rw [component_eq, component_eq, ← Matrix.mulVec_mulVec, ← Matrix.mulVec_mulVec]

theorem component_smul (R Q : Mat3 ℝ) (c : ℝ) (e : Fin 3 → ℝ) :
    component R Q (c • e) (c • e) = c ^ 2 * component R Q e e := by
  unfold component
  simp only [Fin.sum_univ_three, Pi.smul_apply, smul_eq_mul]
  ring

theorem continuous_component (R : Mat3 ℝ) (e e' : Fin 3 → ℝ) :
    Continuous fun Q : Mat3 ℝ => component R Q e e' := by
  unfold component
  fun_prop

/-- Frame of two perpendicular vectors: a rotation with these as first columns. -/
def frame (e e' : Fin 3 → ℝ) : Mat3 ℝ :=
  !![e 0, e' 0, e 1 * e' 2 - e 2 * e' 1; e 1, e' 1, e 2 * e' 0 - e 0 * e' 2;
    e 2, e' 2, e 0 * e' 1 - e 1 * e' 0]

theorem frame_orthogonal {e e' : Fin 3 → ℝ} (h : Perpendicular e e') :
    (frame e e')ᵀ * frame e e' = 1 := by
  obtain ⟨h1, h2, h3⟩ := h
  simp only [Fin.sum_univ_three] at h1 h2 h3
  have h4 : (e 1 * e' 2 - e 2 * e' 1) * (e 1 * e' 2 - e 2 * e' 1) +
      (e 2 * e' 0 - e 0 * e' 2) * (e 2 * e' 0 - e 0 * e' 2) +
      (e 0 * e' 1 - e 1 * e' 0) * (e 0 * e' 1 - e 1 * e' 0) = 1 := by
    linear_combination (e' 0 * e' 0 + e' 1 * e' 1 + e' 2 * e' 2) * h1 + h2 -
      (e 0 * e' 0 + e 1 * e' 1 + e 2 * e' 2) * h3
  ext i j
  fin_cases i <;> fin_cases j <;> simp [frame, Matrix.mul_apply, Fin.sum_univ_three]
  · exact h1
  · exact h3
  · ring
  · linear_combination h3
  · exact h2
  · ring
  · ring
  · ring
  · exact h4

theorem frame_det {e e' : Fin 3 → ℝ} (h : Perpendicular e e') : (frame e e').det = 1 := by
  obtain ⟨h1, h2, h3⟩ := h
  simp only [Fin.sum_univ_three] at h1 h2 h3
  rw [Matrix.det_fin_three]
  simp [frame]
  linear_combination (e' 0 * e' 0 + e' 1 * e' 1 + e' 2 * e' 2) * h1 + h2 -
      (e 0 * e' 0 + e 1 * e' 1 + e 2 * e' 2) * h3

/-- Coordinate directions. -/
def axis (k : Fin 3) : Fin 3 → ℝ := fun i => if i = k then 1 else 0

theorem axis_perpendicular {k l : Fin 3} (h : k ≠ l) : Perpendicular (axis k) (axis l) := by
  refine ⟨?_, ?_, ?_⟩ <;> revert h <;> fin_cases k <;> fin_cases l <;>
    simp [axis, Fin.sum_univ_three]

theorem frame_axis (e e' : Fin 3 → ℝ) :
    (frame e e').mulVec (axis 0) = e ∧ (frame e e').mulVec (axis 1) = e' := by
  constructor <;> ext i <;> fin_cases i <;>
    simp [frame, axis, Matrix.mulVec, dotProduct, Fin.sum_univ_three]

theorem component_axis (R Q : Mat3 ℝ) (k l : Fin 3) :
    component R Q (axis k) (axis l) = (Qᵀ * R * Q) l k := by
  unfold component
  simp [axis]

section
variable {Ω : Type} [MeasurableSpace Ω] {μ : Measure Ω} {Q : Ω → Mat3 ℝ}

theorem entry_le {O : Mat3 ℝ} (h : Oᵀ * O = 1) (i j : Fin 3) : O i j ∈ Set.Icc (-1 : ℝ) 1 := by
  have h1 : (Oᵀ * O) j j = 1 := by rw [h]; simp
  simp only [Matrix.mul_apply, Matrix.transpose_apply, Fin.sum_univ_three] at h1
  have h2 : O i j ^ 2 ≤ 1 := by
    have h3 : ∀ x y z : ℝ, x * x + y * y + z * z = 1 → x ^ 2 ≤ 1 ∧ y ^ 2 ≤ 1 ∧ z ^ 2 ≤ 1 :=
      fun x y z h => ⟨by nlinarith, by nlinarith, by nlinarith⟩
    obtain ⟨a, b, c⟩ := h3 _ _ _ h1
    fin_cases i
    · exact a
    · exact b
    · exact c
  exact abs_le.1 (by rw [← sq_le_one_iff_abs_le_one]; exact h2)

/-- Continuous functions of a random orientation have an average. -/
theorem integrable_orientation [IsProbabilityMeasure μ] (h : RandomOrientation μ Q)
    (φ : Mat3 ℝ → ℝ) (hφ : Continuous φ) : Integrable (fun ω => φ (Q ω)) μ := by
  have hK : IsCompact (Set.univ.pi fun _ : Fin 3 => Set.univ.pi fun _ : Fin 3 =>
      Set.Icc (-1 : ℝ) 1) := isCompact_univ_pi fun _ => isCompact_univ_pi fun _ => isCompact_Icc
  obtain ⟨C, hC⟩ := hK.exists_bound_of_continuousOn (f := φ) hφ.continuousOn
  have hQ : Measurable (fun ω i j => Q ω i j : Ω → Fin 3 → Fin 3 → ℝ) :=
    measurable_pi_iff.2 fun i => measurable_pi_iff.2 fun j => h.measurable i j
  have hφ' : Measurable (fun m : Fin 3 → Fin 3 → ℝ => φ m) :=
    Continuous.measurable (f := fun m : Fin 3 → Fin 3 → ℝ => φ m) hφ
  refine Integrable.of_bound (hφ'.comp hQ).aestronglyMeasurable C (Filter.Eventually.of_forall ?_)
  intro ω
  exact hC _ fun i _ j _ => entry_le (h.orthogonal ω) i j

/-- Mean product of two components. -/
noncomputable def meanProduct (μ : Measure Ω) (Q : Ω → Mat3 ℝ) (A B : Mat3 ℝ) (e e' : Fin 3 → ℝ) :
    ℝ := ∫ ω, component A (Q ω) e e' * component B (Q ω) e e' ∂μ

theorem continuous_product (A B : Mat3 ℝ) (e e' f f' : Fin 3 → ℝ) :
    Continuous fun O : Mat3 ℝ => component A O e e' * component B O f f' :=
  (continuous_component A e e').mul (continuous_component B f f')

/-- Any two perpendicular polarizations see the same. -/
theorem meanProduct_frame (h : RandomOrientation μ Q) (A B : Mat3 ℝ) {e e' : Fin 3 → ℝ}
    (he : Perpendicular e e') :
    meanProduct μ Q A B e e' = meanProduct μ Q A B (axis 0) (axis 1) ∧
    meanProduct μ Q A B e e = meanProduct μ Q A B (axis 0) (axis 0) := by
  have hg := frame_orthogonal he
  have hd := frame_det he
  obtain ⟨h0, h1⟩ := frame_axis e e'
  constructor
  · have := h.invariant _ hg hd _ (continuous_product A B (axis 0) (axis 1) (axis 0) (axis 1))
    simp only [component_mul, h0, h1] at this
    exact this
  · have := h.invariant _ hg hd _ (continuous_product A B (axis 0) (axis 0) (axis 0) (axis 0))
    simp only [component_mul, h0] at this
    exact this

theorem meanProduct_smul (A B : Mat3 ℝ) (c : ℝ) (e : Fin 3 → ℝ) :
    meanProduct μ Q A B (c • e) (c • e) = c ^ 4 * meanProduct μ Q A B e e := by
  unfold meanProduct
  rw [← integral_const_mul]
  congr 1
  funext ω
  rw [component_smul, component_smul]
  ring

/-- The four diagonals of a cube, `s` and `t` being signs. -/
def diagonal (s t : ℝ) : Fin 3 → ℝ := ![1, s, t]

theorem meanProduct_diagonal (h : RandomOrientation μ Q) (A B : Mat3 ℝ) (s t : ℝ) (hs : s * s = 1)
    (ht : t * t = 1) :
    meanProduct μ Q A B (diagonal s t) (diagonal s t) =
      9 * meanProduct μ Q A B (axis 0) (axis 0) := by
  have h3 : Real.sqrt 3 * Real.sqrt 3 = 3 := Real.mul_self_sqrt (by norm_num)
  have h2 : Real.sqrt 2 * Real.sqrt 2 = 2 := Real.mul_self_sqrt (by norm_num)
  have n3 : Real.sqrt 3 ≠ 0 := by positivity
  have n2 : Real.sqrt 2 ≠ 0 := by positivity
  have hp : Perpendicular ((1 / Real.sqrt 3) • diagonal s t)
      ((1 / Real.sqrt 2) • (![1, -s, 0] : Fin 3 → ℝ)) := by
    refine ⟨?_, ?_, ?_⟩
    · simp only [Fin.sum_univ_three, diagonal, Pi.smul_apply, smul_eq_mul]
      simp
      field_simp
      linear_combination hs + ht - h3
    · simp only [Fin.sum_univ_three, Pi.smul_apply, smul_eq_mul]
      simp
      field_simp
      linear_combination hs - h2
    · simp only [Fin.sum_univ_three, diagonal, Pi.smul_apply, smul_eq_mul]
      simp
      field_simp
      linear_combination -hs
  have := (meanProduct_frame h A B hp).2
  rw [meanProduct_smul] at this
  have h4 : (1 / Real.sqrt 3) ^ 4 = 1 / 9 := by
    rw [div_pow, one_pow]
    congr 1
    calc Real.sqrt 3 ^ 4 = (Real.sqrt 3 * Real.sqrt 3) ^ 2 := by ring
      _ = 9 := by rw [h3]; norm_num
  rw [h4] at this
  linarith

theorem conj_trace {O : Mat3 ℝ} (h : Oᵀ * O = 1) (A B : Mat3 ℝ) :
    (Oᵀ * A * O).trace = A.trace ∧ ((Oᵀ * A * O) * (Oᵀ * B * O)).trace = (A * B).trace := by
  have h' : O * Oᵀ = 1 := mul_eq_one_comm.1 h
  constructor
  · rw [Matrix.trace_mul_comm, ← Matrix.mul_assoc, h', Matrix.one_mul]
  · have : (Oᵀ * A * O) * (Oᵀ * B * O) = Oᵀ * (A * B) * O := by
      calc (Oᵀ * A * O) * (Oᵀ * B * O) = Oᵀ * A * (O * Oᵀ) * B * O := by
            simp only [Matrix.mul_assoc]
        _ = _ := by rw [h', Matrix.mul_one]; simp only [Matrix.mul_assoc]
    rw [this, Matrix.trace_mul_comm, ← Matrix.mul_assoc, h', Matrix.one_mul]

theorem conj_symm {A : Mat3 ℝ} (h : A.IsSymm) (O : Mat3 ℝ) : (Oᵀ * A * O).IsSymm := by
  unfold Matrix.IsSymm at h ⊢
  rw [Matrix.transpose_mul, Matrix.transpose_mul, Matrix.transpose_transpose, h, Matrix.mul_assoc]

/-- Weighted sum over axes and diagonals. -/
theorem quadrature {A B O : Mat3 ℝ} (hA : A.IsSymm) (hB : B.IsSymm) (hO : Oᵀ * O = 1) :
    2 / 15 * (component A O (axis 0) (axis 0) * component B O (axis 0) (axis 0) +
        component A O (axis 1) (axis 1) * component B O (axis 1) (axis 1) +
        component A O (axis 2) (axis 2) * component B O (axis 2) (axis 2)) +
      1 / 60 * (component A O (diagonal 1 1) (diagonal 1 1) * component B O (diagonal 1 1) (diagonal 1 1) +
        component A O (diagonal 1 (-1)) (diagonal 1 (-1)) *
          component B O (diagonal 1 (-1)) (diagonal 1 (-1)) +
        component A O (diagonal (-1) 1) (diagonal (-1) 1) *
          component B O (diagonal (-1) 1) (diagonal (-1) 1) +
        component A O (diagonal (-1) (-1)) (diagonal (-1) (-1)) *
          component B O (diagonal (-1) (-1)) (diagonal (-1) (-1))) =
      (2 * (A * B).trace + A.trace * B.trace) / 15 := by
  rw [← (conj_trace hO A B).1, ← (conj_trace hO B A).1, ← (conj_trace hO A B).2]
  have hA' := conj_symm hA O
  have hB' := conj_symm hB O
  unfold component
  generalize Oᵀ * A * O = M at *
  generalize Oᵀ * B * O = M' at *
  have a10 : M 1 0 = M 0 1 := hA'.apply 0 1
  have a20 : M 2 0 = M 0 2 := hA'.apply 0 2
  have a21 : M 2 1 = M 1 2 := hA'.apply 1 2
  have b10 : M' 1 0 = M' 0 1 := hB'.apply 0 1
  have b20 : M' 2 0 = M' 0 2 := hB'.apply 0 2
  have b21 : M' 2 1 = M' 1 2 := hB'.apply 1 2
  simp [axis, diagonal, Matrix.trace, Matrix.diag, Matrix.mul_apply, Fin.sum_univ_three, a10, a20,
    a21, b10, b20, b21]
  ring

/-- Sum over pairs of axes. -/
theorem off_diagonal {A B O : Mat3 ℝ} (hA : A.IsSymm) (hB : B.IsSymm) (hO : Oᵀ * O = 1) :
    2 * (component A O (axis 0) (axis 1) * component B O (axis 0) (axis 1) +
        component A O (axis 0) (axis 2) * component B O (axis 0) (axis 2) +
        component A O (axis 1) (axis 2) * component B O (axis 1) (axis 2)) +
      (component A O (axis 0) (axis 0) * component B O (axis 0) (axis 0) +
        component A O (axis 1) (axis 1) * component B O (axis 1) (axis 1) +
        component A O (axis 2) (axis 2) * component B O (axis 2) (axis 2)) = (A * B).trace := by
  rw [← (conj_trace hO A B).2]
  have hA' := conj_symm hA O
  have hB' := conj_symm hB O
  simp only [component_axis]
  generalize Oᵀ * A * O = M at *
  generalize Oᵀ * B * O = M' at *
  have a10 : M 1 0 = M 0 1 := hA'.apply 0 1
  have a20 : M 2 0 = M 0 2 := hA'.apply 0 2
  have a21 : M 2 1 = M 1 2 := hA'.apply 1 2
  have b10 : M' 1 0 = M' 0 1 := hB'.apply 0 1
  have b20 : M' 2 0 = M' 0 2 := hB'.apply 0 2
  have b21 : M' 2 1 = M' 1 2 := hB'.apply 1 2
  simp [Matrix.trace, Matrix.diag, Matrix.mul_apply, Fin.sum_univ_three, a10, a20,
    a21, b10, b20, b21]
  ring

variable [IsProbabilityMeasure μ]

/-- Average of a product of two components along one polarization, and of two components for
perpendicular polarizations. -/
theorem meanProduct_value (h : RandomOrientation μ Q) {A B : Mat3 ℝ} (hA : A.IsSymm)
    (hB : B.IsSymm) {e e' : Fin 3 → ℝ} (he : Perpendicular e e') :
    meanProduct μ Q A B e e = (2 * (A * B).trace + A.trace * B.trace) / 15 ∧
    meanProduct μ Q A B e e' = (3 * (A * B).trace - A.trace * B.trace) / 30 := by
  have hint : ∀ f f' : Fin 3 → ℝ, Integrable (fun ω => component A (Q ω) f f' * component B (Q ω) f f') μ :=
    fun f f' => integrable_orientation h _ (continuous_product A B f f' f f')
  have hp : ∀ k l : Fin 3, k ≠ l → meanProduct μ Q A B (axis k) (axis l) =
      meanProduct μ Q A B (axis 0) (axis 1) ∧
      meanProduct μ Q A B (axis k) (axis k) = meanProduct μ Q A B (axis 0) (axis 0) :=
    fun k l hkl => meanProduct_frame h A B (axis_perpendicular hkl)
  have h1 : meanProduct μ Q A B (axis 0) (axis 0) = (2 * (A * B).trace + A.trace * B.trace) / 15 := by
    have hq : ∫ ω, _ ∂μ = ∫ _ω : Ω, (2 * (A * B).trace + A.trace * B.trace) / 15 ∂μ :=
      integral_congr_ae (Filter.Eventually.of_forall fun ω => quadrature hA hB (h.orthogonal ω))
    rw [integral_const, probReal_univ, one_smul] at hq
    rw [integral_add, integral_const_mul, integral_const_mul, integral_add, integral_add,
      integral_add, integral_add, integral_add] at hq
    · change 2 / 15 * (meanProduct μ Q A B (axis 0) (axis 0) + meanProduct μ Q A B (axis 1) (axis 1) +
        meanProduct μ Q A B (axis 2) (axis 2)) + 1 / 60 * (meanProduct μ Q A B _ _ +
          meanProduct μ Q A B _ _ + meanProduct μ Q A B _ _ + meanProduct μ Q A B _ _) = _ at hq
      rw [meanProduct_diagonal h A B 1 1 (by norm_num) (by norm_num),
        meanProduct_diagonal h A B 1 (-1) (by norm_num) (by norm_num),
        meanProduct_diagonal h A B (-1) 1 (by norm_num) (by norm_num),
        meanProduct_diagonal h A B (-1) (-1) (by norm_num) (by norm_num),
        (hp 1 0 (by decide)).2, (hp 2 0 (by decide)).2] at hq
      linarith
    all_goals first
      | exact hint _ _
      | exact (hint _ _).add (hint _ _)
      | exact ((hint _ _).add (hint _ _)).add (hint _ _)
      | exact (((hint _ _).add (hint _ _)).add (hint _ _)).const_mul _
      | exact ((((hint _ _).add (hint _ _)).add (hint _ _)).add (hint _ _)).const_mul _
  have h2 : 6 * meanProduct μ Q A B (axis 0) (axis 1) + 3 * meanProduct μ Q A B (axis 0) (axis 0) =
      (A * B).trace := by
    have hq : ∫ ω, _ ∂μ = ∫ _ω : Ω, (A * B).trace ∂μ :=
      integral_congr_ae (Filter.Eventually.of_forall fun ω => off_diagonal hA hB (h.orthogonal ω))
    rw [integral_const, probReal_univ, one_smul] at hq
    rw [integral_add, integral_const_mul, integral_add, integral_add, integral_add, integral_add] at hq
    · change 2 * (meanProduct μ Q A B (axis 0) (axis 1) + meanProduct μ Q A B (axis 0) (axis 2) +
        meanProduct μ Q A B (axis 1) (axis 2)) + (meanProduct μ Q A B (axis 0) (axis 0) +
          meanProduct μ Q A B (axis 1) (axis 1) + meanProduct μ Q A B (axis 2) (axis 2)) = _ at hq
      rw [(hp 0 2 (by decide)).1, (hp 1 2 (by decide)).1, (hp 1 0 (by decide)).2,
        (hp 2 0 (by decide)).2] at hq
      linarith
    all_goals first
      | exact hint _ _
      | exact (hint _ _).add (hint _ _)
      | exact ((hint _ _).add (hint _ _)).add (hint _ _)
      | exact (((hint _ _).add (hint _ _)).add (hint _ _)).const_mul _
  obtain ⟨g1, g2⟩ := meanProduct_frame h A B he
  rw [g1, g2]
  exact ⟨h1, by linarith⟩

/-- C140: average intensity scattered with unchanged polarization. -/
theorem C140_parallel (h : RandomOrientation μ Q) {R : Mat3 ℝ} (hR : R.IsSymm) {e e' : Fin 3 → ℝ}
    (he : Perpendicular e e') :
    45 * ∫ ω, component R (Q ω) e e ^ 2 ∂μ =
      45 * meanPol R ^ 2 + 4 * anisotropy R := by
  have h1 := (meanProduct_value h hR hR he).1
  unfold meanProduct at h1
  simp only [← sq] at h1
  rw [h1]
  have a10 : R 1 0 = R 0 1 := hR.apply 0 1
  have a20 : R 2 0 = R 0 2 := hR.apply 0 2
  have a21 : R 2 1 = R 1 2 := hR.apply 1 2
  simp only [meanPol, anisotropy, Matrix.trace, Matrix.diag, sq R, Matrix.mul_apply,
    Fin.sum_univ_three, a10, a20, a21]
  ring

/-- C140: average intensity scattered with perpendicular polarization. -/
theorem C140_perpendicular (h : RandomOrientation μ Q) {R : Mat3 ℝ} (hR : R.IsSymm)
    {e e' : Fin 3 → ℝ} (he : Perpendicular e e') :
    45 * ∫ ω, component R (Q ω) e e' ^ 2 ∂μ = 3 * anisotropy R := by
  have h1 := (meanProduct_value h hR hR he).2
  unfold meanProduct at h1
  simp only [← sq] at h1
  rw [h1]
  have a10 : R 1 0 = R 0 1 := hR.apply 0 1
  have a20 : R 2 0 = R 0 2 := hR.apply 0 2
  have a21 : R 2 1 = R 1 2 := hR.apply 1 2
  simp only [anisotropy, Matrix.trace, Matrix.diag, sq R, Matrix.mul_apply,
    Fin.sum_univ_three, a10, a20, a21]
  ring

/-- C140: the polycrystalline intensities of a phonon spectrum are 45 times the average, over all
orientations of the crystallites, of the light scattered into both polarizations. -/
theorem C140_phonon (h : RandomOrientation μ Q) {e e' : Fin 3 → ℝ} (he : Perpendicular e e')
    (s : PhononSpectrum) (hs : ∀ R ∈ s.tensors, R.IsSymm) (args : MeasureArgs)
    (h1 : args.orientation = polycrystalline) (h2 : args.laserCorrection = false)
    (h3 : args.boseEinstein = false) :
    (s.measure args).1 = .ok (s.wavenumbers, s.tensors.map fun R => some (45 *
      ∫ ω, (component R (Q ω) e e ^ 2 + component R (Q ω) e e' ^ 2) ∂μ)) := by
  have hm : s.tensors.map (fun R => some (rawIntensity R)) = s.tensors.map fun R => some (45 *
      ∫ ω, (component R (Q ω) e e ^ 2 + component R (Q ω) e e' ^ 2) ∂μ) := by
    refine List.map_congr_left fun R hR => ?_
    have hi : ∀ f f' : Fin 3 → ℝ, Integrable (fun ω => component R (Q ω) f f' ^ 2) μ :=
      fun f f' => integrable_orientation h _ ((continuous_component R f f').pow 2)
    rw [integral_add (hi _ _) (hi _ _), mul_add, C140_parallel h (hs R hR) he,
      C140_perpendicular h (hs R hR) he]
    have a10 : R 1 0 = R 0 1 := (hs R hR).apply 0 1
    have a20 : R 2 0 = R 0 2 := (hs R hR).apply 0 2
    have a21 : R 2 1 = R 1 2 := (hs R hR).apply 1 2
    congr 1
    simp only [rawIntensity, alphaSquared, gammaSquared, meanPol, anisotropy, Matrix.trace,
      Matrix.diag, Matrix.mul_apply, Fin.sum_univ_three, a10, a20, a21]
    ring
  unfold PhononSpectrum.measure applyLaser applyBose
  simp only [h1, h2, h3, ne_eq, not_true_eq_false, if_false, Bool.false_eq_true]
  rw [hm]
  rfl

/-- Average of the spectrum of the observed series. -/
theorem integral_specAt (h : RandomOrientation μ Q) (n : ℕ) (A : ℕ → Mat3 ℝ) (f f' : Fin 3 → ℝ)
    (k : ℕ) :
    ∫ ω, specAt n (fun a => component (A a) (Q ω) f f') k ∂μ =
      ∑ a ∈ Finset.range n, ∑ b ∈ Finset.range n,
        specCoef n k a b * meanProduct μ Q (A a) (A b) f f' := by
  simp only [specAt_quad]
  have hi : ∀ a b : ℕ, Integrable (fun ω => specCoef n k a b *
      (component (A a) (Q ω) f f' * component (A b) (Q ω) f f')) μ :=
    fun a b => (integrable_orientation h _ (continuous_product (A a) (A b) f f' f f')).const_mul _
  rw [integral_finsetSum _ fun a _ => integrable_finsetSum _ fun b _ => hi a b]
  refine Finset.sum_congr rfl fun a _ => ?_
  rw [integral_finsetSum _ fun b _ => hi a b]
  refine Finset.sum_congr rfl fun b _ => ?_
  rw [integral_const_mul]
  rfl

/-- The intensities of an MD spectrum as averages. -/
theorem mdAt_average (h : RandomOrientation μ Q) {e e' : Fin 3 → ℝ} (he : Perpendicular e e')
    (ad : List (Mat3 ℝ)) (hs : ∀ A ∈ ad, A.IsSymm) (k : ℕ) :
    mdAt ad k = 45 * ∫ ω, (specAt ad.length (fun a => component (ad.getD a 0) (Q ω) e e) k +
      specAt ad.length (fun a => component (ad.getD a 0) (Q ω) e e') k) ∂μ := by
  have hs' : ∀ a, (ad.getD a 0).IsSymm := by
    intro a
    rw [List.getD_eq_getElem?_getD]
    cases hg : ad[a]? with
    | none => exact Matrix.isSymm_zero
    | some A => exact hs A (List.mem_of_getElem? hg)
  have hi : ∀ f f' : Fin 3 → ℝ, Integrable (fun ω =>
      specAt ad.length (fun a => component (ad.getD a 0) (Q ω) f f') k) μ := by
    intro f f'
    refine integrable_orientation h (fun O => specAt ad.length
      (fun a => component (ad.getD a 0) O f f') k) ?_
    simp only [specAt_quad]
    exact continuous_finset_sum _ fun a _ => continuous_finset_sum _ fun b _ =>
      (continuous_product _ _ f f' f f').const_mul _
  rw [integral_add (hi _ _) (hi _ _), integral_specAt h, integral_specAt h,
    ← Finset.sum_add_distrib, Finset.mul_sum]
  unfold mdAt
  refine Finset.sum_congr rfl fun a _ => ?_
  rw [← Finset.sum_add_distrib, Finset.mul_sum]
  refine Finset.sum_congr rfl fun b _ => ?_
  obtain ⟨g1, g2⟩ := meanProduct_value h (hs' a) (hs' b) he
  rw [g1, g2, pairInt_symm _ _ (hs' a) (hs' b)]
  ring

/-- Changes from step to step of the component seen by an observer. -/
def observedChange (ts : List (Mat3 ℝ)) (O : Mat3 ℝ) (f f' : Fin 3 → ℝ) (t : ℕ) : ℝ :=
  component (ts.getD (t + 1) 0) O f f' - component (ts.getD t 0) O f f'

theorem component_sub (A B O : Mat3 ℝ) (f f' : Fin 3 → ℝ) :
    component (A - B) O f f' = component A O f f' - component B O f f' := by
  unfold component
  rw [Matrix.mul_sub, Matrix.sub_mul]
  simp only [Matrix.sub_apply, Fin.sum_univ_three]
  ring

theorem component_npDiff (ts : List (Mat3 ℝ)) (O : Mat3 ℝ) (f f' : Fin 3 → ℝ) (k : ℕ) :
    specAt (npDiff ts).length (fun a => component ((npDiff ts).getD a 0) O f f') k =
      (Complex.normSq (fourier (ts.length - 1) (observedChange ts O f f') k) +
        ∑ t ∈ Finset.range (ts.length - 1), observedChange ts O f f' t ^ 2) / 2 := by
  rw [specAt_eq, npDiff_length]
  have he : ∀ t ∈ Finset.range (ts.length - 1), component ((npDiff ts).getD t 0) O f f' =
      observedChange ts O f f' t := by
    intro t ht
    have ht' : t < ts.length - 1 := Finset.mem_range.1 ht
    unfold observedChange
    rw [← component_sub, List.getD_eq_getElem _ _ (by rw [npDiff_length]; exact ht'),
      List.getD_eq_getElem _ _ (by omega), List.getD_eq_getElem _ _ (by omega)]
    unfold npDiff
    simp
  have hf : fourier (ts.length - 1) (fun a => component ((npDiff ts).getD a 0) O f f') k =
      fourier (ts.length - 1) (observedChange ts O f f') k := by
    unfold fourier
    refine Finset.sum_congr rfl fun t ht => ?_
    dsimp only
    rw [he t ht]
  rw [hf, Finset.sum_congr rfl fun t ht => by rw [he t ht]]

/-- C140: the polycrystalline intensities of a molecular-dynamics spectrum are 45 times the
average, over all orientations of the crystallites, of the power spectra (plus half the summed
squares) of the changes seen in both polarizations. -/
theorem C140_md (h : RandomOrientation μ Q) {e e' : Fin 3 → ℝ} (he : Perpendicular e e')
    (s : MDSpectrum) (hs : ∀ A ∈ s.polarizabilityTs, A.IsSymm)
    (hS : 2 ≤ s.polarizabilityTs.length) (hdt : 0 < s.timestep) (args : MeasureArgs)
    (h1 : args.orientation = polycrystalline) (h2 : args.laserCorrection = false)
    (h3 : args.boseEinstein = false) :
    ∃ ws is : List ℝ, (s.measure args).1 = .ok (ws, is.map some) ∧ ws.length = is.length ∧
      is.length = (s.polarizabilityTs.length - 2) / 2 ∧
      ∀ (k : ℕ) (hk : k < is.length), is[k] = 45 * ∫ ω,
        ((Complex.normSq (fourier (s.polarizabilityTs.length - 1)
            (observedChange s.polarizabilityTs (Q ω) e e) (k + 1)) +
          ∑ t ∈ Finset.range (s.polarizabilityTs.length - 1),
            observedChange s.polarizabilityTs (Q ω) e e t ^ 2) / 2 +
        (Complex.normSq (fourier (s.polarizabilityTs.length - 1)
            (observedChange s.polarizabilityTs (Q ω) e e') (k + 1)) +
          ∑ t ∈ Finset.range (s.polarizabilityTs.length - 1),
            observedChange s.polarizabilityTs (Q ω) e e' t ^ 2) / 2) ∂μ := by
  obtain ⟨ws, hws, hraw⟩ : ∃ ws : List ℝ, ws.length = (s.polarizabilityTs.length - 2) / 2 ∧
      mdRaw s = .ok (ws, (List.range ((s.polarizabilityTs.length - 2) / 2)).map fun k =>
        mdAt (npDiff s.polarizabilityTs) (k + 1)) := ⟨_, by simp, mdRaw_tail s hS hdt⟩
  refine ⟨ws, (List.range ((s.polarizabilityTs.length - 2) / 2)).map fun k =>
    mdAt (npDiff s.polarizabilityTs) (k + 1), ?_, by simp [hws], by simp, ?_⟩
  · unfold MDSpectrum.measure
    rw [if_neg (not_not.2 h1)]
    dsimp only
    rw [hraw]
    unfold applyLaser applyBose
    rw [h2, h3]
    rfl
  · intro k hk
    rw [List.getElem_map, List.getElem_range,
      mdAt_average h he _ (npDiff_symm _ hs) (k + 1)]
    simp only [component_npDiff]

end

/-! ### Random orientations exist: invariant measure of the orthogonal group -/

/-- The orthogonal group. -/
abbrev OrthogonalGroup : Type := unitary (Mat3 ℝ)

theorem orthogonal_of_mem (ω : OrthogonalGroup) :
    (ω : Mat3 ℝ)ᵀ * (ω : Mat3 ℝ) = 1 ∧ (ω : Mat3 ℝ) * (ω : Mat3 ℝ)ᵀ = 1 := by
  obtain ⟨m, hm⟩ := ω
  obtain ⟨h1, h2⟩ := Unitary.mem_iff.1 hm
  rw [Matrix.star_eq_conjTranspose, Matrix.conjTranspose_eq_transpose_of_trivial] at h1 h2
  exact ⟨h1, h2⟩

theorem compact_orthogonal : CompactSpace OrthogonalGroup := by
  refine isCompact_iff_compactSpace.1 (?_ : IsCompact (unitary (Mat3 ℝ) : Set (Mat3 ℝ)))
  have hK : IsCompact (Set.univ.pi fun _ : Fin 3 => Set.univ.pi fun _ : Fin 3 =>
      Set.Icc (-1 : ℝ) 1) := isCompact_univ_pi fun _ => isCompact_univ_pi fun _ => isCompact_Icc
  refine IsCompact.of_isClosed_subset (X := Mat3 ℝ) hK ?_ ?_
  · have : (unitary (Mat3 ℝ) : Set (Mat3 ℝ)) = {m | star m * m = 1 ∧ m * star m = 1} := by
      ext m; exact Unitary.mem_iff
    rw [this]
    exact (isClosed_eq (by fun_prop) (by fun_prop)).inter (isClosed_eq (by fun_prop) (by fun_prop))
  · intro m hm i _ j _
    exact entry_le (orthogonal_of_mem ⟨m, hm⟩).1 i j

attribute [local instance] compact_orthogonal

noncomputable local instance : MeasurableSpace OrthogonalGroup := borel _

local instance : BorelSpace OrthogonalGroup := ⟨rfl⟩

/-- The invariant probability measure of the orthogonal group. -/
noncomputable def uniformOrientation : Measure OrthogonalGroup := Measure.haarMeasure ⊤

local instance : uniformOrientation.IsMulLeftInvariant :=
  Measure.isMulLeftInvariant_haarMeasure _

local instance : IsProbabilityMeasure uniformOrientation := by
  constructor
  have := Measure.haarMeasure_self (G := OrthogonalGroup) (K₀ := ⊤)
  exact this

/-- C140, non-vacuity: the inverse of a uniformly distributed element of the orthogonal group is a
random orientation. -/
theorem random_orientation_exists :
    RandomOrientation uniformOrientation fun ω => ((ω⁻¹ : OrthogonalGroup) : Mat3 ℝ) where
  measurable i j := by
    have : Continuous fun ω : OrthogonalGroup => ((ω⁻¹ : OrthogonalGroup) : Mat3 ℝ) i j :=
      (continuous_apply_apply i j).comp
        ((continuous_subtype_val (p := fun m : Mat3 ℝ => m ∈ unitary (Mat3 ℝ))).comp
          (continuous_inv (G := OrthogonalGroup)))
    exact this.measurable
  orthogonal ω := (orthogonal_of_mem ω⁻¹).1
  invariant g hg _ φ _ := by
    have hg' : g ∈ unitary (Mat3 ℝ) := by
      rw [Unitary.mem_iff, Matrix.star_eq_conjTranspose,
        Matrix.conjTranspose_eq_transpose_of_trivial]
      exact ⟨hg, mul_eq_one_comm.1 hg⟩
    have := integral_mul_left_eq_self (μ := uniformOrientation)
      (fun ω => φ ((ω⁻¹ : OrthogonalGroup) : Mat3 ℝ)) (⟨g, hg'⟩⁻¹ : OrthogonalGroup)
    simp only [_root_.mul_inv_rev, inv_inv] at this
    exact this

/-- C140, concrete case: the Raman tensor of a stretching mode along `z` seen by light polarized
along `x` and along `y`: a fifth of it is scattered with unchanged polarization. -/
example : ∫ ω, component !![0, 0, 0; 0, 0, 0; 0, 0, 1] ((ω⁻¹ : OrthogonalGroup) : Mat3 ℝ) (axis 0)
      (axis 0) ^ 2 ∂uniformOrientation = 1 / 5 ∧
    ∫ ω, component !![0, 0, 0; 0, 0, 0; 0, 0, 1] ((ω⁻¹ : OrthogonalGroup) : Mat3 ℝ) (axis 0)
      (axis 1) ^ 2 ∂uniformOrientation = 1 / 15 := by
  have hs : (!![0, 0, 0; 0, 0, 0; 0, 0, 1] : Mat3 ℝ).IsSymm := by
    ext i j; fin_cases i <;> fin_cases j <;> rfl
  have h1 := C140_parallel random_orientation_exists hs (axis_perpendicular (k := 0) (l := 1)
    (by decide))
  have h2 := C140_perpendicular random_orientation_exists hs (axis_perpendicular (k := 0) (l := 1)
    (by decide))
  have ha : meanPol !![0, 0, 0; 0, 0, 0; 0, 0, 1] = 1 / 3 := by
    simp [meanPol, Matrix.trace, Fin.sum_univ_three]
  have hb : anisotropy !![0, 0, 0; 0, 0, 0; 0, 0, 1] = 1 := by
    simp [anisotropy, Matrix.trace, Fin.sum_univ_three]
    norm_num
  rw [ha, hb] at h1
  rw [hb] at h2
  constructor <;> linarith

end Verif
