import Verif.Props.Dynamics
import Mathlib.Analysis.Calculus.MeanValue
import Mathlib.Analysis.Calculus.Deriv.Pow
import Mathlib.Analysis.Calculus.Deriv.Comp

/-!
# Property C130: accuracy of the Raman tensors of phonons (`dynamics/_phonon.py`)
-/

namespace Verif
open Spec

variable {N : ℕ}

namespace Spec

/-- The polarizability along a mode is the function `F` of the mode coordinate, as far as `h`. -/
def Along (M : PolModel N) (ref d : Pos N ℝ) (h : ℝ) (F : ℝ → Mat3 ℝ) : Prop :=
  ∀ t, |t| ≤ h → evalOne M (fun a i => ref a i + t * d a i) = .ok (F t)

/-- `f` has the first derivative `f₁` and the second derivative `f₂` as far as `h`, and `f₂` changes
at most at the rate `K`. -/
structure Smooth (f f₁ f₂ : ℝ → ℝ) (K h : ℝ) : Prop where
  first : ∀ t, |t| ≤ h → HasDerivAt f (f₁ t) t
  second : ∀ t, |t| ≤ h → HasDerivAt f₁ (f₂ t) t
  rate : ∀ s t, |s| ≤ h → |t| ≤ h → |f₂ s - f₂ t| ≤ K * |s - t|

end Spec

/-- Error of the symmetric difference quotient. -/
theorem symmetric_difference {f f₁ f₂ : ℝ → ℝ} {K h : ℝ} (hs : Smooth f f₁ f₂ K h) :
    ∀ t, 0 ≤ t → t ≤ h → |f t - f (-t) - 2 * t * f₁ 0| ≤ K * t ^ 3 / 3 := by
  intro t ht hth
  have hh : 0 ≤ h := ht.trans hth
  have abs_le' : ∀ x ∈ Set.Icc (0 : ℝ) h, |x| ≤ h ∧ |-x| ≤ h := by
    intro x hx
    rw [abs_neg, abs_of_nonneg hx.1]; exact ⟨hx.2, hx.2⟩
  -- first derivative of the difference
  have d1 : ∀ x ∈ Set.Icc (0 : ℝ) h, HasDerivAt (fun t => f₁ t + f₁ (-t) - 2 * f₁ 0)
      (f₂ x - f₂ (-x)) x := by
    intro x hx
    obtain ⟨h1, h2⟩ := abs_le' x hx
    have a := hs.second x h1
    have b := (hs.second (-x) h2).comp x (hasDerivAt_neg x)
    have c := (a.add b).sub_const (2 * f₁ 0)
    exact c.congr_deriv (by ring)
  have d0 : ∀ x ∈ Set.Icc (0 : ℝ) h, HasDerivAt (fun t => f t - f (-t) - 2 * t * f₁ 0)
      (f₁ x + f₁ (-x) - 2 * f₁ 0) x := by
    intro x hx
    obtain ⟨h1, h2⟩ := abs_le' x hx
    have a := hs.first x h1
    have b := (hs.first (-x) h2).comp x (hasDerivAt_neg x)
    have c := (a.sub b).sub (((hasDerivAt_id x).const_mul 2).mul_const (f₁ 0))
    exact c.congr_deriv (by simp)
  have s1 : ∀ x ∈ Set.Icc (0 : ℝ) h, ‖f₁ x + f₁ (-x) - 2 * f₁ 0‖ ≤ K * x ^ 2 := by
    refine image_norm_le_of_norm_deriv_right_le_deriv_boundary (B' := fun x => K * (2 * x))
      (f' := fun x => f₂ x - f₂ (-x)) ?_ ?_ ?_ ?_ ?_
    · exact fun x hx => (d1 x hx).continuousAt.continuousWithinAt
    · exact fun x hx => (d1 x (Set.Ico_subset_Icc_self hx)).hasDerivWithinAt
    · simp only [neg_zero, Real.norm_eq_abs]
      rw [show f₁ 0 + f₁ 0 - 2 * f₁ 0 = 0 by ring]; simp
    · intro x
      have := (hasDerivAt_pow 2 x).const_mul K
      exact this.congr_deriv (by norm_num)
    · intro x hx
      obtain ⟨h1, h2⟩ := abs_le' x (Set.Ico_subset_Icc_self hx)
      have := hs.rate x (-x) h1 h2
      rw [Real.norm_eq_abs]
      refine this.trans (le_of_eq ?_)
      rw [show x - -x = 2 * x by ring, abs_of_nonneg (by linarith [hx.1])]
  have s0 : ∀ x ∈ Set.Icc (0 : ℝ) h, ‖f x - f (-x) - 2 * x * f₁ 0‖ ≤ K * x ^ 3 / 3 := by
    refine image_norm_le_of_norm_deriv_right_le_deriv_boundary (B' := fun x => K * x ^ 2)
      (f' := fun x => f₁ x + f₁ (-x) - 2 * f₁ 0) ?_ ?_ ?_ ?_ ?_
    · exact fun x hx => (d0 x hx).continuousAt.continuousWithinAt
    · exact fun x hx => (d0 x (Set.Ico_subset_Icc_self hx)).hasDerivWithinAt
    · simp
    · intro x
      have := ((hasDerivAt_pow 3 x).const_mul K).div_const 3
      exact this.congr_deriv (by norm_num; ring)
    · exact fun x hx => s1 x (Set.Ico_subset_Icc_self hx)
  have := s0 t ⟨ht, hth⟩
  rwa [Real.norm_eq_abs] at this

/-- C130, one mode: the Raman tensor is one thousand times the difference of the polarizabilities
one thousandth of the mode before and behind the reference positions. -/
theorem C130_difference (M : PolModel N) (ref d : Pos N ℝ) (A B : Mat3 ℝ)
    (hA : evalOne M (fun a i => ref a i + 1 / 1000 * d a i) = .ok A)
    (hB : evalOne M (fun a i => ref a i + (-1 / 1000) * d a i) = .ok B) :
    ramanTensor M ref d = .ok fun i j => 1000 * (A i j - B i j) := by
  have e1 : (fun a i => ref a i + d a i * centralDifference)
      = fun a i => ref a i + 1 / 1000 * d a i := by
    funext a i; unfold centralDifference; ring
  have e2 : (fun a i => ref a i - d a i * centralDifference)
      = fun a i => ref a i + (-1 / 1000) * d a i := by
    funext a i; unfold centralDifference; ring
  rw [ramanTensor_of_ok (e1 ▸ hA) (e2 ▸ hB)]
  congr 1
  funext i j
  unfold centralDifference
  simp only [Matrix.smul_apply, Matrix.sub_apply, smul_eq_mul]
  norm_num

/-- The difference quotient of `C130_difference`. -/
noncomputable def quotient (F : ℝ → Mat3 ℝ) : Mat3 ℝ :=
  fun i j => 1000 * (F (1 / 1000) i j - F (-1 / 1000) i j)

/-- C130: if every entry of the polarizability is twice differentiable along each mode up to one
thousandth of the mode, the second derivative changing at most at the rate `K`, then the spectrum is
computed, and its tensors are *twice* the derivatives along the modes, with an error of at most
`K / 3000000`. -/
theorem C130_accuracy (M : PolModel N) (ph : Phonons N) (K : ℝ)
    (F F₁ F₂ : Pos N ℝ → ℝ → Mat3 ℝ)
    (hne : ph.displacements ≠ []) (hlen : ph.wavenumbers.length = ph.displacements.length)
    (hF : ∀ d ∈ ph.displacements, Along M ph.refPositions d (1 / 1000) (F d))
    (hs : ∀ d ∈ ph.displacements, ∀ i j, Smooth (fun t => F d t i j) (fun t => F₁ d t i j)
      (fun t => F₂ d t i j) K (1 / 1000)) :
    ∃ s, ph.getRamanSpectrum M = .ok s ∧ s.wavenumbers = ph.wavenumbers ∧
      List.Forall₂ (fun d R => ∀ i j, |R i j - 2 * F₁ d 0 i j| ≤ K / 3000000)
        ph.displacements s.tensors := by
  have hR : ∀ d ∈ ph.displacements, ramanTensor M ph.refPositions d
      = .ok (quotient (F d)) := by
    intro d hd
    refine C130_difference M _ d _ _ ?_ ?_
    · exact hF d hd _ (by norm_num [abs_of_pos])
    · exact hF d hd _ (by norm_num [abs_of_neg])
  have hm : ph.displacements.mapM (ramanTensor M ph.refPositions)
      = .ok (ph.displacements.map fun d => quotient (F d)) := by
    rw [mapM_except_ok, List.forall₂_map_right_iff]
    rw [List.forall₂_same]
    exact hR
  refine ⟨⟨ph.wavenumbers, ph.displacements.map fun d => quotient (F d)⟩, ?_, rfl, ?_⟩
  · unfold Phonons.getRamanSpectrum
    rw [hm]
    change (if _ then _ else _) = _
    rw [if_neg (by cases h : ph.displacements <;> simp_all)]
    unfold PhononSpectrum.init
    rw [if_neg (by simp [hlen])]
  · dsimp only
    rw [List.forall₂_map_right_iff, List.forall₂_same]
    intro d hd i j
    have := symmetric_difference (hs d hd i j) (1 / 1000) (by norm_num) le_rfl
    have e : (-1 / 1000 : ℝ) = -(1 / 1000) := by norm_num
    unfold quotient
    rw [e]
    have e2 : 1000 * (F d (1 / 1000) i j - F d (-(1 / 1000)) i j) - 2 * F₁ d 0 i j
        = 1000 * (F d (1 / 1000) i j - F d (-(1 / 1000)) i j - 2 * (1 / 1000) * F₁ d 0 i j) := by
      ring
    rw [e2, abs_mul, abs_of_pos (by norm_num : (0 : ℝ) < 1000)]
    linarith

/-- The model whose polarizability is `K / 6` times the cube of the first coordinate of the first
atom. -/
noncomputable def cubicModel (K : ℝ) : PolModel 1 := fun ps =>
  .ok (ps.map fun p => fun _ _ => K / 6 * p 0 0 ^ 3)

/-- The mode along the first coordinate. -/
def firstMode : Phonons 1 := ⟨fun _ _ => 0, [100], [fun _ i => if i = 0 then 1 else 0]⟩

theorem cubic_smooth (K : ℝ) (hK : 0 ≤ K) (h : ℝ) :
    Smooth (fun t => K / 6 * t ^ 3) (fun t => K / 2 * t ^ 2) (fun t => K * t) K h where
  first t _ := by
    have := (hasDerivAt_pow 3 t).const_mul (K / 6)
    exact this.congr_deriv (by norm_num; ring)
  second t _ := by
    have := (hasDerivAt_pow 2 t).const_mul (K / 2)
    exact this.congr_deriv (by norm_num; ring)
  rate s t _ _ := by
    rw [← mul_sub, abs_mul, abs_of_nonneg hK]

theorem cubic_along (K : ℝ) : ∀ d ∈ firstMode.displacements,
    Along (cubicModel K) firstMode.refPositions d (1 / 1000) fun t _ _ => K / 6 * t ^ 3 := by
  intro d hd t _
  simp only [firstMode, List.mem_singleton] at hd
  subst hd
  simp [evalOne, cubicModel, firstMode]
  rfl

/-- C130: the bound on the error is attained, so it cannot be improved. -/
theorem C130_sharp (K : ℝ) (hK : 0 ≤ K) : ∃ (M : PolModel 1) (ref d : Pos 1 ℝ)
    (F F₁ F₂ : ℝ → Mat3 ℝ), Along M ref d (1 / 1000) F ∧
      (∀ i j, Smooth (fun t => F t i j) (fun t => F₁ t i j) (fun t => F₂ t i j) K (1 / 1000)) ∧
      ∃ R, ramanTensor M ref d = .ok R ∧ ∀ i j, |R i j - 2 * F₁ 0 i j| = K / 3000000 := by
  have hA := cubic_along K _ (List.mem_singleton.2 rfl) (1 / 1000) (by norm_num [abs_of_pos])
  have hB := cubic_along K _ (List.mem_singleton.2 rfl) (-1 / 1000) (by norm_num [abs_of_neg])
  have hR := C130_difference (cubicModel K) _ _ _ _ hA hB
  refine ⟨cubicModel K, _, _, fun t _ _ => K / 6 * t ^ 3, fun t _ _ => K / 2 * t ^ 2,
    fun t _ _ => K * t, cubic_along K _ (List.mem_singleton.2 rfl), fun _ _ => cubic_smooth K hK _,
    _, hR, ?_⟩
  intro i j
  dsimp only
  rw [show (1000 * (K / 6 * (1 / 1000) ^ 3 - K / 6 * (-1 / 1000) ^ 3) - 2 * (K / 2 * 0 ^ 2) : ℝ)
    = K / 3000000 by ring, abs_of_nonneg (by positivity)]

/-- The hypotheses of `C130_accuracy` hold for the cubic model. -/
example : ∃ s, firstMode.getRamanSpectrum (cubicModel 6) = .ok s ∧
    s.wavenumbers = firstMode.wavenumbers ∧
    List.Forall₂ (fun _ R => ∀ i j, |R i j - 2 * (6 / 2 * 0 ^ 2)| ≤ 6 / 3000000)
      firstMode.displacements s.tensors :=
  C130_accuracy (cubicModel 6) firstMode 6 (fun _ t _ _ => 6 / 6 * t ^ 3)
    (fun _ t _ _ => 6 / 2 * t ^ 2) (fun _ t _ _ => 6 * t) (by simp [firstMode]) rfl
    (cubic_along 6) fun _ _ _ _ => cubic_smooth 6 (by norm_num) _

end Verif
