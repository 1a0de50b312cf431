import Verif.Model.TorchUtils
import Verif.Spec.Graph
import Mathlib.Tactic.LinearCombination

/-!
# C78: rotation matrices
-/

namespace Verif

open Matrix

theorem norm3_sq (v : Fin 3 → ℝ) : norm3 v ^ 2 = v 0 ^ 2 + v 1 ^ 2 + v 2 ^ 2 :=
  Real.sq_sqrt (by positivity)

theorem norm3_eq_zero (v : Fin 3 → ℝ) : norm3 v = 0 ↔ v = 0 := by
  constructor
  · intro h
    have h2 := norm3_sq v
    rw [h] at h2
    have h0 : v 0 = 0 := by nlinarith [sq_nonneg (v 0), sq_nonneg (v 1), sq_nonneg (v 2)]
    have h1 : v 1 = 0 := by nlinarith [sq_nonneg (v 0), sq_nonneg (v 1), sq_nonneg (v 2)]
    have h3 : v 2 = 0 := by nlinarith [sq_nonneg (v 0), sq_nonneg (v 1), sq_nonneg (v 2)]
    funext i
    fin_cases i
    · exact h0
    · exact h1
    · exact h3
  · rintro rfl
    simp [norm3]

theorem norm3_nonneg (v : Fin 3 → ℝ) : 0 ≤ norm3 v := Real.sqrt_nonneg _

theorem norm3_pos {v : Fin 3 → ℝ} (h : v ≠ 0) : 0 < norm3 v :=
  lt_of_le_of_ne (norm3_nonneg v) fun h' => h ((norm3_eq_zero v).1 h'.symm)

theorem unitVector_some {t b : Fin 3 → ℝ} : unitVector t = some b ↔ Spec.IsDirection t b := by
  unfold unitVector
  constructor
  · intro h
    split at h
    · cases h
    · rename_i h0
      cases h
      refine ⟨?_, norm3 t, lt_of_le_of_ne (norm3_nonneg t) (Ne.symm h0), fun i => ?_⟩
      · have := norm3_sq t
        rw [Fin.sum_univ_three]
        field_simp
        linarith
      · field_simp
  · rintro ⟨h1, r, hr, ht⟩
    have hn : norm3 t = r := by
      have h2 : norm3 t ^ 2 = r ^ 2 := by
        rw [norm3_sq, ht, ht, ht]
        rw [Fin.sum_univ_three] at h1
        linear_combination r ^ 2 * h1
      exact (pow_left_inj₀ (norm3_nonneg t) hr.le two_ne_zero).1 h2
    rw [if_neg (by rw [hn]; exact hr.ne'), hn]
    congr 1
    funext i
    rw [ht i]
    field_simp

theorem unitVector_none {t : Fin 3 → ℝ} : unitVector t = none ↔ t = 0 := by
  unfold unitVector
  rw [← norm3_eq_zero]
  split <;> simp_all

theorem unitVector_x : unitVector ![1, 0, 0] = some ![1, 0, 0] := by
  rw [unitVector_some]
  refine ⟨by simp [Fin.sum_univ_three], 1, one_pos, fun i => by simp⟩

/-- Explicit entries of the rotation. -/
theorem rotation_entries (b : Fin 3 → ℝ) (h1 : ∑ i, b i ^ 2 = 1) (hs : b 1 ≠ 0 ∨ b 2 ≠ 0) :
    ∃ k : ℝ, k * (1 + b 0) = 1 ∧ k * (b 1 ^ 2 + b 2 ^ 2) = 1 - b 0 ∧
      rotationBetween ![1, 0, 0] b =
        !![b 0, -b 1, -b 2; b 1, 1 - k * b 1 ^ 2, -(k * b 1 * b 2);
          b 2, -(k * b 1 * b 2), 1 - k * b 2 ^ 2] := by
  rw [Fin.sum_univ_three] at h1
  have hpos : 0 < b 1 ^ 2 + b 2 ^ 2 := by
    rcases hs with h | h <;> positivity
  have hv : cross3 ![1, 0, 0] b = ![0, -b 2, b 1] := by
    simp [cross3]
  have hns : norm3 (cross3 ![1, 0, 0] b) ^ 2 = b 1 ^ 2 + b 2 ^ 2 := by
    rw [norm3_sq, hv]; simp; ring
  have hne : norm3 (cross3 ![1, 0, 0] b) ≠ 0 := by
    intro h
    rw [h] at hns
    simp at hns
    linarith
  have hx : 1 - b 0 ≠ 0 := by
    intro h
    have h0 : b 0 = 1 := by linarith
    rw [h0] at h1
    linarith
  refine ⟨(1 - b 0) / (b 1 ^ 2 + b 2 ^ 2), ?_, ?_, ?_⟩
  · rw [div_mul_eq_mul_div, div_eq_one_iff_eq hpos.ne']
    linear_combination -h1
  · field_simp
  · unfold rotationBetween
    dsimp only
    rw [if_neg hne, hns, hv]
    have hc : dot3 ![1, 0, 0] b = b 0 := by simp [dot3]
    rw [hc]
    have hk : (1 - b 0) / (b 1 ^ 2 + b 2 ^ 2) * (b 1 ^ 2 + b 2 ^ 2) = 1 - b 0 := by field_simp
    generalize (1 - b 0) / (b 1 ^ 2 + b 2 ^ 2) = k at hk ⊢
    ext i j
    fin_cases i <;> fin_cases j <;>
      simp [kMatrix, Matrix.mul_apply, Fin.sum_univ_three, Matrix.one_apply]
    all_goals first | linear_combination (-1 : ℝ) * hk | ring

theorem rotation_is (b : Fin 3 → ℝ) (h1 : ∑ i, b i ^ 2 = 1) (hs : b 1 ≠ 0 ∨ b 2 ≠ 0) :
    Spec.IsRotation (rotationBetween ![1, 0, 0] b) ∧
      rotationBetween ![1, 0, 0] b *ᵥ ![1, 0, 0] = b := by
  obtain ⟨k, hk1, hk2, hR⟩ := rotation_entries b h1 hs
  rw [hR]
  rw [Fin.sum_univ_three] at h1
  refine ⟨⟨?_, ?_⟩, ?_⟩
  · ext i j
    fin_cases i <;> fin_cases j <;>
      simp [Matrix.mul_apply, Fin.sum_univ_three]
    · linear_combination h1
    · linear_combination b 1 * hk2
    · linear_combination b 2 * hk2
    · linear_combination b 1 * hk2
    · linear_combination (k * b 1 ^ 2) * hk2 - b 1 ^ 2 * hk1
    · linear_combination (k * b 1 * b 2) * hk2 - (b 1 * b 2) * hk1
    · linear_combination b 2 * hk2
    · linear_combination (k * b 1 * b 2) * hk2 - (b 1 * b 2) * hk1
    · linear_combination (k * b 2 ^ 2) * hk2 - b 2 ^ 2 * hk1
  · rw [Matrix.det_fin_three]
    simp
    linear_combination h1 - b 0 * hk2
  · funext i
    fin_cases i <;> simp [Matrix.mulVec, dotProduct, Fin.sum_univ_three]

/-- C78: for every nonzero target the result is a proper rotation; it sends the x axis to the
direction of the target unless the target is antiparallel to the x axis, when it is the identity. -/
theorem C78_rotation (t : Fin 3 → ℝ) (ht : t ≠ 0) :
    ∃ R, getRotation t = some R ∧ Spec.IsRotation R ∧
      ((¬ ∃ r : ℝ, 0 < r ∧ t = ![-r, 0, 0]) → Spec.IsDirection t (R *ᵥ ![1, 0, 0])) ∧
      ((∃ r : ℝ, 0 < r ∧ t = ![-r, 0, 0]) → R = 1) := by
  obtain ⟨b, hb⟩ : ∃ b, unitVector t = some b := by
    cases h : unitVector t with
    | none => exact absurd (unitVector_none.1 h) ht
    | some b => exact ⟨b, rfl⟩
  have hd := unitVector_some.1 hb
  refine ⟨rotationBetween ![1, 0, 0] b, ?_, ?_⟩
  · unfold getRotation
    rw [unitVector_x, hb]
  obtain ⟨h1, r, hr, htb⟩ := hd
  by_cases hs : b 1 ≠ 0 ∨ b 2 ≠ 0
  · obtain ⟨hR, hRx⟩ := rotation_is b h1 hs
    refine ⟨hR, fun _ => by rw [hRx]; exact ⟨h1, r, hr, htb⟩, ?_⟩
    rintro ⟨r', -, hr'⟩
    exfalso
    have e1 := htb 1
    have e2 := htb 2
    rw [hr'] at e1 e2
    simp at e1 e2
    rcases hs with h | h
    · exact h (e1.resolve_left hr.ne')
    · exact h (e2.resolve_left hr.ne')
  · push Not at hs
    have hid : rotationBetween ![1, 0, 0] b = 1 := by
      unfold rotationBetween
      dsimp only
      rw [if_pos]
      rw [norm3_eq_zero]
      funext i
      fin_cases i <;> simp [cross3, hs.1, hs.2]
    rw [hid]
    refine ⟨⟨by simp, by simp⟩, ?_, fun _ => rfl⟩
    intro hanti
    rw [Fin.sum_univ_three, hs.1, hs.2] at h1
    have hb0 : b 0 = 1 ∨ b 0 = -1 := by
      exact eq_or_eq_neg_of_sq_eq_sq (b 0) 1 (by linarith)
    rcases hb0 with hb0 | hb0
    · refine ⟨by simp [Matrix.one_mulVec, Fin.sum_univ_three], r, hr, fun i => ?_⟩
      rw [htb i, Matrix.one_mulVec]
      fin_cases i <;> simp [hb0, hs.1, hs.2]
    · exfalso
      apply hanti
      refine ⟨r, hr, ?_⟩
      funext i
      rw [htb i]
      fin_cases i <;> simp [hb0, hs.1, hs.2]

/-- C78: the zero vector gives NaN. -/
theorem C78_zero : getRotation 0 = none := by
  unfold getRotation
  rw [unitVector_none.2 rfl]
  cases unitVector ![1, 0, 0] <;> rfl

/-- C78, concrete: the rotation of the x axis onto the y axis. -/
example : getRotation ![0, 2, 0] = some !![0, -1, 0; 1, 0, 0; 0, 0, 1] := by
  have h : unitVector ![0, 2, 0] = some ![0, 1, 0] := by
    rw [unitVector_some]
    exact ⟨by simp [Fin.sum_univ_three], 2, two_pos, fun i => by fin_cases i <;> simp⟩
  unfold getRotation
  rw [unitVector_x, h]
  obtain ⟨k, hk1, -, hR⟩ := rotation_entries ![0, 1, 0] (by simp [Fin.sum_univ_three]) (by simp)
  have hk : k = 1 := by simpa using hk1
  dsimp only
  rw [hR, hk]
  congr 1
  ext i j
  fin_cases i <;> fin_cases j <;> simp

/-- C78, concrete: for the antiparallel target the x axis is left where it is. -/
example : getRotation ![-3, 0, 0] = some 1 := by
  obtain ⟨R, h, -, -, hR⟩ := C78_rotation ![-3, 0, 0] (by
    intro h; have := congrFun h 0; norm_num at this)
  rw [h, hR ⟨3, by norm_num, rfl⟩]

end Verif
