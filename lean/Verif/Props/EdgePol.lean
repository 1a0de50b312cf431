import Verif.Model.Gnn
import Verif.Spec.Gnn
import Verif.Props.Rotation
import Mathlib.LinearAlgebra.Matrix.NonsingularInverse

/-!
# C79: edge polarizabilities
-/

namespace Verif

open Matrix

theorem unitVector_unit {u : Fin 3 → ℝ} (h : ∑ i, u i ^ 2 = 1) : unitVector u = some u :=
  unitVector_some.2 ⟨h, 1, one_pos, fun i => by simp⟩

/-- The rotation of a unit vector has, up to sign, the vector as first column. -/
theorem rotation_column {u : Fin 3 → ℝ} (h : ∑ i, u i ^ 2 = 1) :
    ∃ R, getRotation u = some R ∧ R * R.transpose = 1 ∧
      ((∀ i, R i 0 = u i) ∨ ∀ i, R i 0 = -u i) := by
  have hu : u ≠ 0 := by
    rintro rfl
    simp at h
  obtain ⟨R, hR, hrot, hdir, hanti⟩ := C78_rotation u hu
  refine ⟨R, hR, hrot.1, ?_⟩
  by_cases ha : ∃ r : ℝ, 0 < r ∧ u = ![-r, 0, 0]
  · right
    rw [hanti ha]
    obtain ⟨r, hr, rfl⟩ := ha
    rw [Fin.sum_univ_three] at h
    have hr1 : r = 1 := by
      have : r ^ 2 = 1 ^ 2 := by simpa using h
      exact (pow_left_inj₀ hr.le zero_le_one two_ne_zero).1 this
    intro i
    rw [hr1]
    fin_cases i
    · exact (by simp : (1 : Mat3 ℝ) 0 0 = -(-1))
    · exact (by simp : (1 : Mat3 ℝ) 1 0 = -0)
    · exact (by simp : (1 : Mat3 ℝ) 2 0 = -0)
  · left
    have hd := unitVector_some.2 (hdir ha)
    rw [unitVector_unit h] at hd
    intro i
    have := congrFun (Option.some.inj hd) i
    rw [this]
    simp [Matrix.mulVec, dotProduct, Fin.sum_univ_three]

theorem rotated_entry {R : Mat3 ℝ} {u : Fin 3 → ℝ} (hR : R * R.transpose = 1)
    (hu : (∀ i, R i 0 = u i) ∨ ∀ i, R i 0 = -u i) (p q : ℝ) (i j : Fin 3) :
    rotated R p q i j = Spec.axial p q u i j := by
  have hinv : R⁻¹ = R.transpose := Matrix.inv_eq_right_inv hR
  have hax : axialMatrix p q = q • (1 : Mat3 ℝ) + (p - q) • !![1, 0, 0; 0, 0, 0; 0, 0, 0] := by
    ext i j
    fin_cases i <;> fin_cases j <;> simp [axialMatrix]
  have h0 : R i 0 * R j 0 = u i * u j := by
    rcases hu with h | h
    · rw [h, h]
    · rw [h, h]; ring
  have : rotated R p q = q • (1 : Mat3 ℝ) +
      (p - q) • (R * !![1, 0, 0; 0, 0, 0; 0, 0, 0] * R.transpose) := by
    unfold rotated
    rw [hinv, hax, Matrix.mul_add, Matrix.add_mul, Matrix.mul_smul, Matrix.mul_smul,
      Matrix.smul_mul, Matrix.smul_mul, Matrix.mul_one, hR]
  rw [this]
  unfold Spec.axial
  simp only [Matrix.add_apply, Matrix.smul_apply, Matrix.one_apply, smul_eq_mul, Matrix.mul_apply,
    Fin.sum_univ_three, Matrix.transpose_apply]
  simp
  linear_combination (p - q) * h0

/-- C79: each component of an edge polarizability is the component of the axial tensor about the
edge with the two values for this component; in the order xx, yy, zz, xy, xz, yz. -/
theorem C79_axial (emb : Fin 12 → ℝ) (u : Fin 3 → ℝ) (h : ∑ i, u i ^ 2 = 1) :
    edgePolarizability emb (some u) = some ![
      Spec.axial (emb 6) (emb 7) u 0 0, Spec.axial (emb 8) (emb 9) u 1 1,
      Spec.axial (emb 10) (emb 11) u 2 2, Spec.axial (emb 0) (emb 1) u 0 1,
      Spec.axial (emb 2) (emb 3) u 0 2, Spec.axial (emb 4) (emb 5) u 1 2] := by
  obtain ⟨R, hg, hR, hu⟩ := rotation_column h
  unfold edgePolarizability
  rw [Option.bind_some, hg, Option.map_some]
  congr 1
  funext k
  fin_cases k <;>
    simp [tensorToVector, vectorRow, vectorCol, masked, rotated_entry hR hu]

/-- C79: reversing the edge does not change its polarizability. -/
theorem C79_reversed (emb : Fin 12 → ℝ) (u : Fin 3 → ℝ) (h : ∑ i, u i ^ 2 = 1) :
    edgePolarizability emb (some fun i => -u i) = edgePolarizability emb (some u) := by
  rw [C79_axial emb u h, C79_axial emb (fun i => -u i) (by simpa using h)]
  simp [Spec.axial]

/-- C79, concrete: an edge along -x, for which the rotation is the identity. -/
example : edgePolarizability ![1, 2, 3, 4, 5, 6, 7, 8, 9, 10, 11, 12] (some ![-1, 0, 0]) =
    some ![7, 10, 12, 0, 0, 0] := by
  rw [C79_axial _ _ (by simp [Fin.sum_univ_three])]
  congr 1
  funext k
  fin_cases k <;> simp [Spec.axial]

/-- C79, concrete: an edge in the xy plane. -/
example : edgePolarizability ![1, 2, 3, 4, 5, 6, 7, 8, 9, 10, 11, 12] (some ![3 / 5, 4 / 5, 0]) =
    some ![191 / 25, 234 / 25, 12, -12 / 25, 0, 0] := by
  rw [C79_axial _ _ (by simp [Fin.sum_univ_three]; norm_num)]
  congr 1
  funext k
  fin_cases k <;> simp [Spec.axial] <;> norm_num

end Verif
