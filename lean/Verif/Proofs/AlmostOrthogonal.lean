import Mathlib.LinearAlgebra.Matrix.Gershgorin
import Mathlib.LinearAlgebra.Matrix.Rank
import Verif.Proofs.Symmetry

/-!
# How many vectors can be orthogonal within tolerance
-/

namespace Verif

open Spec

/-- There are no more nonzero, pairwise orthogonal (within tolerance) vectors than dimensions,
as long as the tolerance is small compared with the inverse of the dimension. -/
theorem length_le_of_orthogonal {ι : Type} [Fintype ι] (l : List (ι → ℝ)) (hne : ∀ v ∈ l, v ≠ 0)
    (h : l.Pairwise Orthogonal) (hd : (Fintype.card ι : ℝ) * angTol < 1) :
    l.length ≤ Fintype.card ι := by
  classical
  by_contra hcon
  push Not at hcon
  set d := Fintype.card ι with hdd
  let v : Fin (d + 1) → ι → ℝ := fun k => l[k.1]'(by have := k.2; omega)
  have hvne : ∀ k, v k ≠ 0 := fun k => hne _ (List.getElem_mem _)
  have hn : ∀ k, 0 < norm2 (v k) := fun k => norm2_pos (hvne k)
  have hoff : ∀ j k, j ≠ k → |cosine (v j) (v k)| ≤ angTol := by
    intro j k hjk
    rcases lt_or_gt_of_ne hjk with hlt | hlt
    · exact (List.pairwise_iff_getElem.1 h j.1 k.1 (by have := j.2; omega) (by have := k.2; omega)
        hlt).2.2
    · rw [cosine_comm]
      exact (List.pairwise_iff_getElem.1 h k.1 j.1 (by have := k.2; omega) (by have := j.2; omega)
        hlt).2.2
  let M : Matrix (Fin (d + 1)) ι ℝ := fun k x => v k x / norm2 (v k)
  have hG : ∀ j k, (M * M.transpose) j k = cosine (v j) (v k) := by
    intro j k
    rw [cosine_eq, Matrix.mul_apply, dot, Finset.sum_div]
    refine Finset.sum_congr rfl fun x _ => ?_
    change v j x / norm2 (v j) * (v k x / norm2 (v k)) = _
    rw [div_mul_div_comm]
  have hdiag : ∀ k, (M * M.transpose) k k = 1 := by
    intro k
    rw [hG, cosine_eq, ← norm2_sq, sq, div_self (mul_ne_zero (hn k).ne' (hn k).ne')]
  have hdet : (M * M.transpose).det ≠ 0 := by
    apply det_ne_zero_of_sum_row_lt_diag
    intro k
    rw [hdiag, norm_one]
    calc ∑ j ∈ Finset.univ.erase k, ‖(M * M.transpose) k j‖
        ≤ ∑ _j ∈ Finset.univ.erase k, angTol := by
          refine Finset.sum_le_sum fun j hj => ?_
          rw [hG, Real.norm_eq_abs]
          exact hoff _ _ (Finset.ne_of_mem_erase hj).symm
      _ = (d : ℝ) * angTol := by
          rw [Finset.sum_const, Finset.card_erase_of_mem (Finset.mem_univ _), Finset.card_univ,
            Fintype.card_fin, nsmul_eq_mul]
          simp
      _ < 1 := hd
  have hr : (M * M.transpose).rank = d + 1 := by
    rw [Matrix.rank_of_isUnit _ ((Matrix.isUnit_iff_isUnit_det _).2 (isUnit_iff_ne_zero.2 hdet)),
      Fintype.card_fin]
  have h1 := Matrix.rank_mul_le_left M M.transpose
  have h2 := M.rank_le_card_width
  omega

end Verif
