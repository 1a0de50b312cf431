import Verif.Proofs.Symmetry

/-!
# Properties C07-C10: `structure/_symmetry_utils.py`
-/

namespace Verif
open Spec

variable {ι : Type} [Fintype ι]

/-- C07: `are_collinear` is true exactly for nonzero vectors with `|cos| ≥ 1 - 1.001e-5`. -/
theorem C07_are_collinear_iff (u v : ι → ℝ) : areCollinear u v = true ↔ Collinear u v :=
  areCollinear_iff u v

/-- C07: `are_collinear` is symmetric and does not depend on (nonzero) scale or sign. -/
theorem C07_are_collinear_invariant (u v : ι → ℝ) {c d : ℝ} (hc : c ≠ 0) (hd : d ≠ 0) :
    areCollinear u v = areCollinear v u ∧
    areCollinear (fun i => c * u i) (fun i => d * v i) = areCollinear u v := by
  have smul_ne : ∀ {e : ℝ} {w : ι → ℝ}, e ≠ 0 → ((fun i => e * w i) ≠ 0 ↔ w ≠ 0) := by
    intro e w he
    rw [not_iff_not]
    constructor
    · intro h; funext i; have := congrFun h i
      simpa [he] using this
    · rintro rfl; funext i; simp
  constructor
  · rw [Bool.eq_iff_iff, areCollinear_iff, areCollinear_iff]
    exact ⟨Collinear.symm, Collinear.symm⟩
  · rw [Bool.eq_iff_iff, areCollinear_iff, areCollinear_iff]
    unfold Collinear
    rw [smul_ne hc, smul_ne hd, cosine_smul_left hc, cosine_comm, cosine_smul_left hd, cosine_comm]

/-- C07: a zero vector is collinear with nothing (not even itself). -/
theorem C07_zero_not_collinear (u : ι → ℝ) :
    areCollinear 0 u = false ∧ areCollinear u 0 = false := by
  constructor <;> rw [Bool.eq_false_iff, ne_eq, areCollinear_iff] <;> simp [Collinear]

/-- C07, both outcomes occur. -/
example : areCollinear (![1, 2, 0] : Fin 3 → ℝ) ![-2, -4, 0] = true ∧
    areCollinear (![1, 0, 0] : Fin 3 → ℝ) ![1, 1, 0] = false := by
  constructor
  · rw [C07_are_collinear_iff]
    refine ⟨fun h => ?_, fun h => ?_, ?_⟩
    · simpa using congrFun h 0
    · simpa using congrFun h 0
    · have h5 : Real.sqrt (1 + 4) * Real.sqrt (4 + 16) = 10 := by
        rw [← Real.sqrt_mul (by norm_num), show ((1 + 4) * (4 + 16) : ℝ) = 10 ^ 2 by norm_num,
          Real.sqrt_sq (by norm_num)]
      simp [cosine, Fin.sum_univ_three]
      norm_num at h5 ⊢
      rw [h5]; norm_num [angTol]
  · rw [Bool.eq_false_iff, ne_eq, C07_are_collinear_iff]
    rintro ⟨_, _, h⟩
    have h2 : Real.sqrt 2 * Real.sqrt 2 = 2 := Real.mul_self_sqrt (by norm_num)
    have h3 : (0 : ℝ) < Real.sqrt 2 := Real.sqrt_pos.2 (by norm_num)
    simp [cosine, Fin.sum_univ_three] at h
    norm_num [angTol] at h
    rw [abs_of_pos h3] at h
    have h4 : (Real.sqrt 2)⁻¹ * Real.sqrt 2 = 1 := inv_mul_cancel₀ h3.ne'
    have h5 : (99 / 100 : ℝ) ≤ (Real.sqrt 2)⁻¹ := by linarith
    nlinarith

/-- C08: `is_orthogonal_to_all` returns the first index of a vector that is not orthogonal
(`|cos| ≤ 1.001e-5`, nonzero vectors), or -1. -/
theorem C08_is_orthogonal_to_all (v : ι → ℝ) (vs : List (ι → ℝ)) :
    IsFirstIndex (fun w => ¬ Orthogonal v w) vs (isOrthogonalToAll v vs) := by
  refine firstIndex_isFirst _ _ (fun w => ?_) vs
  rw [← orthTest_iff]; simp

/-- C08: -1 exactly when all are orthogonal. -/
theorem C08_all_orthogonal (v : ι → ℝ) (vs : List (ι → ℝ)) :
    isOrthogonalToAll v vs = -1 ↔ ∀ w ∈ vs, Orthogonal v w := by
  rw [(C08_is_orthogonal_to_all v vs).neg_one_iff]
  simp

/-- C08, zero vectors are reported as non-orthogonal. -/
theorem C08_zero (v : ι → ℝ) (vs : List (ι → ℝ)) :
    isOrthogonalToAll v (0 :: vs) = 0 ∧ isOrthogonalToAll 0 (v :: vs) = 0 := by
  constructor
  · rcases C08_is_orthogonal_to_all v (0 :: vs) with ⟨_, h⟩ | ⟨k, hk, h1, _, h3⟩
    · exact absurd (fun h' : Orthogonal v 0 => h'.2.1 rfl) (h 0 (by simp))
    · rcases Nat.eq_zero_or_pos k with rfl | hk0
      · simpa using h1
      · exact absurd (fun h' : Orthogonal v 0 => h'.2.1 rfl) (by simpa using h3 0 hk0)
  · rcases C08_is_orthogonal_to_all (0 : ι → ℝ) (v :: vs) with ⟨_, h⟩ | ⟨k, hk, h1, _, h3⟩
    · exact absurd (fun h' : Orthogonal 0 v => h'.1 rfl) (h v (by simp))
    · rcases Nat.eq_zero_or_pos k with rfl | hk0
      · simpa using h1
      · exact absurd (fun h' : Orthogonal 0 v => h'.1 rfl) (by simpa using h3 0 hk0)

/-- C08, a concrete list with offender at index 1. -/
example : isOrthogonalToAll (![1, 0, 0] : Fin 3 → ℝ) [![0, 1, 0], ![1, 0, 0]] = 1 := by
  have ho : Orthogonal (![1, 0, 0] : Fin 3 → ℝ) ![0, 1, 0] :=
    ⟨fun h => by simpa using congrFun h 0, fun h => by simpa using congrFun h 1,
      by simp [cosine, Fin.sum_univ_three, angTol]; norm_num⟩
  have hn : ¬ Orthogonal (![1, 0, 0] : Fin 3 → ℝ) ![1, 0, 0] := fun h => by
    have := h.2.2
    simp [cosine, Fin.sum_univ_three, angTol] at this
    norm_num at this
  rcases C08_is_orthogonal_to_all (![1, 0, 0] : Fin 3 → ℝ) [![0, 1, 0], ![1, 0, 0]] with
    ⟨_, h⟩ | ⟨k, hk, h1, h2, _⟩
  · exact absurd hn (h _ (by simp))
  · match k, hk, h1, h2 with
    | 0, _, _, h2 => exact absurd ho h2
    | 1, _, h1, _ => simpa using h1
    | k + 2, hk, _, _ => simp at hk

/-- C09: `is_collinear_with_all` returns the first index of a non-collinear vector, or -1. -/
theorem C09_is_collinear_with_all (v : ι → ℝ) (vs : List (ι → ℝ)) :
    IsFirstIndex (fun w => ¬ Collinear v w) vs (isCollinearWithAll v vs) := by
  refine firstIndex_isFirst _ _ (fun w => ?_) vs
  rw [← areCollinear_iff]; simp

/-- C09: `is_non_collinear_with_all` returns the first index of a collinear vector, or -1. -/
theorem C09_is_non_collinear_with_all (v : ι → ℝ) (vs : List (ι → ℝ)) :
    IsFirstIndex (fun w => Collinear v w) vs (isNonCollinearWithAll v vs) :=
  firstIndex_isFirst _ _ (fun w => areCollinear_iff v w) vs

/-- C09, -1 semantics of both. -/
theorem C09_neg_one (v : ι → ℝ) (vs : List (ι → ℝ)) :
    (isCollinearWithAll v vs = -1 ↔ ∀ w ∈ vs, Collinear v w) ∧
    (isNonCollinearWithAll v vs = -1 ↔ ∀ w ∈ vs, ¬ Collinear v w) := by
  rw [(C09_is_collinear_with_all v vs).neg_one_iff, (C09_is_non_collinear_with_all v vs).neg_one_iff]
  simp

/-- C09, non-trivial: both kinds of vector occur in one list. -/
example : Collinear (![1, 0] : Fin 2 → ℝ) ![-3, 0] ∧ ¬ Collinear (![1, 0] : Fin 2 → ℝ) ![0, 1] := by
  refine ⟨⟨fun h => by simpa using congrFun h 0, fun h => by simpa using congrFun h 0, ?_⟩, ?_⟩
  · have h3 : Real.sqrt 9 = 3 := by
      rw [show (9 : ℝ) = 3 ^ 2 by norm_num, Real.sqrt_sq (by norm_num)]
    norm_num [cosine, angTol, h3]
  · rintro ⟨_, _, h⟩
    norm_num [cosine, angTol] at h

/-- C10: a vector is collinear with at most one of mutually orthogonal vectors. -/
theorem C10_collinear_with_at_most_one (v : ι → ℝ) (vs : List (ι → ℝ))
    (h : vs.Pairwise Orthogonal) (i j : ℕ) (hi : i < vs.length) (hj : j < vs.length)
    (ci : areCollinear v vs[i] = true) (cj : areCollinear v vs[j] = true) : i = j := by
  rw [areCollinear_iff] at ci cj
  rcases lt_trichotomy i j with hij | hij | hij
  · exact (not_collinear_two ci cj (List.pairwise_iff_getElem.1 h i j hi hj hij)).elim
  · exact hij
  · exact (not_collinear_two cj ci (List.pairwise_iff_getElem.1 h j i hj hi hij)).elim

/-- C10, hypotheses are met by two coordinate axes and a vector along the second. -/
example : [![1, 0], ![0, 2]].Pairwise (Orthogonal (ι := Fin 2)) ∧
    areCollinear (![0, 1] : Fin 2 → ℝ) ![0, 2] = true := by
  constructor
  · simp only [List.pairwise_cons, List.mem_singleton, forall_eq, List.not_mem_nil,
      false_imp_iff, implies_true, List.Pairwise.nil, and_true]
    refine ⟨fun h => by simpa using congrFun h 0, fun h => by simpa using congrFun h 1, ?_⟩
    norm_num [cosine, angTol]
  · rw [areCollinear_iff]
    refine ⟨fun h => by simpa using congrFun h 1, fun h => by simpa using congrFun h 1, ?_⟩
    have h3 : Real.sqrt 4 = 2 := by
      rw [show (4 : ℝ) = 2 ^ 2 by norm_num, Real.sqrt_sq (by norm_num)]
    norm_num [cosine, angTol, h3]

end Verif
