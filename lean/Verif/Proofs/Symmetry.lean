import Verif.Model.Symmetry
import Verif.Spec.Vector
import Mathlib.Algebra.BigOperators.Field

/-! Helper lemmas about vectors, cosines and first-index loops. -/

namespace Verif
open Spec

variable {ι : Type} [Fintype ι]

theorem dot_self_nonneg (u : ι → ℝ) : 0 ≤ dot u u :=
  Finset.sum_nonneg fun i _ => mul_self_nonneg (u i)

theorem dot_self_eq_zero {u : ι → ℝ} : dot u u = 0 ↔ u = 0 := by
  unfold dot
  rw [Finset.sum_eq_zero_iff_of_nonneg (fun i _ => mul_self_nonneg _)]
  constructor
  · intro h; funext i; exact mul_self_eq_zero.1 (h i (Finset.mem_univ i))
  · rintro rfl i _; simp

theorem norm2_eq_zero {u : ι → ℝ} : norm2 u = 0 ↔ u = 0 := by
  unfold norm2
  rw [Real.sqrt_eq_zero (dot_self_nonneg u), dot_self_eq_zero]

theorem norm2_nonneg (u : ι → ℝ) : 0 ≤ norm2 u := Real.sqrt_nonneg _

theorem norm2_pos {u : ι → ℝ} (h : u ≠ 0) : 0 < norm2 u :=
  lt_of_le_of_ne (norm2_nonneg u) fun h' => h (norm2_eq_zero.1 h'.symm)

theorem norm2_sq (u : ι → ℝ) : norm2 u ^ 2 = dot u u := Real.sq_sqrt (dot_self_nonneg u)

theorem dot_comm (u v : ι → ℝ) : dot u v = dot v u :=
  Finset.sum_congr rfl fun i _ => mul_comm _ _

theorem dot_smul_left (c : ℝ) (u v : ι → ℝ) : dot (fun i => c * u i) v = c * dot u v := by
  unfold dot; rw [Finset.mul_sum]; exact Finset.sum_congr rfl fun i _ => by ring

theorem dot_smul_right (c : ℝ) (u v : ι → ℝ) : dot u (fun i => c * v i) = c * dot u v := by
  rw [dot_comm, dot_smul_left, dot_comm]

theorem dot_add_left (u v w : ι → ℝ) : dot (fun i => u i + v i) w = dot u w + dot v w := by
  unfold dot; rw [← Finset.sum_add_distrib]; exact Finset.sum_congr rfl fun i _ => by ring

theorem dot_sub_left (u v w : ι → ℝ) : dot (fun i => u i - v i) w = dot u w - dot v w := by
  unfold dot; rw [← Finset.sum_sub_distrib]; exact Finset.sum_congr rfl fun i _ => by ring

theorem dot_sub_right (u v w : ι → ℝ) : dot w (fun i => u i - v i) = dot w u - dot w v := by
  rw [dot_comm, dot_sub_left, dot_comm u, dot_comm v]

theorem norm2_smul (c : ℝ) (u : ι → ℝ) : norm2 (fun i => c * u i) = |c| * norm2 u := by
  unfold norm2
  rw [dot_smul_left, dot_smul_right, ← mul_assoc, Real.sqrt_mul (mul_self_nonneg c),
    Real.sqrt_mul_self_eq_abs]

theorem cosine_eq (u v : ι → ℝ) : cosine u v = dot u v / (norm2 u * norm2 v) := by
  unfold cosine norm2 dot
  simp only [sq]

theorem dot_sq_le (u v : ι → ℝ) : dot u v ^ 2 ≤ dot u u * dot v v := by
  unfold dot
  have := Finset.sum_mul_sq_le_sq_mul_sq Finset.univ u v
  simpa only [sq] using this

theorem abs_dot_le (u v : ι → ℝ) : |dot u v| ≤ norm2 u * norm2 v := by
  refine abs_le_of_sq_le_sq ?_ (mul_nonneg (norm2_nonneg u) (norm2_nonneg v))
  rw [mul_pow, norm2_sq, norm2_sq]
  exact dot_sq_le u v

theorem norm2_add_le (u v : ι → ℝ) : norm2 (fun i => u i + v i) ≤ norm2 u + norm2 v := by
  refine abs_le_of_sq_le_sq' ?_ (add_nonneg (norm2_nonneg u) (norm2_nonneg v)) |>.2
  rw [norm2_sq]
  have h : dot (fun i => u i + v i) (fun i => u i + v i) = dot u u + 2 * dot u v + dot v v := by
    rw [dot_add_left, dot_comm u, dot_comm v, dot_add_left, dot_add_left, dot_comm v u]; ring
  rw [h, ← norm2_sq, ← norm2_sq]
  have := (abs_le.1 (abs_dot_le u v)).2
  nlinarith

theorem abs_cosine_le_one (u v : ι → ℝ) : |cosine u v| ≤ 1 := by
  rw [cosine_eq, abs_div, abs_of_nonneg (mul_nonneg (norm2_nonneg u) (norm2_nonneg v))]
  exact div_le_one_of_le₀ (abs_dot_le u v) (mul_nonneg (norm2_nonneg u) (norm2_nonneg v))

theorem cosine_comm (u v : ι → ℝ) : cosine u v = cosine v u := by
  rw [cosine_eq, cosine_eq, dot_comm, mul_comm (norm2 u)]

theorem cosine_smul_left {c : ℝ} (hc : c ≠ 0) (u v : ι → ℝ) :
    |cosine (fun i => c * u i) v| = |cosine u v| := by
  rw [cosine_eq, cosine_eq, dot_smul_left, norm2_smul]
  rw [abs_div, abs_div, abs_mul, abs_mul, abs_mul, abs_mul, abs_abs, mul_assoc,
    mul_div_mul_left _ _ (abs_ne_zero.2 hc)]

theorem Spec.Collinear.symm {u v : ι → ℝ} (h : Collinear u v) : Collinear v u :=
  ⟨h.2.1, h.1, by rw [cosine_comm]; exact h.2.2⟩

theorem Spec.Orthogonal.symm {u v : ι → ℝ} (h : Orthogonal u v) : Orthogonal v u :=
  ⟨h.2.1, h.1, by rw [cosine_comm]; exact h.2.2⟩

theorem dotNan_normalize {u v : ι → ℝ} (hu : u ≠ 0) (hv : v ≠ 0) :
    dotNan (normalize u) (normalize v) = some (cosine u v) := by
  have h1 := (norm2_pos hu).ne'
  have h2 := (norm2_pos hv).ne'
  unfold normalize
  rw [if_neg h1, if_neg h2]
  simp only [dotNan, Option.bind_eq_bind, Option.bind_some]
  rw [cosine_eq]
  congr 1
  unfold dot
  rw [Finset.sum_div]
  exact Finset.sum_congr rfl fun i _ => by field_simp

theorem dotNan_none_left {u v : ι → ℝ} (hu : u = 0) :
    dotNan (normalize u) (normalize v) = none := by
  unfold normalize
  rw [if_pos (norm2_eq_zero.2 hu)]
  rfl

theorem dotNan_none_right {u v : ι → ℝ} (hv : v = 0) :
    dotNan (normalize u) (normalize v) = none := by
  have : normalize v = none := by unfold normalize; rw [if_pos (norm2_eq_zero.2 hv)]
  rw [this]
  cases normalize u <;> rfl

theorem areCollinear_iff (u v : ι → ℝ) : areCollinear u v = true ↔ Collinear u v := by
  unfold areCollinear Collinear
  dsimp only
  by_cases hu : u = 0
  · rw [dotNan_none_left hu]; simp [isclose, hu]
  by_cases hv : v = 0
  · rw [dotNan_none_right hv]; simp [isclose, hv]
  rw [dotNan_normalize hu hv]
  have h1 := abs_le.1 (abs_cosine_le_one u v)
  simp only [isclose, Bool.or_eq_true, decide_eq_true_eq, ne_eq, hu, hv, not_false_eq_true,
    true_and, angTol]
  rw [abs_one, abs_neg, abs_one]
  constructor
  · rintro (h | h)
    · have := (abs_le.1 h).1
      exact le_trans (by norm_num at *; linarith) (le_abs_self _)
    · have := (abs_le.1 h).2
      exact le_trans (by norm_num at *; linarith) (neg_le_abs _)
  · intro h
    rcases le_abs.1 h with h | h
    · left; rw [abs_le]; constructor <;> [skip; skip] <;> norm_num at * <;> linarith
    · right; rw [abs_le]; constructor <;> [skip; skip] <;> norm_num at * <;> linarith

theorem orthTest_iff (u v : ι → ℝ) :
    isclose ((dotNan (normalize u) (normalize v)).map (· + 1)) 1 = true ↔ Orthogonal u v := by
  unfold Orthogonal
  by_cases hu : u = 0
  · rw [dotNan_none_left hu]; simp [isclose, hu]
  by_cases hv : v = 0
  · rw [dotNan_none_right hv]; simp [isclose, hv]
  rw [dotNan_normalize hu hv]
  simp only [isclose, Option.map_some, decide_eq_true_eq, ne_eq, hu, hv, not_false_eq_true,
    true_and, angTol, add_sub_cancel_right, abs_one]
  norm_num

theorem firstIndexFrom_spec {α : Type} (bad : α → Bool) (l : List α) (k : ℕ) :
    (firstIndexFrom bad k l = -1 ∧ ∀ x ∈ l, bad x = false) ∨
    ∃ (j : ℕ) (h : j < l.length), firstIndexFrom bad k l = ((k + j : ℕ) : ℤ) ∧ bad l[j] = true ∧
      ∀ (i : ℕ) (hi : i < j), bad (l[i]'(hi.trans h)) = false := by
  induction l generalizing k with
  | nil => left; simp [firstIndexFrom]
  | cons x xs ih =>
    unfold firstIndexFrom
    by_cases hx : bad x = true
    · right
      exact ⟨0, by simp, by simp [hx], by simpa using hx, fun i hi => absurd hi (by simp)⟩
    · simp only [hx, Bool.false_eq_true, if_false]
      rcases ih (k + 1) with ⟨h1, h2⟩ | ⟨j, hj, h1, h2, h3⟩
      · left
        refine ⟨h1, fun y hy => ?_⟩
        rcases List.mem_cons.1 hy with rfl | hy
        · simpa using hx
        · exact h2 y hy
      · right
        refine ⟨j + 1, by simpa using hj, by rw [h1]; push_cast; ring, by simpa using h2, ?_⟩
        intro i hi
        cases i with
        | zero => simpa using hx
        | succ i => simpa using h3 i (by omega)

theorem firstIndex_isFirst {α : Type} (bad : α → Bool) (P : α → Prop)
    (hP : ∀ x, bad x = true ↔ P x) (l : List α) : IsFirstIndex P l (firstIndexFrom bad 0 l) := by
  rcases firstIndexFrom_spec bad l 0 with ⟨h1, h2⟩ | ⟨j, hj, h1, h2, h3⟩
  · left; exact ⟨h1, fun x hx h => by have := (hP x).2 h; simp [h2 x hx] at this⟩
  · right
    refine ⟨j, hj, by simpa using h1, (hP _).1 h2, fun i hi h => ?_⟩
    have := (hP _).2 h
    simp [h3 i hi] at this

theorem Spec.IsFirstIndex.neg_one_iff {α : Type} {P : α → Prop} {l : List α} {r : ℤ}
    (h : IsFirstIndex P l r) : r = -1 ↔ ∀ x ∈ l, ¬ P x := by
  rcases h with ⟨h1, h2⟩ | ⟨k, hk, h1, h2, h3⟩
  · exact ⟨fun _ => h2, fun _ => h1⟩
  · constructor
    · intro h; omega
    · intro h; exact absurd h2 (h _ (List.getElem_mem hk))

/-- Unit vectors: `v` cannot be nearly parallel to two nearly orthogonal vectors. -/
theorem not_collinear_two {u v w : ι → ℝ} (h1 : Collinear u v) (h2 : Collinear u w)
    (h : Orthogonal v w) : False := by
  obtain ⟨hu, hv, h1⟩ := h1
  obtain ⟨_, hw, h2⟩ := h2
  obtain ⟨_, _, h⟩ := h
  have pu := norm2_pos hu
  have pv := norm2_pos hv
  have pw := norm2_pos hw
  -- unit vectors
  set u' : ι → ℝ := fun i => (norm2 u)⁻¹ * u i with hu'
  set v' : ι → ℝ := fun i => (norm2 v)⁻¹ * v i with hv'
  set w' : ι → ℝ := fun i => (norm2 w)⁻¹ * w i with hw'
  have nn : ∀ {x : ι → ℝ}, 0 < norm2 x →
      dot (fun i => (norm2 x)⁻¹ * x i) (fun i => (norm2 x)⁻¹ * x i) = 1 := fun {x} hx => by
    rw [dot_smul_left, dot_smul_right, ← norm2_sq]; field_simp
  have cc : ∀ {x y : ι → ℝ}, dot (fun i => (norm2 x)⁻¹ * x i) (fun i => (norm2 y)⁻¹ * y i)
      = cosine x y := fun {x y} => by
    rw [dot_smul_left, dot_smul_right, cosine_eq, div_eq_mul_inv, mul_inv]; ring
  set a := cosine u v
  set b := cosine u w
  set c := cosine v w
  have key : 0 ≤ 1 - a ^ 2 - b ^ 2 + 2 * a * b * c := by
    have := dot_self_nonneg (fun i => (u' i - a * v' i) - b * w' i)
    have e : dot (fun i => (u' i - a * v' i) - b * w' i) (fun i => (u' i - a * v' i) - b * w' i)
        = 1 - a ^ 2 - b ^ 2 + 2 * a * b * c := by
      simp only [dot_sub_left (fun i => u' i - a * v' i) (fun i => b * w' i),
        dot_sub_left u' (fun i => a * v' i), dot_sub_right (fun i => u' i - a * v' i),
        dot_sub_right u', dot_smul_left, dot_smul_right]
      rw [show dot u' u' = 1 from nn pu, show dot v' v' = 1 from nn pv,
        show dot w' w' = 1 from nn pw, show dot u' v' = a from cc, show dot u' w' = b from cc,
        show dot v' w' = c from cc, dot_comm v' u', dot_comm w' u', dot_comm w' v',
        show dot u' v' = a from cc, show dot u' w' = b from cc,
        show dot v' w' = c from cc]
      ring
    rw [e] at this; exact this
  have ha : |a| ≤ 1 := abs_cosine_le_one u v
  have hb : |b| ≤ 1 := abs_cosine_le_one u w
  have habc : a * b * c ≤ angTol := by
    calc a * b * c ≤ |a * b * c| := le_abs_self _
      _ = |a| * |b| * |c| := by rw [abs_mul, abs_mul]
      _ ≤ 1 * 1 * angTol := by
          refine mul_le_mul (mul_le_mul ha hb (abs_nonneg _) zero_le_one) h (abs_nonneg _) (by norm_num)
      _ = angTol := by ring
  have ha2 : (1 - angTol) ^ 2 ≤ a ^ 2 := by
    rw [← sq_abs a]; exact pow_le_pow_left₀ (by norm_num [angTol]) h1 2
  have hb2 : (1 - angTol) ^ 2 ≤ b ^ 2 := by
    rw [← sq_abs b]; exact pow_le_pow_left₀ (by norm_num [angTol]) h2 2
  have : 2 * (1 - angTol) ^ 2 ≤ 1 + 2 * angTol := by linarith
  norm_num [angTol] at this

end Verif
