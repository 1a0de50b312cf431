import Verif.Model.Base
import Mathlib.Analysis.Real.Sqrt

/-!
# Specification vocabulary for vectors and first-index searches (independent of the model)
-/

namespace Verif.Spec

noncomputable section

/-- Cosine of the angle between two vectors (meaningful for nonzero vectors). -/
def cosine {ι : Type} [Fintype ι] (u v : ι → ℝ) : ℝ :=
  (∑ i, u i * v i) / (Real.sqrt (∑ i, u i ^ 2) * Real.sqrt (∑ i, v i ^ 2))

/-- Angular tolerance of the library: `1.001e-5`. -/
def angTol : ℝ := 1001 / 10 ^ 8

/-- Nonzero vectors whose angle is 0 or π within tolerance. -/
def Collinear {ι : Type} [Fintype ι] (u v : ι → ℝ) : Prop :=
  u ≠ 0 ∧ v ≠ 0 ∧ 1 - angTol ≤ |cosine u v|

/-- Nonzero vectors whose angle is π/2 within tolerance. -/
def Orthogonal {ι : Type} [Fintype ι] (u v : ι → ℝ) : Prop :=
  u ≠ 0 ∧ v ≠ 0 ∧ |cosine u v| ≤ angTol

/-- `r` is the index of the first element satisfying `P`, or `-1` if there is none. -/
def IsFirstIndex {α : Type} (P : α → Prop) (l : List α) (r : ℤ) : Prop :=
  (r = -1 ∧ ∀ x ∈ l, ¬ P x) ∨
  ∃ (k : ℕ) (h : k < l.length), r = k ∧ P l[k] ∧
    ∀ (j : ℕ) (hj : j < k), ¬ P (l[j]'(hj.trans h))

end

end Verif.Spec
