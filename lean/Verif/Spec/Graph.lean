import Verif.Spec.Basic
import Mathlib.LinearAlgebra.Matrix.Determinant.Basic
import Mathlib.Analysis.Real.Sqrt

/-!
# Specification vocabulary for rotations, graphs and batches (independent of the model)
-/

namespace Verif.Spec

/-- Proper rotation. -/
def IsRotation (R : Matrix (Fin 3) (Fin 3) ℝ) : Prop := R * R.transpose = 1 ∧ R.det = 1

/-- `v` is the vector `t` scaled to length one. -/
def IsDirection (t v : Fin 3 → ℝ) : Prop :=
  (∑ i, v i ^ 2 = 1) ∧ ∃ r : ℝ, 0 < r ∧ ∀ i, t i = r * v i

/-- Cartesian vector from `x` to the image of `y` reached by the wrapped lattice coordinates. -/
def ImageVector (lattice : Matrix (Fin 3) (Fin 3) ℝ) (x y d : Fin 3 → ℝ) : Prop :=
  ∃ f : Fin 3 → ℝ, (∀ i, SameImage (y i - x i) (f i) ∧ InHalfBox (f i)) ∧
    ∀ j, d j = ∑ i, f i * lattice i j

/-- `x` and `y` are within distance `r` by their image vector. -/
def InReach (lattice : Matrix (Fin 3) (Fin 3) ℝ) (r : ℝ) (x y : Fin 3 → ℝ) : Prop :=
  ∃ d, ImageVector lattice x y d ∧ Real.sqrt (∑ j, d j ^ 2) ≤ r

/-- `x` and `y` do not coincide and no lattice coordinate of their image vector is half a cell. -/
def ClearBond (lattice : Matrix (Fin 3) (Fin 3) ℝ) (x y : Fin 3 → ℝ) : Prop :=
  ∃ f : Fin 3 → ℝ, (∀ i, SameImage (y i - x i) (f i) ∧ |f i| < 1 / 2) ∧
    (fun j => ∑ i, f i * lattice i j) ≠ 0

/-- Rows of the lattice are orthogonal. -/
def OrthogonalRows (lattice : Matrix (Fin 3) (Fin 3) ℝ) : Prop :=
  ∀ i i', i ≠ i' → ∑ j, lattice i j * lattice i' j = 0

/-- `copies` of a list of indexes, the `s`-th shifted by `s * size`. -/
def shifted (copies size : ℕ) (l : List ℕ) : List ℕ :=
  (List.range copies).flatMap fun s => l.map (· + s * size)

end Verif.Spec
