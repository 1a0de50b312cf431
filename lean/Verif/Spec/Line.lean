import Mathlib.LinearAlgebra.Matrix.Notation
import Mathlib.Data.Real.Basic

/-!
# Specification vocabulary: straight lines (independent of the model)
-/

namespace Verif.Spec

noncomputable section

/-- The straight line through the points `(x₀, A)` and `(x₁, B)`. -/
def chord (x₀ x₁ : ℝ) (A B : Matrix (Fin 3) (Fin 3) ℝ) (x : ℝ) : Matrix (Fin 3) (Fin 3) ℝ :=
  A + ((x - x₀) / (x₁ - x₀)) • (B - A)

/-- A spline routine whose splines of order one through two points are straight lines, also
outside the interval between the points (as `make_interp_spline(x, y, k=1)` extrapolates). -/
def StraightLines {Err : Type} (spline : ℕ → List (ℝ × Matrix (Fin 3) (Fin 3) ℝ) →
    Except Err (ℝ → Matrix (Fin 3) (Fin 3) ℝ)) : Prop :=
  ∀ x₀ x₁ A B, x₀ < x₁ → spline 1 [(x₀, A), (x₁, B)] = .ok (chord x₀ x₁ A B)

/-- The term-by-term response of the unmasked degrees of freedom: amplitude times slope. -/
def response (amps : List ℝ) (slopes : List (Matrix (Fin 3) (Fin 3) ℝ)) (mask : List Bool) :
    Matrix (Fin 3) (Fin 3) ℝ :=
  ((amps.zip (slopes.zip mask)).map fun x => if x.2.2 then 0 else x.1 • x.2.1).sum

end

end Verif.Spec
