import Mathlib.Data.Real.Basic

/-!
# Error bounds of predictions in floating-point arithmetic

`u` is the relative error of one operation.  Nothing here refers to the model.
-/

namespace Verif.Spec

noncomputable section

/-- Error of a Cartesian displacement: `6 u` for each fractional displacement, which is at most one
half, and four roundings of each of the terms of the matrix product.  `Λ` bounds the sums
of absolute values of lattice components. -/
def cartesianError (u Λ : ℝ) : ℝ := 6 * u * Λ + ((1 + u) ^ 4 - 1) * (Λ / 2)

/-- Error of an amplitude, a sum of `3 N` products with a basis vector whose absolute values add
up to at most `β`. -/
def amplitudeError (u : ℝ) (N : ℕ) (Λ β : ℝ) : ℝ :=
  β * (cartesianError u Λ + ((1 + u) ^ (3 * N + 1) - 1) * (Λ / 2 + cartesianError u Λ))

/-- Error of a polarizability obtained from `n` degrees of freedom.  Interpolations change by at
most `C` per unit of amplitude, have values up to `F` and are evaluated up to `η`; the reference
polarizability is at most `P`. -/
def predictionError (u : ℝ) (N n : ℕ) (Λ β C F P η : ℝ) : ℝ :=
  ((1 + u) ^ (n + 2) - 1) * (n * F + P) + (1 + u) ^ (n + 2) * (n * (η + C * amplitudeError u N Λ β))

/-- Error of the displaced positions of a phonon whose displacements are at most `M`; reference
positions are at most one. -/
def stepError (u M : ℝ) : ℝ := u + M / 1000 * ((1 + u) ^ 3 - 1)

/-- Relative error of a difference quotient with exact values. -/
def quotientError (u : ℝ) : ℝ := (1 + u) ^ 2 / (1 - u) - 1

/-- Error of a Raman tensor whose exact value is `R₀`: predictions enter with the factor `2000`. -/
def ramanError (u : ℝ) (N n : ℕ) (Λ β C F P η M R₀ : ℝ) : ℝ :=
  quotientError u * |R₀| + (1 + quotientError u) *
    (2000 * (predictionError u N n Λ β C F P η + n * (C * (β * (Λ * stepError u M)))))

end

end Verif.Spec
