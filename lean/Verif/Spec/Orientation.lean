import Verif.Model.Base
import Mathlib.MeasureTheory.Integral.Bochner.Basic
import Mathlib.LinearAlgebra.Matrix.Determinant.Basic
import Mathlib.Topology.Instances.Matrix

/-!
# Vocabulary for claims about averages over the orientations of crystallites
-/

namespace Verif.Spec

open MeasureTheory

/-- A random orthogonal matrix `Q` whose distribution does not change when it is multiplied by a
fixed rotation: all orientations are equally likely. -/
structure RandomOrientation {Ω : Type} [MeasurableSpace Ω] (μ : Measure Ω)
    (Q : Ω → Matrix (Fin 3) (Fin 3) ℝ) : Prop where
  measurable : ∀ i j, Measurable fun ω => Q ω i j
  orthogonal : ∀ ω, (Q ω).transpose * Q ω = 1
  invariant : ∀ g : Matrix (Fin 3) (Fin 3) ℝ, g.transpose * g = 1 → g.det = 1 →
    ∀ φ : Matrix (Fin 3) (Fin 3) ℝ → ℝ, Continuous φ → ∫ ω, φ (Q ω * g) ∂μ = ∫ ω, φ (Q ω) ∂μ

/-- Component of the tensor `R` seen by light with polarization `e` in, `e'` out, when the crystal
has the orientation `Q`. -/
def component (R Q : Matrix (Fin 3) (Fin 3) ℝ) (e e' : Fin 3 → ℝ) : ℝ :=
  ∑ i, ∑ j, e' i * (Q.transpose * R * Q) i j * e j

/-- Two perpendicular polarizations. -/
structure Perpendicular (e e' : Fin 3 → ℝ) : Prop where
  first : ∑ i, e i * e i = 1
  second : ∑ i, e' i * e' i = 1
  dot : ∑ i, e i * e' i = 0

end Verif.Spec
