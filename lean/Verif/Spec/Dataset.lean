import Mathlib.Data.Real.Basic
import Mathlib.Algebra.Order.Group.Unbundled.Abs
import Mathlib.Algebra.BigOperators.Group.List.Basic

/-!
# Specification vocabulary for datasets (independent of the model)
-/

namespace Verif.Spec

/-- Arithmetic mean. -/
noncomputable def mean (xs : List ℝ) : ℝ := xs.sum / xs.length

/-- Population variance. -/
noncomputable def variance (xs : List ℝ) : ℝ := mean (xs.map fun x => (x - mean xs) ^ 2)

/-- Position of a Cartesian component `(i,j)` in a vector `(xx,yy,zz,xy,xz,yz)`. -/
inductive VoigtIndex : Fin 3 → Fin 3 → Fin 6 → Prop
  | xx : VoigtIndex 0 0 0
  | yy : VoigtIndex 1 1 1
  | zz : VoigtIndex 2 2 2
  | xy : VoigtIndex 0 1 3
  | xz : VoigtIndex 0 2 4
  | yz : VoigtIndex 1 2 5
  | yx : VoigtIndex 1 0 3
  | zx : VoigtIndex 2 0 4
  | zy : VoigtIndex 2 1 5

/-- All entries of two lattices agree up to `1e-5` absolutely plus `1e-5` relative to the second. -/
def NearLattice (a b : Fin 3 → Fin 3 → ℝ) : Prop :=
  ∀ i j, |a i j - b i j| ≤ (1 + |b i j|) / 100000

end Verif.Spec
