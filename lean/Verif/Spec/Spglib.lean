import Verif.Spec.Crystal

/-!
# Specification vocabulary: symmetry operations as spglib defines them (independent of the model)

spglib's documentation: an operation `(rotation, translation)` maps the column `x` of fractional
coordinates to `rotation * x + translation`.
-/

namespace Verif.Spec

variable {N : ℕ}

/-- `x ↦ R x + t` (column convention) maps the crystal with atoms `p` onto itself, atom `a` going to
atom `σ a`. -/
def ColumnSymmetry (p : Fin N → Fin 3 → ℝ) (R : Matrix (Fin 3) (Fin 3) ℝ) (t : Fin 3 → ℝ)
    (σ : Equiv.Perm (Fin N)) : Prop :=
  IntegerMatrix R ∧ ∀ a i, SameImage (∑ j, R i j * p a j + t i) (p (σ a) i)

/-- The translation by `v` maps the crystal onto itself, atom `a` going to atom `τ a`. -/
def TranslationSymmetry (p : Fin N → Fin 3 → ℝ) (v : Fin 3 → ℝ) (τ : Equiv.Perm (Fin N)) : Prop :=
  ∀ a i, SameImage (p a i + v i) (p (τ a) i)

/-- `x ↦ R x` preserves lengths in the lattice with rows `L` (the Cartesian point of the column `x`
is the row `xᵀ L`). -/
def PreservesLengths (L R : Matrix (Fin 3) (Fin 3) ℝ) : Prop :=
  R.transpose * (L * L.transpose) * R = L * L.transpose

end Verif.Spec
