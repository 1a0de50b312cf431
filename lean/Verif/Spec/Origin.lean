import Verif.Spec.Crystal

/-!
# Specification vocabulary: the same crystal with another origin (independent of the model)
-/

namespace Verif.Spec

variable {N : ℕ}

/-- The points `q` are (images of) the points `p` moved by `v`. -/
def MovedBy (v : Fin 3 → ℝ) (p q : Fin N → Fin 3 → ℝ) : Prop :=
  ∀ a i, SameImage (p a i + v i) (q a i)

/-- The operation `x ↦ x R + t` as seen from an origin that makes `x` into `x + v`: the rotation stays,
the translation becomes `t + v - v R`, up to lattice translations. -/
def MovedOperation (v : Fin 3 → ℝ) (R : Matrix (Fin 3) (Fin 3) ℝ) (t : Fin 3 → ℝ)
    (R' : Matrix (Fin 3) (Fin 3) ℝ) (t' : Fin 3 → ℝ) : Prop :=
  R' = R ∧ ∀ j, SameImage (t j + v j - ∑ i, v i * R i j) (t' j)

/-- The same for the column convention `x ↦ R x + t`: the translation becomes `t + v - R v`. -/
def MovedColumnOperation (v : Fin 3 → ℝ) (R : Matrix (Fin 3) (Fin 3) ℝ) (t : Fin 3 → ℝ)
    (R' : Matrix (Fin 3) (Fin 3) ℝ) (t' : Fin 3 → ℝ) : Prop :=
  R' = R ∧ ∀ i, SameImage (t i + v i - ∑ j, R i j * v j) (t' i)

end Verif.Spec
