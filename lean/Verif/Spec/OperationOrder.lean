import Verif.Spec.Equivariance

/-!
# Specification vocabulary: lists of degrees of freedom that mean the same
-/

namespace Verif.Spec

variable {N : ℕ}

/-- Two degrees of freedom (direction, response, mask) describe the same response: they are equal,
or the direction and the argument of the response have both changed sign. -/
def SameDof (x y : (Fin N → Fin 3 → ℝ) × ((ℝ → Matrix (Fin 3) (Fin 3) ℝ) × Bool)) : Prop :=
  ∃ ε : ℝ, (ε = 1 ∨ ε = -1) ∧ (∀ a j, y.1 a j = ε * x.1 a j) ∧ (∀ t, y.2.1 (ε * t) = x.2.1 t) ∧
    y.2.2 = x.2.2

/-- The same degrees of freedom up to order and signs. -/
def SameDofs (l l' : List ((Fin N → Fin 3 → ℝ) × ((ℝ → Matrix (Fin 3) (Fin 3) ℝ) × Bool))) : Prop :=
  ∃ l'', l''.Perm l' ∧ List.Forall₂ SameDof l l''

end Verif.Spec
