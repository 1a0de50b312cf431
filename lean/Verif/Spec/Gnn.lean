import Verif.Spec.Basic
import Verif.Spec.Graph
import Mathlib.Data.Real.Basic

/-!
# Specification vocabulary for the graph network (independent of the model)
-/

namespace Verif.Spec

/-- Component `(i, j)` of the tensor with the value `p` along `u` and `q` across. -/
def axial (p q : ℝ) (u : Fin 3 → ℝ) (i j : Fin 3) : ℝ :=
  (if i = j then q else 0) + (p - q) * u i * u j

/-- The positions `q` are those of `p` translated by a common vector, each atom moved to some
periodic image. -/
def Translated {n : ℕ} (p q : Fin n → Fin 3 → ℝ) : Prop :=
  ∃ t : Fin 3 → ℝ, ∀ a i, SameImage (p a i + t i) (q a i)

/-- Two atoms are at the same place (up to a lattice vector of a possibly singular lattice). -/
def Overlap (lattice : Matrix (Fin 3) (Fin 3) ℝ) (x y : Fin 3 → ℝ) : Prop :=
  ImageVector lattice x y 0

/-- A tensor all of whose components are finite. -/
def finiteTensor (p : Matrix (Fin 3) (Fin 3) ℝ) : Matrix (Fin 3) (Fin 3) (Option ℝ) :=
  fun i j => some (p i j)

end Verif.Spec
