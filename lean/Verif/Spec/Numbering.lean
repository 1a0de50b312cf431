import Verif.Spec.Crystal

/-!
# Specification vocabulary: largest components and images of displacements (independent of the model)
-/

namespace Verif.Spec

variable {N : ℕ}

/-- No component of `d` is larger than the one of atom `a` along axis `i`. -/
def Largest (d : Fin N → Fin 3 → ℝ) (a : Fin N) (i : Fin 3) : Prop := ∀ k l, |d k l| ≤ |d a i|

/-- Where several atoms share the largest component of `u`, the ratio to `v` is the same at all of
them. -/
def TiesAgree (u v : Fin N → Fin 3 → ℝ) : Prop :=
  ∀ a i b j, a ≠ b → Largest u a i → Largest u b j → u a i * v b j = u b j * v a i

/-- `c` is the displacement `e` carried along by the rotation `R` and the permutation `σ` of the atoms,
reduced to the cell around the origin. -/
def ImageUnder (R : Matrix (Fin 3) (Fin 3) ℝ) (σ : Equiv.Perm (Fin N)) (e c : Fin N → Fin 3 → ℝ) : Prop :=
  ∀ a j, InHalfBox (c (σ a) j) ∧ SameImage (∑ i, e a i * R i j) (c (σ a) j)

end Verif.Spec
