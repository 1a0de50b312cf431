import Verif.Spec.Basic
import Verif.Spec.Vector
import Mathlib.Logic.Equiv.Basic

/-!
# Specification vocabulary for crystals (independent of the model)
-/

namespace Verif.Spec

variable {N : ℕ}

/-- Some periodic images of the points `x`, `y` are closer than `ε` (fractional distance). -/
def Within (ε : ℝ) (x y : Fin 3 → ℝ) : Prop :=
  ∃ n : Fin 3 → ℤ, Real.sqrt (∑ c, (x c - y c + n c) ^ 2) < ε

/-- All periodic images of the points `x`, `y` are at least `ε` apart. -/
def Apart (ε : ℝ) (x y : Fin 3 → ℝ) : Prop :=
  ∀ n : Fin 3 → ℤ, ε ≤ Real.sqrt (∑ c, (x c - y c + n c) ^ 2)

/-- `x ↦ x R + t` (row convention) maps the crystal with atoms `p` onto itself, atom `a`
going to atom `σ a`. -/
def IsSymmetry (p : Fin N → Fin 3 → ℝ) (R : Matrix (Fin 3) (Fin 3) ℝ) (t : Fin 3 → ℝ)
    (σ : Equiv.Perm (Fin N)) : Prop :=
  IntegerMatrix R ∧ ∀ a j, SameImage (∑ i, p a i * R i j + t j) (p (σ a) j)

/-- Two displacements agree within the library's duplicate tolerance. -/
def Coincide (c m : Fin N → Fin 3 → ℝ) : Prop :=
  ∀ a i, |c a i - m a i| ≤ 1 / 10 ^ 5 + 1 / 10 ^ 5 * |m a i|

/-- `e` points along `w` and has norm 1/10. -/
def Rescaled (w e : Fin N → Fin 3 → ℝ) : Prop :=
  (∃ c > 0, ∀ a i, e a i = c * w a i) ∧ ∑ a, ∑ i, e a i ^ 2 = 1 / 100

/-- Row-wise flattening of an `(N,3)` array. -/
def flatten (d : Fin N → Fin 3 → ℝ) : Fin N × Fin 3 → ℝ := fun x => d x.1 x.2

end Verif.Spec
