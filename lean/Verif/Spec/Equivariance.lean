import Verif.Spec.Crystal
import Verif.Spec.Polar
import Mathlib.LinearAlgebra.Matrix.NonsingularInverse

/-!
# Specification vocabulary: how symmetry operations act (independent of the model)

Row convention throughout: an operation maps the row `x` to `x R + t`.
-/

namespace Verif.Spec

noncomputable section

variable {N : ℕ}

/-- The displacement `D` carried along by an operation that sends atom `a` to atom `σ a` and
rotates rows by `Q`. -/
def carried (σ : Equiv.Perm (Fin N)) (Q : Matrix (Fin 3) (Fin 3) ℝ) (D : Fin N → Fin 3 → ℝ) :
    Fin N → Fin 3 → ℝ :=
  fun a j => ∑ i, D (σ.symm a) i * Q i j

/-- The configuration `q'` is `q` transformed by the operation (up to lattice vectors). -/
def TransformedTo (R : Matrix (Fin 3) (Fin 3) ℝ) (t : Fin 3 → ℝ) (σ : Equiv.Perm (Fin N))
    (q q' : Fin N → Fin 3 → ℝ) : Prop :=
  ∀ a j, SameImage (∑ i, q a i * R i j + t j) (q' (σ a) j)

/-- A tensor turned by the (Cartesian) rotation `Q`. -/
def turned (Q A : Matrix (Fin 3) (Fin 3) ℝ) : Matrix (Fin 3) (Fin 3) ℝ := Q.transpose * A * Q

/-- The third operation is the first one followed by the second one (up to lattice vectors). -/
def Composite (R₁ : Matrix (Fin 3) (Fin 3) ℝ) (t₁ : Fin 3 → ℝ) (R₂ : Matrix (Fin 3) (Fin 3) ℝ)
    (t₂ : Fin 3 → ℝ) (R : Matrix (Fin 3) (Fin 3) ℝ) (t : Fin 3 → ℝ) : Prop :=
  R = R₁ * R₂ ∧ ∀ j, SameImage (∑ i, t₁ i * R₂ i j + t₂ j) (t j)

/-- A spline routine that turns with its ordinates and reflects with its abscissae. -/
def SplineEquivariant {Err : Type} (spline : ℕ → List (ℝ × Matrix (Fin 3) (Fin 3) ℝ) →
    Except Err (ℝ → Matrix (Fin 3) (Fin 3) ℝ)) : Prop :=
  ∀ k pts f, SplineReady k pts → spline k pts = .ok f →
    (∀ Q : Matrix (Fin 3) (Fin 3) ℝ, Q.transpose * Q = 1 →
      spline k (pts.map fun x => (x.1, turned Q x.2)) = .ok fun x => turned Q (f x)) ∧
    spline k (pts.reverse.map fun x => (-x.1, x.2)) = .ok fun x => f (-x)

/-- A degree of freedom (direction, response, mask) is carried to another one: the direction goes to
`ε` times the other direction (`ε` is a sign in practice), the response turns along, the mask is the
same. -/
def Corresponds (σ : Equiv.Perm (Fin N)) (Q : Matrix (Fin 3) (Fin 3) ℝ)
    (x y : (Fin N → Fin 3 → ℝ) × ((ℝ → Matrix (Fin 3) (Fin 3) ℝ) × Bool)) : Prop :=
  ∃ ε : ℝ, (∀ a j, y.1 a j = ε * carried σ Q x.1 a j) ∧
    (∀ t, y.2.1 (ε * t) = turned Q (x.2.1 t)) ∧ y.2.2 = x.2.2

/-- The operation permutes the degrees of freedom among themselves. -/
def PermutedBy (σ : Equiv.Perm (Fin N)) (Q : Matrix (Fin 3) (Fin 3) ℝ)
    (l : List ((Fin N → Fin 3 → ℝ) × ((ℝ → Matrix (Fin 3) (Fin 3) ℝ) × Bool))) : Prop :=
  ∃ l', l'.Perm l ∧ List.Forall₂ (Corresponds σ Q) l l'

end

end Verif.Spec
