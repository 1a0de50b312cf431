import Verif.Spec.Crystal
import Mathlib.Data.Matrix.Basic

/-!
# Specification vocabulary for polarizability models (independent of the model)
-/

namespace Verif.Spec

noncomputable section

variable {N : ℕ}

/-- `w` is the minimum-image fractional displacement from `p` to `q`. -/
def NearestImage (p q w : Fin N → Fin 3 → ℝ) : Prop :=
  ∀ a i, InHalfBox (w a i) ∧ SameImage (q a i - p a i) (w a i)

/-- Cartesian version of fractional rows. -/
def toCart (L : Matrix (Fin 3) (Fin 3) ℝ) (w : Fin N → Fin 3 → ℝ) : Fin N → Fin 3 → ℝ :=
  fun a j => ∑ i, w a i * L i j

/-- Inner product of `(N,3)` arrays. -/
def inner3 (b d : Fin N → Fin 3 → ℝ) : ℝ := ∑ a, ∑ j, b a j * d a j

/-- Reference polarizability plus independent contributions of the unmasked degrees of
freedom at the Cartesian displacement `D`. -/
def expansion (refPol : Matrix (Fin 3) (Fin 3) ℝ) (basis : List (Fin N → Fin 3 → ℝ))
    (interps : List (ℝ → Matrix (Fin 3) (Fin 3) ℝ)) (mask : List Bool)
    (D : Fin N → Fin 3 → ℝ) : Matrix (Fin 3) (Fin 3) ℝ :=
  refPol + ((basis.zip (interps.zip mask)).map fun x =>
    if x.2.2 then 0 else x.2.1 (inner3 x.1 D)).sum

/-- `np.allclose(a, b)` on numbers: within `1e-8 + 1e-5 |b|`. -/
def TooClose (a b : ℝ) : Prop := |a - b| ≤ 1 / 10 ^ 8 + 1 / 10 ^ 5 * |b|

/-- What an interpolating spline of order `k` needs: the order is at least one, there are
more points than the order, and abscissae increase, by more than the closeness tolerance. -/
def SplineReady (k : ℕ) (pts : List (ℝ × Matrix (Fin 3) (Fin 3) ℝ)) : Prop :=
  1 ≤ k ∧ k < pts.length ∧ pts.Pairwise fun a b => a.1 < b.1 ∧
    1 / 10 ^ 8 + 1 / 10 ^ 5 * min |a.1| |b.1| < b.1 - a.1

/-- A spline routine that passes through the points it is given. -/
def Interpolates {Err : Type} (spline : ℕ → List (ℝ × Matrix (Fin 3) (Fin 3) ℝ) →
    Except Err (ℝ → Matrix (Fin 3) (Fin 3) ℝ)) : Prop :=
  ∀ k pts f, SplineReady k pts → spline k pts = .ok f → ∀ p ∈ pts, f p.1 = p.2

end

end Verif.Spec
