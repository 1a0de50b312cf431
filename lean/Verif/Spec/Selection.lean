import Verif.Spec.Equivariance

/-!
# Specification vocabulary: parity and mixing of vibrations (independent of the model)
-/

namespace Verif.Spec

variable {N n : ℕ}

/-- Under an inversion that sends atom `a` to atom `σ a`, the displacement of the image atom of a
vibration of even parity is the reversed displacement. -/
def Gerade (σ : Equiv.Perm (Fin N)) (D : Fin N → Fin 3 → ℝ) : Prop := ∀ a i, D (σ a) i = -D a i

/-- Odd parity: atoms related by the inversion move alike. -/
def Ungerade (σ : Equiv.Perm (Fin N)) (D : Fin N → Fin 3 → ℝ) : Prop := ∀ a i, D (σ a) i = D a i

/-- The vibration has the character `χ` under the operation. -/
def HasCharacter (σ : Equiv.Perm (Fin N)) (R : Matrix (Fin 3) (Fin 3) ℝ) (χ : ℝ)
    (D : Fin N → Fin 3 → ℝ) : Prop := carried σ R D = fun a i => χ * D a i

/-- All atoms move by the same vector. -/
def Rigid (D : Fin N → Fin 3 → ℝ) : Prop := ∀ a b i, D a i = D b i

/-- An orthogonal matrix that only mixes vibrations with the same wavenumber. -/
structure Mixing (ω : Fin n → ℝ) (O : Matrix (Fin n) (Fin n) ℝ) : Prop where
  orthogonal : O.transpose * O = 1
  degenerate : ∀ k l, O k l ≠ 0 → ω k = ω l

/-- The vibrations mixed by the matrix. -/
def mixed (O : Matrix (Fin n) (Fin n) ℝ) (D : Fin n → Fin N → Fin 3 → ℝ) :
    Fin n → Fin N → Fin 3 → ℝ := fun k a i => ∑ l, O k l * D l a i

end Verif.Spec
