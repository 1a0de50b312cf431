import Verif.Spec.OutcarFile
import Verif.Model.Base
import Mathlib.Data.Real.Basic

/-!
# Vocabulary for claims about tensors that are not 3x3

A file may hold a dielectric tensor with too few numbers.
-/

namespace Verif.Spec

/-- Three rows of three numbers. -/
def ThreeByThree (t : List (List Num)) : Prop := t.length = 3 ∧ ∀ r ∈ t, r.length = 3

/-- `k` rows of `w` numbers. -/
def IsArray (k w : ℕ) (t : List (List Num)) : Prop := t.length = k ∧ ∀ r ∈ t, r.length = w

/-- The tensor is a single row, a single column or a single number, and `A` is the 3x3 matrix that repeats
it. -/
inductive Stretched : ℕ → ℕ → List (List Num) → Mat3 ℝ → Prop
  | row (v : Fin 3 → ℚ) (A : Mat3 ℝ) (h : ∀ i j, A i j = (v j : ℝ)) :
      Stretched 1 3 [[some (v 0), some (v 1), some (v 2)]] A
  | column (v : Fin 3 → ℚ) (A : Mat3 ℝ) (h : ∀ i j, A i j = (v i : ℝ)) :
      Stretched 3 1 [[some (v 0)], [some (v 1)], [some (v 2)]] A
  | single (x : ℚ) (A : Mat3 ℝ) (h : ∀ i j, A i j = (x : ℝ)) : Stretched 1 1 [[some x]] A

/-- All words of the line are numbers, and there are `w` of them. -/
def ShortRow (w : ℕ) (line : List Char) (r : List Num) : Prop :=
  (splitWs line).length = w ∧ List.Forall₂ (fun word x => parseFloat word = some x) (splitWs line) r

/-- A dielectric tensor in an OUTCAR file with fewer than three numbers per line. -/
def ShortTensorIn (w : ℕ) (f : List (List Char)) (t : List (List Num)) : Prop :=
  w < 3 ∧ ∃ h sep l₀ l₁ l₂ r₀ r₁ r₂ g,
    Titled "MACROSCOPIC STATIC DIELECTRIC TENSOR (including local field effects" f h
      (sep :: l₀ :: l₁ :: l₂ :: g) ∧
    ShortRow w l₀ r₀ ∧ ShortRow w l₁ r₁ ∧ ShortRow w l₂ r₂ ∧ t = [r₀, r₁, r₂]

end Verif.Spec
