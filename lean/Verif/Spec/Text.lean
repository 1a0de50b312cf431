import Mathlib.Algebra.Field.Rat
import Mathlib.Algebra.Order.Ring.Rat
import Mathlib.Algebra.Order.Field.Basic
import Mathlib.Algebra.Group.Int.Even

/-!
# Specification vocabulary for text files

Independent of the model.
-/

namespace Verif.Spec

variable {K : Type} [Field K] [LinearOrder K] [IsStrictOrderedRing K]

/-- `q` is `x` rounded to a multiple of `1e-16`, ties to even. -/
def RoundedTo (x : K) (q : ℚ) : Prop :=
  ∃ m : ℤ, q = m / 10 ^ 16 ∧ 2 * |x * 10 ^ 16 - m| ≤ 1 ∧ (2 * |x * 10 ^ 16 - m| = 1 → Even m)

/-- The same for numbers that may be undefined. -/
def Rounded (x : Option K) (r : Option ℚ) : Prop :=
  match x, r with
  | none, none => True
  | some x, some q => RoundedTo x q
  | _, _ => False

/-- Entrywise, for vectors. -/
def RoundedVec (p : Fin 3 → Option K) (q : Fin 3 → Option ℚ) : Prop := ∀ i, Rounded (p i) (q i)

/-- Equal elements are next to each other: nothing else occurs between two equal elements. -/
def Grouped (l : List ℕ) : Prop := ∀ x y, List.Sublist [x, y, x] l → y = x

/-- Structures that can be written: valid atomic numbers, one position per atom, coordinates
(as far as they are defined) in the cell. -/
def ValidStructure (numbers : List ℕ) (positions : List (Fin 3 → Option K)) : Prop :=
  (∀ n ∈ numbers, 1 ≤ n ∧ n ≤ 118) ∧ positions.length = numbers.length ∧
    ∀ p ∈ positions, ∀ i x, p i = some x → 0 ≤ x ∧ x ≤ 1

/-- Configurations read (`r`) are the first ones written (`w`), except that the last coordinate
of the last one may be wrong. -/
def TruncatedTo (w : List (List (Fin 3 → Option K))) (r : List (List (Fin 3 → Option ℚ))) :
    Prop :=
  (∃ k, List.Forall₂ (List.Forall₂ RoundedVec) (w.take k) r) ∨
  ∃ w₁ c w₂ r₁ d, w = w₁ ++ c :: w₂ ∧ r = r₁ ++ [d] ∧
    List.Forall₂ (List.Forall₂ RoundedVec) w₁ r₁ ∧
    ∃ c₁ p d₁ q, c = c₁ ++ [p] ∧ d = d₁ ++ [q] ∧ List.Forall₂ RoundedVec c₁ d₁ ∧
      Rounded (p 0) (q 0) ∧ Rounded (p 1) (q 1)

/-- `r` is what is left of the number `x` when the end of its text is missing: undefined if `x` is,
otherwise between zero and `x` rounded. -/
def Shortened (x : Option K) (r : Option ℚ) : Prop :=
  match x, r with
  | none, none => True
  | some x, some y => ∃ z, RoundedTo x z ∧ 0 ≤ y ∧ y ≤ z
  | _, _ => False

/-- Rows read (`r`) are the rows written (`w`), except that the very last coordinate may be
shortened. -/
def LastShortened (w : List (Fin 3 → Option K)) (r : List (Fin 3 → Option ℚ)) : Prop :=
  ∃ w₁ p r₁ q, w = w₁ ++ [p] ∧ r = r₁ ++ [q] ∧ List.Forall₂ RoundedVec w₁ r₁ ∧
    Rounded (p 0) (q 0) ∧ Rounded (p 1) (q 1) ∧ Shortened (p 2) (q 2)

/-- Configurations read (`r`) are all configurations written (`w`), except that the very last
coordinate of the last one may be shortened. -/
def FramesShortened (w : List (List (Fin 3 → Option K))) (r : List (List (Fin 3 → Option ℚ))) :
    Prop :=
  (w = [] ∧ r = []) ∨ ∃ w₁ c r₁ d, w = w₁ ++ [c] ∧ r = r₁ ++ [d] ∧
    List.Forall₂ (List.Forall₂ RoundedVec) w₁ r₁ ∧ LastShortened c d

end Verif.Spec
