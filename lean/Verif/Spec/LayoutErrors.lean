import Verif.Spec.Layout

/-!
# POSCAR files whose lattice or coordinates cannot be used (C65)
-/

namespace Verif.Spec

/-- Product of a number and a scale factor; not finite if one of them is not. -/
def Scaled (x s y : Option ℚ) : Prop :=
  (∀ p q : ℚ, x = some p → s = some q → y = some (p * q)) ∧ ((x = none ∨ s = none) → y = none)

/-- The first seven lines, as in `Header`, with numbers that need not be finite. -/
def HeaderOf (symbol : List Char → ℕ → Prop) (ls : List (List Char))
    (lattice : Fin 3 → Fin 3 → Option ℚ) (numbers : List ℕ) : Prop :=
  (∃ (scale : Option ℚ) (rows : Fin 3 → Fin 3 → Option ℚ), NumberLine (ls.getD 1 []) scale ∧
    (∀ i : Fin 3, VectorLine (ls.getD (2 + i) []) (rows i)) ∧
    ∀ i j, Scaled (rows i j) scale (lattice i j)) ∧
  ∃ symbols cwords zs counts, Words (ls.getD 5 []) symbols ∧ symbols ≠ [] ∧
    Words (ls.getD 6 []) cwords ∧ List.Forall₂ symbol symbols zs ∧
    List.Forall₂ IntLiteral cwords counts ∧ counts.length = zs.length ∧
    numbers = (zs.zip counts).flatMap fun x => List.replicate x.2.toNat x.1

/-- The lines after line `m` begin with the rows of `raw`. -/
def CoordinateRows (ls : List (List Char)) (m : ℕ) (raw : List (Fin 3 → Option ℚ)) : Prop :=
  ∀ (i : ℕ) (hi : i < raw.length), VectorLine (ls.getD (m + 1 + i) []) raw[i]

/-- All entries are finite and form a matrix without inverse. -/
def SingularLattice (lattice : Fin 3 → Fin 3 → Option ℚ) : Prop :=
  ∃ a : Matrix (Fin 3) (Fin 3) ℚ, (lattice = fun i j => some (a i j)) ∧ a.det = 0

/-- All entries are finite and form an invertible matrix. -/
def RegularLattice (lattice : Fin 3 → Fin 3 → Option ℚ) : Prop :=
  ∃ a : Matrix (Fin 3) (Fin 3) ℚ, (lattice = fun i j => some (a i j)) ∧ a.det ≠ 0

/-- Some entry is not finite. -/
def NotFiniteLattice (lattice : Fin 3 → Fin 3 → Option ℚ) : Prop :=
  ∃ i j, lattice i j = none

end Verif.Spec
