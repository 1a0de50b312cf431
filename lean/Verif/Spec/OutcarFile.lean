import Verif.Spec.Outcar

/-!
# Vocabulary for claims about whole OUTCAR files

A file is a list of lines.  Its parts are found one after the other: each part begins after the first
line that contains a certain title.
-/

namespace Verif.Spec

/-- `header` is the first line of `f` that contains the title, and `g` are the lines after it. -/
def Titled (title : String) (f : List (List Char)) (header : List Char) (g : List (List Char)) :
    Prop :=
  ∃ pre, f = pre ++ header :: g ∧ (∀ l ∈ pre, ¬ title.toList <:+: l) ∧ title.toList <:+: header

/-- `f` begins with lines holding the rows `vs`; `g` are the other lines. -/
def Rows (f : List (List Char)) (vs : List (Fin 3 → Num)) (g : List (List Char)) : Prop :=
  ∃ block, f = block ++ g ∧ List.Forall₂ RowOf block vs

/-- The elements: lines with `POTCAR`, each naming an element with known atomic number, end with a line
without; the last of them is left out if the next line but one contains `VRHFIN`; the numbers of atoms
are the words from the fifth on of a later line.  `numbers` lists the atomic numbers of all atoms. -/
def ElementsIn (number : Word → ℕ → Prop) (f : List (List Char)) (numbers : List ℕ)
    (g : List (List Char)) : Prop :=
  ∃ first more stop next rest ions names zs counts,
    Titled "POTCAR:    " f first (more ++ stop :: next :: rest) ∧
    (∀ l ∈ more, "POTCAR".toList <:+: l) ∧ ¬ "POTCAR".toList <:+: stop ∧
    List.Forall₂ NamesSymbol (first :: more) names ∧ List.Forall₂ number names zs ∧
    Titled "ions per type" rest ions g ∧
    List.Forall₂ (fun w c => parseInt w = some c) ((splitWs ions).drop 4) counts ∧
    numbers = ((if "VRHFIN".toList <:+: next then zs.dropLast else zs).zip counts).flatMap
      fun x => List.replicate x.2.toNat x.1

/-- The lattice vectors: three rows after the first such title below `Write flags`. -/
def LatticeIn (f : List (List Char)) (vs : List (Fin 3 → Num)) (g : List (List Char)) : Prop :=
  ∃ flags h f1 f2, Titled "Write flags" f flags f1 ∧ Titled "direct lattice vectors      " f1 h f2 ∧
    vs.length = 3 ∧ Rows f2 vs g

/-- The fractional positions of `n` atoms. -/
def PositionsIn (n : ℕ) (f : List (List Char)) (vs : List (Fin 3 → Num)) (g : List (List Char)) :
    Prop :=
  ∃ h f1, Titled "position of ions in fractional coordinates (direct lattice)" f h f1 ∧
    vs.length = n ∧ Rows f1 vs g

/-- The dielectric tensor: three rows after the line below the title. -/
def TensorIn (f : List (List Char)) (vs : List (Fin 3 → Num)) : Prop :=
  ∃ h sep f1 g, Titled "MACROSCOPIC STATIC DIELECTRIC TENSOR (including local field effects" f h
    (sep :: f1) ∧ vs.length = 3 ∧ Rows f1 vs g

/-- An array of shape `(n,3)` as a list of rows. -/
def rowsList (vs : List (Fin 3 → Num)) : List (List Num) := vs.map fun v => [v 0, v 1, v 2]

end Verif.Spec
