import Verif.Spec.OutcarFile
import Mathlib.LinearAlgebra.Matrix.Determinant.Basic
import Mathlib.Analysis.Real.Sqrt

/-!
# Vocabulary for claims about trajectories and phonons in whole OUTCAR files
-/

namespace Verif.Spec

/-- The time step: third word of the first line with the title. -/
def TimestepIn (f : List (List Char)) (t : Num) (g : List (List Char)) : Prop :=
  ∃ line w, Titled "time-step for ionic-motion" f line g ∧ (splitWs line)[2]? = some w ∧
    parseFloat w = some t

/-- Title of the positions of an ionic step. -/
def stepTitle : String := "POSITION                                       TOTAL-FORCE "

/-- The Cartesian positions of `n` atoms in the ionic steps of `f` that are kept.  `prev` says whether
the step before was marked as machine-learned.  A step that is not marked and follows one that is, is
left out: the search goes on below its title.  Otherwise a line is skipped and `n` rows follow. -/
inductive StepsIn (n : ℕ) : Bool → List (List Char) → List (List (Fin 3 → Num)) → Prop
  | none {prev f} : (∀ l ∈ f, ¬ stepTitle.toList <:+: l) → StepsIn n prev f []
  | skip {f header g frames} : Titled stepTitle f header g → ¬ "(ML)".toList <:+: header →
      StepsIn n false g frames → StepsIn n true f frames
  | ml {prev f header sep g vs h frames} : Titled stepTitle f header (sep :: g) →
      "(ML)".toList <:+: header → vs.length = n → Rows g vs h → StepsIn n true h frames →
      StepsIn n prev f (vs :: frames)
  | plain {f header sep g vs h frames} : Titled stepTitle f header (sep :: g) →
      ¬ "(ML)".toList <:+: header → vs.length = n → Rows g vs h → StepsIn n false h frames →
      StepsIn n false f (vs :: frames)

/-- `p` are the fractional coordinates in the unit cell of the Cartesian position `x` for the lattice
`a` (row vectors); coordinates that are not finite make all of them not finite. -/
def InCellOf (a : Matrix (Fin 3) (Fin 3) ℚ) (x p : Fin 3 → Num) : Prop :=
  (∃ (x' y : Fin 3 → ℚ) (k : Fin 3 → ℤ), (x = fun i => some (x' i)) ∧ (p = fun i => some (y i)) ∧
    (∀ i, 0 ≤ y i ∧ y i < 1) ∧ ∀ j, ∑ i, (y i + k i) * a i j = x' j) ∨
  ((∃ i, x i = none) ∧ p = fun _ => none)

/-- The line holds a wavenumber: eighth word, or minus the seventh word if the mode is unstable. -/
def WavenumberIn (line : List Char) (w : Num) : Prop :=
  (¬ "f/i".toList <:+: line ∧ ∃ x, (splitWs line)[7]? = some x ∧ parseFloat x = some w) ∨
  ("f/i".toList <:+: line ∧ ∃ x v, (splitWs line)[6]? = some x ∧ parseFloat x = some v ∧
    w = v.map fun q => -q)

/-- The last three of six words are the numbers of `v`. -/
def VectorRow (line : List Char) (v : Fin 3 → Num) : Prop :=
  ∃ p q r a b c, splitWs line = [p, q, r, a, b, c] ∧ parseFloat a = some (v 0) ∧
    parseFloat b = some (v 1) ∧ parseFloat c = some (v 2)

/-- `n` rows of an eigenvector; lines with `X` before a row are headings, the line after the last row
is skipped. -/
inductive VectorsIn : ℕ → List (List Char) → List (Fin 3 → Num) → List (List Char) → Prop
  | done {f} : VectorsIn 0 f [] f.tail
  | heading {n l f vs g} : ['X'] <:+: l → VectorsIn (n + 1) f vs g → VectorsIn (n + 1) (l :: f) vs g
  | row {n l f v vs g} : ¬ ['X'] <:+: l → VectorRow l v → VectorsIn n f vs g →
      VectorsIn (n + 1) (l :: f) (v :: vs) g

/-- `k` modes of `n` atoms one after the other. -/
inductive ModesIn (n : ℕ) : ℕ → List (List Char) → List (Num × List (Fin 3 → Num)) → Prop
  | done {f} : ModesIn n 0 f []
  | mode {k f line g w vs h ms} : Titled "cm-1" f line g → WavenumberIn line w →
      VectorsIn n g vs h → ModesIn n k h ms → ModesIn n (k + 1) f ((w, vs) :: ms)

/-- `d` are the fractional coordinates of the Cartesian vector `x` divided by the square root of the
mass `w`. -/
def MassScaled (a : Matrix (Fin 3) (Fin 3) ℚ) (w : ℚ) (x : Fin 3 → Num) (d : Fin 3 → Option ℝ) :
    Prop :=
  (∃ (x' : Fin 3 → ℚ) (y : Fin 3 → ℝ), (x = fun i => some (x' i)) ∧ (d = fun i => some (y i)) ∧
    ∀ k, ∑ i, (y i * Real.sqrt w) * a i k = x' k) ∨
  ((∃ i, x i = none) ∧ d = fun _ => none)

end Verif.Spec
