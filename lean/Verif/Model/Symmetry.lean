import Verif.Model.Pbc
import Mathlib.Analysis.Real.Sqrt

/-!
# Model of `/repo/ramannoodle/structure/_symmetry_utils.py`

Vectors are functions on a finite index type (an `(N,3)` array after `flatten()` is a
function on `Fin N × Fin 3`).  A vector of NaNs (division by a zero norm) is `none`.
Mismatched lengths (`ValueError`) and non-array arguments (`TypeError`) are excluded by
typing.  The index type is assumed nonempty when a vector is zero (an array without
elements has no NaN entries; `ReferenceStructure` cannot be built without atoms).
-/

namespace Verif

noncomputable section

variable {ι : Type} [Fintype ι]

/-- `np.dot` of two flat vectors. -/
def dot (u v : ι → ℝ) : ℝ := ∑ i, u i * v i

/-- `np.linalg.norm`. -/
def norm2 (u : ι → ℝ) : ℝ := Real.sqrt (dot u u)

/-- `v / np.linalg.norm(v)`; `none` is the all-NaN vector obtained from `0/0`. -/
def normalize (v : ι → ℝ) : Option (ι → ℝ) :=
  if norm2 v = 0 then none else some fun i => v i / norm2 v

/-- Dot product of possibly-NaN vectors. -/
def dotNan (u v : Option (ι → ℝ)) : Option ℝ := do
  let u ← u
  let v ← v
  return dot u v

/-- `np.isclose(a, b, rtol=1e-5, atol=atol)`: `|a-b| <= atol + rtol*|b|`, false for NaN.
The default `atol` is `1e-8`. -/
def isclose (a : Option ℝ) (b : ℝ) (atol : ℝ := 1 / 10 ^ 8) : Bool :=
  match a with
  | none => false
  | some a => decide (|a - b| ≤ atol + 1 / 10 ^ 5 * |b|)

/-- `are_collinear`, _symmetry_utils.py L13-39. -/
def areCollinear (v1 v2 : ι → ℝ) : Bool :=
  let v1 := normalize v1
  let v2 := normalize v2
  let d := dotNan v1 v2
  isclose d 1 || isclose d (-1)

/-- The loop `for index, x in enumerate(xs): if bad(x): return index` followed by
`return -1` (_symmetry_utils.py L66-75, L97-101, L123-127), started at `index = k`. -/
def firstIndexFrom {α : Type} (bad : α → Bool) : ℕ → List α → ℤ
  | _, [] => -1
  | k, x :: xs => if bad x then (k : ℤ) else firstIndexFrom bad (k + 1) xs

/-- `is_orthogonal_to_all`, _symmetry_utils.py L42-75. -/
def isOrthogonalToAll (v1 : ι → ℝ) (vs : List (ι → ℝ)) : ℤ :=
  let v1 := normalize v1
  firstIndexFrom (fun v2 => !isclose ((dotNan v1 (normalize v2)).map (· + 1)) 1) 0 vs

/-- `is_collinear_with_all`, _symmetry_utils.py L78-101. -/
def isCollinearWithAll (v1 : ι → ℝ) (vs : List (ι → ℝ)) : ℤ :=
  firstIndexFrom (fun v2 => !areCollinear v1 v2) 0 vs

/-- `is_non_collinear_with_all`, _symmetry_utils.py L104-127. -/
def isNonCollinearWithAll (v1 : ι → ℝ) (vs : List (ι → ℝ)) : ℤ :=
  firstIndexFrom (fun v2 => areCollinear v1 v2) 0 vs

end

end Verif
