import Verif.Model.Reference
import Verif.Model.Index

/-!
# Model of `/repo/ramannoodle/structure/_displace.py` L31-74, L120-156

The writers of the same file are modelled in `Verif.Model.Write`.  Argument types and
shapes are excluded by typing.  `none` stands for an array of NaNs (zero displacement or
direction: `0/0`).  A singular lattice is `LinAlgError` here; where NumPy's `LinAlgError` is a
subclass of `ValueError`, the `except ValueError` of L68 turns it into a `ValueError`.
-/

namespace Verif

noncomputable section

variable {N : ℕ}

/-- Loop body of `get_displaced_positions`, _displace.py L62-72. -/
def displacedBy (s : RefStructure N) (u : Option (Fin N × Fin 3 → ℝ)) (amplitude : ℝ) :
    Py (Option (Pos N ℝ)) :=
  match u with
  | some u => do
    let displacement ← s.getFracDisplacement fun a i => u (a, i) * amplitude
    return some (displacePositions s.positions displacement)
  | none => do
    let _ ← npInv s.lattice
    return none

/-- `get_displaced_positions`, _displace.py L31-74. -/
def getDisplacedPositions (s : RefStructure N) (cartDisplacement : Pos N ℝ)
    (amplitudes : List ℝ) : Py (List (Option (Pos N ℝ))) :=
  let u := normalize (flat cartDisplacement)
  amplitudes.mapM (displacedBy s u)

/-- `get_ast_displaced_positions`, _displace.py L120-156. -/
def getAstDisplacedPositions (s : RefStructure N) (atomIndex : ℤ) (cartDirection : Vec3)
    (amplitudes : List ℝ) : Py (List (Option (Pos N ℝ))) :=
  let u := normalize cartDirection
  match pyIndex N atomIndex with
  | none => .error .indexError
  | some k =>
    match u with
    | some u => getDisplacedPositions s (fun a => if a = k then u else fun _ => 0) amplitudes
    | none => amplitudes.mapM (displacedBy s none)

end

end Verif
