import Verif.Model.Displace
import Verif.Model.DofRows

/-!
# Displaced positions for arrays of other sizes

`get_displaced_positions` (`/repo/ramannoodle/structure/_displace.py` L31-74) does not compare the
number of rows of `cart_displacement` with the number of atoms, and `get_ast_displaced_positions`
(L120-156) does not check the number of components of `cart_direction`.  Here both are arbitrary
and NumPy's broadcasting rules decide what happens.  `none` stands for NaN.
-/

namespace Verif

noncomputable section

variable {M N k : ℕ}

/-- Rows of an array (`none`: array of NaNs). -/
def arrayRows (p : Option (Pos N ℝ)) : List (Fin 3 → Option ℝ) :=
  List.ofFn fun a i => p.map fun q => q a i

/-- `displace_positions(ref_structure.positions, displacement)`, _displace.py L72, for a
displacement with `M` rows: equal numbers of rows, a single row added to every position, or `M`
rows added to a single position; everything else does not broadcast.  `none`: NaN. -/
def displaceRows (s : RefStructure N) (d : Option (Pos M ℝ)) : Py (List (Fin 3 → Option ℝ)) :=
  if M = N ∨ M = 1 then
    .ok (arrayRows ((d.bind (broadcastRows N)).map (displacePositions s.positions)))
  else if h : N = 1 then
    .ok (arrayRows (d.map (displacePositions fun _ => s.positions ⟨0, by omega⟩)))
  else .error .valueError

/-- `cart_displacement / np.linalg.norm(cart_displacement)`, _displace.py L56; an array without
rows stays as it is. -/
def unitRows (cart : Pos M ℝ) : Option (Pos M ℝ) :=
  if M = 0 then some cart else (normalize (flat cart)).map fun u a i => u (a, i)

/-- Loop body of `get_displaced_positions`, _displace.py L62-72. -/
def displacedRowsBy (s : RefStructure N) (u : Option (Pos M ℝ)) (amplitude : ℝ) :
    Py (List (Fin 3 → Option ℝ)) := do
  let inv ← npInv s.lattice
  displaceRows s (u.map fun u => applyPbcDisplacement (matMulPos (fun a i => u a i * amplitude) inv))

/-- `get_displaced_positions`, _displace.py L31-74, for a displacement with `M` rows. -/
def getDisplacedRows (s : RefStructure N) (cart : Pos M ℝ) (amplitudes : List ℝ) :
    Py (List (List (Fin 3 → Option ℝ))) :=
  amplitudes.mapM (displacedRowsBy s (unitRows cart))

/-- `cart_displacement[atom_index] = cart_direction`, _displace.py L148-149, for a direction with
`k` components: three components, or a single one that is assigned to all three; everything else
does not broadcast. -/
def directionRow (u : Fin k → ℝ) : Option Vec3 :=
  if h : k = 3 then some fun i => u (i.cast h.symm)
  else if h : k = 1 then some fun _ => u ⟨0, by omega⟩
  else none

/-- `get_ast_displaced_positions`, _displace.py L120-156, for a direction with `k` components.  The
index is checked before the shapes. -/
def getAstDisplacedComponents (s : RefStructure N) (atomIndex : ℤ) (direction : Fin k → ℝ)
    (amplitudes : List ℝ) : Py (List (Option (Pos N ℝ))) :=
  match pyIndex N atomIndex with
  | none => .error .indexError
  | some a =>
    if k = 3 ∨ k = 1 then
      match (normalize direction).bind directionRow with
      | some u => getDisplacedPositions s (fun b => if b = a then u else fun _ => 0) amplitudes
      | none => amplitudes.mapM (displacedBy s none)
    else .error .valueError

end

end Verif
