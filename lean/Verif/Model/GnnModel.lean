import Verif.Model.Gnn
import Verif.Model.Dynamics

/-!
# Graph networks as polarizability models

`Phonons.get_raman_spectrum` (`dynamics/_phonon.py` L82-108) and `Trajectory.get_raman_spectrum`
(`dynamics/_trajectory.py` L71-90) call `calc_polarizabilities` of any polarizability model, also of a
graph network.  Calls change the state of a network (mode and cached triplets), which the functions of
`Verif.Model.Dynamics` do not thread; `C166_state` proves that predictions do not depend on it.
-/

namespace Verif

/-- All entries of a tensor, `none` if one of them is NaN. -/
def finiteEntries (T : Matrix (Fin 3) (Fin 3) (Option ℝ)) : Option (Mat3 ℝ) :=
  if ∀ i j, (T i j).isSome then some fun i j => (T i j).getD 0 else none

/-- `PotGNN.calc_polarizabilities` (_gnn.py L667-721) as seen by `get_raman_spectrum`, in a given
state.  Simplified: NaN predictions, which the code passes on, are reported as `unmodelled`; they are in
`Verif.Model.NanSpectrum`. -/
noncomputable def PotGNN.asModel {dn de n : ℕ} (m : PotGNN dn de) (lattice : Mat3 ℝ)
    (numbers : Fin n → ℕ) (st : GnnState) : PolModel n := fun positions =>
  match (m.calcPolarizabilities lattice numbers st positions).1 with
  | .error e => .error e
  | .ok Ts => Ts.mapM fun T =>
    match finiteEntries T with
    | none => .error .unmodelled
    | some A => .ok A

end Verif
