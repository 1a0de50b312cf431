import Verif.Model.Outcar

/-!
# Model of `read_trajectory`, `/repo/ramannoodle/io/vasp/xdatcar.py` L57-79
-/

namespace Verif

/-- `xdatcar.read_trajectory`, xdatcar.py L57-79, on a file with the given content.  The array read
has shape `(S,N,3)` unless there is no configuration or no atom; then the constructor of `Trajectory`
raises `ValueError` (_trajectory.py L37). -/
def xdatcarReadTrajectory (ext : NumMat → Py NumMat) (content : List Char) (timestep : Num) :
    Py OutcarTrajectory := do
  let frames ← readPositionsTs ext content
  if frames = [] ∨ [] ∈ frames then .error .valueError else makeTrajectory frames timestep

end Verif
