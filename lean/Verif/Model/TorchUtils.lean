import Verif.Model.Pbc
import Mathlib.Analysis.Real.Sqrt
import Mathlib.LinearAlgebra.Matrix.NonsingularInverse

/-!
# Model of `/repo/ramannoodle/pmodel/torch/_utils.py`

Tensors over the reals (rounding, dtypes and devices are not modelled).  A vector with NaN entries
is `none`.  Index tensors are lists of natural numbers.
-/

namespace Verif

noncomputable section

/-! ## Rotations -/

/-- `torch.linalg.norm` of a vector. -/
def norm3 (v : Fin 3 → ℝ) : ℝ := Real.sqrt (v 0 ^ 2 + v 1 ^ 2 + v 2 ^ 2)

/-- `v / torch.linalg.norm(v)`: NaN for the zero vector. -/
def unitVector (v : Fin 3 → ℝ) : Option (Fin 3 → ℝ) :=
  if norm3 v = 0 then none else some fun i => v i / norm3 v

/-- `torch.linalg.cross`. -/
def cross3 (a b : Fin 3 → ℝ) : Fin 3 → ℝ :=
  ![a 1 * b 2 - a 2 * b 1, a 2 * b 0 - a 0 * b 2, a 0 * b 1 - a 1 * b 0]

/-- `torch.linalg.vecdot`. -/
def dot3 (a b : Fin 3 → ℝ) : ℝ := a 0 * b 0 + a 1 * b 1 + a 2 * b 2

/-- The matrix `k_matrix`, _utils.py L47-53. -/
def kMatrix (v : Fin 3 → ℝ) : Mat3 ℝ := !![0, -v 2, v 1; v 2, 0, -v 0; -v 1, v 0, 0]

/-- Rotation for normalised vectors `a` and `b`, _utils.py L40-63. -/
def rotationBetween (a b : Fin 3 → ℝ) : Mat3 ℝ :=
  let v := cross3 a b
  let c := dot3 a b
  let s := norm3 v
  if s = 0 then 1
  else 1 + kMatrix v + ((1 - c) / s ^ 2) • (kMatrix v * kMatrix v)

/-- `get_rotations`, _utils.py L24-65, for one target (every operation of the function treats the
targets separately).  The zero vector gives NaN. -/
def getRotation (target : Fin 3 → ℝ) : Option (Mat3 ℝ) :=
  match unitVector ![1, 0, 0], unitVector target with
  | some a, some b => some (rotationBetween a b)
  | _, _ => none

/-! ## Graphs -/

/-- `displacement.matmul(lattice)` of the wrapped difference of two atoms, _utils.py L122-127 and
_gnn.py L603-611: entry `[s,a,b]` belongs to `positions[s,b] - positions[s,a]`. -/
def pairDisplacement {n : ℕ} (lattice : Mat3 ℝ) (p : Pos n ℝ) (a b : Fin n) : Fin 3 → ℝ :=
  fun j => ∑ i, wrap1 (p b i - p a i) * lattice i j

/-- Entry of the distance matrix, _utils.py L128. -/
def pairDistance {n : ℕ} (lattice : Mat3 ℝ) (p : Pos n ℝ) (a b : Fin n) : ℝ :=
  norm3 (pairDisplacement lattice p a b)

/-- What `get_graph_info` returns for one edge: graph and (shifted) node indexes, unit vector and
distance. -/
structure GraphEdge where
  graph : ℕ
  i : ℕ
  j : ℕ
  unit : Option (Fin 3 → ℝ)
  distance : ℝ

/-- `get_graph_info`, _utils.py L68-90, for one edge `(graph, a, b)`. -/
def graphInfo1 {n : ℕ} (samples : List (Mat3 ℝ × Pos n ℝ)) (e : ℕ × ℕ × ℕ) : Py GraphEdge :=
  match samples[e.1]? with
  | none => .error .indexError
  | some s =>
    if h : e.2.1 < n ∧ e.2.2 < n then
      .ok ⟨e.1, e.2.1 + e.1 * n, e.2.2 + e.1 * n,
        unitVector (pairDisplacement s.1 s.2 ⟨e.2.1, h.1⟩ ⟨e.2.2, h.2⟩),
        pairDistance s.1 s.2 ⟨e.2.1, h.1⟩ ⟨e.2.2, h.2⟩⟩
    else .error .indexError

/-- `get_graph_info`, _utils.py L68-90. -/
def getGraphInfo {n : ℕ} (samples : List (Mat3 ℝ × Pos n ℝ)) (edges : List (ℕ × ℕ × ℕ)) :
    Py (List GraphEdge) := edges.mapM (graphInfo1 samples)

open Classical in
/-- Whether `adjacency_matrix[s,a,b]` is set, _utils.py L131-135. -/
def adjacent {n : ℕ} (cutoff : ℝ) (s : Mat3 ℝ × Pos n ℝ) (a b : Fin n) : Bool :=
  decide (pairDistance s.1 s.2 a b ≤ cutoff) && !decide (a = b)

/-- `torch.nonzero(adjacency_matrix).T`, _utils.py L137: indexes in lexicographic order. -/
def adjacencyIndexes {n : ℕ} (cutoff : ℝ) (samples : List (Mat3 ℝ × Pos n ℝ)) : List (ℕ × ℕ × ℕ) :=
  samples.zipIdx.flatMap fun s =>
    (List.finRange n).flatMap fun a =>
      ((List.finRange n).filter fun b => adjacent cutoff s.1 a b).map fun b => (s.2, a.1, b.1)

/-- `_radius_graph_pbc`, _utils.py L93-141. -/
def radiusGraph {n : ℕ} (cutoff : ℝ) (samples : List (Mat3 ℝ × Pos n ℝ)) : Py (List GraphEdge) :=
  getGraphInfo samples (adjacencyIndexes cutoff samples)

end

/-! ## Triplets -/

/-- The seven index tensors returned by `dimenet_triplets` in the order and with the names used by
`BatchTriplets.get_triplets`, _utils.py L196. -/
structure Triplets where
  i : List ℕ
  j : List ℕ
  indexI : List ℕ
  indexJ : List ℕ
  indexK : List ℕ
  indexJi : List ℕ
  indexKj : List ℕ
  deriving DecidableEq

/-- `t.repeat(times)`. -/
def repeatTimes {α : Type} (times : ℕ) (l : List α) : List α := (List.replicate times l).flatten

/-- `torch.tensor([range(times)]).repeat_interleave(count, dim=1)[0]`. -/
def repeatInterleave (times count : ℕ) : List ℕ :=
  (List.range times).flatMap fun s => List.replicate count s

/-- `index += batch_indexes * size` for tensors of the same size. -/
def addOffsets (index batchIndexes : List ℕ) (size : ℕ) : List ℕ :=
  List.zipWith (fun x b => x + b * size) index batchIndexes

/-- Attributes of `BatchTriplets`, _utils.py L153-168. -/
structure BatchTriplets where
  numNodes : ℕ
  numEdges : ℕ
  ref : Triplets
  cachedBatchSize : ℕ
  cached : Triplets
  deriving DecidableEq

/-- `BatchTriplets.__init__`, _utils.py L153-168.  `dimenet` is
`torch_geometric.nn.models.dimenet.triplets` (not part of the repository). -/
def BatchTriplets.new (dimenet : List (ℕ × ℕ) → ℕ → Triplets) (numNodes : ℕ)
    (refEdges : List (ℕ × ℕ)) : BatchTriplets :=
  { numNodes := numNodes, numEdges := refEdges.length, ref := dimenet refEdges numNodes,
    cachedBatchSize := 1, cached := dimenet refEdges numNodes }

/-- Triplets built for a batch, _utils.py L196-222. -/
def BatchTriplets.build (bt : BatchTriplets) (batchSize : ℕ) : Triplets :=
  let ofEdges := repeatInterleave batchSize bt.numEdges
  let ofTriplets := repeatInterleave batchSize bt.ref.indexI.length
  { i := addOffsets (repeatTimes batchSize bt.ref.i) ofEdges bt.numNodes
    j := addOffsets (repeatTimes batchSize bt.ref.j) ofEdges bt.numNodes
    indexI := addOffsets (repeatTimes batchSize bt.ref.indexI) ofTriplets bt.numNodes
    indexJ := addOffsets (repeatTimes batchSize bt.ref.indexJ) ofTriplets bt.numNodes
    indexK := addOffsets (repeatTimes batchSize bt.ref.indexK) ofTriplets bt.numNodes
    indexJi := addOffsets (repeatTimes batchSize bt.ref.indexJi) ofTriplets bt.numEdges
    indexKj := addOffsets (repeatTimes batchSize bt.ref.indexKj) ofTriplets bt.numEdges }

/-- `BatchTriplets.get_triplets`, _utils.py L175-225: result and object afterwards. -/
def BatchTriplets.getTriplets (bt : BatchTriplets) (batchSize : ℕ) : Triplets × BatchTriplets :=
  let bt' := if batchSize ≠ bt.cachedBatchSize then
      { bt with cached := bt.build batchSize, cachedBatchSize := batchSize }
    else bt
  (bt'.cached, bt')

/-! ## Batches -/

/-- `range(start, stop, step)` for a positive step, by counting the remaining numbers. -/
def pyRangeStep (stop step : ℕ) : ℕ → ℕ → List ℕ
  | 0, _ => []
  | fuel + 1, start => if start < stop then start :: pyRangeStep stop step fuel (start + step) else []

/-- `batch_positions`, _utils.py L228-249, on `S` samples (the shape check on the samples is the one
of `Verif.Model.Shape`).  `range` refuses step zero; a negative step gives no batches. -/
def batchPositions {α : Type} (positions : List α) (batchSize : ℤ) : Py (List (List α)) :=
  if batchSize = 0 then .error .valueError
  else if batchSize < 0 then .ok []
  else .ok ((pyRangeStep positions.length batchSize.toNat positions.length 0).map fun k =>
    (positions.take (min (k + batchSize.toNat) positions.length)).drop k)

end Verif
