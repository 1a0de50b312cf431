import Verif.Model.TorchUtils
import Verif.Model.Dataset
import Verif.Model.Shape
import Mathlib.Analysis.SpecialFunctions.Exp
import Mathlib.Analysis.SpecialFunctions.Log.Basic
import Mathlib.Analysis.Complex.Trigonometric

/-!
# Model of `/repo/ramannoodle/pmodel/torch/_gnn.py`

All layers over the reals.  Weights are arbitrary (records of real numbers); gradients are not
modelled (see `Verif.Model.Train`).  Rows of tensors are `Fin d → ℝ`; tensors with a variable number
of rows are lists of rows.
-/

namespace Verif

noncomputable section

/-- A row of a tensor. -/
abbrev Row (d : ℕ) := Fin d → ℝ

/-! ## Layers -/

/-- `torch.nn.Linear`. -/
structure Linear (a b : ℕ) where
  weight : Fin b → Fin a → ℝ
  bias : Row b

/-- `x W^T + b`. -/
def Linear.apply {a b : ℕ} (l : Linear a b) (x : Row a) : Row b :=
  fun k => ∑ j, l.weight k j * x j + l.bias k

/-- `torch.nn.LayerNorm` over the last dimension (with the default `eps`). -/
structure LayerNorm (d : ℕ) where
  weight : Row d
  bias : Row d

/-- Mean of the entries of a row. -/
def rowMean {d : ℕ} (x : Row d) : ℝ := (∑ j, x j) / d

/-- Population variance of the entries of a row. -/
def rowVar {d : ℕ} (x : Row d) : ℝ := (∑ j, (x j - rowMean x) ^ 2) / d

/-- `(x - mean) / sqrt(var + eps) * weight + bias`. -/
def LayerNorm.apply {d : ℕ} (l : LayerNorm d) (x : Row d) : Row d :=
  fun k => (x k - rowMean x) / Real.sqrt (rowVar x + 1 / 10 ^ 5) * l.weight k + l.bias k

/-- `torch.nn.BatchNorm1d` in evaluation mode: fixed statistics (with the default `eps`). -/
structure BatchNorm (d : ℕ) where
  weight : Row d
  bias : Row d
  runningMean : Row d
  runningVar : Row d

/-- `(x - running_mean) / sqrt(running_var + eps) * weight + bias`. -/
def BatchNorm.eval {d : ℕ} (l : BatchNorm d) (x : Row d) : Row d :=
  fun k => (x k - l.runningMean k) / Real.sqrt (l.runningVar k + 1 / 10 ^ 5) * l.weight k + l.bias k

/-- `sigmoid`. -/
def sigmoid (x : ℝ) : ℝ := 1 / (1 + Real.exp (-x))

/-- `torch_geometric.nn.models.schnet.ShiftedSoftplus`: `softplus(x) - log(2)`. -/
def shiftedSoftplus (x : ℝ) : ℝ := Real.log (1 + Real.exp x) - Real.log 2

/-- First half of `chunk(2, dim=1)`. -/
def chunkFst {d : ℕ} (x : Row (d + d)) : Row d := fun k => x (Fin.castAdd d k)

/-- Second half of `chunk(2, dim=1)`. -/
def chunkSnd {d : ℕ} (x : Row (d + d)) : Row d := fun k => x (Fin.natAdd d k)

/-- `filter.sigmoid() * core.tanh()` of the two halves, e.g. _gnn.py L144-148. -/
def gate {d : ℕ} (x : Row (d + d)) : Row d :=
  fun k => sigmoid (chunkFst x k) * Real.tanh (chunkSnd x k)

/-! ## Indexing -/

/-- `tensor[index]` for an index tensor. -/
def gather {α : Type} (rows : List α) (index : List ℕ) : Py (List α) :=
  index.mapM fun k => match rows[k]? with
    | some r => .ok r
    | none => .error .indexError

/-- `scatter(values, index, dim=0, dim_size=size, reduce="sum")`: row `r` is the sum of the values
with index `r`. -/
def scatterSum {d : ℕ} (values : List (Row d)) (index : List ℕ) (size : ℕ) : List (Row d) :=
  (List.range size).map fun r =>
    (((values.zip index).filter fun v => v.2 == r).map (·.1)).sum

/-! ## `_GaussianFilter` -/

/-- Attributes of `_GaussianFilter`. -/
structure GaussianFilter (steps : ℕ) where
  coefficient : ℝ
  offset : Row steps

/-- `torch.linspace(lower, upper, steps)`. -/
def linspaceRow (lower upper : ℝ) (steps : ℕ) : Row steps :=
  fun k => lower + (upper - lower) / (steps - 1) * k.1

/-- `_GaussianFilter.__init__`, _gnn.py L61-65: `offset[1]` needs two steps, and the offsets must
differ for the division. -/
def GaussianFilter.new (lower upper : ℝ) (steps : ℕ) : Py (GaussianFilter steps) :=
  if h : 1 < steps then
    let offset := linspaceRow lower upper steps
    let step := offset ⟨1, h⟩ - offset ⟨0, by omega⟩
    if step ^ 2 = 0 then .error .zeroDivisionError
    else .ok ⟨-(1 / 2) / step ^ 2, offset⟩
  else .error .indexError

/-- `_GaussianFilter.forward`, _gnn.py L67-82, for one distance. -/
def GaussianFilter.apply {steps : ℕ} (f : GaussianFilter steps) (x : ℝ) : Row steps :=
  fun k => Real.exp (f.coefficient * (x - f.offset k) ^ 2)

/-! ## Message passing -/

variable {dn de : ℕ}

/-- Weights of `_NodeBlock`, _gnn.py L98-114. -/
structure NodeBlock (dn de : ℕ) where
  c1Linear : Linear (dn + de) (dn + dn)
  c1Norm : LayerNorm (dn + dn)
  finalNorm : LayerNorm dn

/-- Message along one edge, _gnn.py L140-144. -/
def NodeBlock.message (b : NodeBlock dn de) (node : Row dn) (edge : Row de) : Row dn :=
  gate (b.c1Norm.apply (b.c1Linear.apply (Fin.append node edge)))

/-- New embedding of one node, _gnn.py L148-150. -/
def NodeBlock.update (b : NodeBlock dn de) (node received : Row dn) : Row dn :=
  fun k => Real.tanh (node k + b.finalNorm.apply received k)

/-- `_NodeBlock.forward`, _gnn.py L122-150. -/
def NodeBlock.forward (b : NodeBlock dn de) (nodes : List (Row dn)) (edges : List (Row de))
    (i : List ℕ) : Py (List (Row dn)) := do
  let sources ← gather nodes i
  let messages := List.zipWith b.message sources edges
  let received := scatterSum messages i nodes.length
  return List.zipWith b.update nodes received

/-- Weights of `_EdgeBlock`, _gnn.py L166-189. -/
structure EdgeBlock (dn de : ℕ) where
  c2Linear : Linear dn (de + de)
  c3Linear : Linear (dn + (dn + (dn + (de + de)))) (de + de)
  c2Norm1 : LayerNorm (de + de)
  c3Norm1 : LayerNorm (de + de)
  c2Norm2 : LayerNorm de
  c3Norm2 : LayerNorm de

/-- c2 embedding of one edge, _gnn.py L223-228. -/
def EdgeBlock.c2 (b : EdgeBlock dn de) (x y : Row dn) : Row de :=
  b.c2Norm2.apply (gate (b.c2Norm1.apply (b.c2Linear.apply fun k => x k * y k)))

/-- Message of one triplet, _gnn.py L270-283. -/
def EdgeBlock.message (b : EdgeBlock dn de) (x : Row dn × Row dn × Row dn × Row de × Row de) :
    Row de :=
  gate (b.c3Norm1.apply (b.c3Linear.apply
    (Fin.append x.1 (Fin.append x.2.1 (Fin.append x.2.2.1 (Fin.append x.2.2.2.1 x.2.2.2.2))))))

/-- New embedding of one edge, _gnn.py L291, L351. -/
def EdgeBlock.update (b : EdgeBlock dn de) (edge : Row de) (c2 received : Row de) : Row de :=
  fun k => Real.tanh (edge k + c2 k + b.c3Norm2.apply received k)

/-- `_EdgeBlock.forward`, _gnn.py L294-351, with `_get_c2_embedding` L200-228 and
`_get_c3_embedding` L231-291. -/
def EdgeBlock.forward (b : EdgeBlock dn de) (nodes : List (Row dn)) (edges : List (Row de))
    (t : Triplets) : Py (List (Row de)) := do
  let ni ← gather nodes t.i
  let nj ← gather nodes t.j
  let c2 := List.zipWith b.c2 ni nj
  let ti ← gather nodes t.indexI
  let tj ← gather nodes t.indexJ
  let tk ← gather nodes t.indexK
  let eji ← gather edges t.indexJi
  let ekj ← gather edges t.indexKj
  let messages := (ti.zip (tj.zip (tk.zip (eji.zip ekj)))).map b.message
  let received := scatterSum messages t.indexJi edges.length
  return List.zipWith (fun ec r => b.update ec.1 ec.2 r) (edges.zip c2) received

/-- The loop over the blocks, _gnn.py L648-650. -/
def messagePassing (t : Triplets) : List (NodeBlock dn de × EdgeBlock dn de) → List (Row dn) →
    List (Row de) → Py (List (Row de))
  | [], _, edges => .ok edges
  | b :: bs, nodes, edges => do
    let nodes ← b.1.forward nodes edges t.i
    let edges ← b.2.forward nodes edges t
    messagePassing t bs nodes edges

/-! ## Edge polarizabilities -/

/-- `a1`, ..., `a6`, _gnn.py L372-395: `diag(p, q, q)`. -/
def axialMatrix (p q : ℝ) : Mat3 ℝ := !![p, 0, 0; 0, q, 0; 0, 0, q]

/-- `rotation @ a @ inv_rotation`, _gnn.py L397-405 (rotations are invertible, `C78_rotation`). -/
def rotated (R : Mat3 ℝ) (p q : ℝ) : Mat3 ℝ := R * axialMatrix p q * R⁻¹

/-- Elementwise product with a mask. -/
def masked (A M : Mat3 ℝ) : Mat3 ℝ := fun i j => A i j * M i j

/-- `_get_edge_polarizability_vectors`, _gnn.py L354-415, for one edge.  NaN unit vectors give
NaN. -/
def edgePolarizability (emb : Row 12) (unit : Option (Fin 3 → ℝ)) : Option (Fin 6 → ℝ) :=
  (unit.bind getRotation).map fun R =>
    tensorToVector (masked (rotated R (emb 0) (emb 1)) !![0, 1, 0; 1, 0, 0; 0, 0, 0]
      + masked (rotated R (emb 2) (emb 3)) !![0, 0, 1; 0, 0, 0; 1, 0, 0]
      + masked (rotated R (emb 4) (emb 5)) !![0, 0, 0; 0, 0, 1; 0, 1, 0]
      + masked (rotated R (emb 6) (emb 7)) !![1, 0, 0; 0, 0, 0; 0, 0, 0]
      + masked (rotated R (emb 8) (emb 9)) !![0, 0, 0; 0, 1, 0; 0, 0, 0]
      + masked (rotated R (emb 10) (emb 11)) !![0, 0, 0; 0, 0, 0; 0, 0, 1])

/-! ## `PotGNN` -/

/-- One sample of a batch with `n` atoms. -/
structure GSample (n : ℕ) where
  lattice : Mat3 ℝ
  numbers : Fin n → ℕ
  positions : Pos n ℝ

/-- Weights and constants of a `PotGNN`, _gnn.py L484-539.  `headTrain` is
`_to_polarizability_embedding` in training mode (with batch statistics), which is left arbitrary here;
see `Verif.Model.GnnTrain`. -/
structure PotGNN (dn de : ℕ) where
  atomTypeMap : List ℤ
  refEdges : List (ℕ × ℕ)
  embedding : List (Row dn)
  nodeLinear1 : Linear dn dn
  nodeLinear2 : Linear dn dn
  filter : GaussianFilter de
  blocks : List (NodeBlock dn de × EdgeBlock dn de)
  headLinear1 : Linear de de
  headNorm : BatchNorm de
  headLinear2 : Linear de de
  headLinear3 : Linear de 12
  headTrain : List (Row de) → Py (List (Row 12))
  mean : Mat3 ℝ
  stddev : Mat3 ℝ

/-- Attributes of a `PotGNN` that change: mode and triplet cache. -/
structure GnnState where
  training : Bool
  triplets : BatchTriplets

/-- `_atom_type_map`, _gnn.py L504-506: assignments into 119 entries filled with -1. -/
def fillTypes : List ℤ → ℕ → List ℕ → Py (List ℤ)
  | m, _, [] => .ok m
  | m, t, z :: zs => if z < m.length then fillTypes (m.set z t) (t + 1) zs else .error .indexError

/-- `_atom_type_map` for the elements in the order in which the set is traversed. -/
def atomTypeMapOf (order : List ℕ) : Py (List ℤ) := fillTypes (List.replicate 119 (-1)) 0 order

/-- `_convert_to_atom_type`, _gnn.py L541-557, for one atomic number. -/
def convertToAtomType (atomTypeMap : List ℤ) (z : ℕ) : Py ℤ :=
  match atomTypeMap[z]? with
  | some t => .ok t
  | none => .error .indexError

/-- `Embedding` of one atom type: no negative indexes. -/
def embedType {α : Type} (table : List α) (t : ℤ) : Py α :=
  if t < 0 then .error .indexError
  else match table[t.toNat]? with
    | some r => .ok r
    | none => .error .indexError

/-- `_node_embedding` after the table lookup, _gnn.py L508-514. -/
def PotGNN.nodeRow (m : PotGNN dn de) (r : Row dn) : Row dn :=
  m.nodeLinear2.apply fun k => shiftedSoftplus (m.nodeLinear1.apply (fun j => shiftedSoftplus (r j)) k)

/-- Initial embedding of one node, _gnn.py L642-643. -/
def PotGNN.embedAtom (m : PotGNN dn de) (z : ℕ) : Py (Row dn) := do
  let t ← convertToAtomType m.atomTypeMap z
  let r ← embedType m.embedding t
  return m.nodeRow r

/-- Atomic numbers of a batch, flattened. -/
def batchNumbers {n : ℕ} (samples : List (GSample n)) : List ℕ :=
  samples.flatMap fun s => (List.finRange n).map s.numbers

/-- `_batch_graph`, _gnn.py L568-615. -/
def PotGNN.batchGraph {n : ℕ} (m : PotGNN dn de) (samples : List (GSample n)) :
    Py (List GraphEdge) :=
  let graphIndexes := repeatInterleave samples.length m.refEdges.length
  let edgeIndexes := repeatTimes samples.length m.refEdges
  getGraphInfo (samples.map fun s => (s.lattice, s.positions)) (graphIndexes.zip edgeIndexes)

/-- `_to_polarizability_embedding` in evaluation mode, _gnn.py L532-539. -/
def PotGNN.headRow (m : PotGNN dn de) (x : Row de) : Row 12 :=
  m.headLinear3.apply fun k => shiftedSoftplus (m.headLinear2.apply
    (fun j => shiftedSoftplus (m.headNorm.eval (m.headLinear1.apply x) j)) k)

/-- `_to_polarizability_embedding`. -/
def PotGNN.head (m : PotGNN dn de) (training : Bool) (edges : List (Row de)) : Py (List (Row 12)) :=
  if training then m.headTrain edges else .ok (edges.map m.headRow)

/-- Sum of rows, NaN if a row is NaN. -/
def sumRows : List (Option (Fin 6 → ℝ)) → Option (Fin 6 → ℝ)
  | [] => some 0
  | none :: _ => none
  | some x :: xs => (sumRows xs).map fun y => x + y

/-- `edge_polarizability * mask` for one edge: NaN times zero is NaN. -/
def maskRow (x : Option (Fin 6 → ℝ)) (keep : Bool) : Option (Fin 6 → ℝ) :=
  x.map fun v => if keep then v else 0

/-- Polarizability of one sample, _gnn.py L661-664. -/
def isolate (edges : List GraphEdge) (pols : List (Option (Fin 6 → ℝ))) (s : ℕ) :
    Option (Fin 6 → ℝ) :=
  let mask := edges.map fun e => e.graph == s
  let count := (mask.filter id).length
  (sumRows (List.zipWith maskRow pols mask)).bind fun v =>
    if count = 0 then none else some fun k => v k / count

/-- `PotGNN.forward`, _gnn.py L641-665, from the graph and the initial embeddings on. -/
def PotGNN.forwardFrom (m : PotGNN dn de) (training : Bool) (t : Triplets) (numSamples : ℕ)
    (edges : List GraphEdge) (nodeEmb : List (Row dn)) : Py (List (Option (Fin 6 → ℝ))) := do
  let edgeEmb ← messagePassing t m.blocks nodeEmb (edges.map fun e => m.filter.apply e.distance)
  let polEmb ← m.head training edgeEmb
  let pols := List.zipWith (fun x e => edgePolarizability x e.unit) polEmb edges
  return (List.range numSamples).map (isolate edges pols)

/-- The part of `forward` before the triplets are requested, _gnn.py L641-643. -/
def PotGNN.prepare {n : ℕ} (m : PotGNN dn de) (samples : List (GSample n)) :
    Py (List GraphEdge × List (Row dn)) := do
  let edges ← m.batchGraph samples
  let nodeEmb ← (batchNumbers samples).mapM m.embedAtom
  return (edges, nodeEmb)

/-- `PotGNN.forward`, _gnn.py L617-665: result and state afterwards. -/
def PotGNN.forward {n : ℕ} (m : PotGNN dn de) (st : GnnState) (samples : List (GSample n)) :
    Py (List (Option (Fin 6 → ℝ))) × GnnState :=
  match m.prepare samples with
  | .error e => (.error e, st)
  | .ok (edges, nodeEmb) =>
    let (t, bt) := st.triplets.getTriplets samples.length
    (m.forwardFrom st.training t samples.length edges nodeEmb, { st with triplets := bt })

/-- Entry of `polarizabilities.numpy() * stddev + mean`, _gnn.py L719-720. -/
def unscale (mean stddev : Mat3 ℝ) (p : Matrix (Fin 3) (Fin 3) (Option ℝ)) :
    Matrix (Fin 3) (Fin 3) (Option ℝ) :=
  fun i j => (p i j).map fun x => x * stddev i j + mean i j

/-- A polarizability vector as a vector of possibly non-finite numbers. -/
def optVector (v : Option (Fin 6 → ℝ)) : Fin 6 → Option ℝ := fun k => v.map fun x => x k

/-- The loop of `calc_polarizabilities`, _gnn.py L697-715. -/
def PotGNN.predictLoop {n : ℕ} (m : PotGNN dn de) (lattice : Mat3 ℝ) (numbers : Fin n → ℕ) :
    GnnState → List (List (Pos n ℝ)) →
      Py (List (Matrix (Fin 3) (Fin 3) (Option ℝ))) × GnnState
  | st, [] => (.ok [], st)
  | st, batch :: batches =>
    match m.forward st (batch.map fun p => ⟨lattice, numbers, p⟩) with
    | (.error e, st) => (.error e, st)
    | (.ok vs, st) =>
      match m.predictLoop lattice numbers st batches with
      | (.error e, st) => (.error e, st)
      | (.ok ps, st) => (.ok (vs.map (fun v => vectorToTensor (optVector v)) ++ ps), st)

/-- `PotGNN.calc_polarizabilities`, _gnn.py L667-721, for positions of the right shape (the shape
check L682-684 is in the type; `Verif.Model.Shape`). -/
def PotGNN.calcPolarizabilities {n : ℕ} (m : PotGNN dn de) (lattice : Mat3 ℝ) (numbers : Fin n → ℕ)
    (st : GnnState) (positions : List (Pos n ℝ)) :
    Py (List (Matrix (Fin 3) (Fin 3) (Option ℝ))) × GnnState :=
  let st := { st with training := false }
  match batchPositions positions 100 with
  | .error e => (.error e, st)
  | .ok batches =>
    match m.predictLoop lattice numbers st batches with
    | (.error e, st) => (.error e, st)
    | (.ok ps, st) => (.ok (ps.map (unscale m.mean m.stddev)), st)

/-- Arguments of `PotGNN.__init__`, _gnn.py L453-464. -/
structure GnnArgs where
  cutoff : ℝ
  sizeNode : ℤ
  sizeEdge : ℤ
  passes : ℤ
  filterStart : ℝ
  filterEnd : ℝ
  meanShape : List ℕ
  stddevShape : List ℕ

open Classical in
/-- Validation in `PotGNN.__init__`, _gnn.py L467-482. -/
def GnnArgs.validate (a : GnnArgs) : Py Unit := do
  if a.cutoff ≤ 0 then throw .valueError
  if a.sizeNode ≤ 0 then throw .valueError
  if a.sizeEdge ≤ 0 then throw .valueError
  if a.passes ≤ 0 then throw .valueError
  if a.filterStart < 0 then throw .valueError
  if a.filterEnd ≤ a.filterStart then throw .valueError
  verifyShape a.meanShape [some 3, some 3]
  verifyShape a.stddevShape [some 3, some 3]

/-- What `PotGNN.__init__`, _gnn.py L453-539, sets up besides the (random) weights. -/
structure GnnSetup where
  refEdges : List (ℕ × ℕ)
  triplets : BatchTriplets
  numAtomTypes : ℕ
  atomTypeMap : List ℤ
  sizeNode : ℕ
  sizeEdge : ℕ
  filter : GaussianFilter sizeEdge
  numBlocks : ℕ

/-- `PotGNN.__init__`, _gnn.py L453-539, without the weights.  `setOrder` is the order in which
Python traverses `set(atomic_numbers)`. -/
def GnnArgs.setup {n : ℕ} (a : GnnArgs) (dimenet : List (ℕ × ℕ) → ℕ → Triplets)
    (setOrder : List ℕ → List ℕ) (lattice : Mat3 ℝ) (numbers : Fin n → ℕ) (positions : Pos n ℝ) :
    Py GnnSetup := do
  a.validate
  let edges ← radiusGraph a.cutoff [(lattice, positions)]
  let refEdges := edges.map fun e => (e.i, e.j)
  let order := setOrder ((List.finRange n).map numbers)
  let atomTypeMap ← atomTypeMapOf order
  let filter ← GaussianFilter.new a.filterStart a.filterEnd a.sizeEdge.toNat
  return { refEdges := refEdges, triplets := .new dimenet n refEdges, numAtomTypes := order.length,
           atomTypeMap := atomTypeMap, sizeNode := a.sizeNode.toNat, sizeEdge := a.sizeEdge.toNat,
           filter := filter, numBlocks := a.passes.toNat }

end

end Verif
