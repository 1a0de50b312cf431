import Verif.Model.Gnn
import Verif.Model.Train

/-!
# Model of `/repo/ramannoodle/pmodel/torch/_gnn.py` in training mode

The only layer of the network that behaves differently in training mode is the `BatchNorm1d` of
`_to_polarizability_embedding` (_gnn.py L532-539), which occurs once.  Its behaviour is that of
`torch.nn.BatchNorm1d` with the default arguments (`eps=1e-5`, `momentum=0.1`): statistics of the
batch, over the edges of all samples, are used and the running statistics are moved towards them.
`num_batches_tracked` is not modelled.
-/

namespace Verif

noncomputable section

variable {dn de : ℕ}

/-- Mean of every column of a batch of rows. -/
def colMean {d : ℕ} (xs : List (Row d)) : Row d := fun k => (xs.map fun x => x k).sum / xs.length

/-- Population variance of every column of a batch of rows. -/
def colVar {d : ℕ} (xs : List (Row d)) : Row d :=
  fun k => (xs.map fun x => (x k - colMean xs k) ^ 2).sum / xs.length

/-- Normalisation with the given statistics. -/
def BatchNorm.withStats {d : ℕ} (l : BatchNorm d) (mean var : Row d) : BatchNorm d :=
  { l with runningMean := mean, runningVar := var }

/-- `running = (1 - momentum) * running + momentum * new`, with the unbiased variance. -/
def BatchNorm.track {d : ℕ} (l : BatchNorm d) (xs : List (Row d)) : BatchNorm d :=
  l.withStats (fun k => 9 / 10 * l.runningMean k + 1 / 10 * colMean xs k)
    (fun k => 9 / 10 * l.runningVar k +
      1 / 10 * (colVar xs k * (xs.length / (xs.length - 1))))

/-- `torch.nn.BatchNorm1d` in training mode: output and layer afterwards.  A single row is refused
(`_verify_batch_size`), an empty batch is returned and leaves the layer unchanged. -/
def BatchNorm.train {d : ℕ} (l : BatchNorm d) (xs : List (Row d)) :
    Py (List (Row d) × BatchNorm d) :=
  if xs.length = 1 then .error .valueError
  else if xs = [] then .ok ([], l)
  else .ok (xs.map (l.withStats (colMean xs) (colVar xs)).eval, l.track xs)

/-- `_to_polarizability_embedding` in training mode, _gnn.py L532-539. -/
def PotGNN.trainHead (m : PotGNN dn de) (edges : List (Row de)) :
    Py (List (Row 12) × BatchNorm de) := do
  let (ys, l) ← m.headNorm.train (edges.map m.headLinear1.apply)
  return (ys.map fun y => m.headLinear3.apply fun k => shiftedSoftplus (m.headLinear2.apply
    (fun j => shiftedSoftplus (y j)) k), l)

/-- `PotGNN.forward` in training mode, _gnn.py L617-665: result, network and state afterwards. -/
def PotGNN.trainForward {n : ℕ} (m : PotGNN dn de) (st : GnnState) (samples : List (GSample n)) :
    Py (List (Option (Fin 6 → ℝ))) × PotGNN dn de × GnnState :=
  match m.prepare samples with
  | .error e => (.error e, m, st)
  | .ok (edges, nodeEmb) =>
    let (t, bt) := st.triplets.getTriplets samples.length
    let st := { st with triplets := bt }
    match messagePassing t m.blocks nodeEmb (edges.map fun e => m.filter.apply e.distance) with
    | .error e => (.error e, m, st)
    | .ok edgeEmb =>
      match m.trainHead edgeEmb with
      | .error e => (.error e, m, st)
      | .ok (polEmb, l) =>
        let pols := List.zipWith (fun x e => edgePolarizability x e.unit) polEmb edges
        (.ok ((List.range samples.length).map (isolate edges pols)), { m with headNorm := l }, st)

/-- `PotGNN.forward` in either mode. -/
def PotGNN.run {n : ℕ} (m : PotGNN dn de) (st : GnnState) (samples : List (GSample n)) :
    Py (List (Option (Fin 6 → ℝ))) × PotGNN dn de × GnnState :=
  if st.training then m.trainForward st samples
  else ((m.forward st samples).1, m, (m.forward st samples).2)

/-- Attributes of a `PotGNN` that are not parameters: running statistics and triplet cache. -/
structure GnnBuffers (de : ℕ) where
  runningMean : Row de
  runningVar : Row de
  triplets : BatchTriplets

/-- Parameters and buffers together. -/
def PotGNN.withBuffers (m : PotGNN dn de) (s : GnnBuffers de) : PotGNN dn de :=
  { m with headNorm := m.headNorm.withStats s.runningMean s.runningVar }

/-- Buffers after a pass. -/
def buffersOf (m : PotGNN dn de) (st : GnnState) : GnnBuffers de :=
  ⟨m.headNorm.runningMean, m.headNorm.runningVar, st.triplets⟩

/-- The network as trained by `train_single_epoch` (_train.py L24-95).  The samples are those of the
dataset with their (scaled) polarizability vectors; loss, gradients and optimizer are external. -/
def gnnNet {n : ℕ} {G O : Type} (loss : Predictions → List (GSample n × (Fin 6 → ℝ)) → Option ℝ)
    (gradient : PotGNN dn de → GnnBuffers de → List (GSample n × (Fin 6 → ℝ)) → G)
    (accumulate : G → G → G) (step : PotGNN dn de → Option G → O → PotGNN dn de × O) :
    Net (PotGNN dn de) G (GnnBuffers de) O (GSample n × (Fin 6 → ℝ)) where
  forward p s training b :=
    let r := (p.withBuffers s).run ⟨training, s.triplets⟩ (b.map (·.1))
    (r.1, buffersOf r.2.1 r.2.2)
  loss := loss
  gradient := gradient
  accumulate := accumulate
  step := step

end

end Verif
