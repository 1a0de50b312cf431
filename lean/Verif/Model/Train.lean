import Verif.Model.Base
import Mathlib.Data.Real.Basic
import Mathlib.Algebra.BigOperators.Group.List.Basic

/-!
# Model of `/repo/ramannoodle/pmodel/torch/_train.py`

The network, the loss function, automatic differentiation and the optimizer are parameters (`Net`).
The model records parameters, gradients, other attributes (running statistics, caches), the state of
the optimizer, the mode, and a log of what was done.  The optimizer is assumed to manage all
parameters of the network, so that `zero_grad` clears all gradients.  `DataLoader` is modelled by
what its `BatchSampler` does.  Devices are not modelled.
-/

namespace Verif

noncomputable section

/-- Output of the network for a batch: one vector per sample, `none` if it is not finite. -/
abbrev Predictions := List (Option (Fin 6 → ℝ))

/-- External functions.  `P`: parameters, `G`: gradients, `S`: other attributes of the network, `O`:
state of the optimizer, `D`: samples. -/
structure Net (P G S O D : Type) where
  /-- `model.forward` with the given mode: output and attributes afterwards. -/
  forward : P → S → Bool → List D → Py Predictions × S
  /-- `loss_function`; `none` if it is not finite. -/
  loss : Predictions → List D → Option ℝ
  /-- Gradient of the loss of a batch in training mode. -/
  gradient : P → S → List D → G
  /-- Accumulation of gradients. -/
  accumulate : G → G → G
  /-- `optimizer.step`. -/
  step : P → Option G → O → P × O

/-- What was done, in order. -/
inductive TrainEvent (D : Type)
  | forward (training : Bool) (batch : List D)
  | backward
  | step
  | zeroGrad
  deriving DecidableEq

/-- State of network and optimizer.  `grads` is `none` if the gradients are cleared. -/
structure TrainState (P G S O D : Type) where
  params : P
  grads : Option G
  attrs : S
  opt : O
  training : Bool
  log : List (TrainEvent D)

variable {P G S O D : Type}

/-- Batches yielded by `torch.utils.data.BatchSampler` with `drop_last=False`; `acc` holds the
samples of the batch being filled. -/
def samplerBatches {α : Type} (batchSize : ℕ) : List α → List α → List (List α)
  | acc, [] => if acc = [] then [] else [acc]
  | acc, x :: xs =>
    if (acc ++ [x]).length = batchSize then (acc ++ [x]) :: samplerBatches batchSize [] xs
    else samplerBatches batchSize (acc ++ [x]) xs

/-- `DataLoader(..., shuffle=False)`: a batch size that is not positive is refused. -/
def loader {α : Type} (data : List α) (batchSize : ℤ) : Py (List (List α)) :=
  if batchSize ≤ 0 then .error .valueError else .ok (samplerBatches batchSize.toNat [] data)

/-- `DataLoader(..., shuffle=True)`: the `RandomSampler` refuses an empty dataset. -/
def shuffledLoader {α : Type} (shuffle : List α → List α) (data : List α) (batchSize : ℤ) :
    Py (List (List α)) :=
  if data.length = 0 then .error .valueError else loader (shuffle data) batchSize

/-- `model.forward(...)`. -/
def TrainState.forward (net : Net P G S O D) (w : TrainState P G S O D) (b : List D) :
    Py Predictions × TrainState P G S O D :=
  ((net.forward w.params w.attrs w.training b).1,
    { w with attrs := (net.forward w.params w.attrs w.training b).2,
             log := w.log ++ [.forward w.training b] })

/-- `loss.backward()`, _train.py L74, with the parameters and attributes `w` of the forward pass:
gradients are accumulated. -/
def TrainState.backward (net : Net P G S O D) (w : TrainState P G S O D) (g : G) :
    TrainState P G S O D :=
  { w with grads := some (match w.grads with
      | none => g
      | some g0 => net.accumulate g0 g),
           log := w.log ++ [.backward] }

/-- `optimizer.step()`, _train.py L75. -/
def TrainState.step (net : Net P G S O D) (w : TrainState P G S O D) : TrainState P G S O D :=
  { w with params := (net.step w.params w.grads w.opt).1, opt := (net.step w.params w.grads w.opt).2,
           log := w.log ++ [.step] }

/-- `optimizer.zero_grad()`, _train.py L76. -/
def TrainState.zeroGrad (w : TrainState P G S O D) : TrainState P G S O D :=
  { w with grads := none, log := w.log ++ [.zeroGrad] }

/-- Loop over the training batches, _train.py L64-76: the losses and the state afterwards. -/
def trainLoop (net : Net P G S O D) : TrainState P G S O D → List (List D) →
    Py (List (Option ℝ)) × TrainState P G S O D
  | w, [] => (.ok [], w)
  | w, b :: bs =>
    match w.forward net b with
    | (.error e, w') => (.error e, w')
    | (.ok out, w') =>
      let w' := ((w'.backward net (net.gradient w.params w.attrs b)).step net).zeroGrad
      match trainLoop net w' bs with
      | (.error e, w'') => (.error e, w'')
      | (.ok losses, w'') => (.ok (net.loss out b :: losses), w'')

/-- Mean of a list, NaN if it is empty or has a NaN entry. -/
def meanOpt (l : List (Option ℝ)) : Option ℝ :=
  if none ∈ l ∨ l = [] then none else some ((l.map fun x => x.getD 0).sum / l.length)

/-- Entry of `torch.var(out, dim=0)`, _train.py L89: unbiased, NaN for a single row. -/
def varComponent (out : Predictions) (k : Fin 6) : Option ℝ :=
  if none ∈ out ∨ out.length ≤ 1 then none
  else
    let xs := out.map fun x => (x.getD 0) k
    let mean := xs.sum / xs.length
    some ((xs.map fun x => (x - mean) ^ 2).sum / (xs.length - 1))

/-- Loop over the validation batches, _train.py L79-89: losses and variances. -/
def validLoop (net : Net P G S O D) : TrainState P G S O D → List (List D) →
    Py (List (Option ℝ × (Fin 6 → Option ℝ))) × TrainState P G S O D
  | w, [] => (.ok [], w)
  | w, b :: bs =>
    match w.forward net b with
    | (.error e, w') => (.error e, w')
    | (.ok out, w') =>
      match validLoop net w' bs with
      | (.error e, w'') => (.error e, w'')
      | (.ok rs, w'') => (.ok ((net.loss out b, varComponent out) :: rs), w'')

/-- What `train_single_epoch` returns. -/
structure EpochResult where
  trainLoss : Option ℝ
  validLoss : Option ℝ
  variance : Fin 6 → Option ℝ

/-- The epoch from the loaders on, _train.py L63-95. -/
def runEpoch (net : Net P G S O D) (w : TrainState P G S O D) (train valid : List (List D)) :
    Py EpochResult × TrainState P G S O D :=
  match trainLoop net { w with training := true } train with
  | (.error e, w') => (.error e, w')
  | (.ok losses, w') =>
    match validLoop net { w' with training := false } valid with
    | (.error e, w'') => (.error e, w'')
    | (.ok rs, w'') =>
      (.ok ⟨meanOpt losses, meanOpt (rs.map (·.1)), fun k => meanOpt (rs.map fun r => r.2 k)⟩, w'')

/-- `train_single_epoch`, _train.py L24-95.  `shuffle` is the random order of the samples. -/
def trainSingleEpoch (net : Net P G S O D) (shuffle : List D → List D) (w : TrainState P G S O D)
    (trainingSet validationSet : List D) (batchSize : ℤ) :
    Py EpochResult × TrainState P G S O D :=
  match shuffledLoader shuffle trainingSet batchSize with
  | .error e => (.error e, w)
  | .ok train =>
    match loader validationSet (min 100 (validationSet.length : ℤ)) with
    | .error e => (.error e, w)
    | .ok valid => runEpoch net w train valid

end

end Verif
