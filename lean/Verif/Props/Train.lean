import Verif.Model.Train
import Verif.Spec.Train
import Mathlib.Tactic.Ring
import Mathlib.Tactic.FieldSimp
import Mathlib.Tactic.NormNum

/-!
# C88, C99: training
-/

namespace Verif

variable {P G S O D : Type}

/-! ## Batches -/

theorem samplerBatches_spec {α : Type} (b : ℕ) (hb : 0 < b) (l acc : List α) (hacc : acc.length < b) :
    Spec.Batching (acc ++ l) b (samplerBatches b acc l) ∧
      (samplerBatches b acc l = [] → acc = [] ∧ l = []) := by
  induction l generalizing acc with
  | nil =>
    unfold samplerBatches
    by_cases h : acc = []
    · rw [if_pos h, h]
      exact ⟨⟨rfl, by simp, by simp, by simp⟩, fun _ => ⟨rfl, rfl⟩⟩
    · rw [if_neg h]
      exact ⟨⟨by simp, by simpa using h, by simpa using hacc.le, by simp⟩, by simp⟩
  | cons x xs ih =>
    unfold samplerBatches
    by_cases h : (acc ++ [x]).length = b
    · rw [if_pos h]
      obtain ⟨⟨h1, h2, h3, h4⟩, h5⟩ := ih [] hb
      refine ⟨⟨?_, ?_, ?_, ?_⟩, by simp⟩
      · rw [List.flatten_cons, h1]
        simp
      · intro y hy
        rcases List.mem_cons.1 hy with rfl | hy
        · simp
        · exact h2 y hy
      · intro y hy
        rcases List.mem_cons.1 hy with rfl | hy
        · exact h.le
        · exact h3 y hy
      · intro y hy
        cases hr : samplerBatches b [] xs with
        | nil => rw [hr] at hy; simp at hy
        | cons z zs =>
          rw [hr] at hy
          rw [List.dropLast_cons_of_ne_nil (by simp)] at hy
          rcases List.mem_cons.1 hy with rfl | hy
          · exact h
          · exact h4 y (by rw [hr]; exact hy)
    · rw [if_neg h]
      have hlt : (acc ++ [x]).length < b := by
        simp at h ⊢
        omega
      obtain ⟨h1, h2⟩ := ih (acc ++ [x]) hlt
      refine ⟨by simpa using h1, fun h0 => ?_⟩
      have := (h2 h0).1
      simp at this

theorem loader_ok {α : Type} {data : List α} {bs : ℤ} {r : List (List α)}
    (h : loader data bs = .ok r) : 0 < bs ∧ Spec.Batching data bs.toNat r := by
  unfold loader at h
  split_ifs at h with hb
  cases h
  exact ⟨by omega, (samplerBatches_spec bs.toNat (by omega) data [] (by simp; omega)).1⟩

/-- The number of batches is the number of samples divided by the batch size, rounded up. -/
theorem batching_length {α : Type} {l : List α} {b : ℕ} {bs : List (List α)} (hb : 0 < b)
    (h : Spec.Batching l b bs) : bs.length = (l.length + b - 1) / b := by
  rcases List.eq_nil_or_concat bs with rfl | ⟨init, last, rfl⟩
  · have : l = [] := by rw [← h.join]; rfl
    subst this
    rw [List.length_nil, List.length_nil, Nat.zero_add, Nat.div_eq_of_lt (by omega)]
  · have hfull : ∀ x ∈ init, x.length = b := fun x hx => h.full x (by simpa using hx)
    have h1 := List.length_pos_iff.2 (h.nonempty last (by simp))
    have h2 := h.size last (by simp)
    have hlen : l.length = init.length * b + last.length := by
      rw [← h.join, List.concat_eq_append, List.flatten_append, List.length_append,
        List.flatten_singleton]
      congr 1
      clear h h1 h2
      induction init with
      | nil => simp
      | cons x xs ih =>
        rw [List.flatten_cons, List.length_append, hfull x (by simp), ih fun y hy => hfull y (by simp [hy]),
          List.length_cons]
        ring
    rw [hlen, List.concat_eq_append, List.length_append, List.length_singleton]
    have : init.length * b + last.length + b - 1 = (last.length - 1) + (init.length + 1) * b := by
      have : (init.length + 1) * b = init.length * b + b := by ring
      omega
    rw [this, Nat.add_mul_div_right _ _ hb, Nat.div_eq_of_lt (by omega), Nat.zero_add]

/-! ## C88 -/

/-- Gradient descent: for each batch in order, one step of the optimizer with the gradient of this
batch at the current parameters, added to `g` for the first batch. -/
inductive Descent (net : Net P G S O D) :
    P → Option G → S → O → List (List D) → List (Option ℝ) → P → S → O → Prop
  | nil (p g s o) : Descent net p g s o [] [] p s o
  | cons {p g s o b bs out s' p' o' ls p'' s'' o''} :
      net.forward p s true b = (.ok out, s') →
      net.step p (some (match (g : Option G) with
        | none => net.gradient p s b
        | some g => net.accumulate g (net.gradient p s b))) o = (p', o') →
      Descent net p' none s' o' bs ls p'' s'' o'' →
      Descent net p g s o (b :: bs) (net.loss out b :: ls) p'' s'' o''

/-- What is done for one training batch. -/
def trainEvents (b : List D) : List (TrainEvent D) := [.forward true b, .backward, .step, .zeroGrad]

theorem trainLoop_ok (net : Net P G S O D) (bs : List (List D)) (w w' : TrainState P G S O D)
    (ls : List (Option ℝ)) (ht : w.training = true) (h : trainLoop net w bs = (.ok ls, w')) :
    Descent net w.params w.grads w.attrs w.opt bs ls w'.params w'.attrs w'.opt ∧
      w'.log = w.log ++ bs.flatMap trainEvents ∧ (bs ≠ [] → w'.grads = none) ∧
      w'.training = true := by
  induction bs generalizing w ls with
  | nil =>
    cases h
    exact ⟨.nil _ _ _ _, by simp, by simp, ht⟩
  | cons b bs ih =>
    unfold trainLoop at h
    cases hf : net.forward w.params w.attrs w.training b with
    | mk r s' =>
      cases r with
      | error e =>
        have : w.forward net b = (.error e, { w with attrs := s', log := w.log ++ [.forward w.training b] }) := by
          unfold TrainState.forward
          rw [hf]
        rw [this] at h
        cases h
      | ok out =>
        have : w.forward net b = (.ok out, { w with attrs := s', log := w.log ++ [.forward w.training b] }) := by
          unfold TrainState.forward
          rw [hf]
        rw [this] at h
        dsimp only at h
        split at h
        · cases h
        · rename_i ls' w'' hrec
          cases h
          have hih := fun h => ih _ _ h hrec
          obtain ⟨h1, h2, h3, h4⟩ := hih ht
          refine ⟨.cons (by rw [← ht]; exact hf) rfl h1, ?_, fun _ => ?_, h4⟩
          · rw [h2, ht]
            simp [TrainState.zeroGrad, TrainState.step, TrainState.backward, trainEvents]
          · cases bs with
            | nil => cases hrec; rfl
            | cons b' bs' => exact h3 (by simp)

theorem validLoop_ok (net : Net P G S O D) (bs : List (List D)) (w w' : TrainState P G S O D)
    (rs : List (Option ℝ × (Fin 6 → Option ℝ))) (ht : w.training = false)
    (h : validLoop net w bs = (.ok rs, w')) :
    w'.params = w.params ∧ w'.grads = w.grads ∧ w'.opt = w.opt ∧ w'.training = false ∧
      w'.log = w.log ++ bs.map (.forward false) ∧
      (∀ {X : Type} (f : S → X), (∀ p s b, f (net.forward p s false b).2 = f s) →
        f w'.attrs = f w.attrs) ∧
      List.Forall₂ (fun b r => ∃ s out, (net.forward w.params s false b).1 = .ok out ∧
        r.1 = net.loss out b ∧ r.2 = varComponent out) bs rs := by
  induction bs generalizing w rs with
  | nil =>
    cases h
    exact ⟨rfl, rfl, rfl, ht, by simp, fun _ _ => rfl, .nil⟩
  | cons b bs ih =>
    unfold validLoop at h
    cases hf : net.forward w.params w.attrs w.training b with
    | mk r s' =>
      have hfw : w.forward net b = (r, { w with attrs := s', log := w.log ++ [.forward w.training b] }) := by
        unfold TrainState.forward
        rw [hf]
      rw [hfw] at h
      cases r with
      | error e => cases h
      | ok out =>
        dsimp only at h
        split at h
        · cases h
        · rename_i ls' w'' hrec
          cases h
          have hih := fun h => ih _ _ h hrec
          obtain ⟨h1, h2, h3, h4, h5, h6, h7⟩ := hih ht
          refine ⟨h1, h2, h3, h4, ?_, ?_, .cons ⟨w.attrs, out, by rw [← ht, hf], rfl, rfl⟩ h7⟩
          · rw [h5, ht]
            simp
          · intro X f hX
            rw [h6 f hX]
            have := hX w.params w.attrs b
            rw [← ht, hf] at this
            exact this

/-- Whether an event is a step of the optimizer. -/
def TrainEvent.isStep : TrainEvent D → Bool
  | .step => true
  | _ => false

theorem runEpoch_ok {net : Net P G S O D} {w w' : TrainState P G S O D} {train valid : List (List D)}
    {r : EpochResult} (h : runEpoch net w train valid = (.ok r, w')) :
    ∃ (ls : List (Option ℝ)) (w1 : TrainState P G S O D)
      (rs : List (Option ℝ × (Fin 6 → Option ℝ))),
      trainLoop net { w with training := true } train = (.ok ls, w1) ∧
      validLoop net { w1 with training := false } valid = (.ok rs, w') ∧
      r = ⟨meanOpt ls, meanOpt (rs.map (·.1)), fun k => meanOpt (rs.map fun x => x.2 k)⟩ := by
  unfold runEpoch at h
  split at h
  · cases h
  · rename_i ls w1 h1
    split at h
    · cases h
    · rename_i rs w2 h2
      cases h
      exact ⟨ls, w1, rs, h1, h2, rfl⟩

theorem trainSingleEpoch_ok {net : Net P G S O D} {shuffle : List D → List D}
    {w w' : TrainState P G S O D} {trainingSet validationSet : List D} {batchSize : ℤ}
    {r : EpochResult}
    (h : trainSingleEpoch net shuffle w trainingSet validationSet batchSize = (.ok r, w')) :
    0 < batchSize ∧ trainingSet ≠ [] ∧ validationSet ≠ [] ∧ ∃ train valid,
      Spec.Batching (shuffle trainingSet) batchSize.toNat train ∧
      Spec.Batching validationSet (min 100 validationSet.length) valid ∧
      runEpoch net w train valid = (.ok r, w') := by
  unfold trainSingleEpoch at h
  cases h1 : shuffledLoader shuffle trainingSet batchSize with
  | error e => rw [h1] at h; cases h
  | ok train =>
    rw [h1] at h
    dsimp only at h
    cases h2 : loader validationSet (min 100 (validationSet.length : ℤ)) with
    | error e => rw [h2] at h; cases h
    | ok valid =>
      rw [h2] at h
      unfold shuffledLoader at h1
      split_ifs at h1 with hl
      obtain ⟨hb, hbt⟩ := loader_ok h1
      obtain ⟨hv, hbv⟩ := loader_ok h2
      refine ⟨hb, by simpa using hl, ?_, train, valid, hbt, ?_, h⟩
      · rintro rfl
        simp at hv
      · have : (min 100 (validationSet.length : ℤ)).toNat = min 100 validationSet.length := by omega
        rw [this] at hbv
        exact hbv

/-- C88: an epoch that ends normally processes the (shuffled) training set in batches of the given
size, doing for each batch exactly one forward pass in training mode, one backward pass, one step of
the optimizer and one clearing of the gradients; then it only does forward passes in evaluation mode
over the validation set.  Thus there are `⌈n / batch_size⌉` steps.  Parameters and optimizer are those
reached by the descent over the training batches, the gradients are cleared, the model is in
evaluation mode, and attributes that forward passes in evaluation mode do not change are as after the
training batches. -/
theorem C88_epoch (net : Net P G S O D) (shuffle : List D → List D)
    (hsh : ∀ l, (shuffle l).Perm l) (w w' : TrainState P G S O D)
    (trainingSet validationSet : List D) (batchSize : ℤ) (r : EpochResult)
    (h : trainSingleEpoch net shuffle w trainingSet validationSet batchSize = (.ok r, w')) :
    ∃ (train valid : List (List D)) (losses : List (Option ℝ)) (s1 : S),
      Spec.Batching (shuffle trainingSet) batchSize.toNat train ∧
      Spec.Batching validationSet (min 100 validationSet.length) valid ∧
      w'.log = w.log ++ train.flatMap trainEvents ++ valid.map (.forward false) ∧
      Descent net w.params w.grads w.attrs w.opt train losses w'.params s1 w'.opt ∧
      ((w'.log.countP TrainEvent.isStep : ℤ) =
        w.log.countP TrainEvent.isStep + (trainingSet.length + batchSize - 1) / batchSize) ∧
      w'.grads = none ∧ w'.training = false ∧
      (∀ {X : Type} (f : S → X), (∀ p s b, f (net.forward p s false b).2 = f s) →
        f w'.attrs = f s1) := by
  obtain ⟨hb, hne, -, train, valid, hbt, hbv, hrun⟩ := trainSingleEpoch_ok h
  obtain ⟨ls, w1, rs, h1, h2, -⟩ := runEpoch_ok hrun
  obtain ⟨t1, t2, t3, -⟩ := trainLoop_ok net train _ w1 ls rfl h1
  obtain ⟨v1, v2, v3, v4, v5, v6, -⟩ := validLoop_ok net valid _ w' rs rfl h2
  dsimp only at t1 t2 v1 v2 v3 v5 v6
  have htrain : train ≠ [] := by
    rintro rfl
    have := hbt.join
    rw [List.flatten_nil] at this
    have hp := (hsh trainingSet)
    rw [← this] at hp
    exact hne hp.nil_eq.symm
  have hlog : w'.log = w.log ++ train.flatMap trainEvents ++ valid.map (.forward false) := by
    rw [v5, t2]
  refine ⟨train, valid, ls, w1.attrs, hbt, hbv, hlog, by rw [v1, v3]; exact t1, ?_,
    by rw [v2, t3 htrain], v4, v6⟩
  rw [hlog, List.countP_append, List.countP_append]
  have hsteps : (train.flatMap trainEvents).countP TrainEvent.isStep = train.length := by
    clear * -
    induction train with
    | nil => rfl
    | cons b bs ih =>
      rw [List.flatMap_cons, List.countP_append, ih, List.length_cons]
      simp [trainEvents, TrainEvent.isStep, List.countP_cons]
      omega
  have hvalid : (valid.map (TrainEvent.forward false)).countP TrainEvent.isStep = 0 := by
    rw [List.countP_eq_zero]
    intro e he
    obtain ⟨b, -, rfl⟩ := List.mem_map.1 he
    simp [TrainEvent.isStep]
  rw [hsteps, hvalid, batching_length (by omega) hbt, (hsh trainingSet).length_eq]
  obtain ⟨k, rfl⟩ : ∃ k : ℕ, batchSize = k := ⟨batchSize.toNat, by omega⟩
  have hk : 0 < k := by omega
  have : (trainingSet.length : ℤ) + k - 1 = ((trainingSet.length + k - 1 : ℕ) : ℤ) := by
    omega
  rw [this, Int.toNat_natCast]
  push_cast
  ring

/-- C88: an epoch is refused with a ValueError, before anything is changed, iff the batch size is not
positive or one of the sets is empty; otherwise it ends normally if no forward pass fails. -/
theorem C88_refused (net : Net P G S O D) (shuffle : List D → List D) (w : TrainState P G S O D)
    (trainingSet validationSet : List D) (batchSize : ℤ) :
    (batchSize ≤ 0 ∨ trainingSet = [] ∨ validationSet = [] →
      trainSingleEpoch net shuffle w trainingSet validationSet batchSize = (.error .valueError, w)) ∧
    (¬ (batchSize ≤ 0 ∨ trainingSet = [] ∨ validationSet = []) →
      (∀ p s t b, ∃ out, (net.forward p s t b).1 = .ok out) →
      ∃ r, (trainSingleEpoch net shuffle w trainingSet validationSet batchSize).1 = .ok r) := by
  constructor
  · intro h
    unfold trainSingleEpoch
    by_cases ht : trainingSet = []
    · subst ht
      have : shuffledLoader shuffle [] batchSize = .error .valueError := rfl
      rw [this]
    by_cases hb : batchSize ≤ 0
    · have : shuffledLoader shuffle trainingSet batchSize = .error .valueError := by
        unfold shuffledLoader loader
        rw [if_neg (by simpa using ht), if_pos hb]
      rw [this]
    · have hv : validationSet = [] := (h.resolve_left hb).resolve_left ht
      subst hv
      have : shuffledLoader shuffle trainingSet batchSize =
          .ok (samplerBatches batchSize.toNat [] (shuffle trainingSet)) := by
        unfold shuffledLoader loader
        rw [if_neg (by simpa using ht), if_neg hb]
      rw [this]
      rfl
  · intro h hf
    push Not at h
    obtain ⟨hb, ht, hv⟩ := h
    have htrain : ∀ (bs : List (List D)) (w : TrainState P G S O D),
        ∃ ls, (trainLoop net w bs).1 = .ok ls := by
      intro bs
      induction bs with
      | nil => exact fun w => ⟨[], rfl⟩
      | cons b bs ih =>
        intro w
        obtain ⟨out, hout⟩ := hf w.params w.attrs w.training b
        unfold trainLoop
        have : w.forward net b = (.ok out, (w.forward net b).2) := by
          unfold TrainState.forward
          rw [hout]
        rw [this]
        dsimp only
        obtain ⟨ls, hls⟩ := ih ((((w.forward net b).2.backward net (net.gradient w.params w.attrs b)).step
          net).zeroGrad)
        split
        · rename_i e w'' hw
          rw [hw] at hls
          cases hls
        · exact ⟨_, rfl⟩
    have hvalid : ∀ (bs : List (List D)) (w : TrainState P G S O D),
        ∃ ls, (validLoop net w bs).1 = .ok ls := by
      intro bs
      induction bs with
      | nil => exact fun w => ⟨[], rfl⟩
      | cons b bs ih =>
        intro w
        obtain ⟨out, hout⟩ := hf w.params w.attrs w.training b
        unfold validLoop
        have : w.forward net b = (.ok out, (w.forward net b).2) := by
          unfold TrainState.forward
          rw [hout]
        rw [this]
        dsimp only
        obtain ⟨ls, hls⟩ := ih (w.forward net b).2
        split
        · rename_i e w'' hw
          rw [hw] at hls
          cases hls
        · exact ⟨_, rfl⟩
    unfold trainSingleEpoch
    have h1 : shuffledLoader shuffle trainingSet batchSize =
        .ok (samplerBatches batchSize.toNat [] (shuffle trainingSet)) := by
      unfold shuffledLoader loader
      rw [if_neg (by simpa using ht), if_neg (by omega)]
    have hvl : 0 < validationSet.length := List.length_pos_iff.2 hv
    have h2 : loader validationSet (min 100 (validationSet.length : ℤ)) =
        .ok (samplerBatches (min 100 (validationSet.length : ℤ)).toNat [] validationSet) := by
      unfold loader
      rw [if_neg (by omega)]
    rw [h1]
    dsimp only
    rw [h2]
    dsimp only
    unfold runEpoch
    split
    · rename_i e w1 hw1
      obtain ⟨ls, hls⟩ := htrain (samplerBatches batchSize.toNat [] (shuffle trainingSet))
        { w with training := true }
      rw [hw1] at hls
      cases hls
    · rename_i ls w1 hw1
      split
      · rename_i e w2 hw2
        obtain ⟨rs, hrs⟩ := hvalid (samplerBatches (min 100 (validationSet.length : ℤ)).toNat []
          validationSet) { w1 with training := false }
        rw [hw2] at hrs
        cases hrs
      · exact ⟨_, rfl⟩

/-! ## C99 -/

theorem meanOpt_some {xs : List ℝ} (h : xs ≠ []) : meanOpt (xs.map some) = some (Spec.mean xs) := by
  unfold meanOpt
  rw [if_neg]
  · congr 1
    rw [List.map_map, List.length_map, Spec.mean]
    congr 2
    exact List.map_id'' (fun x => rfl) xs
  · rintro (h' | h')
    · simp at h'
    · exact h (by simpa using h')

theorem meanOpt_none {l : List (Option ℝ)} (h : none ∈ l) : meanOpt l = none := by
  unfold meanOpt
  rw [if_pos (Or.inl h)]

/-- Sum over all samples of losses that are batch means of equally large batches. -/
theorem sum_of_means (f : D → ℝ) (b : ℕ) (hb : 0 < b) (bs : List (List D))
    (h : ∀ x ∈ bs, x.length = b) :
    (bs.map fun x => Spec.mean (x.map f)).sum = (bs.flatten.map f).sum / b := by
  have hb' : (b : ℝ) ≠ 0 := by exact_mod_cast hb.ne'
  induction bs with
  | nil => simp
  | cons x xs ih =>
    rw [List.map_cons, List.sum_cons, ih fun y hy => h y (by simp [hy]), List.flatten_cons,
      List.map_append, List.sum_append, Spec.mean, List.length_map, h x (by simp)]
    field_simp

theorem sum_lengths (b : ℕ) (bs : List (List D)) (h : ∀ x ∈ bs, x.length = b) :
    bs.flatten.length = bs.length * b := by
  induction bs with
  | nil => simp
  | cons x xs ih =>
    rw [List.flatten_cons, List.length_append, ih fun y hy => h y (by simp [hy]), h x (by simp),
      List.length_cons]
    ring

/-- All batches are full if the batch size divides the number of samples. -/
theorem batching_full {l : List D} {b : ℕ} {bs : List (List D)}
    (h : Spec.Batching l b bs) (hd : b ∣ l.length) : ∀ x ∈ bs, x.length = b := by
  rcases List.eq_nil_or_concat bs with rfl | ⟨init, last, rfl⟩
  · simp
  · have hfull : ∀ x ∈ init, x.length = b := fun x hx => h.full x (by simpa using hx)
    have h1 := List.length_pos_iff.2 (h.nonempty last (by simp))
    have h2 := h.size last (by simp)
    have hlen : l.length = init.length * b + last.length := by
      rw [← h.join, List.concat_eq_append, List.flatten_append, List.length_append,
        List.flatten_singleton, sum_lengths b init hfull]
    have hdl : b ∣ last.length := by
      rw [hlen] at hd
      exact (Nat.dvd_add_right (Dvd.intro_left _ rfl)).1 hd
    intro x hx
    rw [List.concat_eq_append] at hx
    rcases List.mem_append.1 hx with hx | hx
    · exact hfull x hx
    · rw [List.mem_singleton.1 hx]
      exact le_antisymm h2 (Nat.le_of_dvd h1 hdl)

/-- C99: if the loss of a batch is the mean of losses of its samples (which do not depend on the
batch), the reported validation loss is the mean over the validation set when this has at most 100
samples or a multiple of 100. -/
theorem C99_validation_loss (net : Net P G S O D) (shuffle : List D → List D)
    (w w' : TrainState P G S O D) (trainingSet validationSet : List D) (batchSize : ℤ)
    (r : EpochResult) (sampleLoss : P → D → ℝ)
    (hloss : ∀ p s b out, (net.forward p s false b).1 = .ok out →
      net.loss out b = some (Spec.mean (b.map (sampleLoss p))))
    (hn : validationSet.length ≤ 100 ∨ 100 ∣ validationSet.length)
    (h : trainSingleEpoch net shuffle w trainingSet validationSet batchSize = (.ok r, w')) :
    r.validLoss = some (Spec.mean (validationSet.map (sampleLoss w'.params))) := by
  obtain ⟨-, -, hv, train, valid, -, hbv, hrun⟩ := trainSingleEpoch_ok h
  obtain ⟨ls, w1, rs, -, h2, rfl⟩ := runEpoch_ok hrun
  obtain ⟨v1, -, -, -, -, -, v7⟩ := validLoop_ok net valid _ w' rs rfl h2
  dsimp only at v1 v7
  have hvl : 0 < validationSet.length := List.length_pos_iff.2 hv
  have hfull := batching_full hbv (by
    rcases hn with hn | hn
    · rw [min_eq_right hn]
    · rw [min_eq_left (Nat.le_of_dvd hvl hn)]
      exact hn)
  have hb : 0 < min 100 validationSet.length := by omega
  have hrs : rs.map (·.1) = (valid.map fun b => Spec.mean (b.map (sampleLoss w1.params))).map some := by
    clear * - v7 hloss
    induction v7 with
    | nil => rfl
    | cons hbr _ ih =>
      obtain ⟨s, out, ho, hl, -⟩ := hbr
      rw [List.map_cons, List.map_cons, List.map_cons, ih, hl, hloss _ _ _ _ ho]
  have hne : valid ≠ [] := by
    rintro rfl
    exact hv hbv.join.symm
  dsimp only
  rw [hrs, meanOpt_some (by simpa using hne), v1, Spec.mean, sum_of_means _ _ hb _ hfull, hbv.join,
    List.length_map, Spec.mean, List.length_map]
  have hlen : validationSet.length = valid.length * min 100 validationSet.length := by
    conv_lhs => rw [← hbv.join]
    exact sum_lengths _ _ hfull
  congr 1
  rw [div_div]
  congr 1
  rw [mul_comm]
  exact_mod_cast hlen.symm

/-- C99: the variance reported for a validation set whose size is one more than a multiple of 100 is
NaN, because the last batch has one sample. -/
theorem C99_variance_nan (net : Net P G S O D) (shuffle : List D → List D)
    (w w' : TrainState P G S O D) (trainingSet validationSet : List D) (batchSize : ℤ)
    (r : EpochResult)
    (hout : ∀ p s t b out, (net.forward p s t b).1 = .ok out → out.length = b.length)
    (hn : validationSet.length % 100 = 1)
    (h : trainSingleEpoch net shuffle w trainingSet validationSet batchSize = (.ok r, w')) :
    ∀ k, r.variance k = none := by
  intro k
  obtain ⟨-, -, hv, train, valid, -, hbv, hrun⟩ := trainSingleEpoch_ok h
  obtain ⟨ls, w1, rs, -, h2, rfl⟩ := runEpoch_ok hrun
  obtain ⟨-, -, -, -, -, -, v7⟩ := validLoop_ok net valid _ w' rs rfl h2
  dsimp only at v7
  have hone : ∃ b ∈ valid, b.length = 1 := by
    rcases List.eq_nil_or_concat valid with rfl | ⟨init, last, rfl⟩
    · exact absurd hbv.join.symm hv
    · have hfull : ∀ x ∈ init, x.length = min 100 validationSet.length :=
        fun x hx => hbv.full x (by simpa using hx)
      have hl1 := List.length_pos_iff.2 (hbv.nonempty last (by simp))
      have hl2 := hbv.size last (by simp)
      have hlen : validationSet.length = init.length * min 100 validationSet.length + last.length := by
        conv_lhs => rw [← hbv.join]
        rw [List.concat_eq_append, List.flatten_append, List.length_append,
          List.flatten_singleton, sum_lengths _ init hfull]
      refine ⟨last, by simp, ?_⟩
      rcases le_total validationSet.length 100 with hle | hge
      · have : validationSet.length = 1 := by omega
        rw [min_eq_right hle, this] at hl2
        omega
      · rw [min_eq_left hge] at hlen hl2
        omega
  obtain ⟨b, hb, hb1⟩ := hone
  have hmem : ∃ x ∈ rs, x.2 k = none := by
    clear * - v7 hb hb1 hout
    induction v7 with
    | nil => simp at hb
    | cons hbr _ ih =>
      rcases List.mem_cons.1 hb with rfl | hb
      · obtain ⟨s, out, ho, -, hvar⟩ := hbr
        refine ⟨_, List.mem_cons_self, ?_⟩
        rw [hvar]
        unfold varComponent
        rw [if_pos (Or.inr (by rw [hout _ _ _ _ _ ho, hb1]))]
      · obtain ⟨x, hx, hxn⟩ := ih hb
        exact ⟨x, List.mem_cons_of_mem _ hx, hxn⟩
  obtain ⟨x, hx, hxn⟩ := hmem
  exact meanOpt_none (List.mem_map.2 ⟨x, hx, hxn⟩)

/-- C99: otherwise, if the predictions are finite, the reported variances are means over the
validation batches of the unbiased variances of the predictions in the batch. -/
theorem C99_variance (net : Net P G S O D) (shuffle : List D → List D)
    (w w' : TrainState P G S O D) (trainingSet validationSet : List D) (batchSize : ℤ)
    (r : EpochResult) (predict : P → D → Fin 6 → ℝ)
    (hout : ∀ p s b out, (net.forward p s false b).1 = .ok out →
      out = b.map fun x => some (predict p x))
    (hn : validationSet.length % 100 ≠ 1)
    (h : trainSingleEpoch net shuffle w trainingSet validationSet batchSize = (.ok r, w')) :
    ∃ valid : List (List D), Spec.Batching validationSet (min 100 validationSet.length) valid ∧
      ∀ k, r.variance k = some (Spec.mean (valid.map fun b =>
        Spec.sampleVariance (b.map fun x => predict w'.params x k))) := by
  obtain ⟨-, -, hv, train, valid, -, hbv, hrun⟩ := trainSingleEpoch_ok h
  obtain ⟨ls, w1, rs, -, h2, rfl⟩ := runEpoch_ok hrun
  obtain ⟨v1, -, -, -, -, -, v7⟩ := validLoop_ok net valid _ w' rs rfl h2
  dsimp only at v1 v7
  have hvl : 0 < validationSet.length := List.length_pos_iff.2 hv
  have htwo : ∀ b ∈ valid, 2 ≤ b.length := by
    rcases List.eq_nil_or_concat valid with rfl | ⟨init, last, rfl⟩
    · simp
    · have hfull : ∀ x ∈ init, x.length = min 100 validationSet.length :=
        fun x hx => hbv.full x (by simpa using hx)
      have hl1 := List.length_pos_iff.2 (hbv.nonempty last (by simp))
      have hl2 := hbv.size last (by simp)
      have hlen : validationSet.length = init.length * min 100 validationSet.length + last.length := by
        conv_lhs => rw [← hbv.join]
        rw [List.concat_eq_append, List.flatten_append, List.length_append,
          List.flatten_singleton, sum_lengths _ init hfull]
      have hm : 2 ≤ min 100 validationSet.length := by omega
      intro b hb
      rw [List.concat_eq_append] at hb
      rcases List.mem_append.1 hb with hb | hb
      · rw [hfull b hb]; exact hm
      · rw [List.mem_singleton.1 hb]
        rcases le_total validationSet.length 100 with hle | hge
        · rw [min_eq_right hle] at hlen hl2
          cases init with
          | nil => simp at hlen; omega
          | cons x xs =>
            rw [List.length_cons] at hlen
            have : (xs.length + 1) * validationSet.length ≥ validationSet.length := by
              nlinarith
            omega
        · rw [min_eq_left hge] at hlen hl2
          omega
  refine ⟨valid, hbv, fun k => ?_⟩
  have hrs : rs.map (fun x => x.2 k) = (valid.map fun b =>
      Spec.sampleVariance (b.map fun x => predict w1.params x k)).map some := by
    clear * - v7 hout htwo
    induction v7 with
    | nil => rfl
    | cons hbr _ ih =>
      rename_i b x bs xs _
      obtain ⟨s, out, ho, -, hvar⟩ := hbr
      rw [List.map_cons, List.map_cons, List.map_cons, ih fun y hy => htwo y (by simp [hy]), hvar]
      congr 1
      have hb2 := htwo b (by simp)
      rw [hout _ _ _ _ ho]
      unfold varComponent
      rw [if_neg]
      · dsimp only
        rw [List.map_map]
        congr 1
        simp only [Spec.sampleVariance, Spec.mean, List.length_map, List.map_map]
        rfl
      · rintro (h | h)
        · simp at h
        · rw [List.length_map] at h
          omega
  have hne : valid ≠ [] := by
    rintro rfl
    exact hv hbv.join.symm
  dsimp only
  rw [hrs, meanOpt_some (by simpa using hne), v1]

/-! ### Concrete training -/

/-- A network with one parameter predicting it for every sample; the loss is the mean squared error,
the optimizer is gradient descent with rate 1/2, the attribute counts forward passes in training
mode. -/
noncomputable def sampleNet : Net ℝ ℝ ℕ Unit ℝ where
  forward := fun p s t b => (.ok (b.map fun _ => some fun _ => p), if t then s + 1 else s)
  loss := fun out b => some (Spec.mean (List.zipWith (fun o x => ((o.getD 0) 0 - x) ^ 2) out b))
  gradient := fun p _ b => 2 * Spec.mean (b.map fun x => p - x)
  accumulate := fun g g' => g + g'
  step := fun p g o => (p - (g.getD 0) / 2, o)

/-- State before training, with a stale gradient. -/
def sampleTrainState : TrainState ℝ ℝ ℕ Unit ℝ := ⟨0, some 8, 0, (), false, []⟩

/-- C88, concrete: three samples in batches of two are two steps; the stale gradient enters the first
step only. -/
example : ∃ r w', trainSingleEpoch sampleNet id sampleTrainState [1, 3, 5] [2, 4] 2 = (.ok r, w') ∧
    w'.params = 5 ∧ w'.attrs = 2 ∧ w'.grads = none ∧ w'.training = false ∧
    w'.log = [.forward true [1, 3], .backward, .step, .zeroGrad, .forward true [5], .backward, .step,
      .zeroGrad, .forward false [2, 4]] := by
  have hs1 : samplerBatches 2 [] [(1 : ℝ), 3, 5] = [[1, 3], [5]] := by simp [samplerBatches]
  have hs2 : samplerBatches 2 [] [(2 : ℝ), 4] = [[2, 4]] := by simp [samplerBatches]
  have h1 : shuffledLoader id [(1 : ℝ), 3, 5] 2 = .ok [[1, 3], [5]] := by
    unfold shuffledLoader loader
    rw [if_neg (by simp), if_neg (by norm_num)]
    exact congrArg _ hs1
  have h2 : loader [(2 : ℝ), 4] (min 100 (([(2 : ℝ), 4].length : ℕ) : ℤ)) = .ok [[2, 4]] := by
    unfold loader
    rw [if_neg (by simp)]
    exact congrArg _ hs2
  unfold trainSingleEpoch
  rw [h1]
  dsimp only
  rw [h2]
  refine ⟨_, _, rfl, ?_, rfl, rfl, rfl, rfl⟩
  simp [sampleNet, sampleTrainState, TrainState.backward, TrainState.step,
    TrainState.zeroGrad, Spec.mean]

/-- C99, concrete: the hypotheses on the network hold for the sample network. -/
example : (∀ p s b out, (sampleNet.forward p s false b).1 = .ok out →
      out = b.map fun _ => some fun _ => p) ∧
    ∀ p s b out, (sampleNet.forward p s false b).1 = .ok out →
      sampleNet.loss out b = some (Spec.mean (b.map fun x => (p - x) ^ 2)) := by
  constructor
  · intro p s b out h
    exact (Except.ok.inj h).symm
  · intro p s b out h
    rw [← Except.ok.inj h]
    simp only [sampleNet]
    congr 2
    clear h
    induction b with
    | nil => rfl
    | cons x xs ih =>
      rw [List.map_cons, List.zipWith_cons_cons, List.map_cons, ih]
      rfl

/-- C99: for other sizes of the validation set the reported loss need not be the mean over the set:
101 samples, of which the last has loss 1 and the others 0. -/
theorem C99_loss_counterexample :
    ∃ r w', trainSingleEpoch sampleNet id ⟨0, none, 0, (), false, []⟩ [0]
        (List.replicate 100 0 ++ [1]) 1 = (.ok r, w') ∧
      r.validLoss = some (1 / 2) ∧
      Spec.mean ((List.replicate 100 (0 : ℝ) ++ [1]).map fun x => (w'.params - x) ^ 2) = 1 / 101 := by
  have hfill : ∀ k acc, acc.length + k < 100 → ∀ l : List ℝ,
      samplerBatches 100 acc (List.replicate k 0 ++ l) =
        samplerBatches 100 (acc ++ List.replicate k 0) l := by
    intro k
    induction k with
    | zero => intro acc _ l; simp
    | succ k ih =>
      intro acc hlt l
      rw [List.replicate_succ, List.cons_append, samplerBatches, if_neg (by simp; omega),
        ih _ (by simp; omega)]
      simp [List.replicate_succ]
  have hs : samplerBatches 100 [] (List.replicate 100 (0 : ℝ) ++ [1]) =
      [List.replicate 100 0, [1]] := by
    have h100 : List.replicate 100 (0 : ℝ) = List.replicate 99 0 ++ [0] := by
      rw [show (100 : ℕ) = 99 + 1 from rfl, List.replicate_succ']
    rw [h100, List.append_assoc, hfill 99 [] (by simp), List.nil_append, List.singleton_append,
      samplerBatches, if_pos (by rw [← h100, List.length_replicate]), ← h100]
    simp [samplerBatches]
  have h1 : shuffledLoader id [(0 : ℝ)] 1 = .ok [[0]] := by
    unfold shuffledLoader loader
    rw [if_neg (by simp), if_neg (by norm_num)]
    simp [samplerBatches]
  have h2 : loader (List.replicate 100 (0 : ℝ) ++ [1])
      (min 100 ((List.replicate 100 (0 : ℝ) ++ [1]).length : ℤ)) = .ok [List.replicate 100 0, [1]] := by
    have : min 100 (((List.replicate 100 (0 : ℝ) ++ [1]).length : ℕ) : ℤ) = 100 := by
      rw [List.length_append, List.length_replicate]
      simp
    rw [this]
    unfold loader
    rw [if_neg (by norm_num)]
    exact congrArg _ hs
  have hp : ∀ x : ℝ, x = 0 → Spec.mean ((List.replicate 100 (0 : ℝ) ++ [1]).map
      fun y => (x - y) ^ 2) = 1 / 101 := by
    rintro x rfl
    rw [Spec.mean, List.map_append, List.map_replicate, List.sum_append, List.sum_replicate,
      List.length_append, List.length_replicate]
    norm_num
  unfold trainSingleEpoch
  rw [h1]
  dsimp only
  rw [h2]
  have hz : ∀ k : ℕ, List.zipWith (fun (o : Option (Fin 6 → ℝ)) (x : ℝ) => ((o.getD 0) 0 - x) ^ 2)
      (List.replicate k (some fun _ => 0)) (List.replicate k 0) = List.replicate k 0 := by
    intro k
    rw [List.zipWith_replicate]
    simp
  have hzero : (0 : ℝ) - 2 * Spec.mean ([(0 : ℝ)].map fun x => 0 - x) / 2 = 0 := by
    simp [Spec.mean]
  refine ⟨_, _, rfl, ?_, ?_⟩
  · have hm : ∀ l : List ℝ, l = [0, 1] → meanOpt (l.map some) = some (1 / 2) := by
      rintro l rfl
      rw [meanOpt_some (by simp), Spec.mean]
      norm_num
    refine (hm [Spec.mean (List.zipWith (fun (o : Option (Fin 6 → ℝ)) (x : ℝ) => ((o.getD 0) 0 - x) ^ 2)
      ((List.replicate 100 (0 : ℝ)).map fun _ => some fun _ => 0 - 2 * Spec.mean ([(0 : ℝ)].map
        fun x => 0 - x) / 2) (List.replicate 100 0)),
      Spec.mean (List.zipWith (fun (o : Option (Fin 6 → ℝ)) (x : ℝ) => ((o.getD 0) 0 - x) ^ 2)
      ([(1 : ℝ)].map fun _ => some fun _ => 0 - 2 * Spec.mean ([(0 : ℝ)].map
        fun x => 0 - x) / 2) [1])] ?_)
    rw [hzero, List.map_replicate, hz]
    simp [Spec.mean]
  · exact hp (0 - 2 * Spec.mean ([(0 : ℝ)].map fun x => 0 - x) / 2) hzero

end Verif
