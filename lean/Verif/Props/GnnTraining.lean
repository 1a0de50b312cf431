import Verif.Model.GnnTrain
import Verif.Props.GnnFormula
import Verif.Props.GnnRelabel
import Verif.Props.Train

/-!
# C132: the network in training mode
-/

namespace Verif

variable {dn de n T : ℕ}

/-! ## Statistics of a batch -/

theorem colMean_eq {d : ℕ} (xs : List (Row d)) (k : Fin d) :
    colMean xs k = Spec.mean (xs.map fun x => x k) := by
  unfold colMean Spec.mean
  rw [List.length_map]

theorem colVar_eq {d : ℕ} (xs : List (Row d)) (k : Fin d) :
    colVar xs k = Spec.variance (xs.map fun x => x k) := by
  unfold colVar Spec.variance Spec.mean
  rw [List.map_map, List.length_map, List.length_map, colMean_eq]
  unfold Spec.mean
  rw [List.length_map]
  rfl

theorem sum_map_affine (a b : ℝ) (l : List ℝ) :
    (l.map fun x => a * x + b).sum = a * l.sum + l.length * b := by
  induction l with
  | nil => simp
  | cons x l ih =>
    rw [List.map_cons, List.sum_cons, ih, List.sum_cons, List.length_cons]
    push_cast
    ring

theorem mean_affine (a b : ℝ) {l : List ℝ} (hl : l ≠ []) :
    Spec.mean (l.map fun x => a * x + b) = a * Spec.mean l + b := by
  have : (l.length : ℝ) ≠ 0 := by
    exact_mod_cast (List.length_pos_of_ne_nil hl).ne'
  unfold Spec.mean
  rw [sum_map_affine, List.length_map]
  field_simp

theorem variance_affine (a b : ℝ) {l : List ℝ} (hl : l ≠ []) :
    Spec.variance (l.map fun x => a * x + b) = a ^ 2 * Spec.variance l := by
  unfold Spec.variance
  rw [mean_affine a b hl, List.map_map]
  have h1 := mean_affine (a ^ 2) 0 (l := l.map fun x => (x - Spec.mean l) ^ 2) (by simpa using hl)
  rw [List.map_map, add_zero] at h1
  rw [← h1]
  congr 1
  apply List.map_congr_left
  intro x _
  simp only [Function.comp]
  ring

theorem variance_nonneg (l : List ℝ) : 0 ≤ Spec.variance l := by
  unfold Spec.variance Spec.mean
  apply div_nonneg _ (by positivity)
  apply List.sum_nonneg
  intro x hx
  obtain ⟨y, -, rfl⟩ := List.mem_map.1 hx
  positivity

theorem sampleVariance_nonneg {l : List ℝ} (h : l ≠ []) : 0 ≤ Spec.sampleVariance l := by
  unfold Spec.sampleVariance
  apply div_nonneg
  · apply List.sum_nonneg
    intro x hx
    obtain ⟨y, -, rfl⟩ := List.mem_map.1 hx
    positivity
  · have : (1 : ℝ) ≤ l.length := by exact_mod_cast List.length_pos_of_ne_nil h
    linarith

theorem unbiased_eq {d : ℕ} (xs : List (Row d)) (h : xs ≠ []) (k : Fin d) :
    colVar xs k * (xs.length / (xs.length - 1)) = Spec.sampleVariance (xs.map fun x => x k) := by
  have : (xs.length : ℝ) ≠ 0 := by exact_mod_cast (List.length_pos_of_ne_nil h).ne'
  unfold colVar Spec.sampleVariance
  rw [List.map_map, List.length_map, colMean_eq]
  change _ = (List.map (fun x => (x k - _) ^ 2) xs).sum / _
  field_simp

/-- C132: in training mode the normalisation layer gives a batch of at least two rows, in every
channel, the offset as mean and `w² v / (v + 1e-5)` as variance, where `w` is the gain and `v` the
variance of the channel in the batch; the running mean and variance move by a tenth towards the mean
and the unbiased variance of the batch, gain and offset stay. -/
theorem C132_layer {d : ℕ} (l : BatchNorm d) (xs : List (Row d)) (h : 2 ≤ xs.length) :
    ∃ ys l', l.train xs = .ok (ys, l') ∧ ys.length = xs.length ∧
      (∀ k, Spec.mean (ys.map fun y => y k) = l.bias k ∧
        Spec.variance (ys.map fun y => y k) = l.weight k ^ 2 *
          (Spec.variance (xs.map fun x => x k) / (Spec.variance (xs.map fun x => x k) + 1 / 100000)) ∧
        l'.runningMean k = l.runningMean k +
          (Spec.mean (xs.map fun x => x k) - l.runningMean k) / 10 ∧
        l'.runningVar k = l.runningVar k +
          (Spec.sampleVariance (xs.map fun x => x k) - l.runningVar k) / 10) ∧
      l'.weight = l.weight ∧ l'.bias = l.bias := by
  have hne : xs ≠ [] := by rintro rfl; simp at h
  refine ⟨xs.map (l.withStats (colMean xs) (colVar xs)).eval, l.track xs, ?_, by simp, ?_, rfl, rfl⟩
  · unfold BatchNorm.train
    rw [if_neg (by omega), if_neg hne]
  · intro k
    have hv : 0 < Spec.variance (xs.map fun x => x k) + 1 / 100000 := by
      have := variance_nonneg (xs.map fun x => x k)
      positivity
    have hs : Real.sqrt (Spec.variance (xs.map fun x => x k) + 1 / 100000) ≠ 0 :=
      (Real.sqrt_pos.2 hv).ne'
    have hcol : (xs.map (l.withStats (colMean xs) (colVar xs)).eval).map (fun y => y k) =
        (xs.map fun x => x k).map fun x =>
          (l.weight k / Real.sqrt (Spec.variance (xs.map fun x => x k) + 1 / 100000)) * x +
          (l.bias k - l.weight k / Real.sqrt (Spec.variance (xs.map fun x => x k) + 1 / 100000) *
            Spec.mean (xs.map fun x => x k)) := by
      rw [List.map_map, List.map_map]
      apply List.map_congr_left
      intro x _
      simp only [Function.comp, BatchNorm.eval, BatchNorm.withStats]
      rw [colMean_eq, colVar_eq, show (10 : ℝ) ^ 5 = 100000 by norm_num]
      field_simp
      ring
    have hne' : (xs.map fun x => x k) ≠ [] := by simpa using hne
    refine ⟨?_, ?_, ?_, ?_⟩
    · rw [hcol, mean_affine _ _ hne']
      ring
    · rw [hcol, variance_affine _ _ hne', div_pow, Real.sq_sqrt hv.le]
      ring
    · simp only [BatchNorm.track, BatchNorm.withStats]
      rw [colMean_eq]
      ring
    · simp only [BatchNorm.track, BatchNorm.withStats]
      rw [unbiased_eq xs hne]
      ring

/-- C132: a batch with a single row is refused. -/
theorem C132_single {d : ℕ} (l : BatchNorm d) (x : Row d) : l.train [x] = .error .valueError := rfl

/-- C132, concrete: two rows with the values 1 and 3. -/
example : ∃ ys l', (⟨fun _ => 2, fun _ => 5, fun _ => 0, fun _ => 1⟩ : BatchNorm 1).train
      [fun _ => 1, fun _ => 3] = .ok (ys, l') ∧
    Spec.mean (ys.map fun y => y 0) = 5 ∧ l'.runningMean 0 = 1 / 5 ∧ l'.runningVar 0 = 11 / 10 := by
  obtain ⟨ys, l', h1, -, h2, -⟩ := C132_layer
    (⟨fun _ => 2, fun _ => 5, fun _ => 0, fun _ => 1⟩ : BatchNorm 1) [fun _ => 1, fun _ => 3] (by simp)
  obtain ⟨h3, -, h4, h5⟩ := h2 0
  refine ⟨ys, l', h1, h3, ?_, ?_⟩
  · rw [h4]; norm_num [Spec.mean]
  · rw [h5]; norm_num [Spec.sampleVariance, Spec.mean]

/-! ## The network -/

/-- Output layers with the statistics of the rows of a batch. -/
noncomputable def PotGNN.batchHead (m : PotGNN dn de) (rows : List (Fin de → ℝ)) (y : Fin de → ℝ) :
    Fin 12 → ℝ :=
  Spec.affine (Matrix.of m.headLinear3.weight) m.headLinear3.bias fun k =>
    Spec.softplus0 (Spec.affine (Matrix.of m.headLinear2.weight) m.headLinear2.bias (fun j =>
      Spec.softplus0 (m.headNorm.weight j *
        ((Spec.affine (Matrix.of m.headLinear1.weight) m.headLinear1.bias y j -
          Spec.mean (rows.map fun x => x j)) /
            Real.sqrt (Spec.variance (rows.map fun x => x j) + 1 / 100000)) +
        m.headNorm.bias j)) k)

/-- The network with other running statistics. -/
def PotGNN.frozen (m : PotGNN dn de) (mean var : Row de) : PotGNN dn de :=
  { m with headNorm := m.headNorm.withStats mean var }

theorem frozen_head (m : PotGNN dn de) (rows : List (Row de)) :
    (m.frozen (colMean rows) (colVar rows)).headOf = m.batchHead rows := by
  funext y
  unfold PotGNN.headOf PotGNN.batchHead
  simp only [PotGNN.frozen, BatchNorm.withStats, colMean_eq, colVar_eq]

/-- Edge features of the whole batch after message passing. -/
theorem batch_embedding {m : PotGNN dn de} {ref : Triplets} (hm : m.Fits n ref)
    {G : Spec.Wiring (Fin n) (Fin m.refEdges.length) (Fin T)} (hG : ref.Describes G)
    (samples : List (GSample n))
    (f : GSample n → Fin n → Fin dn → ℝ) (hf : ∀ x ∈ samples, m.NodeFeatures x.numbers (f x))
    (u : GSample n → Fin m.refEdges.length → Fin 3 → ℝ) (r : GSample n → Fin m.refEdges.length → ℝ)
    (h : ∀ x ∈ samples, m.EdgeGeometry x (u x) (r x)) :
    ∃ edges nodes, m.prepare samples = .ok (edges, nodes) ∧
      messagePassing (ref.copies n m.refEdges.length samples.length) m.blocks nodes
        (edges.map fun e => m.filter.apply e.distance) =
      .ok (samples.flatMap fun x => List.ofFn
        (Spec.embed G (m.blocks.map roundOf) (f x) (m.edgeFeatures (r x)))) := by
  refine ⟨blocks samples.length (fun s => (onSample samples (edges1 m) s).map (relabel n s)),
    blocks samples.length (onSample samples fun x => List.ofFn (f x)), ?_, ?_⟩
  rotate_left 1
  · rw [← blocks_onSample, map_blocks]
    apply messagePassing_blocks hm.triplets m.blocks
    · intro s hs
      rw [onSample_lt hs, List.length_ofFn]
    · intro s hs
      rw [List.length_map, List.length_map, onSample_lt hs, (edges1_spec m hm.edges _).2.1]
    · intro s hs
      rw [onSample_lt hs, onSample_lt hs, onSample_lt hs, List.map_map]
      have hg := edges_geometry hm.edges (h _ (List.getElem_mem hs))
      have := congrArg (List.map fun p : Option (Fin 3 → ℝ) × ℝ => m.filter.apply p.2) hg
      rw [List.map_map, List.map_ofFn] at this
      rw [← messagePassing_formula hG]
      congr 1
  · unfold PotGNN.prepare
    rw [batchGraph_blocks m hm.edges]
    dsimp only [bind, Except.bind]
    have : (batchNumbers samples).mapM m.embedAtom =
        .ok (blocks samples.length (onSample samples fun x => List.ofFn (f x))) := by
      unfold batchNumbers
      rw [← blocks_onSample]
      apply mapM_blocks_ok
      intro s hs
      rw [onSample_lt hs, onSample_lt hs]
      exact nodeFeatures_embed (hf _ (List.getElem_mem hs))
    rw [this]
    rfl

/-- Inputs of the normalisation layer for the edges of all samples of a batch. -/
noncomputable def PotGNN.batchRows (m : PotGNN dn de) {E : ℕ}
    (G : Spec.Wiring (Fin n) (Fin E) (Fin T))
    (samples : List (GSample n)) (f : GSample n → Fin n → Fin dn → ℝ)
    (r : GSample n → Fin E → ℝ) : List (Fin de → ℝ) :=
  samples.flatMap fun x => List.ofFn fun e =>
    Spec.affine (Matrix.of m.headLinear1.weight) m.headLinear1.bias
      (Spec.embed G (m.blocks.map roundOf) (f x) (m.edgeFeatures (r x)) e)

theorem batchRows_eq (m : PotGNN dn de) {E : ℕ} (G : Spec.Wiring (Fin n) (Fin E) (Fin T))
    (samples : List (GSample n)) (f : GSample n → Fin n → Fin dn → ℝ) (r : GSample n → Fin E → ℝ) :
    (samples.flatMap fun x => List.ofFn
      (Spec.embed G (m.blocks.map roundOf) (f x) (m.edgeFeatures (r x)))).map m.headLinear1.apply =
    m.batchRows G samples f r := by
  unfold PotGNN.batchRows
  rw [List.map_flatMap]
  congr 1
  funext x
  rw [List.map_ofFn]
  congr 1

/-- C132: in training mode the prediction for a sample is given by the textbook formula with the
statistics of the whole batch: mean and variance, over the edges of all samples, of the inputs of
the normalisation layer.  Afterwards the running statistics have moved a tenth of the way towards
those of the batch, and nothing else in the network has changed. -/
theorem C132_formula {m : PotGNN dn de} {ref : Triplets} (hm : m.Fits n ref) {st : GnnState}
    (hst : st.triplets.Ready ref n m.refEdges.length)
    {G : Spec.Wiring (Fin n) (Fin m.refEdges.length) (Fin T)} (hG : ref.Describes G)
    (samples : List (GSample n)) (htwo : 2 ≤ samples.length * m.refEdges.length)
    (f : GSample n → Fin n → Fin dn → ℝ) (hf : ∀ x ∈ samples, m.NodeFeatures x.numbers (f x))
    (u : GSample n → Fin m.refEdges.length → Fin 3 → ℝ) (r : GSample n → Fin m.refEdges.length → ℝ)
    (h : ∀ x ∈ samples, m.EdgeGeometry x (u x) (r x)) :
    (m.trainForward st samples).1 = .ok (samples.map fun x => some
      (Spec.predict G (m.blocks.map roundOf) (m.batchHead (m.batchRows G samples f r)) (f x)
        (m.edgeFeatures (r x)) (u x))) ∧
    (∀ k, (m.trainForward st samples).2.1.headNorm.runningMean k = m.headNorm.runningMean k +
        (Spec.mean ((m.batchRows G samples f r).map fun x => x k) - m.headNorm.runningMean k) / 10 ∧
      (m.trainForward st samples).2.1.headNorm.runningVar k = m.headNorm.runningVar k +
        (Spec.sampleVariance ((m.batchRows G samples f r).map fun x => x k) -
          m.headNorm.runningVar k) / 10) ∧
    (∃ mean var, (m.trainForward st samples).2.1 =
      { m with headNorm := ⟨m.headNorm.weight, m.headNorm.bias, mean, var⟩ }) ∧
    (m.trainForward st samples).2.2.training = st.training ∧
    (m.trainForward st samples).2.2.triplets.Ready ref n m.refEdges.length := by
  obtain ⟨edges, nodes, hprep, hmp⟩ := batch_embedding hm hG samples f hf u r h
  have hget := hst.get samples.length
  have hlen : (m.batchRows G samples f r).length = samples.length * m.refEdges.length := by
    unfold PotGNN.batchRows
    rw [List.length_flatMap]
    simp
  have hne : m.batchRows G samples f r ≠ [] := by
    intro h0
    rw [h0] at hlen
    simp only [List.length_nil] at hlen
    omega
  -- evaluation of the network with the statistics of the batch
  have hm' : (m.frozen (colMean (m.batchRows G samples f r))
      (colVar (m.batchRows G samples f r))).Fits n ref := ⟨hm.edges, hm.triplets⟩
  have hev := C126_formula (m := m.frozen (colMean (m.batchRows G samples f r))
      (colVar (m.batchRows G samples f r))) (st := ⟨false, st.triplets⟩)
    hm' ⟨rfl, hst⟩ hG
    (by
      intro h0
      have h0' : m.refEdges = [] := h0
      rw [h0'] at htwo
      simp at htwo)
    samples f hf u r h
  rw [frozen_head] at hev
  have hprep' : (m.frozen (colMean (m.batchRows G samples f r))
      (colVar (m.batchRows G samples f r))).prepare samples = .ok (edges, nodes) := hprep
  unfold PotGNN.forward at hev
  rw [hprep'] at hev
  dsimp only at hev
  rw [hget.1] at hev
  unfold PotGNN.forwardFrom at hev
  have hmp' : messagePassing (ref.copies n m.refEdges.length samples.length)
      (m.frozen (colMean (m.batchRows G samples f r)) (colVar (m.batchRows G samples f r))).blocks nodes
      (edges.map fun e => (m.frozen (colMean (m.batchRows G samples f r))
        (colVar (m.batchRows G samples f r))).filter.apply e.distance) = _ := hmp
  rw [hmp'] at hev
  dsimp only [bind, Except.bind, PotGNN.head] at hev
  rw [if_neg (by simp)] at hev
  dsimp only [pure, Except.pure] at hev
  have hhead : m.trainHead (samples.flatMap fun x => List.ofFn
      (Spec.embed G (m.blocks.map roundOf) (f x) (m.edgeFeatures (r x)))) =
      .ok ((samples.flatMap fun x => List.ofFn
        (Spec.embed G (m.blocks.map roundOf) (f x) (m.edgeFeatures (r x)))).map
          (m.frozen (colMean (m.batchRows G samples f r)) (colVar (m.batchRows G samples f r))).headRow,
        m.headNorm.track (m.batchRows G samples f r)) := by
    unfold PotGNN.trainHead BatchNorm.train
    rw [batchRows_eq, if_neg (by omega), if_neg hne]
    change Except.ok _ = Except.ok _
    rw [List.map_map, ← batchRows_eq, List.map_map]
    rfl
  have htf : m.trainForward st samples =
      (.ok ((List.range samples.length).map (isolate edges (List.zipWith
        (fun x e => edgePolarizability x e.unit) ((samples.flatMap fun x => List.ofFn
          (Spec.embed G (m.blocks.map roundOf) (f x) (m.edgeFeatures (r x)))).map
          (m.frozen (colMean (m.batchRows G samples f r)) (colVar (m.batchRows G samples f r))).headRow)
        edges))), { m with headNorm := m.headNorm.track (m.batchRows G samples f r) },
        { st with triplets := (st.triplets.getTriplets samples.length).2 }) := by
    unfold PotGNN.trainForward
    rw [hprep]
    dsimp only
    rw [hget.1, hmp]
    dsimp only
    rw [hhead]
  rw [htf]
  refine ⟨hev, ?_, ⟨_, _, rfl⟩, rfl, hget.2.1⟩
  intro k
  simp only [BatchNorm.track, BatchNorm.withStats]
  rw [colMean_eq, unbiased_eq _ hne]
  constructor <;> ring

/-- C132: without any edge there is nothing to average: a pass in either mode succeeds, every
prediction is NaN and the network is unchanged. -/
theorem C132_no_edges {m : PotGNN dn de} {ref : Triplets} (hm : m.Fits n ref) {st : GnnState}
    (hst : st.triplets.Ready ref n m.refEdges.length)
    {G : Spec.Wiring (Fin n) (Fin m.refEdges.length) (Fin T)} (hG : ref.Describes G)
    (hno : m.refEdges = []) (samples : List (GSample n))
    (f : GSample n → Fin n → Fin dn → ℝ) (hf : ∀ x ∈ samples, m.NodeFeatures x.numbers (f x)) :
    (m.run st samples).1 = .ok (samples.map fun _ => none) ∧ (m.run st samples).2.1 = m := by
  have hE : IsEmpty (Fin m.refEdges.length) := by rw [hno]; exact Fin.isEmpty
  obtain ⟨edges, nodes, hprep, hmp⟩ := batch_embedding hm hG samples f hf
    (fun _ e => hE.elim e) (fun _ e => hE.elim e) (fun _ _ e => hE.elim e)
  have hnil : (samples.flatMap fun x => List.ofFn (Spec.embed G (m.blocks.map roundOf) (f x)
      (m.edgeFeatures fun e => hE.elim e))) = [] := by
    rw [List.flatMap_eq_nil_iff]
    intro x _
    exact List.eq_nil_of_length_eq_zero (by rw [List.length_ofFn, hno]; rfl)
  rw [hnil] at hmp
  have hiso : ∀ s, isolate edges [] s = none := by
    intro s
    have hed : edges = [] := by
      unfold PotGNN.prepare at hprep
      rw [batchGraph_blocks m hm.edges] at hprep
      obtain ⟨ed, h1, h2⟩ := (bind_ok_iff _ _ _).1 hprep
      obtain rfl := Except.ok.inj h1
      obtain ⟨nd, -, h2⟩ := (bind_ok_iff _ _ _).1 h2
      obtain ⟨rfl, -⟩ := Prod.mk.inj (Except.ok.inj h2)
      unfold blocks
      rw [List.flatMap_eq_nil_iff]
      intro s hs
      rw [onSample_lt (List.mem_range.1 hs)]
      exact List.eq_nil_of_length_eq_zero (by
        rw [List.length_map, (edges1_spec m hm.edges _).2.1, hno]; rfl)
    rw [hed]; rfl
  have hget := hst.get samples.length
  have hmap : (List.range samples.length).map (isolate edges []) = samples.map fun _ => none := by
    rw [List.map_congr_left fun s _ => hiso s]
    simp
  unfold PotGNN.run
  split_ifs with htr
  · unfold PotGNN.trainForward
    rw [hprep]
    dsimp only
    rw [hget.1, hmp]
    dsimp only [PotGNN.trainHead, BatchNorm.train]
    simp only [List.map_nil, List.length_nil, OfNat.zero_ne_ofNat, zero_ne_one, if_false, if_true]
    refine ⟨congrArg Except.ok hmap, rfl⟩
  · refine ⟨?_, rfl⟩
    unfold PotGNN.forward
    rw [hprep]
    dsimp only
    rw [hget.1]
    unfold PotGNN.forwardFrom PotGNN.head
    rw [hmp]
    dsimp only [bind, Except.bind]
    rw [if_neg htr]
    exact congrArg Except.ok hmap

/-- C132: if the batch has a single edge altogether the pass is refused and the network is
unchanged. -/
theorem C132_single_edge {m : PotGNN dn de} {ref : Triplets} (hm : m.Fits n ref) {st : GnnState}
    (hst : st.triplets.Ready ref n m.refEdges.length) (x : GSample n)
    (hone : m.refEdges.length = 1) (hk : ∀ a, m.Knows (x.numbers a)) :
    (m.trainForward st [x]).1 = .error .valueError ∧ (m.trainForward st [x]).2.1 = m := by
  have hget := hst.get 1
  obtain ⟨nodes, hn⟩ := embedAll_ok (m := m) (l := (List.finRange n).map x.numbers) (by
    intro z hz
    obtain ⟨a, -, rfl⟩ := List.mem_map.1 hz
    exact hk a)
  obtain ⟨h1, h2, -, -⟩ := edges1_spec m hm.edges x
  have hprep : m.prepare [x] = .ok (edges1 m x, nodes) := by
    unfold PotGNN.prepare
    rw [h1]
    dsimp only [bind, Except.bind]
    have : batchNumbers [x] = (List.finRange n).map x.numbers := by
      unfold batchNumbers
      simp
    rw [this, hn]
    rfl
  obtain ⟨emb, h3, h4⟩ := messagePassing_total hm.triplets m.blocks
    (nodes := nodes) (by rw [embed_length hn]; simp)
    (edges := (edges1 m x).map fun e => m.filter.apply e.distance) (by rw [List.length_map, h2])
  have hh : m.trainHead emb = .error .valueError := by
    unfold PotGNN.trainHead BatchNorm.train
    rw [if_pos (by rw [List.length_map, h4, hone])]
    rfl
  unfold PotGNN.trainForward
  rw [hprep]
  dsimp only [List.length_singleton]
  rw [hget.1, copies_one, h3]
  dsimp only
  rw [hh]
  exact ⟨rfl, rfl⟩

/-- C132: a reference graph with a single edge does not occur if the lattice vectors are orthogonal,
or no two atoms differ by a half in some coordinate (it occurs otherwise, `C82_asymmetric`). -/
theorem C132_not_single {a : GnnArgs} {dimenet : List (ℕ × ℕ) → ℕ → Triplets}
    {setOrder : List ℕ → List ℕ} {lattice : Mat3 ℝ} {numbers : Fin n → ℕ} {positions : Pos n ℝ}
    {s : GnnSetup} (hs : a.setup dimenet setOrder lattice numbers positions = .ok s)
    (h : (∀ x y i, ¬ Spec.SameImage (positions y i - positions x i) (1 / 2)) ∨
      Spec.OrthogonalRows lattice) : s.refEdges.length ≠ 1 := by
  intro hone
  obtain ⟨⟨i, j⟩, he⟩ := List.length_eq_one_iff.1 hone
  obtain ⟨x, y, hxy, rfl, rfl, hr⟩ := (setup_edges hs i j).1 (by rw [he]; simp)
  rw [C82_symmetric lattice positions x y a.cutoff (h.imp (fun h => h x y) id)] at hr
  have := (setup_edges hs y.1 x.1).2 ⟨y, x, hxy.symm, rfl, rfl, hr⟩
  rw [he, List.mem_singleton, Prod.mk.injEq] at this
  exact hxy (Fin.ext this.2)

/-- The training branch of `PotGNN.forward` agrees with `PotGNN.trainForward` if the external
function in it is the modelled one. -/
theorem forward_training {m : PotGNN dn de} (hm : m.headTrain = fun xs => (m.trainHead xs).map Prod.fst)
    {st : GnnState} (hst : st.training = true) (samples : List (GSample n)) :
    m.forward st samples = ((m.trainForward st samples).1, (m.trainForward st samples).2.2) := by
  unfold PotGNN.forward PotGNN.trainForward
  cases m.prepare samples with
  | error e => rfl
  | ok r =>
    obtain ⟨edges, nodes⟩ := r
    dsimp only
    unfold PotGNN.forwardFrom PotGNN.head
    rw [hst]
    cases hmp : messagePassing (st.triplets.getTriplets samples.length).1 m.blocks nodes
        (edges.map fun e => m.filter.apply e.distance) with
    | error e => rfl
    | ok emb =>
      dsimp only [bind, Except.bind]
      rw [if_pos rfl, hm]
      dsimp only
      cases m.trainHead emb with
      | error e => rfl
      | ok q => rfl

/-! ## Predictions in training mode depend on the batch -/

/-- A network for two atoms without message passing, whose output is a multiple of the identity. -/
noncomputable def plainGnn : PotGNN 1 1 where
  atomTypeMap := [-1, 0]
  refEdges := [(0, 1), (1, 0)]
  embedding := [fun _ => 1]
  nodeLinear1 := constLinear 0
  nodeLinear2 := constLinear 0
  filter := ⟨-1, ![0]⟩
  blocks := []
  headLinear1 := ⟨fun _ _ => 1, 0⟩
  headNorm := ⟨1, 0, 0, 1⟩
  headLinear2 := ⟨fun _ _ => 1, 0⟩
  headLinear3 := ⟨fun _ _ => 1, 0⟩
  headTrain := fun _ => .error .unmodelled
  mean := 0
  stddev := 1

theorem plainGnn_fits : plainGnn.Fits 2 pairTriplets where
  edges := by
    intro e he
    simp only [plainGnn, List.mem_cons, List.not_mem_nil, or_false] at he
    rcases he with rfl | rfl <;> decide
  triplets := pairTriplets_valid

theorem plainGnn_geometry {x : ℝ} (h0 : 0 < x) (h1 : x < 1 / 2) :
    plainGnn.EdgeGeometry (pairSample x) ![![1, 0, 0], ![-1, 0, 0]] ![x, x] := by
  intro e
  change Fin 2 at e
  fin_cases e
  · refine ⟨0, 1, rfl, ![x, 0, 0], ⟨![x, 0, 0], ?_, ?_⟩, ⟨?_, x, h0, ?_⟩, ?_⟩
    · intro i
      fin_cases i
      · exact ⟨⟨0, by simp [pairSample]⟩, by
          unfold Spec.InHalfBox
          simp
          constructor <;> linarith⟩
      · exact ⟨⟨0, by simp [pairSample]⟩, by unfold Spec.InHalfBox; simp⟩
      · exact ⟨⟨0, by simp [pairSample]⟩, by unfold Spec.InHalfBox; simp⟩
    · intro j
      fin_cases j <;> simp [pairSample, Fin.sum_univ_three]
    · simp [Fin.sum_univ_three]
    · intro j
      fin_cases j <;> simp
    · simp [Fin.sum_univ_three, Real.sqrt_sq h0.le]
  · refine ⟨1, 0, rfl, ![-x, 0, 0], ⟨![-x, 0, 0], ?_, ?_⟩, ⟨?_, x, h0, ?_⟩, ?_⟩
    · intro i
      fin_cases i
      · exact ⟨⟨0, by simp [pairSample]⟩, by
          unfold Spec.InHalfBox
          simp
          constructor <;> linarith⟩
      · exact ⟨⟨0, by simp [pairSample]⟩, by unfold Spec.InHalfBox; simp⟩
      · exact ⟨⟨0, by simp [pairSample]⟩, by unfold Spec.InHalfBox; simp⟩
    · intro j
      fin_cases j <;> simp [pairSample, Fin.sum_univ_three]
    · simp [Fin.sum_univ_three]
    · intro j
      fin_cases j <;> simp
    · simp [Fin.sum_univ_three, Real.sqrt_sq h0.le]

/-- State of a new network in training mode. -/
def trainState : GnnState := ⟨true, .new (fun _ _ => pairTriplets) 2 [(0, 1), (1, 0)]⟩

theorem trainState_ready : trainState.triplets.Ready pairTriplets 2 2 :=
  BatchTriplets.new_ready (fun _ _ => pairTriplets) 2 [(0, 1), (1, 0)] pairTriplets_valid

theorem plainGnn_knows (a : Fin 2) (x : ℝ) : plainGnn.Knows ((pairSample x).numbers a) :=
  ⟨0, rfl, by simp [plainGnn]⟩

/-- C132, concrete: a pass of two far atoms in training mode. -/
example : ∃ st : GnnState, st.training = true ∧
    (({ plainGnn with refEdges := [] } : PotGNN 1 1).run st [pairSample (1 / 4)]).1 = .ok [none] := by
  have hv : (⟨[], [], [], [], [], [], []⟩ : Triplets).Valid 2 0 :=
    ⟨rfl, rfl, rfl, rfl, rfl, rfl, by intro x; simp, by intro x; simp⟩
  refine ⟨⟨true, .new (fun _ _ => ⟨[], [], [], [], [], [], []⟩) 2 []⟩, rfl, ?_⟩
  obtain ⟨f, hf⟩ := knows_features (m := ({ plainGnn with refEdges := [] } : PotGNN 1 1))
    (fun a => plainGnn_knows a 0)
  exact (C132_no_edges (T := 0) (G := ⟨Fin.elim0, Fin.elim0, Fin.elim0, Fin.elim0, Fin.elim0, Fin.elim0,
    Fin.elim0⟩) ⟨(by intro e he; cases he), hv⟩ (BatchTriplets.new_ready
      (fun _ _ => (⟨[], [], [], [], [], [], []⟩ : Triplets)) 2 [] hv)
    ⟨by decide, by decide, rfl, rfl, rfl, rfl, rfl⟩ rfl [pairSample (1 / 4)] (fun _ => f) (by
      intro x hx
      obtain rfl := List.mem_singleton.1 hx
      exact hf)).1

/-- Value of the network for a normalised input. -/
noncomputable def plainValue (z : ℝ) : ℝ := Spec.softplus0 (Spec.softplus0 z)

theorem plainValue_zero (z : ℝ) : plainValue z = 0 ↔ z = 0 := by
  have key : ∀ z : ℝ, Spec.softplus0 z = 0 ↔ z = 0 := by
    intro z
    obtain ⟨h1, h2, -, h4⟩ := C125_softplus z 0
    obtain ⟨-, -, -, h5⟩ := C125_softplus 0 z
    rw [← h1]
    constructor
    · intro h
      rcases lt_trichotomy z 0 with hz | hz | hz
      · have := h4 hz; linarith
      · exact hz
      · have := h5 hz; linarith
    · rintro rfl
      exact h2
  unfold plainValue
  rw [key, key]

theorem plainGnn_head (rows : List (Fin 1 → ℝ)) (y : Fin 1 → ℝ) (i : Fin 12) :
    plainGnn.batchHead rows y i = plainValue ((y 0 - Spec.mean (rows.map fun x => x 0)) /
      Real.sqrt (Spec.variance (rows.map fun x => x 0) + 1 / 100000)) := by
  unfold PotGNN.batchHead Spec.affine plainValue
  simp [plainGnn, Matrix.mulVec, dotProduct]

theorem edgeTensor_const (c : ℝ) {u : Fin 3 → ℝ} :
    Spec.edgeTensor (fun _ => c) u = ![c, c, c, 0, 0, 0] := by
  unfold Spec.edgeTensor Spec.axial
  simp

/-- Lengths of the edges of a sample. -/
noncomputable def pairLength (x : GSample 2) : Fin 2 → ℝ := fun _ => x.positions 1 0

theorem plain_predict {xs : List ℝ} (hx : ∀ x ∈ xs, 0 < x ∧ x < 1 / 2) (hne : xs ≠ []) :
    ∃ rows : List (Fin 1 → ℝ),
      rows.map (fun v => v 0) = xs.flatMap (fun x => [Real.exp (-x ^ 2), Real.exp (-x ^ 2)]) ∧
      (plainGnn.trainForward trainState (xs.map pairSample)).1 = .ok (xs.map fun x => some
        (fun k : Fin 6 => plainValue ((Real.exp (-x ^ 2) - Spec.mean (rows.map fun v => v 0)) /
          Real.sqrt (Spec.variance (rows.map fun v => v 0) + 1 / 100000)) * ![1, 1, 1, 0, 0, 0] k)) := by
  obtain ⟨f, hf⟩ := knows_features (m := plainGnn) (fun a => plainGnn_knows a 0)
  have hg : ∀ s ∈ xs.map pairSample, plainGnn.EdgeGeometry s ![![1, 0, 0], ![-1, 0, 0]]
      (pairLength s) := by
    intro s hs
    obtain ⟨x, hx', rfl⟩ := List.mem_map.1 hs
    have := plainGnn_geometry (hx x hx').1 (hx x hx').2
    have he : pairLength (pairSample x) = ![x, x] := by
      funext e
      fin_cases e <;> simp [pairLength, pairSample]
    rw [he]
    exact this
  have h := (C132_formula plainGnn_fits trainState_ready pairWiring_describes (xs.map pairSample)
    (by
      have := List.length_pos_of_ne_nil hne
      rw [List.length_map]
      change 2 ≤ xs.length * 2
      omega)
    (fun _ => f) (by
      intro s hs
      obtain ⟨x, -, rfl⟩ := List.mem_map.1 hs
      exact hf)
    (fun _ => ![![1, 0, 0], ![-1, 0, 0]]) pairLength hg).1
  refine ⟨plainGnn.batchRows pairWiring (xs.map pairSample) (fun _ => f) pairLength, ?_, ?_⟩
  · unfold PotGNN.batchRows
    rw [List.flatMap_map, List.map_flatMap]
    congr 1
    funext x
    have hb : plainGnn.blocks = [] := rfl
    rw [hb]
    simp [Spec.embed, Spec.affine, plainGnn, Matrix.mulVec, dotProduct, PotGNN.edgeFeatures, pairLength,
      pairSample]
  · rw [h, List.map_map]
    congr 1
    apply List.map_congr_left
    intro x _
    simp only [Function.comp]
    congr 1
    funext k
    unfold Spec.predict
    have hb : plainGnn.blocks = [] := rfl
    have hy : ∀ e : Fin 2, (Spec.embed pairWiring (plainGnn.blocks.map roundOf) f
        (plainGnn.edgeFeatures (pairLength (pairSample x))) e) 0 = Real.exp (-x ^ 2) := by
      intro e
      rw [hb]
      simp [Spec.embed, PotGNN.edgeFeatures, plainGnn, pairLength, pairSample]
    have hh : ∀ e : Fin 2, plainGnn.batchHead
        (plainGnn.batchRows pairWiring (xs.map pairSample) (fun _ => f) pairLength)
        (Spec.embed pairWiring (plainGnn.blocks.map roundOf) f
          (plainGnn.edgeFeatures (pairLength (pairSample x))) e) = fun _ => plainValue
          ((Real.exp (-x ^ 2) - Spec.mean ((plainGnn.batchRows pairWiring (xs.map pairSample)
            (fun _ => f) pairLength).map fun v => v 0)) /
          Real.sqrt (Spec.variance ((plainGnn.batchRows pairWiring (xs.map pairSample)
            (fun _ => f) pairLength).map fun v => v 0) + 1 / 100000)) := by
      intro e
      funext i
      rw [plainGnn_head, hy e]
    have h2 : ∀ F : Fin plainGnn.refEdges.length → ℝ, ∑ e, F e = F (0 : Fin 2) + F (1 : Fin 2) :=
      fun F => Fin.sum_univ_two F
    have hc : ((Fintype.card (Fin plainGnn.refEdges.length) : ℕ) : ℝ) = 2 := by
      rw [Fintype.card_fin]; norm_num [plainGnn]
    rw [h2, hc]
    erw [hh 0]
    rw [edgeTensor_const, edgeTensor_const]
    fin_cases k <;> simp

/-- C132, negation of batch independence: in training mode the prediction for a structure is
another one if it is alone in the batch than if another structure is in the batch (in evaluation
mode it is the same, C84). -/
theorem C132_batch_dependence :
    ∃ p q r, (plainGnn.trainForward trainState [pairSample (1 / 4)]).1 = .ok [some p] ∧
      (plainGnn.trainForward trainState [pairSample (1 / 4), pairSample (1 / 8)]).1 =
        .ok [some q, some r] ∧ p ≠ q := by
  obtain ⟨rows, h1, h2⟩ := plain_predict (xs := [1 / 4]) (by norm_num) (by simp)
  obtain ⟨rows', h1', h2'⟩ := plain_predict (xs := [1 / 4, 1 / 8])
    (by simp; norm_num) (by simp)
  rw [h1] at h2
  rw [h1'] at h2'
  refine ⟨_, _, _, h2, h2', ?_⟩
  intro h
  have h0 := congrFun h 0
  simp only [List.flatMap_cons, List.flatMap_nil, List.append_nil, List.cons_append, List.nil_append,
    Matrix.cons_val_zero, mul_one] at h0
  have ea : Real.exp (-(1 / 4 : ℝ) ^ 2) ≠ Real.exp (-(1 / 8 : ℝ) ^ 2) := by
    intro h
    have := Real.exp_injective h
    norm_num at this
  generalize Real.exp (-(1 / 4 : ℝ) ^ 2) = a at *
  generalize Real.exp (-(1 / 8 : ℝ) ^ 2) = b at *
  have hm1 : Spec.mean [a, a] = a := by simp [Spec.mean]
  have hm2 : Spec.mean [a, a, b, b] = (a + b) / 2 := by simp [Spec.mean]; ring
  rw [hm1, hm2, sub_self, zero_div] at h0
  rw [(plainValue_zero 0).2 rfl] at h0
  have h3 := (plainValue_zero _).1 h0.symm
  have hv : 0 < Spec.variance [a, a, b, b] + 1 / 100000 := by
    have := variance_nonneg [a, a, b, b]
    positivity
  rw [div_eq_zero_iff] at h3
  rcases h3 with h3 | h3
  · exact ea (by linarith)
  · exact (Real.sqrt_pos.2 hv).ne' h3

/-! ## Running statistics -/

/-- C132: the running statistics after any number of batches with at least two rows are averages
with weights decreasing by a tenth per batch. -/
theorem C132_running {d : ℕ} (l : BatchNorm d) (batches : List (List (Row d)))
    (h : ∀ xs ∈ batches, xs ≠ []) (k : Fin d) :
    (batches.foldl BatchNorm.track l).runningMean k =
      (9 / 10) ^ batches.length * l.runningMean k + ∑ i : Fin batches.length,
        1 / 10 * (9 / 10) ^ (batches.length - 1 - i) *
          Spec.mean ((batches[i]).map fun x => x k) ∧
    (batches.foldl BatchNorm.track l).runningVar k =
      (9 / 10) ^ batches.length * l.runningVar k + ∑ i : Fin batches.length,
        1 / 10 * (9 / 10) ^ (batches.length - 1 - i) *
          Spec.sampleVariance ((batches[i]).map fun x => x k) := by
  induction batches generalizing l with
  | nil => simp
  | cons xs bs ih =>
    obtain ⟨h1, h2⟩ := ih (l.track xs) fun ys hys => h ys (by simp [hys])
    rw [List.foldl_cons, h1, h2]
    have hs : ∀ F : List (Row d) → ℝ,
        (∑ i : Fin (xs :: bs).length, 1 / 10 * (9 / 10 : ℝ) ^ ((xs :: bs).length - 1 - i.1) *
          F ((xs :: bs)[i])) = 1 / 10 * (9 / 10) ^ bs.length * F xs +
        ∑ i : Fin bs.length, 1 / 10 * (9 / 10) ^ (bs.length - 1 - i.1) * F bs[i] := by
      intro F
      change (∑ i : Fin (bs.length + 1), _) = _
      rw [Fin.sum_univ_succ]
      congr 1
      apply Finset.sum_congr rfl
      intro i _
      have he : (xs :: bs).length - 1 - (Fin.succ i).1 = bs.length - 1 - i.1 := by
        simp
        omega
      rw [he]
      rfl
    rw [hs fun ys => Spec.mean (ys.map fun x => x k),
      hs fun ys => Spec.sampleVariance (ys.map fun x => x k)]
    simp only [BatchNorm.track, BatchNorm.withStats]
    rw [colMean_eq, unbiased_eq xs (h xs (by simp)), List.length_cons, pow_succ]
    constructor <;> ring

/-- C132, concrete: two batches. -/
example : ([[fun _ => 1, fun _ => 3], [fun _ => 5, fun _ => 5]].foldl BatchNorm.track
    (⟨fun _ => 2, fun _ => 5, fun _ => 0, fun _ => 1⟩ : BatchNorm 1)).runningMean 0 = 68 / 100 := by
  rw [(C132_running _ _ (by simp) 0).1]
  simp [Spec.mean, Fin.sum_univ_two]
  norm_num

/-! ## Training -/

theorem trainForward_stats {m : PotGNN dn de} {st : GnnState} {samples : List (GSample n)} :
    (∃ xs, xs ≠ [] ∧ (m.trainForward st samples).2.1.headNorm = m.headNorm.track xs) ∨
    (m.trainForward st samples).2.1.headNorm = m.headNorm := by
  unfold PotGNN.trainForward
  cases m.prepare samples with
  | error e => exact .inr rfl
  | ok r =>
    obtain ⟨edges, nodes⟩ := r
    dsimp only
    cases messagePassing (st.triplets.getTriplets samples.length).1 m.blocks nodes
        (edges.map fun e => m.filter.apply e.distance) with
    | error e => exact .inr rfl
    | ok emb =>
      dsimp only
      unfold PotGNN.trainHead BatchNorm.train
      split_ifs with h1 h2
      · exact .inr rfl
      · exact .inr rfl
      · exact .inl ⟨_, h2, rfl⟩

theorem track_nonneg {d : ℕ} (l : BatchNorm d) {xs : List (Row d)} (h : xs ≠ [])
    (hl : ∀ k, 0 ≤ l.runningVar k) : ∀ k, 0 ≤ (l.track xs).runningVar k := by
  intro k
  simp only [BatchNorm.track, BatchNorm.withStats]
  rw [unbiased_eq xs h]
  have h1 := hl k
  have h2 := sampleVariance_nonneg (l := xs.map fun x => x k) (by simpa using h)
  positivity

/-- C132: whatever data, loss, gradients and optimizer are, an epoch of training keeps all running
variances nonnegative, so that the evaluation mode never takes the root of a number that is not
positive; validation does not change the running statistics: they are those after the last training
batch. -/
theorem C132_epoch {G O : Type} (loss : Predictions → List (GSample n × (Fin 6 → ℝ)) → Option ℝ)
    (gradient : PotGNN dn de → GnnBuffers de → List (GSample n × (Fin 6 → ℝ)) → G)
    (accumulate : G → G → G) (step : PotGNN dn de → Option G → O → PotGNN dn de × O)
    (shuffle : List (GSample n × (Fin 6 → ℝ)) → List (GSample n × (Fin 6 → ℝ)))
    (hsh : ∀ l, (shuffle l).Perm l)
    (w w' : TrainState (PotGNN dn de) G (GnnBuffers de) O (GSample n × (Fin 6 → ℝ)))
    (trainingSet validationSet : List (GSample n × (Fin 6 → ℝ))) (batchSize : ℤ) (r : EpochResult)
    (h : trainSingleEpoch (gnnNet loss gradient accumulate step) shuffle w trainingSet validationSet
      batchSize = (.ok r, w'))
    (hw : ∀ k, 0 ≤ w.attrs.runningVar k) :
    (∀ k, 0 < w'.attrs.runningVar k + 1 / 100000) ∧ (∀ k, 0 ≤ w'.attrs.runningVar k) ∧
    ∃ train losses s1, Spec.Batching (shuffle trainingSet) batchSize.toNat train ∧
      Descent (gnnNet loss gradient accumulate step) w.params w.grads w.attrs w.opt train losses
        w'.params s1 w'.opt ∧
      w'.attrs.runningMean = s1.runningMean ∧ w'.attrs.runningVar = s1.runningVar := by
  obtain ⟨train, valid, losses, s1, h1, -, -, h2, -, -, -, h3⟩ :=
    C88_epoch _ shuffle hsh w w' trainingSet validationSet batchSize r h
  have hstat := h3 (fun s => (s.runningMean, s.runningVar)) (by
    intro p s b
    rfl)
  obtain ⟨hsm, hsv⟩ := Prod.mk.injEq .. ▸ hstat
  have hd : ∀ {p g s o bs ls p' s' o'},
      Descent (gnnNet (n := n) loss gradient accumulate step) p g s o bs ls p' s' o' →
      (∀ k, 0 ≤ s.runningVar k) → ∀ k, 0 ≤ s'.runningVar k := by
    intro p g s o bs ls p' s' o' hd
    induction hd with
    | nil => exact id
    | cons hf hstep hrest ih =>
      intro h0
      apply ih
      rename_i p1 _ s2 _ b _ _ s3 _ _ _ _ _ _
      have hs3 := congrArg Prod.snd hf
      simp only [gnnNet, PotGNN.run, if_true, buffersOf] at hs3
      rw [← hs3]
      have h0' : ∀ k, 0 ≤ (p1.withBuffers s2).headNorm.runningVar k := h0
      rcases trainForward_stats (m := p1.withBuffers s2) (st := ⟨true, s2.triplets⟩)
        (samples := b.map (·.1)) with ⟨xs, hne, hx⟩ | hx
      · intro k
        dsimp only
        rw [hx]
        exact track_nonneg _ hne h0' k
      · intro k
        dsimp only
        rw [hx]
        exact h0' k
  have hv := hd h2 hw
  rw [← hsv] at hv
  exact ⟨fun k => by have := hv k; positivity, hv, train, losses, s1, h1, h2, hsm, hsv⟩

end Verif
