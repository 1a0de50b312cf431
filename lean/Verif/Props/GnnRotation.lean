import Verif.Props.GnnFormula

/-!
# C129: rotated structures
-/

namespace Verif

variable {dn de n : ℕ}

open Matrix in
/-- The same structure seen from other axes: Cartesian vectors `v` become `v Q`. -/
def turnSample (Q : Mat3 ℝ) (x : GSample n) : GSample n := ⟨x.lattice * Q, x.numbers, x.positions⟩

theorem imageVector_turn {L Q : Mat3 ℝ} {x y d : Fin 3 → ℝ} (h : Spec.ImageVector L x y d) :
    Spec.ImageVector (L * Q) x y (Matrix.vecMul d Q) := by
  obtain ⟨f, hf, hd⟩ := h
  refine ⟨f, hf, fun j => ?_⟩
  unfold Matrix.vecMul dotProduct
  simp only [Matrix.mul_apply, hd, Fin.sum_univ_three]
  ring

theorem sum_sq_turn {Q : Mat3 ℝ} (hQ : Q * Q.transpose = 1) (d : Fin 3 → ℝ) :
    ∑ j, Matrix.vecMul d Q j ^ 2 = ∑ j, d j ^ 2 := by
  have h1 : ∑ j, Matrix.vecMul d Q j ^ 2 = Matrix.vecMul d Q ⬝ᵥ Matrix.vecMul d Q := by
    unfold dotProduct
    simp only [sq]
  have h2 : ∑ j, d j ^ 2 = d ⬝ᵥ d := by
    unfold dotProduct
    simp only [sq]
  rw [h1, h2]
  nth_rewrite 2 [← Matrix.mulVec_transpose]
  rw [← Matrix.dotProduct_mulVec, Matrix.mulVec_mulVec, hQ, Matrix.one_mulVec]

theorem direction_turn {Q : Mat3 ℝ} (hQ : Q * Q.transpose = 1) {d u : Fin 3 → ℝ}
    (h : Spec.IsDirection d u) : Spec.IsDirection (Matrix.vecMul d Q) (Matrix.vecMul u Q) := by
  obtain ⟨h1, r, hr, hd⟩ := h
  refine ⟨by rw [sum_sq_turn hQ, h1], r, hr, fun i => ?_⟩
  unfold Matrix.vecMul dotProduct
  simp only [hd, Fin.sum_univ_three]
  ring

theorem degenerate_turn {m : PotGNN dn de} {Q : Mat3 ℝ} (hQ : Q * Q.transpose = 1) (x : GSample n) :
    Degenerate m (turnSample Q x) ↔ Degenerate m x := by
  constructor
  · rintro ⟨a, b, hab, ho⟩
    refine ⟨a, b, hab, ?_⟩
    have := imageVector_turn (Q := Q.transpose) ho
    change Spec.ImageVector (x.lattice * Q * Q.transpose) _ _ _ at this
    rw [Matrix.mul_assoc, hQ, Matrix.mul_one, Matrix.zero_vecMul] at this
    exact this
  · rintro ⟨a, b, hab, ho⟩
    refine ⟨a, b, hab, ?_⟩
    have := imageVector_turn (Q := Q) ho
    rw [Matrix.zero_vecMul] at this
    exact this

theorem geometry_turn {m : PotGNN dn de} {Q : Mat3 ℝ} (hQ : Q * Q.transpose = 1) {x : GSample n}
    {u : Fin m.refEdges.length → Fin 3 → ℝ} {r : Fin m.refEdges.length → ℝ}
    (h : m.EdgeGeometry x u r) :
    m.EdgeGeometry (turnSample Q x) (fun e => Matrix.vecMul (u e) Q) r := by
  intro e
  obtain ⟨a, b, hab, d, hd, hu, hr⟩ := h e
  exact ⟨a, b, hab, _, imageVector_turn hd, direction_turn hQ hu, by rw [sum_sq_turn hQ, hr]⟩

/-- Linearity of `Turned`. -/
theorem turned_average {E : ℕ} {Q : Mat3 ℝ} (v v' : Fin E → Fin 6 → ℝ)
    (h : ∀ e, Spec.Turned Q (v e) (v' e)) :
    Spec.Turned Q (fun k => (∑ e, v e k) / E) fun k => (∑ e, v' e k) / E := by
  choose A A' hA hT using h
  refine ⟨(E : ℝ)⁻¹ • ∑ e, A e, (E : ℝ)⁻¹ • ∑ e, A' e, ?_, ?_⟩
  · intro i j k hk
    simp only [Matrix.smul_apply, Matrix.sum_apply, smul_eq_mul]
    rw [Finset.sum_congr rfl fun e _ => (hA e i j k hk).1,
      Finset.sum_congr rfl fun e _ => (hA e i j k hk).2]
    exact ⟨by ring, by ring⟩
  · rw [Matrix.mul_smul, Matrix.smul_mul, Matrix.mul_sum, Matrix.sum_mul]
    congr 1
    exact Finset.sum_congr rfl fun e _ => hT e

/-- Predictions turn with the axes if the tensors of all edges do. -/
theorem forward_turn {m : PotGNN dn de} {ref : Triplets} (hm : m.Fits n ref) {st : GnnState}
    (hst : st.Eval ref n m.refEdges.length) {Q : Mat3 ℝ} (hQ : Q * Q.transpose = 1)
    (hedge : ∀ y u, Spec.Turned Q (Spec.edgeTensor (m.headOf y) u)
      (Spec.edgeTensor (m.headOf y) (Matrix.vecMul u Q)))
    (samples : List (GSample n)) :
    (∀ e, (m.forward st samples).1 = .error e →
      (m.forward st (samples.map (turnSample Q))).1 = .error e) ∧
    ∀ preds, (m.forward st samples).1 = .ok preds → ∃ preds',
      (m.forward st (samples.map (turnSample Q))).1 = .ok preds' ∧
      List.Forall₂ (Spec.TurnedOpt Q) preds preds' := by
  by_cases hk : ∀ x ∈ samples, ∀ a, m.Knows (x.numbers a)
  swap
  · push Not at hk
    obtain ⟨x, hx, a, ha⟩ := hk
    rw [C84_unknown_element hm.edges st samples ⟨x, hx, a, ha⟩,
      C84_unknown_element hm.edges st (samples.map (turnSample Q))
        ⟨turnSample Q x, List.mem_map_of_mem hx, a, ha⟩]
    exact ⟨fun e h => h, fun p h => by cases h⟩
  have hk' : ∀ x ∈ samples.map (turnSample Q), ∀ a, m.Knows (x.numbers a) := by
    intro y hy a
    obtain ⟨x, hx, rfl⟩ := List.mem_map.1 hy
    exact hk x hx a
  by_cases hd : ∃ x ∈ samples, Degenerate m x
  · rw [(C84_nan_spreads hm hst samples hk hd).1]
    obtain ⟨x, hx, hxd⟩ := hd
    rw [(C84_nan_spreads hm hst _ hk' ⟨turnSample Q x, List.mem_map_of_mem hx,
      (degenerate_turn hQ x).2 hxd⟩).1, List.length_map]
    refine ⟨fun e h => h, fun p h => ⟨_, rfl, ?_⟩⟩
    cases h
    rw [List.forall₂_same]
    intro p hp
    rw [List.eq_of_mem_replicate hp]
    trivial
  have hd : ∀ x ∈ samples, ¬ Degenerate m x := fun x hx h => hd ⟨x, hx, h⟩
  have hd' : ∀ x ∈ samples.map (turnSample Q), ¬ Degenerate m x := by
    intro y hy
    obtain ⟨x, hx, rfl⟩ := List.mem_map.1 hy
    rw [degenerate_turn hQ]
    exact hd x hx
  by_cases hne : m.refEdges = []
  · have key : ∀ l : List (GSample n), (∀ x ∈ l, ∀ a, m.Knows (x.numbers a)) →
        (∀ x ∈ l, ¬ Degenerate m x) →
        (m.forward st l).1 = .ok (List.replicate l.length none) := by
      intro l hl hl'
      obtain ⟨preds, h1, h2, -⟩ := C84_partial hm hst l hl hl'
      rw [h1]
      congr 1
      rw [List.eq_replicate_iff]
      refine ⟨h2.length_eq.symm, fun p hp => ?_⟩
      obtain ⟨x, hx, hp⟩ := forall₂_mem_right h2 _ hp
      have hp := hp st hst
      obtain ⟨P, hP, hlen, -⟩ := samplePols_known hm (hl x hx)
      rw [forward_single hm hst hP] at hp
      have hP0 : P = [] := by rw [hne] at hlen; exact List.length_eq_zero_iff.1 hlen
      rw [hP0] at hp
      have := List.head_eq_of_cons_eq (Except.ok.inj hp)
      rw [← this]
      simp [average, sumRows]
    rw [key samples hk hd, key _ hk' hd', List.length_map]
    refine ⟨fun e h => h, fun p h => ⟨_, rfl, ?_⟩⟩
    cases h
    rw [List.forall₂_same]
    intro p hp
    rw [List.eq_of_mem_replicate hp]
    trivial
  have hdata : ∀ x, ∃ (f : Fin n → Fin dn → ℝ) (u : Fin m.refEdges.length → Fin 3 → ℝ)
      (r : Fin m.refEdges.length → ℝ), x ∈ samples →
        m.NodeFeatures x.numbers f ∧ m.EdgeGeometry x u r := by
    intro x
    by_cases hx : x ∈ samples
    · obtain ⟨f, hf⟩ := knows_features (hk x hx)
      obtain ⟨u, r, h⟩ := geometry_exists hm.edges (hd x hx)
      exact ⟨f, u, r, fun _ => ⟨hf, h⟩⟩
    · exact ⟨0, 0, 0, fun h => absurd h hx⟩
  choose f u r h using hdata
  obtain ⟨G, hG⟩ := hm.triplets.describes
  have hback : ∀ x : GSample n, turnSample Q.transpose (turnSample Q x) = x := by
    intro x
    unfold turnSample
    rw [Matrix.mul_assoc, hQ, Matrix.mul_one]
  have h1 := C126_formula hm hst hG hne samples f (fun x hx => (h x hx).1) u r
    fun x hx => (h x hx).2
  have h2 := C126_formula hm hst hG hne (samples.map (turnSample Q))
    (fun y => f (turnSample Q.transpose y)) (by
      intro y hy
      obtain ⟨x, hx, rfl⟩ := List.mem_map.1 hy
      rw [hback]
      exact (h x hx).1)
    (fun y e => Matrix.vecMul (u (turnSample Q.transpose y) e) Q)
    (fun y => r (turnSample Q.transpose y)) (by
      intro y hy
      obtain ⟨x, hx, rfl⟩ := List.mem_map.1 hy
      rw [hback]
      exact geometry_turn hQ (h x hx).2)
  rw [h1, h2]
  refine ⟨fun e h => (by cases h), fun p hp => ⟨_, rfl, ?_⟩⟩
  cases hp
  rw [List.map_map, List.forall₂_map_left_iff, List.forall₂_map_right_iff, List.forall₂_same]
  intro x hx
  rw [Function.comp_apply]
  unfold Spec.TurnedOpt Spec.predict
  dsimp only
  rw [hback, Fintype.card_fin]
  exact turned_average _ _ fun e => hedge _ _

/-- Symmetric matrix of six components. -/
def voigtMatrix (v : Fin 6 → ℝ) : Mat3 ℝ := !![v 0, v 3, v 4; v 3, v 1, v 5; v 4, v 5, v 2]

theorem voigt_matrix (v : Fin 6 → ℝ) {i j : Fin 3} {k : Fin 6} (h : Spec.VoigtIndex i j k) :
    voigtMatrix v i j = v k := by
  cases h <;> rfl

/-- C129: mirror images in the coordinate planes (and their products, such as the inversion and half
turns about the axes): the predictions are mirrored too, for all weights. -/
theorem C129_mirror {m : PotGNN dn de} {ref : Triplets} (hm : m.Fits n ref) {st : GnnState}
    (hst : st.Eval ref n m.refEdges.length) (ε : Fin 3 → ℝ) (hε : ∀ i, ε i = 1 ∨ ε i = -1)
    (samples : List (GSample n)) :
    (∀ e, (m.forward st samples).1 = .error e →
      (m.forward st (samples.map (turnSample (Matrix.diagonal ε)))).1 = .error e) ∧
    ∀ preds, (m.forward st samples).1 = .ok preds → ∃ preds',
      (m.forward st (samples.map (turnSample (Matrix.diagonal ε)))).1 = .ok preds' ∧
      List.Forall₂ (Spec.TurnedOpt (Matrix.diagonal ε)) preds preds' := by
  have hsq : ∀ i, ε i * ε i = 1 := by
    intro i
    rcases hε i with h | h <;> rw [h] <;> norm_num
  apply forward_turn hm hst
  · rw [Matrix.diagonal_transpose, Matrix.diagonal_mul_diagonal, ← Matrix.diagonal_one]
    congr 1
    funext i
    exact hsq i
  · intro y u
    refine ⟨voigtMatrix _, voigtMatrix _, fun i j k h => ⟨voigt_matrix _ h, voigt_matrix _ h⟩, ?_⟩
    rw [Matrix.diagonal_transpose]
    ext i j
    rw [Matrix.mul_diagonal, Matrix.diagonal_mul]
    have hv : ∀ k, Matrix.vecMul u (Matrix.diagonal ε) k = u k * ε k :=
      fun k => Matrix.vecMul_diagonal u ε k
    have h0 := hsq 0
    have h1 := hsq 1
    have h2 := hsq 2
    fin_cases i <;> fin_cases j <;> simp [voigtMatrix, Spec.edgeTensor, Spec.axial, hv] <;> grind

/-- The six pairs of values of an edge come from the same row of weights. -/
def PotGNN.OnePair (m : PotGNN dn de) : Prop :=
  ∀ k : Fin 12, m.headLinear3.weight k = m.headLinear3.weight ⟨k.1 % 2, by omega⟩ ∧
    m.headLinear3.bias k = m.headLinear3.bias ⟨k.1 % 2, by omega⟩

theorem onePair_head {m : PotGNN dn de} (h : m.OnePair) (y : Fin de → ℝ) (k : Fin 12) :
    m.headOf y k = m.headOf y ⟨k.1 % 2, by omega⟩ := by
  unfold PotGNN.headOf Spec.affine Matrix.mulVec
  simp only [Pi.add_apply, Matrix.of_apply]
  rw [(h k).2]
  congr 2
  exact (h k).1

/-- C129: predictions turn with the axes for every rotation or reflection, if the weights for the six
components of the tensor of an edge coincide.  (Missing: other weights, for which the claim is false
by `C129_counterexample`.) -/
theorem C129_partial {m : PotGNN dn de} {ref : Triplets} (hm : m.Fits n ref) {st : GnnState}
    (hst : st.Eval ref n m.refEdges.length) (hone : m.OnePair) {Q : Mat3 ℝ}
    (hQ : Q * Q.transpose = 1) (samples : List (GSample n)) :
    (∀ e, (m.forward st samples).1 = .error e →
      (m.forward st (samples.map (turnSample Q))).1 = .error e) ∧
    ∀ preds, (m.forward st samples).1 = .ok preds → ∃ preds',
      (m.forward st (samples.map (turnSample Q))).1 = .ok preds' ∧
      List.Forall₂ (Spec.TurnedOpt Q) preds preds' := by
  apply forward_turn hm hst hQ
  intro y u
  have hhead := onePair_head hone y
  generalize m.headOf y = h at hhead
  have hp : ∀ v : Fin 3 → ℝ, Spec.edgeTensor h v = ![Spec.axial (h 0) (h 1) v 0 0,
      Spec.axial (h 0) (h 1) v 1 1, Spec.axial (h 0) (h 1) v 2 2, Spec.axial (h 0) (h 1) v 0 1,
      Spec.axial (h 0) (h 1) v 0 2, Spec.axial (h 0) (h 1) v 1 2] := by
    intro v
    unfold Spec.edgeTensor
    rw [hhead 2, hhead 3, hhead 4, hhead 5, hhead 6, hhead 7, hhead 8, hhead 9, hhead 10, hhead 11]
    rfl
  rw [hp, hp]
  have hmat : ∀ v : Fin 3 → ℝ, ∀ i j k, Spec.VoigtIndex i j k →
      (h 1 • (1 : Mat3 ℝ) + (h 0 - h 1) • Matrix.vecMulVec v v) i j =
      ![Spec.axial (h 0) (h 1) v 0 0, Spec.axial (h 0) (h 1) v 1 1, Spec.axial (h 0) (h 1) v 2 2,
        Spec.axial (h 0) (h 1) v 0 1, Spec.axial (h 0) (h 1) v 0 2, Spec.axial (h 0) (h 1) v 1 2] k := by
    intro v i j k hk
    cases hk <;> simp [Spec.axial, Matrix.vecMulVec_apply] <;> ring
  refine ⟨h 1 • (1 : Mat3 ℝ) + (h 0 - h 1) • Matrix.vecMulVec u u, h 1 • (1 : Mat3 ℝ) +
    (h 0 - h 1) • Matrix.vecMulVec (Matrix.vecMul u Q) (Matrix.vecMul u Q),
    fun i j k hk => ⟨hmat _ i j k hk, hmat _ i j k hk⟩, ?_⟩
  have hQ' : Q.transpose * Q = 1 := mul_eq_one_comm.1 hQ
  rw [Matrix.mul_add, Matrix.add_mul, Matrix.mul_smul, Matrix.smul_mul, Matrix.mul_one, hQ',
    Matrix.mul_smul, Matrix.smul_mul, Matrix.mul_vecMulVec, Matrix.vecMulVec_mul,
    Matrix.mulVec_transpose]

/-- Quarter turn about the z axis. -/
def quarterTurn : Mat3 ℝ := !![0, 1, 0; -1, 0, 0; 0, 0, 1]

theorem quarterTurn_orthogonal : quarterTurn * quarterTurn.transpose = 1 := by
  ext i j
  fin_cases i <;> fin_cases j <;>
    simp [quarterTurn, Matrix.mul_apply, Fin.sum_univ_three, Matrix.transpose_apply]

/-- C129, negation of the unrestricted claim: two atoms along x are predicted to have `xx = 7`; turned
by 90° about z they should have `yy = 7`, but are predicted to have `yy = 9`. -/
theorem C129_counterexample :
    quarterTurn * quarterTurn.transpose = 1 ∧ quarterTurn.det = 1 ∧
    ∃ v v', (sampleGnn.forward sampleState [pairSample (1 / 4)]).1 = .ok [some v] ∧
      (sampleGnn.forward sampleState [turnSample quarterTurn (pairSample (1 / 4))]).1 =
        .ok [some v'] ∧ v 0 = 7 ∧ v' 1 = 9 ∧ ¬ Spec.Turned quarterTurn v v' := by
  refine ⟨quarterTurn_orthogonal, by simp [quarterTurn, Matrix.det_fin_three], _,
    ![8, 9, 12, 0, 0, 0], sampleGnn_predicts, ?_, by simp, by simp, ?_⟩
  · obtain ⟨f, hf⟩ := knows_features (m := sampleGnn) (fun a => sampleGnn_knows a (1 / 4))
    rw [C126_formula sampleGnn_fits sampleState_eval pairWiring_describes (by simp [sampleGnn])
      [turnSample quarterTurn (pairSample (1 / 4))] (fun _ => f)
      (by intro x hx; rw [List.mem_singleton.1 hx]; exact hf)
      (fun _ e => Matrix.vecMul (![![1, 0, 0], ![-1, 0, 0]] (e : Fin 2)) quarterTurn)
      (fun _ => ![1 / 4, 1 / 4])
      (by
        intro x hx
        rw [List.mem_singleton.1 hx]
        exact geometry_turn quarterTurn_orthogonal pairSample_geometry)]
    have hk : ∀ v w : Fin 6 → ℝ, v = w → (Except.ok [some v] : Py _) = .ok [some w] := by
      rintro v _ rfl
      rfl
    apply hk
    funext k
    unfold Spec.predict
    have h2 : ∀ F : Fin sampleGnn.refEdges.length → ℝ, ∑ e, F e = F (0 : Fin 2) + F (1 : Fin 2) :=
      fun F => Fin.sum_univ_two F
    have hc : ((Fintype.card (Fin sampleGnn.refEdges.length) : ℕ) : ℝ) = 2 := by
      rw [Fintype.card_fin]; norm_num [sampleGnn]
    have hu1 : Matrix.vecMul ![1, 0, 0] quarterTurn = ![0, 1, 0] := by
      funext j
      fin_cases j <;> simp [quarterTurn, Matrix.vecMul, dotProduct, Fin.sum_univ_three]
    have hu2 : Matrix.vecMul ![-1, 0, 0] quarterTurn = ![0, -1, 0] := by
      funext j
      fin_cases j <;> simp [quarterTurn, Matrix.vecMul, dotProduct, Fin.sum_univ_three]
    rw [h2, hc, sampleGnn_head, sampleGnn_head]
    simp only [Matrix.cons_val_zero, Matrix.cons_val_one]
    rw [hu1, hu2]
    fin_cases k <;> simp [Spec.edgeTensor, Spec.axial] <;> norm_num
  · rintro ⟨A, A', h, hT⟩
    have h1 := (h 1 1 1 .yy).2
    have h2 := (h 0 0 0 .xx).1
    have h3 : A' 1 1 = A 0 0 := by
      rw [hT]
      simp [quarterTurn, Matrix.mul_apply, Fin.sum_univ_three, Matrix.transpose_apply]
    rw [h3, h2] at h1
    simp at h1

/-- The network with the same pair of values for all components. -/
noncomputable def evenGnn : PotGNN 1 2 :=
  { sampleGnn with headLinear3 := constLinear fun k => if k.1 % 2 = 0 then 1 else 2 }

theorem evenGnn_one : evenGnn.OnePair := by
  intro k
  refine ⟨rfl, ?_⟩
  change (if k.1 % 2 = 0 then (1 : ℝ) else 2) = if k.1 % 2 % 2 = 0 then 1 else 2
  rw [Nat.mod_mod]

/-- C129, concrete: with equal weights for the components, the prediction for the two atoms turns with
them. -/
example : ∃ preds preds', (evenGnn.forward sampleState [pairSample (1 / 4)]).1 = .ok preds ∧
    (evenGnn.forward sampleState [turnSample quarterTurn (pairSample (1 / 4))]).1 = .ok preds' ∧
    List.Forall₂ (Spec.TurnedOpt quarterTurn) preds preds' := by
  have hfits : evenGnn.Fits 2 pairTriplets := ⟨sampleGnn_fits.edges, sampleGnn_fits.triplets⟩
  have hst : sampleState.Eval pairTriplets 2 evenGnn.refEdges.length := sampleState_eval
  obtain ⟨preds, h1, -⟩ := C84_partial hfits hst [pairSample (1 / 4)]
    (by intro x hx a; rw [List.mem_singleton.1 hx]; exact sampleGnn_knows a (1 / 4))
    (by
      intro x hx
      rw [List.mem_singleton.1 hx]
      exact fun h => not_integer_quarter ((pairSample_degenerate _).1 h))
  obtain ⟨preds', h2, h3⟩ := (C129_partial hfits hst evenGnn_one quarterTurn_orthogonal
    [pairSample (1 / 4)]).2 preds h1
  exact ⟨preds, preds', h1, h2, h3⟩

/-- C129, concrete: the inversion leaves predictions unchanged. -/
example : (sampleGnn.forward sampleState [turnSample (Matrix.diagonal fun _ => -1)
    (pairSample (1 / 4))]).1 = .ok [some ![7, 10, 12, 0, 0, 0]] := by
  obtain ⟨preds', h1, h2⟩ := (C129_mirror sampleGnn_fits sampleState_eval (fun _ => -1)
    (fun _ => Or.inr rfl) [pairSample (1 / 4)]).2 _ sampleGnn_predicts
  rw [List.map_singleton] at h1
  obtain ⟨p, t, hp, ht, rfl⟩ := List.forall₂_cons_left_iff.1 h2
  cases ht
  rw [h1]
  cases p with
  | none => exact hp.elim
  | some v =>
    obtain ⟨A, A', h, hT⟩ := hp
    have key : ∀ i j, A' i j = A i j := by
      intro i j
      rw [hT, Matrix.diagonal_transpose, Matrix.mul_diagonal, Matrix.diagonal_mul]
      ring
    have hv : v = ![7, 10, 12, 0, 0, 0] := by
      funext k
      fin_cases k
      · exact ((h 0 0 0 .xx).2).symm.trans ((key _ _).trans (h 0 0 0 .xx).1)
      · exact ((h 1 1 1 .yy).2).symm.trans ((key _ _).trans (h 1 1 1 .yy).1)
      · exact ((h 2 2 2 .zz).2).symm.trans ((key _ _).trans (h 2 2 2 .zz).1)
      · exact ((h 0 1 3 .xy).2).symm.trans ((key _ _).trans (h 0 1 3 .xy).1)
      · exact ((h 0 2 4 .xz).2).symm.trans ((key _ _).trans (h 0 2 4 .xz).1)
      · exact ((h 1 2 5 .yz).2).symm.trans ((key _ _).trans (h 1 2 5 .yz).1)
    rw [hv]

end Verif
