import Verif.Proofs.GnnFormula
import Verif.Props.Gnn

/-!
# C126: the network computes the textbook formula
-/

namespace Verif

variable {dn de n T : ℕ}

/-- `f` are the initial node features of the atoms: the table entry of their type, after two affine
maps with activations. -/
def PotGNN.NodeFeatures (m : PotGNN dn de) (numbers : Fin n → ℕ) (f : Fin n → Fin dn → ℝ) : Prop :=
  ∀ a, ∃ (t : ℕ) (row : Row dn), m.atomTypeMap[numbers a]? = some (t : ℤ) ∧
    m.embedding[t]? = some row ∧
    f a = Spec.affine (Matrix.of m.nodeLinear2.weight) m.nodeLinear2.bias fun k =>
      Spec.softplus0 (Spec.affine (Matrix.of m.nodeLinear1.weight) m.nodeLinear1.bias
        (fun j => Spec.softplus0 (row j)) k)

/-- `u` and `r` are directions and lengths of the reference edges in the given structure. -/
def PotGNN.EdgeGeometry (m : PotGNN dn de) (x : GSample n) (u : Fin m.refEdges.length → Fin 3 → ℝ)
    (r : Fin m.refEdges.length → ℝ) : Prop :=
  ∀ e, ∃ a b : Fin n, m.refEdges[e] = (a.1, b.1) ∧
    ∃ d, Spec.ImageVector x.lattice (x.positions a) (x.positions b) d ∧ Spec.IsDirection d (u e) ∧
      r e = Real.sqrt (∑ i, d i ^ 2)

/-- Output layers. -/
noncomputable def PotGNN.headOf (m : PotGNN dn de) (y : Fin de → ℝ) : Fin 12 → ℝ :=
  Spec.affine (Matrix.of m.headLinear3.weight) m.headLinear3.bias fun k =>
    Spec.softplus0 (Spec.affine (Matrix.of m.headLinear2.weight) m.headLinear2.bias (fun j =>
      Spec.softplus0 (m.headNorm.weight j *
        ((Spec.affine (Matrix.of m.headLinear1.weight) m.headLinear1.bias y j -
          m.headNorm.runningMean j) / Real.sqrt (m.headNorm.runningVar j + 1 / 100000)) +
        m.headNorm.bias j)) k)

/-- Initial edge features. -/
noncomputable def PotGNN.edgeFeatures (m : PotGNN dn de) {E : ℕ} (r : Fin E → ℝ) :
    Fin E → Fin de → ℝ :=
  fun e k => Real.exp (m.filter.coefficient * (r e - m.filter.offset k) ^ 2)

theorem softplus_eq (x : ℝ) : shiftedSoftplus x = Spec.softplus0 x := (C125_softplus x x).1

theorem headRow_eq (m : PotGNN dn de) (y : Row de) : m.headRow y = m.headOf y := by
  unfold PotGNN.headRow PotGNN.headOf
  rw [linear_eq]
  congr 1
  funext k
  rw [softplus_eq, linear_eq]
  congr 2
  funext j
  rw [softplus_eq]
  unfold BatchNorm.eval
  rw [linear_eq, show (10 : ℝ) ^ 5 = 100000 by norm_num]
  congr 1
  ring

theorem nodeRow_eq (m : PotGNN dn de) (row : Row dn) :
    m.nodeRow row = Spec.affine (Matrix.of m.nodeLinear2.weight) m.nodeLinear2.bias fun k =>
      Spec.softplus0 (Spec.affine (Matrix.of m.nodeLinear1.weight) m.nodeLinear1.bias
        (fun j => Spec.softplus0 (row j)) k) := by
  unfold PotGNN.nodeRow
  rw [linear_eq]
  congr 1
  funext k
  rw [softplus_eq, linear_eq]
  congr 2
  funext j
  rw [softplus_eq]

theorem embedAtom_features {m : PotGNN dn de} {z t : ℕ} {row : Row dn}
    (h1 : m.atomTypeMap[z]? = some (t : ℤ)) (h2 : m.embedding[t]? = some row) :
    m.embedAtom z = .ok (m.nodeRow row) := by
  unfold PotGNN.embedAtom convertToAtomType
  rw [h1]
  dsimp only [bind, Except.bind]
  unfold embedType
  rw [if_neg (by omega), Int.toNat_natCast, h2]
  rfl

theorem nodeFeatures_embed {m : PotGNN dn de} {numbers : Fin n → ℕ} {f : Fin n → Fin dn → ℝ}
    (h : m.NodeFeatures numbers f) :
    ((List.finRange n).map numbers).mapM m.embedAtom = .ok (List.ofFn f) := by
  rw [mapM_except_ok, List.forall₂_iff_get]
  refine ⟨by simp, ?_⟩
  intro k h1 h2
  have hk : k < n := by simpa using h2
  obtain ⟨t, row, ht, hr, hf⟩ := h ⟨k, hk⟩
  have := embedAtom_features ht hr
  simp only [List.get_eq_getElem, List.getElem_map, List.getElem_finRange, List.getElem_ofFn]
  rw [hf, ← nodeRow_eq]
  exact this

theorem knows_features {m : PotGNN dn de} {numbers : Fin n → ℕ} (h : ∀ a, m.Knows (numbers a)) :
    ∃ f, m.NodeFeatures numbers f := by
  choose t ht hl using h
  exact ⟨fun a => _, fun a => ⟨t a, m.embedding[t a]'(hl a), ht a,
    List.getElem?_eq_getElem (hl a), rfl⟩⟩

theorem norm3_sum (d : Fin 3 → ℝ) : norm3 d = Real.sqrt (∑ i, d i ^ 2) := by
  unfold norm3
  rw [Fin.sum_univ_three]

theorem edges_geometry {m : PotGNN dn de} (he : EdgesInRange n m.refEdges) {x : GSample n}
    {u : Fin m.refEdges.length → Fin 3 → ℝ} {r : Fin m.refEdges.length → ℝ}
    (h : m.EdgeGeometry x u r) :
    (edges1 m x).map (fun e => (e.unit, e.distance)) = List.ofFn fun e => (some (u e), r e) := by
  obtain ⟨-, hl, -, hf⟩ := edges1_spec m he x
  apply List.ext_getElem
  · simp [hl]
  · intro k h1 h2
    have hk : k < m.refEdges.length := by simpa using h2
    rw [List.getElem_map, List.getElem_ofFn]
    obtain ⟨a, b, hab, d, hd, hu, hr⟩ := h ⟨k, hk⟩
    have hfk := (List.forall₂_iff_get.1 hf).2 k hk (by rw [hl]; exact hk)
    obtain ⟨a', b', hab', hu', hd'⟩ := hfk
    simp only [List.get_eq_getElem] at hab' hu' hd'
    have heq : (a.1, b.1) = (a'.1, b'.1) := by rw [← hab', ← hab]; rfl
    obtain ⟨e1, e2⟩ := Prod.mk.injEq .. ▸ heq
    obtain rfl := Fin.ext e1
    obtain rfl := Fin.ext e2
    rw [imageVector_iff] at hd
    rw [hu', hd', ← hd]
    unfold pairDistance
    rw [← hd, norm3_sum, hr, unitVector_some.2 hu]

theorem geometry_exists {m : PotGNN dn de} (he : EdgesInRange n m.refEdges) {x : GSample n}
    (hx : ¬ Degenerate m x) : ∃ u r, m.EdgeGeometry x u r := by
  have : ∀ e : Fin m.refEdges.length, ∃ (v : Fin 3 → ℝ) (s : ℝ), ∃ a b : Fin n,
      m.refEdges[e] = (a.1, b.1) ∧
      ∃ d, Spec.ImageVector x.lattice (x.positions a) (x.positions b) d ∧ Spec.IsDirection d v ∧
        s = Real.sqrt (∑ i, d i ^ 2) := by
    intro e
    obtain ⟨h1, h2⟩ := he m.refEdges[e] (List.getElem_mem _)
    have hv : pairDisplacement x.lattice x.positions ⟨_, h1⟩ ⟨_, h2⟩ ≠ 0 := by
      intro h0
      exact hx ⟨⟨_, h1⟩, ⟨_, h2⟩, List.getElem_mem _, (imageVector_iff _ _ _ _ _).2 h0.symm⟩
    cases hu : unitVector (pairDisplacement x.lattice x.positions ⟨_, h1⟩ ⟨_, h2⟩) with
    | none => exact absurd (unitVector_none.1 hu) hv
    | some v =>
      exact ⟨v, _, ⟨_, h1⟩, ⟨_, h2⟩, rfl, _, (imageVector_iff _ _ _ _ _).2 rfl,
        unitVector_some.1 hu, rfl⟩
  choose u r h using this
  exact ⟨u, r, h⟩

theorem samplePols_formula {m : PotGNN dn de} {ref : Triplets} (hm : m.Fits n ref)
    {G : Spec.Wiring (Fin n) (Fin m.refEdges.length) (Fin T)} (hG : ref.Describes G)
    {x : GSample n} {f : Fin n → Fin dn → ℝ} (hf : m.NodeFeatures x.numbers f)
    {u : Fin m.refEdges.length → Fin 3 → ℝ} {r : Fin m.refEdges.length → ℝ}
    (h : m.EdgeGeometry x u r) :
    samplePols m ref x = .ok (List.ofFn fun e => some (Spec.edgeTensor
      (m.headOf (Spec.embed G (m.blocks.map roundOf) f (m.edgeFeatures r) e)) (u e))) := by
  have hg := edges_geometry hm.edges h
  unfold samplePols
  rw [nodeFeatures_embed hf]
  dsimp only [bind, Except.bind]
  have hd : (edges1 m x).map (fun e => m.filter.apply e.distance) = List.ofFn (m.edgeFeatures r) := by
    have := congrArg (List.map fun p : Option (Fin 3 → ℝ) × ℝ => m.filter.apply p.2) hg
    rw [List.map_map, List.map_ofFn] at this
    exact this
  rw [hd, messagePassing_formula hG]
  change Except.ok _ = Except.ok _
  congr 1
  have hz : ∀ emb : List (Row de),
      List.zipWith (fun r e => edgePolarizability (m.headRow r) e.unit) emb (edges1 m x) =
      List.zipWith (fun r (p : Option (Fin 3 → ℝ) × ℝ) => edgePolarizability (m.headRow r) p.1) emb
        ((edges1 m x).map fun e => (e.unit, e.distance)) := by
    intro emb
    rw [List.zipWith_map_right]
  rw [hz, hg, zipWith_ofFn]
  congr 1
  funext e
  obtain ⟨a, b, -, d, -, hu, -⟩ := h e
  rw [C79_axial _ _ hu.1, headRow_eq]
  rfl

theorem average_formula {E : ℕ} (hE : 0 < E) (v : Fin E → Fin 6 → ℝ) :
    average (List.ofFn fun e => some (v e)) = some fun k => (∑ e, v e k) / E := by
  unfold average
  have : (List.ofFn fun e => some (v e)) = (List.ofFn v).map some := by
    rw [List.map_ofFn]
    rfl
  rw [this, sumRows_some, Option.bind_some, if_neg (by simp; omega)]
  congr 1
  funext k
  rw [List.sum_ofFn, List.length_map, List.length_ofFn, Finset.sum_apply]

/-- C126: in evaluation mode, for structures of known elements without bonded atoms at the same
place, the prediction for every sample of a batch is given by the textbook formula of the network on
the reference graph. -/
theorem C126_formula {m : PotGNN dn de} {ref : Triplets} (hm : m.Fits n ref) {st : GnnState}
    (hst : st.Eval ref n m.refEdges.length)
    {G : Spec.Wiring (Fin n) (Fin m.refEdges.length) (Fin T)} (hG : ref.Describes G)
    (hne : m.refEdges ≠ []) (samples : List (GSample n))
    (f : GSample n → Fin n → Fin dn → ℝ) (hf : ∀ x ∈ samples, m.NodeFeatures x.numbers (f x))
    (u : GSample n → Fin m.refEdges.length → Fin 3 → ℝ) (r : GSample n → Fin m.refEdges.length → ℝ)
    (h : ∀ x ∈ samples, m.EdgeGeometry x (u x) (r x)) :
    (m.forward st samples).1 = .ok (samples.map fun x => some
      (Spec.predict G (m.blocks.map roundOf) m.headOf (f x) (m.edgeFeatures (r x)) (u x))) := by
  have hE : 0 < m.refEdges.length := List.length_pos_of_ne_nil hne
  rw [(forward_ok hm hst samples (fun x => List.ofFn fun e => some (Spec.edgeTensor
      (m.headOf (Spec.embed G (m.blocks.map roundOf) (f x) (m.edgeFeatures (r x)) e)) (u x e)))
    fun x hx => samplePols_formula hm hG (hf x hx) (h x hx)).1]
  congr 1
  apply List.map_congr_left
  intro x hx
  rw [if_neg, average_formula hE]
  · unfold Spec.predict
    rw [Fintype.card_fin]
  · rintro ⟨y, -, hn⟩
    simp at hn

/-- C126: the features and the geometry asked for by `C126_formula` exist for every structure of
known elements without bonded atoms at the same place, and the reference graph has a description. -/
theorem C126_applies {m : PotGNN dn de} {ref : Triplets} (hm : m.Fits n ref) (x : GSample n)
    (hk : ∀ a, m.Knows (x.numbers a)) (hx : ¬ Degenerate m x) :
    (∃ G : Spec.Wiring (Fin n) (Fin m.refEdges.length) (Fin ref.indexI.length), ref.Describes G) ∧
    (∃ f, m.NodeFeatures x.numbers f) ∧ ∃ u r, m.EdgeGeometry x u r :=
  ⟨hm.triplets.describes, knows_features hk, geometry_exists hm.edges hx⟩

/-- Graph of the two atoms. -/
def pairWiring : Spec.Wiring (Fin 2) (Fin 2) (Fin 0) where
  fst := ![1, 0]
  snd := ![0, 1]
  nodeA := Fin.elim0
  nodeB := Fin.elim0
  nodeC := Fin.elim0
  near := Fin.elim0
  far := Fin.elim0

theorem pairWiring_describes : pairTriplets.Describes pairWiring :=
  ⟨by decide, by decide, rfl, rfl, rfl, rfl, rfl⟩

theorem pairSample_geometry : sampleGnn.EdgeGeometry (pairSample (1 / 4))
    ![![1, 0, 0], ![-1, 0, 0]] ![1 / 4, 1 / 4] := by
  intro e
  change Fin 2 at e
  fin_cases e
  · refine ⟨0, 1, rfl, ![1 / 4, 0, 0], ⟨![1 / 4, 0, 0], ?_, ?_⟩, ⟨?_, 1 / 4, by norm_num, ?_⟩, ?_⟩
    · intro i
      fin_cases i <;> exact ⟨⟨0, by simp [pairSample]⟩, by unfold Spec.InHalfBox; simp; try norm_num⟩
    · intro j
      fin_cases j <;> simp [pairSample, Fin.sum_univ_three]
    · simp [Fin.sum_univ_three]
    · intro j
      fin_cases j <;> simp
    · simp [Fin.sum_univ_three]
  · refine ⟨1, 0, rfl, ![-(1 / 4), 0, 0], ⟨![-(1 / 4), 0, 0], ?_, ?_⟩, ⟨?_, 1 / 4, by norm_num, ?_⟩, ?_⟩
    · intro i
      fin_cases i <;> exact ⟨⟨0, by simp [pairSample]⟩, by unfold Spec.InHalfBox; simp; try norm_num⟩
    · intro j
      fin_cases j <;> simp [pairSample, Fin.sum_univ_three]
    · simp [Fin.sum_univ_three]
    · intro j
      fin_cases j <;> simp
    · simp [Fin.sum_univ_three]

theorem sampleGnn_head (y : Fin 2 → ℝ) :
    sampleGnn.headOf y = ![1, 2, 3, 4, 5, 6, 7, 8, 9, 10, 11, 12] := by
  unfold PotGNN.headOf Spec.affine
  funext k
  simp [sampleGnn, constLinear, Matrix.mulVec, dotProduct]

/-- C126, concrete: two atoms. -/
theorem sampleGnn_predicts : (sampleGnn.forward sampleState [pairSample (1 / 4)]).1 =
    .ok [some ![7, 10, 12, 0, 0, 0]] := by
  obtain ⟨f, hf⟩ := knows_features (m := sampleGnn) (fun a => sampleGnn_knows a (1 / 4))
  have := C126_formula sampleGnn_fits sampleState_eval pairWiring_describes (by simp [sampleGnn])
    [pairSample (1 / 4)] (fun _ => f) (by simpa using hf) (fun _ => ![![1, 0, 0], ![-1, 0, 0]])
    (fun _ => ![1 / 4, 1 / 4]) (by simpa using pairSample_geometry)
  rw [this]
  have hk : ∀ v w : Fin 6 → ℝ, v = w → (Except.ok [some v] : Py _) = .ok [some w] := by
    rintro v _ rfl
    rfl
  apply hk
  funext k
  unfold Spec.predict
  have h2 : ∀ F : Fin sampleGnn.refEdges.length → ℝ, ∑ e, F e = F (0 : Fin 2) + F (1 : Fin 2) :=
    fun F => Fin.sum_univ_two F
  have hc : ((Fintype.card (Fin sampleGnn.refEdges.length) : ℕ) : ℝ) = 2 := by
    rw [Fintype.card_fin]; norm_num [sampleGnn]
  rw [h2, hc, sampleGnn_head, sampleGnn_head]
  fin_cases k <;> simp [Spec.edgeTensor, Spec.axial]

end Verif
