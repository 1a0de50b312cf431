import Verif.Proofs.GnnForward
import Verif.Props.EdgePol
import Verif.Props.RadiusGraph
import Verif.Props.Dataset

/-!
# C76, C84-C86: predictions of the graph network
-/

namespace Verif

variable {dn de n : ℕ}

/-! ## C84 -/

/-- The network has an atom type with an embedding for the atomic number. -/
def PotGNN.Knows (m : PotGNN dn de) (z : ℕ) : Prop :=
  ∃ t : ℕ, m.atomTypeMap[z]? = some (t : ℤ) ∧ t < m.embedding.length

/-- The atoms at the ends of some reference edge are at the same place. -/
def Degenerate (m : PotGNN dn de) (x : GSample n) : Prop :=
  ∃ a b : Fin n, (a.1, b.1) ∈ m.refEdges ∧ Spec.Overlap x.lattice (x.positions a) (x.positions b)

theorem embedAtom_ok {m : PotGNN dn de} {z : ℕ} (h : m.Knows z) : ∃ r, m.embedAtom z = .ok r := by
  obtain ⟨t, ht, hlt⟩ := h
  have h1 : convertToAtomType m.atomTypeMap z = .ok (t : ℤ) := by
    unfold convertToAtomType
    rw [ht]
  have h2 : embedType m.embedding (t : ℤ) = .ok m.embedding[t] := by
    unfold embedType
    rw [if_neg (by omega), Int.toNat_natCast, List.getElem?_eq_getElem hlt]
  refine ⟨m.nodeRow m.embedding[t], ?_⟩
  unfold PotGNN.embedAtom
  rw [h1]
  dsimp only [bind, Except.bind]
  rw [h2]
  rfl

theorem embedAtom_error {m : PotGNN dn de} {z : ℕ} (h : ¬ m.Knows z) :
    m.embedAtom z = .error .indexError := by
  unfold PotGNN.embedAtom convertToAtomType
  cases ht : m.atomTypeMap[z]? with
  | none => rfl
  | some t =>
    dsimp only [bind, Except.bind]
    have : embedType m.embedding t = .error .indexError := by
      unfold embedType
      by_cases hneg : t < 0
      · rw [if_pos hneg]
      · rw [if_neg hneg]
        have hlen : ¬ t.toNat < m.embedding.length := by
          intro hlt
          exact h ⟨t.toNat, by rw [ht, Int.toNat_of_nonneg (by omega)], hlt⟩
        rw [List.getElem?_eq_none (by omega)]
    rw [this]

theorem embedAll_ok {m : PotGNN dn de} {l : List ℕ} (h : ∀ z ∈ l, m.Knows z) :
    ∃ r, l.mapM m.embedAtom = .ok r := by
  induction l with
  | nil => exact ⟨[], rfl⟩
  | cons z l ih =>
    obtain ⟨r, hr⟩ := embedAtom_ok (h z (by simp))
    obtain ⟨rs, hrs⟩ := ih fun z hz => h z (by simp [hz])
    refine ⟨r :: rs, ?_⟩
    rw [List.mapM_cons, hr, hrs]
    rfl

theorem embedAll_error {m : PotGNN dn de} {l : List ℕ} (h : ∃ z ∈ l, ¬ m.Knows z) :
    l.mapM m.embedAtom = .error .indexError := by
  induction l with
  | nil => simp at h
  | cons z l ih =>
    rw [List.mapM_cons]
    by_cases hz : m.Knows z
    · obtain ⟨r, hr⟩ := embedAtom_ok hz
      rw [hr]
      dsimp only [bind, Except.bind]
      rw [ih]
      obtain ⟨y, hy, hny⟩ := h
      rcases List.mem_cons.1 hy with rfl | hy
      · exact absurd hz hny
      · exact ⟨y, hy, hny⟩
    · rw [embedAtom_error hz]
      rfl

theorem edgePol_none {emb : Row 12} {v : Fin 3 → ℝ} :
    edgePolarizability emb (unitVector v) = none ↔ v = 0 := by
  constructor
  · intro h
    cases hu : unitVector v with
    | none => exact unitVector_none.1 hu
    | some u =>
      rw [hu, C79_axial emb u (unitVector_some.1 hu).1] at h
      cases h
  · rintro rfl
    rw [unitVector_none.2 rfl]
    rfl

theorem zipWith_none {α β γ : Type} {f : α → β → Option γ} {l : List α} {l' : List β}
    (h : l.length = l'.length) {Q : β → Prop} (hf : ∀ a, ∀ b ∈ l', f a b = none ↔ Q b) :
    none ∈ List.zipWith f l l' ↔ ∃ b ∈ l', Q b := by
  induction l generalizing l' with
  | nil =>
    cases l' with
    | nil => simp
    | cons b l' => simp at h
  | cons a l ih =>
    cases l' with
    | nil => simp at h
    | cons b l' =>
      rw [List.zipWith_cons_cons, List.mem_cons, ih (by simpa using h) fun a b hb => hf a b (by simp [hb]),
        List.exists_mem_cons_iff, ← hf a b (by simp), eq_comm]

theorem degenerate_iff {m : PotGNN dn de} (h : EdgesInRange n m.refEdges) (x : GSample n) :
    Degenerate m x ↔ ∃ e ∈ edges1 m x, e.unit = none := by
  have hf := (edges1_spec m h x).2.2.2
  constructor
  · rintro ⟨a, b, hab, hc⟩
    obtain ⟨e, he, a', b', hab', hu, -⟩ := forall₂_mem_left hf _ hab
    refine ⟨e, he, ?_⟩
    rw [hu, unitVector_none]
    obtain ⟨h1, h2⟩ := Prod.mk.injEq .. ▸ hab'
    rw [← Fin.ext h1, ← Fin.ext h2]
    exact ((imageVector_iff _ _ _ _ _).1 hc).symm
  · rintro ⟨e, he, hn⟩
    obtain ⟨ab, hab, a, b, rfl, hu, -⟩ := forall₂_mem_right hf _ he
    rw [hu, unitVector_none] at hn
    exact ⟨a, b, hab, (imageVector_iff _ _ _ _ _).2 hn.symm⟩

/-- The edge polarizabilities of a sample with known elements. -/
theorem samplePols_known {m : PotGNN dn de} {ref : Triplets} (hm : m.Fits n ref) {x : GSample n}
    (hx : ∀ a, m.Knows (x.numbers a)) :
    ∃ P, samplePols m ref x = .ok P ∧ P.length = m.refEdges.length ∧
      (none ∈ P ↔ Degenerate m x) := by
  obtain ⟨nodes, hn⟩ := embedAll_ok (m := m) (l := (List.finRange n).map x.numbers) (by
    intro z hz
    obtain ⟨a, -, rfl⟩ := List.mem_map.1 hz
    exact hx a)
  obtain ⟨emb, -, hl, hp⟩ := samplePols_ok hm hn
  have hel := (edges1_spec m hm.edges x).2.1
  refine ⟨_, hp, by rw [List.length_zipWith, hl, hel, min_self], ?_⟩
  rw [degenerate_iff hm.edges]
  apply zipWith_none (by rw [hl, hel])
  intro r e he
  obtain ⟨ab, hab, a, b, rfl, hu, -⟩ := forall₂_mem_right (edges1_spec m hm.edges x).2.2.2 _ he
  rw [hu, edgePol_none, unitVector_none]

/-- Prediction for a single sample. -/
theorem forward_single {m : PotGNN dn de} {ref : Triplets} (hm : m.Fits n ref) {st : GnnState}
    (hst : st.Eval ref n m.refEdges.length) {x : GSample n} {P : List (Option (Fin 6 → ℝ))}
    (h : samplePols m ref x = .ok P) : (m.forward st [x]).1 = .ok [average P] := by
  have := (forward_ok hm hst [x] (fun _ => P) (by simpa using h)).1
  rw [this]
  congr 2
  split_ifs with hd
  · obtain ⟨y, -, hn⟩ := hd
    unfold average
    rw [sumRows_none.2 hn]
    rfl
  · rfl

/-- C84: in evaluation mode, if no sample of the batch has two bonded atoms at the same place, the
prediction for each sample is the one for this sample alone, whatever batches were processed before.
(Missing: batches with a degenerate sample, for which the claim is false by `C84_nan_spreads`.) -/
theorem C84_partial {m : PotGNN dn de} {ref : Triplets} (hm : m.Fits n ref) {st : GnnState}
    (hst : st.Eval ref n m.refEdges.length) (samples : List (GSample n))
    (hk : ∀ x ∈ samples, ∀ a, m.Knows (x.numbers a))
    (hd : ∀ x ∈ samples, ¬ Degenerate m x) :
    ∃ preds, (m.forward st samples).1 = .ok preds ∧
      List.Forall₂ (fun x p => ∀ st' : GnnState, st'.Eval ref n m.refEdges.length →
        (m.forward st' [x]).1 = .ok [p]) samples preds ∧
      (m.refEdges ≠ [] → ∀ p ∈ preds, p ≠ none) := by
  have hP : ∀ x, ∃ P, x ∈ samples → samplePols m ref x = .ok P ∧
      P.length = m.refEdges.length ∧ none ∉ P := by
    intro x
    by_cases hx : x ∈ samples
    · obtain ⟨P, h1, h2, h3⟩ := samplePols_known hm (hk x hx)
      exact ⟨P, fun _ => ⟨h1, h2, fun h => hd x hx (h3.1 h)⟩⟩
    · exact ⟨[], fun h => absurd h hx⟩
  choose P hP using hP
  have hnone : ¬ ∃ y ∈ samples, none ∈ P y := by
    rintro ⟨y, hy, hn⟩
    exact (hP y hy).2.2 hn
  refine ⟨samples.map fun x => average (P x), ?_, ?_, ?_⟩
  · rw [(forward_ok hm hst samples P fun x hx => (hP x hx).1).1]
    simp only [if_neg hnone]
  · rw [List.forall₂_map_right_iff, List.forall₂_same]
    exact fun x hx st' hst' => forward_single hm hst' (hP x hx).1
  · intro hne p hp
    obtain ⟨x, hx, rfl⟩ := List.mem_map.1 hp
    obtain ⟨-, h2, h3⟩ := hP x hx
    obtain ⟨v, hv⟩ := exists_map_some h3
    unfold average
    rw [hv, sumRows_some, Option.bind_some, if_neg]
    · simp
    · rw [← hv, h2]
      simpa using hne

/-- C84, negation of the unrestricted claim: one sample with two bonded atoms at the same place
makes the predictions for all samples of the batch NaN, although the prediction for each
non-degenerate sample alone is finite. -/
theorem C84_nan_spreads {m : PotGNN dn de} {ref : Triplets} (hm : m.Fits n ref) {st : GnnState}
    (hst : st.Eval ref n m.refEdges.length) (samples : List (GSample n))
    (hk : ∀ x ∈ samples, ∀ a, m.Knows (x.numbers a))
    (hd : ∃ x ∈ samples, Degenerate m x) :
    (m.forward st samples).1 = .ok (List.replicate samples.length none) ∧
      ∀ x ∈ samples, ¬ Degenerate m x → ∃ v, (m.forward st [x]).1 = .ok [some v] := by
  obtain ⟨y, hy, hyd⟩ := hd
  have hne : m.refEdges ≠ [] := by
    obtain ⟨a, b, hab, -⟩ := hyd
    exact List.ne_nil_of_mem hab
  refine ⟨?_, ?_⟩
  · have hP : ∀ x, ∃ P, x ∈ samples → samplePols m ref x = .ok P ∧ (none ∈ P ↔ Degenerate m x) := by
      intro x
      by_cases hx : x ∈ samples
      · obtain ⟨P, h1, -, h3⟩ := samplePols_known hm (hk x hx)
        exact ⟨P, fun _ => ⟨h1, h3⟩⟩
      · exact ⟨[], fun h => absurd h hx⟩
    choose P hP using hP
    rw [(forward_ok hm hst samples P fun x hx => (hP x hx).1).1]
    simp only [if_pos (⟨y, hy, ((hP y hy).2).2 hyd⟩ : ∃ y ∈ samples, none ∈ P y)]
    rw [List.map_const']
  · intro x hx hxd
    obtain ⟨preds, h1, h2, h3⟩ := C84_partial hm hst [x] (by simpa using hk x hx) (by simpa using hxd)
    cases h2 with
    | cons h h' =>
      cases h'
      rename_i p
      cases p with
      | none => exact absurd rfl (h3 hne none (by simp))
      | some v => exact ⟨v, h1⟩

/-- C84: an element that the network does not know makes `forward` fail with an IndexError; the
state is unchanged. -/
theorem C84_unknown_element {m : PotGNN dn de} (he : EdgesInRange n m.refEdges) (st : GnnState)
    (samples : List (GSample n)) (hk : ∃ x ∈ samples, ∃ a, ¬ m.Knows (x.numbers a)) :
    m.forward st samples = (.error .indexError, st) := by
  obtain ⟨x, hx, a, ha⟩ := hk
  have hprep : m.prepare samples = .error .indexError := by
    unfold PotGNN.prepare
    rw [batchGraph_blocks m he]
    dsimp only [bind, Except.bind]
    rw [embedAll_error]
    refine ⟨x.numbers a, ?_, ha⟩
    unfold batchNumbers
    exact List.mem_flatMap.2 ⟨x, hx, List.mem_map.2 ⟨a, List.mem_finRange a, rfl⟩⟩
  unfold PotGNN.forward
  rw [hprep]

/-! ### Concrete network -/

/-- Linear layer with constant output. -/
def constLinear {a b : ℕ} (c : Row b) : Linear a b := ⟨fun _ _ => 0, c⟩

/-- A network for two atoms with one message passing block, whose edge polarizabilities are those of
the constant values 1, ..., 12. -/
noncomputable def sampleGnn : PotGNN 1 2 where
  atomTypeMap := [-1, 0]
  refEdges := [(0, 1), (1, 0)]
  embedding := [fun _ => 1]
  nodeLinear1 := constLinear 0
  nodeLinear2 := constLinear 0
  filter := ⟨-1, ![0, 1]⟩
  blocks := [(⟨constLinear 1, ⟨1, 1⟩, ⟨1, 1⟩⟩,
    ⟨constLinear 1, constLinear 1, ⟨1, 1⟩, ⟨1, 1⟩, ⟨1, 1⟩, ⟨1, 1⟩⟩)]
  headLinear1 := constLinear 0
  headNorm := ⟨1, 0, 0, 1⟩
  headLinear2 := constLinear 0
  headLinear3 := constLinear ![1, 2, 3, 4, 5, 6, 7, 8, 9, 10, 11, 12]
  headTrain := fun _ => .error .unmodelled
  mean := 1
  stddev := fun _ _ => 2

/-- Triplets of two atoms: none. -/
def pairTriplets : Triplets := ⟨[1, 0], [0, 1], [], [], [], [], []⟩

theorem pairTriplets_valid : pairTriplets.Valid 2 2 where
  lenI := rfl
  lenJ := rfl
  lenIndexJ := rfl
  lenIndexK := rfl
  lenIndexJi := rfl
  lenIndexKj := rfl
  nodes := by intro x; simp [pairTriplets]; omega
  edges := by intro x; simp [pairTriplets]

theorem sampleGnn_fits : sampleGnn.Fits 2 pairTriplets where
  edges := by
    intro e he
    simp only [sampleGnn, List.mem_cons, List.not_mem_nil, or_false] at he
    rcases he with rfl | rfl <;> decide
  triplets := pairTriplets_valid

/-- State of a new network in evaluation mode. -/
def sampleState : GnnState := ⟨false, .new (fun _ _ => pairTriplets) 2 [(0, 1), (1, 0)]⟩

theorem sampleState_eval : sampleState.Eval pairTriplets 2 2 :=
  ⟨rfl, BatchTriplets.new_ready (fun _ _ => pairTriplets) 2 [(0, 1), (1, 0)] pairTriplets_valid⟩

/-- Two hydrogen atoms in a cubic cell, the second at `x` along the x axis. -/
def pairSample (x : ℝ) : GSample 2 := ⟨1, fun _ => 1, ![0, ![x, 0, 0]]⟩

theorem sampleGnn_knows (a : Fin 2) (x : ℝ) : sampleGnn.Knows ((pairSample x).numbers a) :=
  ⟨0, rfl, by simp [sampleGnn]⟩

theorem pairSample_degenerate (x : ℝ) :
    Degenerate sampleGnn (pairSample x) ↔ Spec.SameImage x 0 := by
  have key : ∀ (y z f : Fin 3 → ℝ), (∀ j, (0 : Fin 3 → ℝ) j = ∑ i, f i * (1 : Mat3 ℝ) i j) → f = 0 := by
    intro y z f hf
    funext j
    have := hf j
    simp [Matrix.one_apply] at this
    exact this.symm
  constructor
  · rintro ⟨a, b, hab, f, hf, hd⟩
    have h0 := key 0 0 f hd
    rw [h0] at hf
    have h1 := (hf 0).1
    simp only [sampleGnn, List.mem_cons, List.not_mem_nil, or_false, Prod.mk.injEq] at hab
    rcases hab with ⟨ha, hb⟩ | ⟨ha, hb⟩
    · have ha : a = 0 := Fin.ext ha
      have hb : b = 1 := Fin.ext hb
      subst ha hb
      simpa [pairSample] using h1
    · have ha : a = 1 := Fin.ext ha
      have hb : b = 0 := Fin.ext hb
      subst ha hb
      obtain ⟨k, hk⟩ := h1
      refine ⟨-k, ?_⟩
      simp [pairSample] at hk
      push_cast
      linarith
  · rintro ⟨k, hk⟩
    refine ⟨0, 1, by simp [sampleGnn], 0, fun i => ⟨?_, by unfold Spec.InHalfBox; norm_num⟩, by simp⟩
    fin_cases i
    · exact ⟨k, by simpa [pairSample] using hk⟩
    · exact ⟨0, by simp [pairSample]⟩
    · exact ⟨0, by simp [pairSample]⟩

theorem not_integer_quarter : ¬ Spec.SameImage (1 / 4 : ℝ) 0 := by
  rintro ⟨k, hk⟩
  have h : (4 * k : ℝ) = -1 := by linarith
  have h' : 4 * k = -1 := by exact_mod_cast h
  omega

/-- C84, concrete: two distances, in one batch and alone. -/
example : ∃ p q, (sampleGnn.forward sampleState [pairSample (1 / 4), pairSample (5 / 4)]).1 =
      .ok [some p, some q] ∧
    (sampleGnn.forward sampleState [pairSample (1 / 4)]).1 = .ok [some p] := by
  have h5 : ¬ Spec.SameImage (5 / 4 : ℝ) 0 := by
    intro h
    exact not_integer_quarter (Spec.SameImage.trans ⟨1, by norm_num⟩ h)
  obtain ⟨preds, h1, h2, h3⟩ := C84_partial sampleGnn_fits sampleState_eval
    [pairSample (1 / 4), pairSample (5 / 4)]
    (by
      intro x hx a
      rcases List.mem_pair.1 hx with rfl | rfl <;> exact sampleGnn_knows a _)
    (by
      intro x hx
      rcases List.mem_pair.1 hx with rfl | rfl
      · rw [pairSample_degenerate]; exact not_integer_quarter
      · rw [pairSample_degenerate]; exact h5)
  have h3 := h3 (by simp [sampleGnn])
  obtain ⟨p, t, hp, ht, rfl⟩ := List.forall₂_cons_left_iff.1 h2
  obtain ⟨q, t', hq, ht', rfl⟩ := List.forall₂_cons_left_iff.1 ht
  cases ht'
  obtain ⟨p, rfl⟩ := Option.ne_none_iff_exists'.1 (h3 p (by simp))
  obtain ⟨q, rfl⟩ := Option.ne_none_iff_exists'.1 (h3 q (by simp))
  exact ⟨p, q, h1, hp _ sampleState_eval⟩

/-- C84, negation, concrete: next to a sample with coinciding atoms the prediction is NaN, alone it
is finite. -/
theorem C84_counterexample :
    (sampleGnn.forward sampleState [pairSample (1 / 4), pairSample 1]).1 = .ok [none, none] ∧
    ∃ v, (sampleGnn.forward sampleState [pairSample (1 / 4)]).1 = .ok [some v] := by
  obtain ⟨h1, h2⟩ := C84_nan_spreads sampleGnn_fits sampleState_eval
    [pairSample (1 / 4), pairSample 1]
    (by
      intro x hx a
      rcases List.mem_pair.1 hx with rfl | rfl <;> exact sampleGnn_knows a _)
    ⟨pairSample 1, by simp, (pairSample_degenerate 1).2 ⟨-1, by norm_num⟩⟩
  exact ⟨h1, h2 _ (by simp) (by rw [pairSample_degenerate]; exact not_integer_quarter)⟩

/-- C84, concrete: helium (atomic number 2) is not known. -/
example : sampleGnn.forward sampleState [pairSample 0, ⟨1, ![1, 2], 0⟩] =
    (.error .indexError, sampleState) := by
  apply C84_unknown_element sampleGnn_fits.edges
  refine ⟨⟨1, ![1, 2], 0⟩, List.mem_cons_of_mem _ (List.mem_singleton.2 rfl), 1, ?_⟩
  rintro ⟨t, ht, -⟩
  simp [sampleGnn] at ht

/-! ## C86 -/

theorem pairDisplacement_translated {L : Mat3 ℝ} {p q : Pos n ℝ} (h : Spec.Translated p q)
    (a b : Fin n) : pairDisplacement L p a b = pairDisplacement L q a b := by
  obtain ⟨t, ht⟩ := h
  unfold pairDisplacement
  funext j
  refine Finset.sum_congr rfl fun i _ => ?_
  rw [wrap1_congr]
  obtain ⟨k, hk⟩ := ht a i
  obtain ⟨l, hl⟩ := ht b i
  exact ⟨l - k, by rw [hk, hl]; push_cast; ring⟩

/-- C86: `forward` gives the same result and the same state if each sample is translated and its
atoms are replaced by periodic images, in both modes. -/
theorem C86_translation (m : PotGNN dn de) (st : GnnState) (samples samples' : List (GSample n))
    (h : List.Forall₂ (fun x y => x.lattice = y.lattice ∧ x.numbers = y.numbers ∧
      Spec.Translated x.positions y.positions) samples samples') :
    m.forward st samples = m.forward st samples' := by
  have hlen := h.length_eq
  have hnum : batchNumbers samples = batchNumbers samples' := by
    unfold batchNumbers
    clear hlen
    induction h with
    | nil => rfl
    | cons hxy _ ih => rw [List.flatMap_cons, List.flatMap_cons, ih, hxy.2.1]
  have hinfo : ∀ e, graphInfo1 (samples.map fun s => (s.lattice, s.positions)) e =
      graphInfo1 (samples'.map fun s => (s.lattice, s.positions)) e := by
    intro e
    unfold graphInfo1
    by_cases he : e.1 < samples.length
    · have he' : e.1 < samples'.length := hlen ▸ he
      obtain ⟨h1, -, h3⟩ := (List.forall₂_iff_get.1 h).2 e.1 he he'
      simp only [List.get_eq_getElem] at h1 h3
      rw [List.getElem?_map, List.getElem?_map, List.getElem?_eq_getElem he,
        List.getElem?_eq_getElem he']
      dsimp only [Option.map_some]
      split
      · unfold pairDistance
        rw [h1, pairDisplacement_translated h3]
      · rfl
    · rw [List.getElem?_map, List.getElem?_map, List.getElem?_eq_none (by omega),
        List.getElem?_eq_none (by omega)]
  have hgraph : m.batchGraph samples = m.batchGraph samples' := by
    unfold PotGNN.batchGraph getGraphInfo
    dsimp only
    rw [hlen]
    congr 1
    funext e
    exact hinfo e
  have hprep : m.prepare samples = m.prepare samples' := by
    unfold PotGNN.prepare
    rw [hgraph, hnum]
  unfold PotGNN.forward
  rw [hprep, hlen]

/-- C86, concrete: both atoms translated, one moved to another cell. -/
example (st : GnnState) : sampleGnn.forward st [pairSample (1 / 4)] =
    sampleGnn.forward st [⟨1, fun _ => 1, ![![1 / 3, 1 / 2, -2], ![7 / 12, 9 / 2, -7]]⟩] := by
  apply C86_translation
  refine .cons ⟨rfl, rfl, ![1 / 3, 1 / 2, -2], fun a i => ?_⟩ .nil
  fin_cases a
  · exact ⟨0, by simp [pairSample]⟩
  · fin_cases i
    · exact ⟨0, by simp [pairSample]; norm_num⟩
    · exact ⟨4, by simp [pairSample]; norm_num⟩
    · exact ⟨-5, by simp [pairSample]; norm_num⟩

/-! ## C85 -/

/-- Prediction for one configuration, from the output of the network for it alone. -/
def PredictionOf (m : PotGNN dn de) (ref : Triplets) (lattice : Mat3 ℝ) (numbers : Fin n → ℕ)
    (p : Pos n ℝ) (T : Matrix (Fin 3) (Fin 3) (Option ℝ)) : Prop :=
  ∀ st : GnnState, st.Eval ref n m.refEdges.length →
    ∃ v : Option (Fin 6 → ℝ), (m.forward st [⟨lattice, numbers, p⟩]).1 = .ok [v] ∧
      ∀ i j k, Spec.VoigtIndex i j k → T i j = v.map fun x => x k * m.stddev i j + m.mean i j

theorem predictLoop_ok {m : PotGNN dn de} {ref : Triplets} (hm : m.Fits n ref) (lattice : Mat3 ℝ)
    (numbers : Fin n → ℕ) (hk : ∀ a, m.Knows (numbers a)) (batches : List (List (Pos n ℝ)))
    (hd : ∀ p ∈ batches.flatten, ¬ Degenerate m ⟨lattice, numbers, p⟩) (st : GnnState)
    (hst : st.Eval ref n m.refEdges.length) :
    ∃ vs : List (Option (Fin 6 → ℝ)),
      (m.predictLoop lattice numbers st batches).1 =
        .ok (vs.map fun v => vectorToTensor (optVector v)) ∧
      (m.predictLoop lattice numbers st batches).2.Eval ref n m.refEdges.length ∧
      List.Forall₂ (fun p v => ∀ st' : GnnState, st'.Eval ref n m.refEdges.length →
        (m.forward st' [⟨lattice, numbers, p⟩]).1 = .ok [v]) batches.flatten vs := by
  induction batches generalizing st with
  | nil => exact ⟨[], rfl, hst, .nil⟩
  | cons b bs ih =>
    have hkb : ∀ x ∈ b.map fun p => (⟨lattice, numbers, p⟩ : GSample n), ∀ a,
        m.Knows (x.numbers a) := by
      intro x hx a
      obtain ⟨p, -, rfl⟩ := List.mem_map.1 hx
      exact hk a
    have hdb : ∀ x ∈ b.map fun p => (⟨lattice, numbers, p⟩ : GSample n), ¬ Degenerate m x := by
      intro x hx
      obtain ⟨p, hp, rfl⟩ := List.mem_map.1 hx
      exact hd p (by simp [hp])
    obtain ⟨preds, h1, h2, -⟩ := C84_partial hm hst _ hkb hdb
    have hst2 : (m.forward st (b.map fun p => ⟨lattice, numbers, p⟩)).2.Eval ref n
        m.refEdges.length := by
      have hP : ∀ x, ∃ P, x ∈ (b.map fun p => (⟨lattice, numbers, p⟩ : GSample n)) →
          samplePols m ref x = .ok P := by
        intro x
        by_cases hx : x ∈ (b.map fun p => (⟨lattice, numbers, p⟩ : GSample n))
        · obtain ⟨P, h1, -⟩ := samplePols_known hm (hkb x hx)
          exact ⟨P, fun _ => h1⟩
        · exact ⟨[], fun h => absurd h hx⟩
      choose P hP using hP
      exact (forward_ok hm hst _ P hP).2
    obtain ⟨vs, h4, h5, h6⟩ := ih (fun p hp => hd p (by
      rw [List.flatten_cons]; exact List.mem_append_right _ hp)) _ hst2
    refine ⟨preds ++ vs, ?_, ?_, ?_⟩
    · unfold PotGNN.predictLoop
      generalize hF : m.forward st (b.map fun p => ⟨lattice, numbers, p⟩) = F at h1 h4 h5
      obtain ⟨F1, F2⟩ := F
      dsimp only at h1 h4 h5
      subst h1
      dsimp only
      generalize m.predictLoop lattice numbers F2 bs = G at h4 h5
      obtain ⟨G1, G2⟩ := G
      dsimp only at h4 h5
      subst h4
      simp
    · unfold PotGNN.predictLoop
      generalize hF : m.forward st (b.map fun p => ⟨lattice, numbers, p⟩) = F at h1 h4 h5
      obtain ⟨F1, F2⟩ := F
      dsimp only at h1 h4 h5
      subst h1
      dsimp only
      generalize m.predictLoop lattice numbers F2 bs = G at h4 h5
      obtain ⟨G1, G2⟩ := G
      dsimp only at h4 h5
      subst h4
      exact h5
    · rw [List.flatten_cons]
      refine List.rel_append ?_ h6
      rw [List.forall₂_map_left_iff] at h2
      exact h2

/-- C85: `calc_polarizabilities` returns one tensor per configuration, in order, each the rescaled
output of the network for this configuration alone; the network is in evaluation mode afterwards. -/
theorem C85_samplewise {m : PotGNN dn de} {ref : Triplets} (hm : m.Fits n ref) (lattice : Mat3 ℝ)
    (numbers : Fin n → ℕ) (hk : ∀ a, m.Knows (numbers a)) (positions : List (Pos n ℝ))
    (hd : ∀ p ∈ positions, ¬ Degenerate m ⟨lattice, numbers, p⟩) (st : GnnState)
    (hst : st.triplets.Ready ref n m.refEdges.length) :
    ∃ Ts, (m.calcPolarizabilities lattice numbers st positions).1 = .ok Ts ∧
      List.Forall₂ (PredictionOf m ref lattice numbers) positions Ts ∧
      (m.calcPolarizabilities lattice numbers st positions).2.training = false ∧
      ((∀ i j, m.mean i j = m.mean j i) → (∀ i j, m.stddev i j = m.stddev j i) →
        ∀ T ∈ Ts, ∀ i j, T i j = T j i) := by
  obtain ⟨bs, hb, hfl, -⟩ := C81_batches positions 100 (by norm_num)
  obtain ⟨vs, h1, h2, h3⟩ := predictLoop_ok hm lattice numbers hk bs (by rw [hfl]; exact hd)
    { st with training := false } ⟨rfl, hst⟩
  rw [hfl] at h3
  have hcalc : (m.calcPolarizabilities lattice numbers st positions) =
      (.ok ((vs.map fun v => vectorToTensor (optVector v)).map (unscale m.mean m.stddev)),
        (m.predictLoop lattice numbers { st with training := false } bs).2) := by
    unfold PotGNN.calcPolarizabilities
    dsimp only
    rw [hb]
    dsimp only
    generalize m.predictLoop lattice numbers { st with training := false } bs = G at h1 h2
    obtain ⟨G1, G2⟩ := G
    dsimp only at h1
    subst h1
    rfl
  rw [hcalc]
  refine ⟨_, rfl, ?_, h2.mode, ?_⟩
  · rw [List.map_map, List.forall₂_map_right_iff]
    refine h3.imp fun p v hpv st' hst' => ⟨v, hpv st' hst', fun i j k hijk => ?_⟩
    have := (C74_components (optVector v) (fun _ _ => (none : Option ℝ)) i j k hijk).1
    dsimp only [Function.comp, unscale]
    rw [this]
    unfold optVector
    cases v <;> rfl
  · intro hmean hstd T hT i j
    rw [List.map_map] at hT
    obtain ⟨v, -, rfl⟩ := List.mem_map.1 hT
    dsimp only [Function.comp, unscale]
    rw [C74_symmetric (optVector v) i j, hmean i j, hstd i j]

/-- C85, concrete: 250 configurations (three sub-batches). -/
example (st : GnnState) (hst : st.triplets.Ready pairTriplets 2 2) :
    ∃ Ts, (sampleGnn.calcPolarizabilities 1 (fun _ => 1) st
      (List.replicate 250 (pairSample (1 / 4)).positions)).1 = .ok Ts ∧ Ts.length = 250 ∧
      ∀ T ∈ Ts, ∀ i j, T i j = T j i := by
  obtain ⟨Ts, h1, h2, -, h3⟩ := C85_samplewise sampleGnn_fits 1 (fun _ : Fin 2 => 1)
    (fun a => sampleGnn_knows a 0) (List.replicate 250 (pairSample (1 / 4)).positions) (by
      intro p hp
      rw [List.eq_of_mem_replicate hp]
      exact fun h => not_integer_quarter ((pairSample_degenerate _).1 h)) st hst
  refine ⟨Ts, h1, by rw [← h2.length_eq, List.length_replicate], h3 ?_ ?_⟩
  · intro i j
    simp [sampleGnn, Matrix.one_apply, eq_comm]
  · intro i j
    rfl

/-! ## C76 -/

/-- C76: un-scaling the scaled vector of a symmetric polarizability gives the polarizability. -/
theorem C76_unscale (mean stddev p : Mat3 ℝ) (hs : ∀ i j, stddev i j ≠ 0)
    (hp : ∀ i j, p i j = p j i) (hm : ∀ i j, mean i j = mean j i)
    (hd : ∀ i j, stddev i j = stddev j i) :
    unscale mean stddev (vectorToTensor (tensorToVector (standardize mean stddev p))) =
      fun i j => some (p i j) := by
  have hsym : vectorToTensor (tensorToVector (standardize mean stddev p)) =
      standardize mean stddev p := by
    rw [C74_tensor_roundtrip]
    intro i j
    unfold standardize
    rw [hp i j, hm i j, hd i j]
  rw [hsym]
  funext i j
  unfold unscale standardize fdiv
  rw [if_neg (hs i j), Option.map_some]
  congr 1
  have := hs i j
  field_simp
  ring

/-- C76: if the network was built with the mean and standard deviation of a dataset of symmetric
polarizabilities without constant components and outputs the scaled vector of each sample, then
`calc_polarizabilities` returns the polarizabilities of the dataset. -/
theorem C76_predictions {m : PotGNN dn de} {ref : Triplets} (hm : m.Fits n ref) (lattice : Mat3 ℝ)
    (numbers : Fin n → ℕ) (hk : ∀ a, m.Knows (numbers a)) (positions : List (Pos n ℝ))
    (hnd : ∀ p ∈ positions, ¬ Degenerate m ⟨lattice, numbers, p⟩) (st : GnnState)
    (hst : st.triplets.Ready ref n m.refEdges.length) (ps : List (Mat3 ℝ))
    (hsym : ∀ p ∈ ps, ∀ i j, p i j = p j i) (hmean : m.mean = meanPol ps)
    (hstd : m.stddev = stdPol ps) (hne : ∀ i j, stdPol ps i j ≠ 0) (d : PolDataset)
    {nums : List ℕ} {pos : List (List (Fin 3 → ℝ))}
    (hdata : makeDataset lattice nums pos ps = .ok d)
    (hout : List.Forall₂ (fun p v => ∃ w : Fin 6 → ℝ, (∀ k, v k = some (w k)) ∧
      ∀ st' : GnnState, st'.Eval ref n m.refEdges.length →
        (m.forward st' [⟨lattice, numbers, p⟩]).1 = .ok [some w]) positions d.scaled) :
    (m.calcPolarizabilities lattice numbers st positions).1 =
      .ok (ps.map Spec.finiteTensor) := by
  obtain ⟨Ts, h1, h2, -, -⟩ := C85_samplewise hm lattice numbers hk positions hnd st hst
  rw [h1]
  congr 1
  obtain ⟨-, -, rfl⟩ := makeDataset_ok hdata
  dsimp only at hout
  rw [List.forall₂_map_right_iff] at hout
  have hmsym : ∀ i j, meanPol ps i j = meanPol ps j i := by
    intro i j
    unfold meanPol
    rw [List.map_congr_left fun p hp => hsym p hp i j]
  have hdsym : ∀ i j, stdPol ps i j = stdPol ps j i := by
    intro i j
    unfold stdPol
    rw [hmsym i j, List.map_congr_left fun p hp => by rw [hsym p hp i j]]
  have hval : ∀ p ∈ ps, ∀ (w : Fin 6 → ℝ) i j k, Spec.VoigtIndex i j k →
      (∀ k, tensorToVector (standardize (meanPol ps) (stdPol ps) p) k = some (w k)) →
      w k * stdPol ps i j + meanPol ps i j = p i j := by
    intro p hp w i j k hijk hw
    have hu := C76_unscale (meanPol ps) (stdPol ps) p hne (hsym p hp) hmsym hdsym
    have hu := congrFun (congrFun hu i) j
    unfold unscale at hu
    rw [(C74_components _ (fun _ _ => (none : Option ℝ)) i j k hijk).1, hw k, Option.map_some] at hu
    exact Option.some.inj hu
  have hst' : ({ st with training := false } : GnnState).Eval ref n m.refEdges.length := ⟨rfl, hst⟩
  have hvoigt : ∀ i j : Fin 3, ∃ k, Spec.VoigtIndex i j k := by
    intro i j
    fin_cases i <;> fin_cases j
    exacts [⟨_, .xx⟩, ⟨_, .xy⟩, ⟨_, .xz⟩, ⟨_, .yx⟩, ⟨_, .yy⟩, ⟨_, .yz⟩, ⟨_, .zx⟩, ⟨_, .zy⟩, ⟨_, .zz⟩]
  clear hdata h1 hnd
  revert hval
  generalize hM : meanPol ps = M at *
  generalize hS : stdPol ps = S at *
  intro hval
  have hall : List.Forall₂ (fun (p : Pos n ℝ) (q : Mat3 ℝ) => ∀ (w : Fin 6 → ℝ) i j k,
      Spec.VoigtIndex i j k → (∀ k, tensorToVector (standardize M S q) k = some (w k)) →
      w k * S i j + M i j = q i j) positions ps := by
    rw [List.forall₂_iff_get]
    exact ⟨hout.length_eq, fun i _ h => hval _ (List.get_mem ps ⟨i, h⟩)⟩
  clear hval hsym hM hS
  induction h2 generalizing ps with
  | nil =>
    cases hout
    rfl
  | cons hT _ ih =>
    cases hout with
    | cons ho hos =>
      cases hall with
      | cons ha has =>
        rw [List.map_cons, ih _ hos has]
        congr 1
        obtain ⟨w, hw, hf⟩ := ho
        obtain ⟨v, hv, hTv⟩ := hT _ hst'
        rw [hf _ hst'] at hv
        obtain rfl : some w = v := by
          have := Except.ok.inj hv
          simpa using this
        funext i j
        obtain ⟨k, hk⟩ := hvoigt i j
        rw [hTv i j k hk, Option.map_some, hmean, hstd]
        congr 1
        exact ha w i j k hk hw

/-- C76, concrete. -/
example : unscale (fun _ _ => 1) (fun _ _ => 2) (vectorToTensor (tensorToVector
    (standardize (fun _ _ => 1) (fun _ _ => 2) !![1, 2, 3; 2, 5, 6; 3, 6, 9]))) =
    fun i j => some ((!![1, 2, 3; 2, 5, 6; 3, 6, 9] : Mat3 ℝ) i j) := by
  apply C76_unscale
  · intro i j; norm_num
  · intro i j; fin_cases i <;> fin_cases j <;> rfl
  · intro i j; rfl
  · intro i j; rfl

end Verif
