import Verif.Props.GnnLayers
import Verif.Spec.Network

/-!
# Helper lemmas: lists of rows as functions
-/

namespace Verif

variable {dn de n e T d : ℕ}

theorem gather_ofFn {α : Type} (x : Fin n → α) (f : Fin T → Fin n) :
    gather (List.ofFn x) (List.ofFn fun k => (f k).1) = .ok (List.ofFn fun k => x (f k)) := by
  unfold gather
  rw [mapM_except_ok, List.forall₂_iff_get]
  refine ⟨by simp, ?_⟩
  intro k h1 h2
  simp

theorem zipWith_ofFn {α β γ : Type} (f : α → β → γ) (x : Fin n → α) (y : Fin n → β) :
    List.zipWith f (List.ofFn x) (List.ofFn y) = List.ofFn fun k => f (x k) (y k) := by
  apply List.ext_getElem
  · simp
  · intro k h1 h2
    simp

theorem zip_ofFn {α β : Type} (x : Fin n → α) (y : Fin n → β) :
    (List.ofFn x).zip (List.ofFn y) = List.ofFn fun k => (x k, y k) := by
  apply List.ext_getElem
  · simp
  · intro k h1 h2
    simp

theorem sum_filter_ofFn {M : Type} [AddCommMonoid M] (v : Fin T → M) (p : Fin T → Bool) :
    (((List.ofFn fun k => (v k, p k)).filter fun a => a.2).map (·.1)).sum =
      ∑ k with p k = true, v k := by
  induction T with
  | zero => simp
  | succ T ih =>
    rw [List.ofFn_succ, Finset.sum_filter, Fin.sum_univ_succ, ← Finset.sum_filter]
    rw [← ih (fun k => v k.succ) fun k => p k.succ]
    cases h : p 0 <;> simp [h]

theorem scatterSum_ofFn (v : Fin T → Row d) (f : Fin T → Fin n) :
    scatterSum (List.ofFn v) (List.ofFn fun k => (f k).1) n =
      List.ofFn fun r : Fin n => ∑ k with f k = r, v k := by
  unfold scatterSum
  apply List.ext_getElem
  · simp
  · intro r h1 h2
    have hr : r < n := by simpa using h1
    rw [List.getElem_map, List.getElem_range, List.getElem_ofFn, zip_ofFn]
    have := sum_filter_ofFn v fun k => (f k).1 == r
    rw [show (Finset.univ.filter fun k => f k = ⟨r, hr⟩) =
        Finset.univ.filter fun k => ((f k).1 == r) = true by
      ext k
      simp [Fin.ext_iff]]
    rw [← this]
    congr 1
    rw [List.ofFn_eq_map, List.ofFn_eq_map, List.filter_map, List.filter_map, List.map_map,
      List.map_map]
    rfl

/-! ## Rounds -/

/-- The index tensors describe the graph. -/
structure Triplets.Describes (t : Triplets) (G : Spec.Wiring (Fin n) (Fin e) (Fin T)) : Prop where
  i : t.i = List.ofFn fun k => (G.fst k).1
  j : t.j = List.ofFn fun k => (G.snd k).1
  indexI : t.indexI = List.ofFn fun k => (G.nodeA k).1
  indexJ : t.indexJ = List.ofFn fun k => (G.nodeB k).1
  indexK : t.indexK = List.ofFn fun k => (G.nodeC k).1
  indexJi : t.indexJi = List.ofFn fun k => (G.near k).1
  indexKj : t.indexKj = List.ofFn fun k => (G.far k).1

theorem list_as_fn {l : List ℕ} (hl : l.length = T) (h : ∀ x ∈ l, x < n) :
    ∃ f : Fin T → Fin n, l = List.ofFn fun k => (f k).1 := by
  subst hl
  refine ⟨fun k => ⟨l[k], h _ (List.getElem_mem _)⟩, ?_⟩
  apply List.ext_getElem
  · simp
  · intro k h1 h2
    simp

theorem Triplets.Valid.describes {t : Triplets} (h : t.Valid n e) :
    ∃ G : Spec.Wiring (Fin n) (Fin e) (Fin t.indexI.length), t.Describes G := by
  obtain ⟨f1, h1⟩ := list_as_fn h.lenI fun x hx => h.nodes x (by tauto)
  obtain ⟨f2, h2⟩ := list_as_fn h.lenJ fun x hx => h.nodes x (by tauto)
  obtain ⟨f3, h3⟩ := list_as_fn (l := t.indexI) rfl fun x hx => h.nodes x (by tauto)
  obtain ⟨f4, h4⟩ := list_as_fn h.lenIndexJ fun x hx => h.nodes x (by tauto)
  obtain ⟨f5, h5⟩ := list_as_fn h.lenIndexK fun x hx => h.nodes x (by tauto)
  obtain ⟨f6, h6⟩ := list_as_fn h.lenIndexJi fun x hx => h.edges x (by tauto)
  obtain ⟨f7, h7⟩ := list_as_fn h.lenIndexKj fun x hx => h.edges x (by tauto)
  exact ⟨⟨f1, f2, f3, f4, f5, f6, f7⟩, h1, h2, h3, h4, h5, h6, h7⟩

theorem Triplets.Describes.valid {t : Triplets} {G : Spec.Wiring (Fin n) (Fin e) (Fin T)}
    (h : t.Describes G) : t.Valid n e where
  lenI := by rw [h.i]; simp
  lenJ := by rw [h.j]; simp
  lenIndexJ := by rw [h.indexJ, h.indexI]; simp
  lenIndexK := by rw [h.indexK, h.indexI]; simp
  lenIndexJi := by rw [h.indexJi, h.indexI]; simp
  lenIndexKj := by rw [h.indexKj, h.indexI]; simp
  nodes := by
    intro x hx
    rw [h.i, h.j, h.indexI, h.indexJ, h.indexK] at hx
    simp only [List.mem_ofFn] at hx
    rcases hx with ⟨k, rfl⟩ | ⟨k, rfl⟩ | ⟨k, rfl⟩ | ⟨k, rfl⟩ | ⟨k, rfl⟩ <;> exact Fin.isLt _
  edges := by
    intro x hx
    rw [h.indexJi, h.indexKj] at hx
    simp only [List.mem_ofFn] at hx
    rcases hx with ⟨k, rfl⟩ | ⟨k, rfl⟩ <;> exact Fin.isLt _

/-- The maps of a round, written with the textbook formulas of the layers. -/
noncomputable def roundOf (b : NodeBlock dn de × EdgeBlock dn de) : Spec.Round dn de where
  message x y := Spec.gated (Spec.layerNorm b.1.c1Norm.weight b.1.c1Norm.bias
    (Spec.affine (Matrix.of b.1.c1Linear.weight) b.1.c1Linear.bias (Fin.append x y)))
  newNode x s := fun k => Real.tanh (x k + Spec.layerNorm b.1.finalNorm.weight b.1.finalNorm.bias s k)
  pair x x' := Spec.layerNorm b.2.c2Norm2.weight b.2.c2Norm2.bias
    (Spec.gated (Spec.layerNorm b.2.c2Norm1.weight b.2.c2Norm1.bias
      (Spec.affine (Matrix.of b.2.c2Linear.weight) b.2.c2Linear.bias (x * x'))))
  triple x x' x'' y y' := Spec.gated (Spec.layerNorm b.2.c3Norm1.weight b.2.c3Norm1.bias
    (Spec.affine (Matrix.of b.2.c3Linear.weight) b.2.c3Linear.bias
      (Fin.append x (Fin.append x' (Fin.append x'' (Fin.append y y'))))))
  newEdge y c s := fun k => Real.tanh (y k + c k +
    Spec.layerNorm b.2.c3Norm2.weight b.2.c3Norm2.bias s k)

theorem gate_eq (x : Row (d + d)) : gate x = Spec.gated x := by
  funext k
  simp only [gate, Spec.gated, chunkFst, chunkSnd, sigmoid_eq]

theorem linear_eq {a b : ℕ} (l : Linear a b) (x : Row a) :
    l.apply x = Spec.affine (Matrix.of l.weight) l.bias x := (C125_linear l x).1

theorem nodeBlock_formula (b : NodeBlock dn de × EdgeBlock dn de) {t : Triplets}
    {G : Spec.Wiring (Fin n) (Fin e) (Fin T)} (h : t.Describes G) (x : Fin n → Row dn)
    (y : Fin e → Row de) :
    b.1.forward (List.ofFn x) (List.ofFn y) t.i = .ok (List.ofFn ((roundOf b).nodes G x y)) := by
  unfold NodeBlock.forward
  rw [h.i, gather_ofFn]
  change Except.ok _ = Except.ok _
  rw [zipWith_ofFn, List.length_ofFn, scatterSum_ofFn, zipWith_ofFn]
  congr 2
  funext v
  unfold Spec.Round.nodes
  have hs : ∑ k with G.fst k = v, b.1.message (x (G.fst k)) (y k) =
      ∑ k with G.fst k = v, (roundOf b).message (x v) (y k) := by
    apply Finset.sum_congr rfl
    intro k hk
    rw [(Finset.mem_filter.1 hk).2]
    unfold NodeBlock.message roundOf
    rw [gate_eq, C125_layer_norm, linear_eq]
  rw [hs]
  funext k
  unfold NodeBlock.update
  rw [C125_layer_norm]
  rfl

theorem edgeBlock_formula (b : NodeBlock dn de × EdgeBlock dn de) {t : Triplets}
    {G : Spec.Wiring (Fin n) (Fin e) (Fin T)} (h : t.Describes G) (x : Fin n → Row dn)
    (y : Fin e → Row de) :
    b.2.forward (List.ofFn x) (List.ofFn y) t = .ok (List.ofFn ((roundOf b).edges G x y)) := by
  unfold EdgeBlock.forward
  rw [h.i, h.j, h.indexI, h.indexJ, h.indexK, h.indexJi, h.indexKj]
  simp only [gather_ofFn]
  change Except.ok _ = Except.ok _
  rw [zipWith_ofFn, zip_ofFn, zip_ofFn, zip_ofFn, zip_ofFn, zip_ofFn, List.map_ofFn,
    List.length_ofFn, scatterSum_ofFn, zipWith_ofFn]
  congr 2
  funext q
  unfold Spec.Round.edges
  have hs : ∑ k with G.near k = q, (b.2.message ∘ fun k => (x (G.nodeA k), x (G.nodeB k),
        x (G.nodeC k), y (G.near k), y (G.far k))) k =
      ∑ k with G.near k = q, (roundOf b).triple (x (G.nodeA k)) (x (G.nodeB k)) (x (G.nodeC k)) (y q)
        (y (G.far k)) := by
    apply Finset.sum_congr rfl
    intro k hk
    rw [Function.comp, (Finset.mem_filter.1 hk).2]
    unfold EdgeBlock.message roundOf
    rw [gate_eq, C125_layer_norm, linear_eq]
  have hp : ∀ z z' : Row dn, b.2.c2 z z' = (roundOf b).pair z z' := by
    intro z z'
    unfold EdgeBlock.c2 roundOf
    rw [C125_layer_norm, gate_eq, C125_layer_norm, linear_eq]
    rfl
  rw [hs, hp]
  funext k
  unfold EdgeBlock.update
  rw [C125_layer_norm]
  rfl

theorem messagePassing_formula {t : Triplets} {G : Spec.Wiring (Fin n) (Fin e) (Fin T)}
    (h : t.Describes G) (bs : List (NodeBlock dn de × EdgeBlock dn de)) (x : Fin n → Row dn)
    (y : Fin e → Row de) :
    messagePassing t bs (List.ofFn x) (List.ofFn y) =
      .ok (List.ofFn (Spec.embed G (bs.map roundOf) x y)) := by
  induction bs generalizing x y with
  | nil => rfl
  | cons b bs ih =>
    rw [messagePassing, nodeBlock_formula b h]
    dsimp only [bind, Except.bind]
    rw [edgeBlock_formula b h]
    exact ih _ _

end Verif
