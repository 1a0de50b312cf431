import Verif.Model.Dimenet
import Verif.Props.GnnTypes

/-!
# C159: which triplets the network uses
-/

namespace Verif

variable {dn de n : ℕ}

theorem mem_edgePaths {edges : List (ℕ × ℕ)} {p : NumberedEdge × NumberedEdge} :
    p ∈ edgePaths edges ↔ edges[p.1.2]? = some p.1.1 ∧ edges[p.2.2]? = some p.2.1 ∧
      p.2.1.2 = p.1.1.1 ∧ p.1.1.2 ≠ p.2.1.1 := by
  obtain ⟨⟨e, a⟩, ⟨f, b⟩⟩ := p
  simp only [edgePaths, edgesInto, List.mem_flatMap, List.mem_map, List.mem_filter,
    List.mem_insertionSort, Prod.mk.injEq, beq_iff_eq, bne_iff_ne]
  constructor
  · rintro ⟨e', he', f', ⟨⟨hf', h1⟩, h2⟩, rfl, rfl⟩
    exact ⟨List.mk_mem_zipIdx_iff_getElem?.1 he', List.mk_mem_zipIdx_iff_getElem?.1 hf', h1, h2⟩
  · rintro ⟨he, hf, h1, h2⟩
    exact ⟨_, List.mk_mem_zipIdx_iff_getElem?.2 he, _,
      ⟨⟨List.mk_mem_zipIdx_iff_getElem?.2 hf, h1⟩, h2⟩, rfl, rfl⟩

theorem nodup_zipIdx {α : Type} (l : List α) : l.zipIdx.Nodup := by
  apply List.Nodup.of_map Prod.snd
  rw [List.zipIdx_map_snd]
  exact List.nodup_range' (step := 1)

theorem nodup_edgePaths (edges : List (ℕ × ℕ)) : (edgePaths edges).Nodup := by
  unfold edgePaths
  rw [List.nodup_flatMap]
  constructor
  · intro e _
    apply List.Nodup.map
    · intro f g h
      exact (Prod.mk.inj h).2
    · apply List.Nodup.filter
      unfold edgesInto
      exact (List.perm_insertionSort _ _).nodup_iff.2 ((nodup_zipIdx edges).filter _)
  · apply (nodup_zipIdx edges).imp
    intro e e' hne x hx hx'
    simp only [List.mem_map] at hx hx'
    obtain ⟨f, -, rfl⟩ := hx
    obtain ⟨f', -, h⟩ := hx'
    exact hne (Prod.mk.inj h).1.symm

/-- C159: with `triplets` as published, the network uses every path `k → j → i` with `k ≠ i` once,
and the edge `k → j` receives its message. -/
theorem C159_paths (edges : List (ℕ × ℕ)) (hr : EdgesInRange n edges) :
    (pygTriplets edges n).AllPaths true n edges := by
  let ends : Fin edges.length → Fin n × Fin n := fun e =>
    (⟨edges[e].1, (hr _ (List.getElem_mem _)).1⟩, ⟨edges[e].2, (hr _ (List.getElem_mem _)).2⟩)
  let P := edgePaths edges
  have hP : ∀ t : Fin P.length, edges[P[t].1.2]? = some P[t].1.1 ∧
      edges[P[t].2.2]? = some P[t].2.1 ∧ P[t].2.1.2 = P[t].1.1.1 ∧ P[t].1.1.2 ≠ P[t].2.1.1 :=
    fun t => mem_edgePaths.1 (List.getElem_mem _)
  have hnear : ∀ t : Fin P.length, P[t].2.2 < edges.length := fun t =>
    (List.getElem?_eq_some_iff.1 (hP t).2.1).1
  have hfar : ∀ t : Fin P.length, P[t].1.2 < edges.length := fun t =>
    (List.getElem?_eq_some_iff.1 (hP t).1).1
  let near : Fin P.length → Fin edges.length := fun t => ⟨P[t].2.2, hnear t⟩
  let far : Fin P.length → Fin edges.length := fun t => ⟨P[t].1.2, hfar t⟩
  have en : ∀ t, edges[near t] = P[t].2.1 := fun t =>
    (List.getElem?_eq_some_iff.1 (hP t).2.1).2
  have ef : ∀ t, edges[far t] = P[t].1.1 := fun t =>
    (List.getElem?_eq_some_iff.1 (hP t).1).2
  let G : Spec.Wiring (Fin n) (Fin edges.length) (Fin P.length) :=
    { fst := fun e => (ends e).2
      snd := fun e => (ends e).1
      nodeA := fun t => (ends (far t)).2
      nodeB := fun t => (ends (far t)).1
      nodeC := fun t => (ends (near t)).1
      near := near
      far := far }
  have hmap : ∀ (f : NumberedEdge × NumberedEdge → ℕ), P.map f = List.ofFn fun t : Fin P.length => f P[t] := by
    intro f
    apply List.ext_getElem <;> simp
  have hmap' : ∀ (f : ℕ × ℕ → ℕ), edges.map f = List.ofFn fun t : Fin edges.length => f edges[t] := by
    intro f
    apply List.ext_getElem <;> simp
  refine ⟨P.length, G, ends, fun e => rfl, ⟨?_, ?_, ?_, ?_, ?_, ?_, ?_⟩, fun e => rfl, fun e => rfl,
    ?_, ?_, ?_⟩
  · exact hmap' _
  · exact hmap' _
  · change P.map _ = _
    rw [hmap]
    congr 1
    funext t
    change _ = (edges[far t]).2
    rw [ef]
  · change P.map _ = _
    rw [hmap]
    congr 1
    funext t
    change _ = (edges[far t]).1
    rw [ef]
  · change P.map _ = _
    rw [hmap]
    congr 1
    funext t
    change _ = (edges[near t]).1
    rw [en]
  · exact hmap _
  · exact hmap _
  · intro t t' h1 h2
    have e1 : P[t].2.2 = P[t'].2.2 := congrArg Fin.val h1
    have e2 : P[t].1.2 = P[t'].1.2 := congrArg Fin.val h2
    have f1 : P[t].2.1 = P[t'].2.1 := by rw [← en, ← en]; simp only [show near t = near t' from h1]
    have f2 : P[t].1.1 = P[t'].1.1 := by rw [← ef, ← ef]; simp only [show far t = far t' from h2]
    have : P[t] = P[t'] := Prod.ext (Prod.ext f2 e2) (Prod.ext f1 e1)
    exact Fin.ext ((nodup_edgePaths edges).getElem_inj_iff.1 this)
  · intro t
    simp only [if_true]
    refine ⟨Prod.ext rfl (Fin.ext ?_), rfl⟩
    change (edges[near t]).2 = (edges[far t]).1
    rw [en, ef]
    exact (hP t).2.2.1
  · intro p q
    simp only [if_true]
    constructor
    · rintro ⟨t, rfl, rfl⟩
      refine ⟨Fin.ext ?_, fun h => (hP t).2.2.2 ?_⟩
      · change (edges[near t]).2 = (edges[far t]).1
        rw [en, ef]
        exact (hP t).2.2.1
      · have : (edges[near t]).1 = (edges[far t]).2 := congrArg Fin.val h
        rw [en, ef] at this
        exact this.symm
    · rintro ⟨h1, h2⟩
      have hm : ((edges[q], q.1), (edges[p], p.1)) ∈ P := by
        apply mem_edgePaths.2
        refine ⟨List.getElem?_eq_getElem q.2, List.getElem?_eq_getElem p.2, congrArg Fin.val h1,
          fun h => h2 (Fin.ext h.symm)⟩
      obtain ⟨t, ht, h⟩ := List.getElem_of_mem hm
      refine ⟨⟨t, ht⟩, Fin.ext ?_, Fin.ext ?_⟩
      · change P[t].2.2 = _
        rw [h]
      · change P[t].1.2 = _
        rw [h]

/-- C159: the names used by the network are exchanged: as soon as there is a path of two edges, it is
not the edge `j → i` that receives the messages. -/
theorem C159_exchanged (edges : List (ℕ × ℕ)) (hr : EdgesInRange n edges) (i j k : ℕ)
    (h1 : (k, j) ∈ edges) (h2 : (j, i) ∈ edges) (hki : k ≠ i) :
    ¬ (pygTriplets edges n).AllPaths false n edges := by
  rintro ⟨T, G, ends, he, hd, ha⟩
  have hm : ∃ p ∈ edgePaths edges, True := by
    obtain ⟨a, ha, ha'⟩ := List.getElem_of_mem h2
    obtain ⟨b, hb, hb'⟩ := List.getElem_of_mem h1
    refine ⟨(((j, i), a), ((k, j), b)), mem_edgePaths.2 ⟨?_, ?_, rfl, fun h => hki h.symm⟩, trivial⟩
    · rw [List.getElem?_eq_getElem ha, ha']
    · rw [List.getElem?_eq_getElem hb, hb']
  obtain ⟨p, hp, -⟩ := hm
  obtain ⟨t, ht, rfl⟩ := List.getElem_of_mem hp
  have hT : T = (edgePaths edges).length := by
    have := congrArg List.length hd.indexI
    simpa [pygTriplets] using this.symm
  subst hT
  have key : ∀ (f : NumberedEdge × NumberedEdge → ℕ) (g : Fin (edgePaths edges).length → ℕ),
      (edgePaths edges).map f = List.ofFn g → f (edgePaths edges)[t] = g ⟨t, ht⟩ := by
    intro f g h
    have := congrArg (fun l => l[t]?) h
    simpa [ht] using this
  have kI := key _ _ hd.indexI
  have kJ := key _ _ hd.indexJ
  have kJi := key _ _ hd.indexJi
  obtain ⟨q1, q2, q3, q4⟩ := mem_edgePaths.1 hp
  have hn := ha.nodes ⟨t, ht⟩
  simp only [Bool.false_eq_true, if_false] at hn
  have h3 := he (G.near ⟨t, ht⟩)
  rw [hn.1] at h3
  rw [kJi, List.getElem?_eq_getElem (Fin.isLt _), Option.some.injEq] at q2
  have h4 : (edgePaths edges)[t].2.1 = ((G.nodeB ⟨t, ht⟩).1, (G.nodeA ⟨t, ht⟩).1) := q2.symm.trans h3
  rw [← kI, ← kJ] at h4
  apply q4
  rw [h4] at q3 ⊢
  exact q3

/-- C159: the new features of an edge `a → b` are computed from the edges that continue it
(`b → c` with `c ≠ a`), not from those that lead to it. -/
theorem C159_update {V E T : Type} [Fintype E] [Fintype T] [DecidableEq V] [DecidableEq E]
    {ends : E → V × V} {G : Spec.Wiring V E T} (h : Spec.AllTriplets true ends G)
    (r : Spec.Round dn de) (x : V → Fin dn → ℝ) (y : E → Fin de → ℝ) (p : E) :
    r.edges G x y p = r.newEdge (y p) (r.pair (x (ends p).2) (x (ends p).1))
      (∑ q with (ends p).2 = (ends q).1 ∧ (ends p).1 ≠ (ends q).2,
        r.triple (x (ends q).2) (x (ends p).2) (x (ends p).1) (y p) (y q)) := by
  unfold Spec.Round.edges
  rw [h.fst, h.snd]
  congr 1
  apply Finset.sum_bij (fun t _ => G.far t)
  · intro t ht
    simp only [Finset.mem_filter, Finset.mem_univ, true_and] at ht ⊢
    have := (h.paths p (G.far t)).1 ⟨t, ht, rfl⟩
    simpa using this
  · intro t ht t' ht' hf
    simp only [Finset.mem_filter, Finset.mem_univ, true_and] at ht ht'
    exact h.once t t' (ht.trans ht'.symm) hf
  · intro q hq
    simp only [Finset.mem_filter, Finset.mem_univ, true_and] at hq
    obtain ⟨t, h1, h2⟩ := (h.paths p q).2 (by simpa using hq)
    exact ⟨t, by simpa using h1, h2⟩
  · intro t ht
    simp only [Finset.mem_filter, Finset.mem_univ, true_and] at ht
    have hn := h.nodes t
    simp only [if_true] at hn
    rw [ht] at hn
    rw [hn.1, hn.2]

/-- C159: with `triplets` as published the statement on the numbering of the atoms (C127) needs no
assumption about it. -/
theorem C159_numbering {m : PotGNN dn de} (a : GnnArgs) (setOrder : List ℕ → List ℕ)
    (hset : SetOrder setOrder)
    (lattice : Mat3 ℝ) (numbers : Fin n → ℕ) (positions : Pos n ℝ) (σ : Fin n ≃ Fin n)
    (s : GnnSetup) (hs : a.setup pygTriplets setOrder lattice numbers positions = .ok s)
    (hm : m.refEdges = s.refEdges) (hmt : m.atomTypeMap = s.atomTypeMap) :
    ∃ s', a.setup pygTriplets setOrder lattice (fun i => numbers (σ i)) (fun i => positions (σ i)) =
        .ok s' ∧
      ∀ table : List (Row dn),
        (∀ i, ∃ (t t' : ℕ) (row : Row dn), s.atomTypeMap[numbers i]? = some (t : ℤ) ∧
          s'.atomTypeMap[numbers i]? = some (t' : ℤ) ∧ m.embedding[t]? = some row ∧
          table[t']? = some row) →
        ∀ samples : List (GSample n),
          ((m.withSetup s' table).forward ⟨false, s'.triplets⟩ (samples.map (renumber σ))).1 =
            (m.forward ⟨false, s.triplets⟩ samples).1 := by
  obtain ⟨s', hs', -, -, h⟩ := C127_types (m := m) a pygTriplets
    (fun e he _ => C159_paths e he) setOrder hset lattice numbers positions σ s hs hm hmt
  exact ⟨s', hs', h⟩

/-- The chain `0 - 1 - 2`: the path `0 → 1 → 2` (edges 0 and 2) is the second one listed, its message
goes to edge 0. -/
example : pygTriplets [(0, 1), (1, 0), (1, 2), (2, 1)] 3 =
    ⟨[1, 0, 2, 1], [0, 1, 1, 2], [0, 2], [1, 1], [2, 0], [3, 0], [1, 2]⟩ := by decide +kernel

/-- In the chain there is a path of two edges. -/
example : ¬ (pygTriplets [(0, 1), (1, 0), (1, 2), (2, 1)] 3).AllPaths false 3
    [(0, 1), (1, 0), (1, 2), (2, 1)] :=
  C159_exchanged _ (by unfold EdgesInRange; decide) 2 1 0 (by decide) (by decide) (by decide)

end Verif
