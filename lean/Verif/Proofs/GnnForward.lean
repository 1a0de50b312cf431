import Verif.Proofs.Gnn

/-!
# Helper lemmas: `PotGNN.forward` on a batch in terms of its samples
-/

namespace Verif

variable {dn de n : ℕ}

/-! ## Graph of a batch -/

/-- Edge information of a sample inside a batch. -/
def relabel (n s : ℕ) (e : GraphEdge) : GraphEdge :=
  { e with graph := e.graph + s, i := e.i + s * n, j := e.j + s * n }

theorem graphInfo1_relabel {samples : List (Mat3 ℝ × Pos n ℝ)} {s : ℕ} {x : Mat3 ℝ × Pos n ℝ}
    (h : samples[s]? = some x) (a b : ℕ) :
    graphInfo1 samples (s, a, b) = (graphInfo1 [x] (0, a, b)).map (relabel n s) := by
  unfold graphInfo1
  dsimp only
  rw [h]
  dsimp only [List.getElem?_cons_zero]
  split
  · simp [relabel, Except.map]
  · rfl

theorem batch_indexes {α : Type} (S : ℕ) (l : List α) :
    (repeatInterleave S l.length).zip (repeatTimes S l) = blocks S fun s => l.map fun e => (s, e) := by
  rw [blocks_replicate]
  change (blocks S fun s => List.replicate l.length s).zip _ = _
  rw [zip_blocks (fun s _ => by simp)]
  apply blocks_congr
  intro s _
  induction l with
  | nil => rfl
  | cons a l ih => simp [List.replicate_succ, ih]

theorem batchGraph_eq (m : PotGNN dn de) (samples : List (GSample n)) :
    m.batchGraph samples = getGraphInfo (samples.map fun s => (s.lattice, s.positions))
      (blocks samples.length fun s => m.refEdges.map fun e => (s, e)) := by
  unfold PotGNN.batchGraph
  dsimp only
  rw [batch_indexes]

/-- Reference edges connect atoms of the structure. -/
def EdgesInRange (n : ℕ) (l : List (ℕ × ℕ)) : Prop := ∀ e ∈ l, e.1 < n ∧ e.2 < n

theorem graphInfo_single {x : Mat3 ℝ × Pos n ℝ} {l : List (ℕ × ℕ)} (h : EdgesInRange n l) :
    ∃ es, (l.map fun e => (0, e)).mapM (graphInfo1 [x]) = .ok es ∧ es.length = l.length ∧
      (∀ e ∈ es, e.graph = 0) ∧
      List.Forall₂ (fun (ab : ℕ × ℕ) e => ∃ a b : Fin n, ab = (a.1, b.1) ∧
        e.unit = unitVector (pairDisplacement x.1 x.2 a b) ∧
        e.distance = pairDistance x.1 x.2 a b) l es := by
  induction l with
  | nil => exact ⟨[], rfl, rfl, by simp, .nil⟩
  | cons e l ih =>
    obtain ⟨es, h1, h2, h3, h4⟩ := ih fun y hy => h y (by simp [hy])
    obtain ⟨ha, hb⟩ := h e (by simp)
    have he : graphInfo1 [x] (0, e) = .ok ⟨0, e.1 + 0 * n, e.2 + 0 * n,
        unitVector (pairDisplacement x.1 x.2 ⟨e.1, ha⟩ ⟨e.2, hb⟩),
        pairDistance x.1 x.2 ⟨e.1, ha⟩ ⟨e.2, hb⟩⟩ := by
      unfold graphInfo1
      dsimp only [List.getElem?_cons_zero]
      rw [dif_pos ⟨ha, hb⟩]
    refine ⟨⟨0, e.1 + 0 * n, e.2 + 0 * n,
        unitVector (pairDisplacement x.1 x.2 ⟨e.1, ha⟩ ⟨e.2, hb⟩),
        pairDistance x.1 x.2 ⟨e.1, ha⟩ ⟨e.2, hb⟩⟩ :: es, ?_, by simp [h2], ?_,
      .cons ⟨⟨e.1, ha⟩, ⟨e.2, hb⟩, rfl, rfl, rfl⟩ h4⟩
    · rw [List.map_cons, List.mapM_cons, he, h1]
      rfl
    · intro y hy
      rcases List.mem_cons.1 hy with rfl | hy
      · rfl
      · exact h3 y hy

/-- Graph of a single sample. -/
noncomputable def edges1 (m : PotGNN dn de) (x : GSample n) : List GraphEdge :=
  match m.batchGraph [x] with
  | .ok es => es
  | .error _ => []

theorem edges1_spec (m : PotGNN dn de) (h : EdgesInRange n m.refEdges) (x : GSample n) :
    m.batchGraph [x] = .ok (edges1 m x) ∧ (edges1 m x).length = m.refEdges.length ∧
      (∀ e ∈ edges1 m x, e.graph = 0) ∧
      List.Forall₂ (fun (ab : ℕ × ℕ) e => ∃ a b : Fin n, ab = (a.1, b.1) ∧
        e.unit = unitVector (pairDisplacement x.lattice x.positions a b) ∧
        e.distance = pairDistance x.lattice x.positions a b) m.refEdges (edges1 m x) := by
  obtain ⟨es, h1, h2, h3, h4⟩ := graphInfo_single (x := (x.lattice, x.positions)) h
  have hb : m.batchGraph [x] = .ok es := by
    rw [batchGraph_eq]
    change getGraphInfo _ (blocks 1 _) = _
    rw [blocks_one]
    exact h1
  have : edges1 m x = es := by
    unfold edges1
    rw [hb]
  rw [this]
  exact ⟨hb, h2, h3, h4⟩

/-- Block of sample `s`. -/
def onSample {α β : Type} (samples : List α) (f : α → List β) (s : ℕ) : List β :=
  (samples[s]?.map f).getD []

theorem onSample_lt {α β : Type} {samples : List α} {f : α → List β} {s : ℕ}
    (hs : s < samples.length) : onSample samples f s = f samples[s] := by
  simp [onSample, hs]

theorem blocks_onSample {α β : Type} (samples : List α) (f : α → List β) :
    blocks samples.length (onSample samples f) = samples.flatMap f := by
  induction samples using List.reverseRecOn with
  | nil => rfl
  | append_singleton l a ih =>
    rw [List.length_append, List.length_singleton, blocks_succ, List.flatMap_append, ← ih]
    congr 1
    · apply blocks_congr
      intro s hs
      unfold onSample
      rw [List.getElem?_append_left hs]
    · simp [onSample]

theorem batchGraph_blocks (m : PotGNN dn de) (h : EdgesInRange n m.refEdges)
    (samples : List (GSample n)) :
    m.batchGraph samples = .ok (blocks samples.length fun s =>
      (onSample samples (edges1 m) s).map (relabel n s)) := by
  rw [batchGraph_eq]
  unfold getGraphInfo
  apply mapM_blocks_ok
  intro s hs
  rw [onSample_lt hs]
  have h1 := (edges1_spec m h samples[s]).1
  rw [batchGraph_eq] at h1
  change getGraphInfo _ (blocks 1 _) = _ at h1
  rw [blocks_one] at h1
  unfold getGraphInfo at h1
  have hx : (samples.map fun s => (s.lattice, s.positions))[s]? =
      some (samples[s].lattice, samples[s].positions) := by
    simp [hs]
  generalize edges1 m samples[s] = es at h1
  have key : ∀ (l : List (ℕ × ℕ)) (es : List GraphEdge),
      (l.map fun e => (0, e)).mapM (graphInfo1 [(samples[s].lattice, samples[s].positions)]) = .ok es →
      (l.map fun e => (s, e)).mapM (graphInfo1 (samples.map fun s => (s.lattice, s.positions))) =
        .ok (es.map (relabel n s)) := by
    intro l
    induction l with
    | nil => intro es hes; cases hes; rfl
    | cons e l ih =>
      intro es hes
      rw [List.map_cons, List.mapM_cons] at hes ⊢
      rw [graphInfo1_relabel hx]
      cases h1 : graphInfo1 [(samples[s].lattice, samples[s].positions)] (0, e) with
      | error _ => rw [h1] at hes; cases hes
      | ok g =>
        rw [h1] at hes
        cases h2 : (l.map fun e => (0, e)).mapM
            (graphInfo1 [(samples[s].lattice, samples[s].positions)]) with
        | error _ =>
          dsimp only [bind, Except.bind] at hes
          rw [h2] at hes
          cases hes
        | ok gs =>
          dsimp only [bind, Except.bind] at hes
          rw [h2] at hes
          cases hes
          rw [ih gs h2]
          rfl
  exact key _ _ h1

/-! ## Sums over masks -/

theorem sumRows_none {l : List (Option (Fin 6 → ℝ))} : sumRows l = none ↔ none ∈ l := by
  induction l with
  | nil => simp [sumRows]
  | cons a l ih => cases a <;> simp [sumRows, ih]

theorem sumRows_some (l : List (Fin 6 → ℝ)) : sumRows (l.map some) = some l.sum := by
  induction l with
  | nil => rfl
  | cons a l ih => simp [sumRows, ih]

theorem exists_map_some {α : Type} {l : List (Option α)} (h : none ∉ l) :
    ∃ v : List α, l = v.map some := by
  induction l with
  | nil => exact ⟨[], rfl⟩
  | cons a l ih =>
    obtain ⟨v, hv⟩ := ih fun hn => h (by simp [hn])
    cases a with
    | none => simp at h
    | some a => exact ⟨a :: v, by simp [hv]⟩

/-- Average of the edge polarizabilities of one sample. -/
noncomputable def average (pols : List (Option (Fin 6 → ℝ))) : Option (Fin 6 → ℝ) :=
  (sumRows pols).bind fun v => if pols.length = 0 then none else some fun k => v k / pols.length

theorem mask_none {pols : List (Option (Fin 6 → ℝ))} {mask : List Bool}
    (h : pols.length = mask.length) : none ∈ List.zipWith maskRow pols mask ↔ none ∈ pols := by
  induction pols generalizing mask with
  | nil => simp
  | cons p ps ih =>
    cases mask with
    | nil => simp at h
    | cons k ks =>
      rw [List.zipWith_cons_cons, List.mem_cons, List.mem_cons, ih (by simpa using h)]
      cases p <;> simp [maskRow]

theorem mask_some (vs : List (Fin 6 → ℝ)) (mask : List Bool) :
    List.zipWith maskRow (vs.map some) mask =
      (List.zipWith (fun v k => if k then v else 0) vs mask).map some := by
  induction vs generalizing mask with
  | nil => rfl
  | cons v vs ih =>
    cases mask with
    | nil => rfl
    | cons k ks => simp [ih, maskRow]

theorem isolate_none {edges : List GraphEdge} {pols : List (Option (Fin 6 → ℝ))}
    (hl : pols.length = edges.length) (h : none ∈ pols) (s : ℕ) : isolate edges pols s = none := by
  unfold isolate
  dsimp only
  rw [sumRows_none.2 ((mask_none (by simpa using hl)).2 h)]
  rfl

theorem zipWith_mask_all (vs : List (Fin 6 → ℝ)) (edges : List GraphEdge) (s : ℕ)
    (hl : vs.length = edges.length) (h : ∀ e ∈ edges, e.graph = s) :
    List.zipWith (fun v (k : Bool) => if k then v else 0) vs (edges.map fun e => e.graph == s) =
      vs := by
  induction vs generalizing edges with
  | nil => rfl
  | cons v vs ih =>
    cases edges with
    | nil => simp at hl
    | cons e es =>
      rw [List.map_cons, List.zipWith_cons_cons, ih es (by simpa using hl) fun e he => h e (by simp [he])]
      simp [h e (by simp)]

theorem zipWith_mask_none (vs : List (Fin 6 → ℝ)) (edges : List GraphEdge) (s : ℕ)
    (h : ∀ e ∈ edges, e.graph ≠ s) :
    (List.zipWith (fun v (k : Bool) => if k then v else 0) vs
      (edges.map fun e => e.graph == s)).sum = 0 := by
  induction vs generalizing edges with
  | nil => rfl
  | cons v vs ih =>
    cases edges with
    | nil => rfl
    | cons e es =>
      rw [List.map_cons, List.zipWith_cons_cons, List.sum_cons, ih es fun e he => h e (by simp [he])]
      simp [h e (by simp)]

theorem isolate_blocks {S : ℕ} {Es : ℕ → List GraphEdge} {Ps : ℕ → List (Option (Fin 6 → ℝ))}
    (hl : ∀ s < S, (Ps s).length = (Es s).length) (hg : ∀ s < S, ∀ e ∈ Es s, e.graph = s)
    (hnone : ∀ s < S, none ∉ Ps s) {s : ℕ} (hs : s < S) :
    isolate (blocks S Es) (blocks S Ps) s = average (Ps s) := by
  have hv : ∀ s, ∃ v : List (Fin 6 → ℝ), s < S → Ps s = v.map some := by
    intro s
    by_cases hs : s < S
    · obtain ⟨v, hv⟩ := exists_map_some (hnone s hs)
      exact ⟨v, fun _ => hv⟩
    · exact ⟨[], fun h => absurd h hs⟩
  choose V hV using hv
  have hP : blocks S Ps = (blocks S V).map some := by
    rw [map_blocks]
    exact blocks_congr fun s hs => hV s hs
  have hVl : ∀ s < S, (V s).length = (Es s).length := by
    intro s hs
    rw [← hl s hs, hV s hs, List.length_map]
  unfold isolate average
  dsimp only
  rw [hP, mask_some, sumRows_some, map_blocks, zipWith_blocks _ (fun s hs => by simp [hVl s hs]),
    sum_blocks, sum_range_single _ hs, zipWith_mask_all _ _ _ (hVl s hs) (hg s hs), hV s hs,
    sumRows_some]
  · have hc : ((blocks S fun s' => (Es s').map fun e => e.graph == s).filter id).length =
        (V s).length := by
      rw [filter_blocks]
      have h1 : (blocks S fun s' => ((Es s').map fun e => e.graph == s).filter id).length =
          (blocks S fun s' => (((Es s').map fun e => e.graph == s).filter id).map fun _ => 1).sum := by
        rw [← map_blocks]
        simp
      rw [h1, sum_blocks, sum_range_single _ hs]
      · rw [List.filter_eq_self.2, List.map_map]
        · rw [hVl s hs]
          generalize Es s = l
          induction l with
          | nil => rfl
          | cons a l ih => simp only [List.map_cons, List.sum_cons, ih, List.length_cons,
              Function.comp]; omega
        · intro k hk
          obtain ⟨e, he, rfl⟩ := List.mem_map.1 hk
          simp [hg s hs e he]
      · intro t ht hts
        rw [List.filter_eq_nil_iff.2]
        · rfl
        · intro k hk
          obtain ⟨e, he, rfl⟩ := List.mem_map.1 hk
          simp [hg t ht e he, hts]
    rw [hc, List.length_map]
  · intro t ht hts
    exact zipWith_mask_none _ _ _ fun e he => by rw [hg t ht e he]; exact hts

/-! ## Forward pass -/

/-- Edge polarizabilities of a single sample. -/
noncomputable def samplePols (m : PotGNN dn de) (ref : Triplets) (x : GSample n) :
    Py (List (Option (Fin 6 → ℝ))) := do
  let nodes ← ((List.finRange n).map x.numbers).mapM m.embedAtom
  let emb ← messagePassing ref m.blocks nodes ((edges1 m x).map fun e => m.filter.apply e.distance)
  return List.zipWith (fun r e => edgePolarizability (m.headRow r) e.unit) emb (edges1 m x)

/-- The reference graph of the model fits structures with `n` atoms. -/
structure PotGNN.Fits (m : PotGNN dn de) (n : ℕ) (ref : Triplets) : Prop where
  edges : EdgesInRange n m.refEdges
  triplets : ref.Valid n m.refEdges.length

/-- State in evaluation mode. -/
structure GnnState.Eval (st : GnnState) (ref : Triplets) (n e : ℕ) : Prop where
  mode : st.training = false
  ready : st.triplets.Ready ref n e

theorem embed_length {m : PotGNN dn de} {l : List ℕ} {r : List (Row dn)}
    (h : l.mapM m.embedAtom = .ok r) : r.length = l.length :=
  ((mapM_except_ok _ _ _).1 h).length_eq.symm

theorem samplePols_ok {m : PotGNN dn de} {ref : Triplets} (hm : m.Fits n ref) {x : GSample n}
    {nodes : List (Row dn)} (h : ((List.finRange n).map x.numbers).mapM m.embedAtom = .ok nodes) :
    ∃ emb, messagePassing ref m.blocks nodes ((edges1 m x).map fun e => m.filter.apply e.distance) =
        .ok emb ∧ emb.length = m.refEdges.length ∧ samplePols m ref x =
        .ok (List.zipWith (fun r e => edgePolarizability (m.headRow r) e.unit) emb (edges1 m x)) := by
  have hl : nodes.length = n := by rw [embed_length h]; simp
  obtain ⟨emb, h1, h2⟩ := messagePassing_total hm.triplets m.blocks hl
    (edges := (edges1 m x).map fun e => m.filter.apply e.distance)
    (by rw [List.length_map, (edges1_spec m hm.edges x).2.1])
  refine ⟨emb, h1, h2, ?_⟩
  unfold samplePols
  rw [h]
  dsimp only [bind, Except.bind]
  rw [h1]
  rfl

open Classical in
theorem forward_ok {m : PotGNN dn de} {ref : Triplets} (hm : m.Fits n ref) {st : GnnState}
    (hst : st.Eval ref n m.refEdges.length) (samples : List (GSample n))
    (P : GSample n → List (Option (Fin 6 → ℝ)))
    (h : ∀ x ∈ samples, samplePols m ref x = .ok (P x)) :
    (m.forward st samples).1 = .ok (samples.map fun x =>
      if ∃ y ∈ samples, none ∈ P y then none else average (P x)) ∧
    (m.forward st samples).2.Eval ref n m.refEdges.length := by
  have hnodes : ∀ x ∈ samples, ∃ nodes,
      ((List.finRange n).map x.numbers).mapM m.embedAtom = .ok nodes := by
    intro x hx
    have := h x hx
    unfold samplePols at this
    cases hn : ((List.finRange n).map x.numbers).mapM m.embedAtom with
    | error e => rw [hn] at this; cases this
    | ok nodes => exact ⟨nodes, rfl⟩
  -- functions of the sample number
  have hch : ∀ s, ∃ (nd : List (Row dn)) (em : List (Row de)), s < samples.length →
      ∀ hs : s < samples.length,
      ((List.finRange n).map samples[s].numbers).mapM m.embedAtom = .ok nd ∧
      messagePassing ref m.blocks nd
        ((edges1 m samples[s]).map fun e => m.filter.apply e.distance) = .ok em ∧
      em.length = m.refEdges.length ∧
      P samples[s] = List.zipWith (fun r e => edgePolarizability (m.headRow r) e.unit) em
        (edges1 m samples[s]) := by
    intro s
    by_cases hs : s < samples.length
    · obtain ⟨nd, hnd⟩ := hnodes _ (List.getElem_mem hs)
      obtain ⟨em, h1, h2, h3⟩ := samplePols_ok hm hnd
      refine ⟨nd, em, fun _ _ => ⟨hnd, h1, h2, ?_⟩⟩
      rw [h _ (List.getElem_mem hs)] at h3
      exact Except.ok.inj h3
    · exact ⟨[], [], fun h => absurd h hs⟩
  choose nd em hne using hch
  have hne' : ∀ s (hs : s < samples.length), _ := fun s hs => hne s hs hs
  have hprep : m.prepare samples = .ok (blocks samples.length (fun s =>
      (onSample samples (edges1 m) s).map (relabel n s)), blocks samples.length nd) := by
    unfold PotGNN.prepare
    rw [batchGraph_blocks m hm.edges]
    dsimp only [bind, Except.bind]
    have : (batchNumbers samples).mapM m.embedAtom = .ok (blocks samples.length nd) := by
      unfold batchNumbers
      rw [← blocks_onSample]
      apply mapM_blocks_ok
      intro s hs
      rw [onSample_lt hs]
      exact (hne' s hs).1
    rw [this]
    rfl
  have hget := hst.ready.get samples.length
  unfold PotGNN.forward
  rw [hprep]
  dsimp only
  refine ⟨?_, ⟨hst.mode, hget.2.1⟩⟩
  rw [hget.1, hst.mode]
  unfold PotGNN.forwardFrom
  have hndl : ∀ s < samples.length, (nd s).length = n := by
    intro s hs
    rw [embed_length (hne' s hs).1]
    simp
  have hel : ∀ s < samples.length, (onSample samples (edges1 m) s).length = m.refEdges.length := by
    intro s hs
    rw [onSample_lt hs, (edges1_spec m hm.edges _).2.1]
  have hmp : messagePassing (ref.copies n m.refEdges.length samples.length) m.blocks
      (blocks samples.length nd)
      ((blocks samples.length fun s => (onSample samples (edges1 m) s).map (relabel n s)).map
        fun e => m.filter.apply e.distance) = .ok (blocks samples.length em) := by
    rw [map_blocks]
    apply messagePassing_blocks hm.triplets m.blocks hndl
    · intro s hs
      rw [List.length_map, List.length_map, hel s hs]
    · intro s hs
      rw [← (hne' s hs).2.1, onSample_lt hs, List.map_map]
      rfl
  rw [hmp]
  dsimp only [bind, Except.bind, PotGNN.head]
  rw [if_neg (by simp)]
  dsimp only [pure, Except.pure]
  have hpol : List.zipWith (fun x e => edgePolarizability x e.unit)
      ((blocks samples.length em).map m.headRow)
      (blocks samples.length fun s => (onSample samples (edges1 m) s).map (relabel n s)) =
      blocks samples.length (onSample samples P) := by
    rw [map_blocks, zipWith_blocks _ (fun s hs => by
      rw [List.length_map, List.length_map, hel s hs, (hne' s hs).2.2.1])]
    apply blocks_congr
    intro s hs
    rw [onSample_lt hs, onSample_lt hs, (hne' s hs).2.2.2, List.zipWith_map]
    rfl
  rw [hpol]
  have hPl : ∀ s < samples.length, (onSample samples P s).length =
      ((onSample samples (edges1 m) s).map (relabel n s)).length := by
    intro s hs
    rw [List.length_map, hel s hs, onSample_lt hs, (hne' s hs).2.2.2, List.length_zipWith,
      (hne' s hs).2.2.1, (edges1_spec m hm.edges _).2.1, min_self]
  congr 1
  apply List.ext_getElem
  · simp
  · intro s h1 h2
    rw [List.getElem_map, List.getElem_map, List.getElem_range]
    have hs : s < samples.length := by simpa using h1
    by_cases hdeg : ∃ y ∈ samples, none ∈ P y
    · rw [if_pos hdeg]
      apply isolate_none
      · rw [length_blocks (fun s hs => by rw [hPl s hs, List.length_map, hel s hs]),
          length_blocks (fun s hs => by rw [List.length_map, hel s hs])]
      · obtain ⟨y, hy, hn⟩ := hdeg
        rw [blocks_onSample, List.mem_flatMap]
        exact ⟨y, hy, hn⟩
    · rw [if_neg hdeg, isolate_blocks hPl ?_ ?_ hs, onSample_lt hs]
      · intro s hs e he
        rw [onSample_lt hs] at he
        obtain ⟨e', he', rfl⟩ := List.mem_map.1 he
        simp [relabel, (edges1_spec m hm.edges _).2.2.1 e' he']
      · intro s hs hn
        rw [onSample_lt hs] at hn
        exact hdeg ⟨_, List.getElem_mem hs, hn⟩

end Verif
