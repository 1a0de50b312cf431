import Verif.Proofs.Batch
import Verif.Proofs.Pbc
import Verif.Proofs.EquivAtoms
import Verif.Props.Rotation

/-!
# C80-C83: triplets, batches and graphs
-/

namespace Verif

/-! ## C80 -/

/-- Contract of `dimenet_triplets`: lengths and index ranges of its result. -/
structure Triplets.Valid (t : Triplets) (numNodes numEdges : ℕ) : Prop where
  lenI : t.i.length = numEdges
  lenJ : t.j.length = numEdges
  lenIndexJ : t.indexJ.length = t.indexI.length
  lenIndexK : t.indexK.length = t.indexI.length
  lenIndexJi : t.indexJi.length = t.indexI.length
  lenIndexKj : t.indexKj.length = t.indexI.length
  nodes : ∀ x, x ∈ t.i ∨ x ∈ t.j ∨ x ∈ t.indexI ∨ x ∈ t.indexJ ∨ x ∈ t.indexK → x < numNodes
  edges : ∀ x, x ∈ t.indexJi ∨ x ∈ t.indexKj → x < numEdges

/-- Copies of the reference triplets, those of sample `s` shifted by `s` graphs. -/
def Triplets.copies (t : Triplets) (numNodes numEdges batch : ℕ) : Triplets :=
  { i := Spec.shifted batch numNodes t.i
    j := Spec.shifted batch numNodes t.j
    indexI := Spec.shifted batch numNodes t.indexI
    indexJ := Spec.shifted batch numNodes t.indexJ
    indexK := Spec.shifted batch numNodes t.indexK
    indexJi := Spec.shifted batch numEdges t.indexJi
    indexKj := Spec.shifted batch numEdges t.indexKj }

/-- The object after a history of calls. -/
def BatchTriplets.after (bt : BatchTriplets) (history : List ℕ) : BatchTriplets :=
  history.foldl (fun bt b => (bt.getTriplets b).2) bt

theorem build_eq (bt : BatchTriplets) (h : bt.ref.Valid bt.numNodes bt.numEdges) (b : ℕ) :
    bt.build b = bt.ref.copies bt.numNodes bt.numEdges b := by
  unfold BatchTriplets.build Triplets.copies
  dsimp only
  rw [addOffsets_repeat _ _ _ _ h.lenI, addOffsets_repeat _ _ _ _ h.lenJ,
    addOffsets_repeat _ _ _ _ rfl, addOffsets_repeat _ _ _ _ h.lenIndexJ,
    addOffsets_repeat _ _ _ _ h.lenIndexK, addOffsets_repeat _ _ _ _ h.lenIndexJi,
    addOffsets_repeat _ _ _ _ h.lenIndexKj]

theorem copies_one (t : Triplets) (numNodes numEdges : ℕ) : t.copies numNodes numEdges 1 = t := by
  simp [Triplets.copies, shifted_one]

/-- What holds of the object at all times. -/
structure BatchTriplets.Ready (bt : BatchTriplets) (ref : Triplets) (numNodes numEdges : ℕ) :
    Prop where
  reference : bt.ref = ref
  nodes : bt.numNodes = numNodes
  edges : bt.numEdges = numEdges
  valid : ref.Valid numNodes numEdges
  cache : bt.cached = ref.copies numNodes numEdges bt.cachedBatchSize

theorem BatchTriplets.Ready.get {bt : BatchTriplets} {ref : Triplets} {n e : ℕ}
    (h : bt.Ready ref n e) (b : ℕ) :
    (bt.getTriplets b).1 = ref.copies n e b ∧ (bt.getTriplets b).2.Ready ref n e ∧
      (bt.getTriplets b).2.cachedBatchSize = b := by
  unfold BatchTriplets.getTriplets
  dsimp only
  by_cases hb : b = bt.cachedBatchSize
  · rw [if_neg (not_not.2 hb)]
    exact ⟨by rw [h.cache, hb], h, hb.symm⟩
  · rw [if_pos hb]
    have hbuild : bt.build b = ref.copies n e b := by
      rw [build_eq bt (by rw [h.reference, h.nodes, h.edges]; exact h.valid), h.reference, h.nodes, h.edges]
    exact ⟨hbuild, ⟨h.reference, h.nodes, h.edges, h.valid, hbuild⟩, rfl⟩

theorem BatchTriplets.Ready.after {bt : BatchTriplets} {ref : Triplets} {n e : ℕ}
    (h : bt.Ready ref n e) (history : List ℕ) : (bt.after history).Ready ref n e := by
  unfold BatchTriplets.after
  induction history generalizing bt with
  | nil => exact h
  | cons b bs ih => exact ih (h.get b).2.1

theorem BatchTriplets.new_ready (dimenet : List (ℕ × ℕ) → ℕ → Triplets) (n : ℕ)
    (edges : List (ℕ × ℕ)) (h : (dimenet edges n).Valid n edges.length) :
    (BatchTriplets.new dimenet n edges).Ready (dimenet edges n) n edges.length :=
  ⟨rfl, rfl, rfl, h, (copies_one _ _ _).symm⟩

/-- C80: whatever calls were made before, `get_triplets(b)` returns `b` shifted copies of the
reference triplets. -/
theorem C80_cache_transparent (dimenet : List (ℕ × ℕ) → ℕ → Triplets) (n : ℕ)
    (edges : List (ℕ × ℕ)) (h : (dimenet edges n).Valid n edges.length) (history : List ℕ) (b : ℕ) :
    (((BatchTriplets.new dimenet n edges).after history).getTriplets b).1 =
      { i := Spec.shifted b n (dimenet edges n).i
        j := Spec.shifted b n (dimenet edges n).j
        indexI := Spec.shifted b n (dimenet edges n).indexI
        indexJ := Spec.shifted b n (dimenet edges n).indexJ
        indexK := Spec.shifted b n (dimenet edges n).indexK
        indexJi := Spec.shifted b edges.length (dimenet edges n).indexJi
        indexKj := Spec.shifted b edges.length (dimenet edges n).indexKj } :=
  (((BatchTriplets.new_ready dimenet n edges h).after history).get b).1

/-- Triplets of a two-atom graph with both edges (no three distinct atoms) and of a chain. -/
def sampleTriplets : Triplets :=
  ⟨[1, 0, 2, 1], [0, 1, 1, 2], [2, 0], [1, 1], [0, 2], [0, 3], [2, 1]⟩

theorem sampleTriplets_valid : sampleTriplets.Valid 3 4 where
  lenI := rfl
  lenJ := rfl
  lenIndexJ := rfl
  lenIndexK := rfl
  lenIndexJi := rfl
  lenIndexKj := rfl
  nodes := by intro x; simp [sampleTriplets]; omega
  edges := by intro x; simp [sampleTriplets]; omega

/-- C80, concrete: after calls with 3, 1 and 5 samples, two samples of a chain of three atoms. -/
example : (((BatchTriplets.new (fun _ _ => sampleTriplets) 3 [(0, 1), (1, 0), (1, 2), (2, 1)]).after
      [3, 1, 5]).getTriplets 2).1 =
    ⟨[1, 0, 2, 1, 4, 3, 5, 4], [0, 1, 1, 2, 3, 4, 4, 5], [2, 0, 5, 3], [1, 1, 4, 4], [0, 2, 3, 5],
      [0, 3, 4, 7], [2, 1, 6, 5]⟩ := by decide

/-! ## C81 -/

theorem batches_aux {α : Type} (l : List α) (b : ℕ) (hb : 0 < b) (fuel start : ℕ)
    (hf : l.length ≤ start + fuel) :
    let bs := (pyRangeStep l.length b fuel start).map fun k =>
      (l.take (min (k + b) l.length)).drop k
    bs.flatten = l.drop start ∧ (∀ x ∈ bs, 0 < x.length ∧ x.length ≤ b) ∧
      ∀ x ∈ bs.dropLast, x.length = b := by
  induction fuel generalizing start with
  | zero => simp [pyRangeStep, List.drop_eq_nil_of_le (show l.length ≤ start by omega)]
  | succ fuel ih =>
    rw [pyRangeStep]
    split
    · rename_i hs
      obtain ⟨h1, h2, h3⟩ := ih (start + b) (by omega)
      dsimp only at h1 h2 h3 ⊢
      rw [List.map_cons]
      have hmin : (l.take (min (start + b) l.length)).drop start = (l.drop start).take b := by
        rw [List.drop_take, List.take_eq_take_iff, List.length_drop]
        omega
      rw [hmin]
      refine ⟨?_, ?_, ?_⟩
      · rw [List.flatten_cons, h1]
        conv_rhs => rw [← List.take_append_drop b (l.drop start)]
        rw [List.drop_drop]
      · intro x hx
        rcases List.mem_cons.1 hx with rfl | hx
        · rw [List.length_take, List.length_drop]; omega
        · exact h2 x hx
      · intro x hx
        cases hrest : (pyRangeStep l.length b fuel (start + b)).map fun k =>
            (l.take (min (k + b) l.length)).drop k with
        | nil => rw [hrest] at hx; simp at hx
        | cons y ys =>
          rw [hrest, List.dropLast_cons_of_ne_nil (by simp)] at hx
          rcases List.mem_cons.1 hx with rfl | hx
          · rw [List.length_take, List.length_drop]
            have hne : start + b < l.length := by
              by_contra hge
              rw [pyRangeStep.eq_def] at hrest
              cases fuel with
              | zero => simp at hrest
              | succ f => simp [hge] at hrest
            omega
          · rw [← hrest] at hx; exact h3 x hx
    · rename_i hs
      simp [List.drop_eq_nil_of_le (show l.length ≤ start by omega)]

/-- C81: for a positive batch size the batches concatenate to the input, are nonempty and at most
`batch_size` long, and all but the last have `batch_size` samples. -/
theorem C81_batches {α : Type} (positions : List α) (batchSize : ℤ) (h : 0 < batchSize) :
    ∃ bs, batchPositions positions batchSize = .ok bs ∧ bs.flatten = positions ∧
      (∀ x ∈ bs, 0 < x.length ∧ (x.length : ℤ) ≤ batchSize) ∧
      ∀ x ∈ bs.dropLast, (x.length : ℤ) = batchSize := by
  obtain ⟨h1, h2, h3⟩ := batches_aux positions batchSize.toNat (by omega) positions.length 0 (by omega)
  refine ⟨_, ?_, h1, ?_, ?_⟩
  · unfold batchPositions
    rw [if_neg h.ne', if_neg (by omega)]
  · intro x hx
    have := h2 x hx
    omega
  · intro x hx
    have := h3 x hx
    omega

/-- C81: batch size zero is refused; with a negative batch size all samples are silently lost. -/
theorem C81_other_sizes {α : Type} (positions : List α) :
    batchPositions positions 0 = .error .valueError ∧
      ∀ b < 0, batchPositions positions b = .ok [] := by
  refine ⟨rfl, fun b hb => ?_⟩
  unfold batchPositions
  rw [if_neg hb.ne, if_pos hb]

/-- C81, concrete. -/
example : batchPositions [1, 2, 3, 4, 5] 2 = .ok [[1, 2], [3, 4], [5]] := by decide

end Verif
