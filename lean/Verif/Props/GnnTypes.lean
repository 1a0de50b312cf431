import Verif.Props.GnnRelabel

/-!
# C127: the numbering of the elements

The constructor numbers the elements in the order in which Python traverses a set
(_gnn.py L504-506).  That order may depend on the order of the atoms.
-/

namespace Verif

variable {dn de n : ℕ}

/-- Networks that assign the same rows to the elements predict the same. -/
theorem forward_congr_embed (m : PotGNN dn de) (types : List ℤ) (table : List (Row dn))
    (h : ∀ z, (convertToAtomType types z).bind (embedType table) =
      (convertToAtomType m.atomTypeMap z).bind (embedType m.embedding))
    (st : GnnState) (samples : List (GSample n)) :
    PotGNN.forward { m with atomTypeMap := types, embedding := table } st samples =
      m.forward st samples := by
  have hmap : ∀ (k : PotGNN dn de) (z : ℕ), k.embedAtom z =
      ((convertToAtomType k.atomTypeMap z).bind (embedType k.embedding)).map k.nodeRow := by
    intro k z
    unfold PotGNN.embedAtom
    cases convertToAtomType k.atomTypeMap z with
    | error e => rfl
    | ok t =>
      dsimp only [bind, Except.bind]
      cases embedType k.embedding t <;> rfl
  have he : PotGNN.embedAtom { m with atomTypeMap := types, embedding := table } = m.embedAtom := by
    funext z
    rw [hmap, hmap]
    exact congrArg (Except.map m.nodeRow) (h z)
  unfold PotGNN.forward PotGNN.prepare
  rw [he]
  rfl

/-- The weights of `m` with another embedding table, in a network with the constants `s`. -/
def PotGNN.withSetup (m : PotGNN dn de) (s : GnnSetup) (table : List (Row dn)) : PotGNN dn de :=
  { m with refEdges := s.refEdges, atomTypeMap := s.atomTypeMap, embedding := table }

/-- C127: for any order in which the set of the elements is traversed: the constructor called for
the renumbered reference structure succeeds too, and with the rows of the embedding table at the
places of the elements' new numbers the two networks predict the same. -/
theorem C127_types {m : PotGNN dn de} (a : GnnArgs) (dimenet : List (ℕ × ℕ) → ℕ → Triplets)
    {swap : Bool} (hdim : ∀ edges, EdgesInRange n edges → edges.Nodup →
      (dimenet edges n).AllPaths swap n edges)
    (setOrder : List ℕ → List ℕ) (hset : SetOrder setOrder)
    (lattice : Mat3 ℝ) (numbers : Fin n → ℕ) (positions : Pos n ℝ) (σ : Fin n ≃ Fin n)
    (s : GnnSetup) (hs : a.setup dimenet setOrder lattice numbers positions = .ok s)
    (hm : m.refEdges = s.refEdges) (hmt : m.atomTypeMap = s.atomTypeMap) :
    ∃ s', a.setup dimenet setOrder lattice (fun i => numbers (σ i)) (fun i => positions (σ i)) =
        .ok s' ∧ s'.numAtomTypes = s.numAtomTypes ∧ s'.numBlocks = s.numBlocks ∧
      ∀ table : List (Row dn),
        (∀ i, ∃ (t t' : ℕ) (row : Row dn), s.atomTypeMap[numbers i]? = some (t : ℤ) ∧
          s'.atomTypeMap[numbers i]? = some (t' : ℤ) ∧ m.embedding[t]? = some row ∧
          table[t']? = some row) →
        ∀ samples : List (GSample n),
          ((m.withSetup s' table).forward ⟨false, s'.triplets⟩ (samples.map (renumber σ))).1 =
            (m.forward ⟨false, s.triplets⟩ samples).1 := by
  obtain ⟨hacc, hn⟩ := (C98_accepts a dimenet setOrder hset lattice numbers positions).1 ⟨s, hs⟩
  obtain ⟨s', hs'⟩ := (C98_accepts a dimenet setOrder hset lattice (fun i => numbers (σ i))
    (fun i => positions (σ i))).2 ⟨hacc, fun i => hn (σ i)⟩
  obtain ⟨hl, ht, hc, hmp, hb, -, -⟩ := setup_facts hs
  obtain ⟨hl', ht', hc', hmp', hb', -, -⟩ := setup_facts hs'
  have hmem0 : ∀ z, z ∈ (List.finRange n).map (fun i => numbers (σ i)) ↔
      z ∈ (List.finRange n).map numbers := by
    intro z
    simp only [List.mem_map, List.mem_finRange, true_and]
    constructor
    · rintro ⟨i, rfl⟩
      exact ⟨σ i, rfl⟩
    · rintro ⟨i, rfl⟩
      exact ⟨σ.symm i, by simp⟩
  refine ⟨s', hs', ?_, by rw [hb', hb], ?_⟩
  · rw [hc', hc]
    apply List.Perm.length_eq
    rw [List.perm_ext_iff_of_nodup (hset _).1 (hset _).1]
    intro z
    rw [(hset _).2, (hset _).2, hmem0]
  · intro table htab samples
    have hmem := setup_edges hs
    have hmem' := setup_edges hs'
    have hr : EdgesInRange n s.refEdges := by
      rintro ⟨i, j⟩ hij
      obtain ⟨x, y, -, rfl, rfl, -⟩ := (hmem i j).1 hij
      exact ⟨x.2, y.2⟩
    have hr' : EdgesInRange n s'.refEdges := by
      rintro ⟨i, j⟩ hij
      obtain ⟨x, y, -, rfl, rfl, -⟩ := (hmem' i j).1 hij
      exact ⟨x.2, y.2⟩
    have hp := hdim _ hr hl
    have hp' := hdim _ hr' hl'
    have hemb : ∀ z, (convertToAtomType s'.atomTypeMap z).bind (embedType table) =
        (convertToAtomType m.atomTypeMap z).bind (embedType m.embedding) := by
      intro z
      rw [hmt]
      by_cases hz : ∃ i, numbers i = z
      · obtain ⟨i, rfl⟩ := hz
        obtain ⟨t, t', row, h1, h2, h3, h4⟩ := htab i
        unfold convertToAtomType
        rw [h1, h2]
        dsimp only [Except.bind]
        unfold embedType
        rw [if_neg (by omega), if_neg (by omega), Int.toNat_natCast, Int.toNat_natCast, h3, h4]
      · have hz1 : z ∉ (List.finRange n).map numbers := by
          simpa using hz
        obtain ⟨mp, e1, -, -, -, e2, e3⟩ := C87_atom_types setOrder hset
          ((List.finRange n).map numbers) (by simpa using hn)
        obtain ⟨mp', e1', -, -, -, e2', e3'⟩ := C87_atom_types setOrder hset
          ((List.finRange n).map fun i => numbers (σ i)) (by simpa using fun i => hn (σ i))
        rw [hmp] at e1
        rw [hmp'] at e1'
        cases e1
        cases e1'
        by_cases hz2 : z < 119
        · rw [e2 z hz1 hz2, e2' z (fun h => hz1 ((hmem0 z).1 h)) hz2]
          rfl
        · rw [e3 z (by omega), e3' z (by omega)]
          rfl
    have key := forward_congr_embed { m with refEdges := s'.refEdges } s'.atomTypeMap table hemb
      ⟨false, s'.triplets⟩ (samples.map (renumber σ))
    refine (congrArg Prod.fst key).trans ?_
    rw [ht, ht']
    apply C127_numbering (swap := swap) (ref := dimenet s.refEdges n) (ref' := dimenet s'.refEdges n)
    · rw [hm]
      exact ⟨rfl, BatchTriplets.new_ready dimenet n _ hp.valid⟩
    · exact ⟨rfl, BatchTriplets.new_ready dimenet n _ hp'.valid⟩
    · rw [hm]; exact hp
    · exact hp'
    · rw [hm]; exact hl
    · exact hl'
    · intro x y
      rw [hm, hmem, hmem']
      simp only [Fin.val_inj]
      constructor
      · rintro ⟨x', y', hne, rfl, rfl, h⟩
        exact ⟨_, _, fun h => hne (σ.injective h), rfl, rfl, h⟩
      · rintro ⟨x', y', hne, hx, hy, h⟩
        subst hx hy
        exact ⟨x, y, fun h => hne (congrArg σ h), rfl, rfl, h⟩

/-- C127: a table as `C127_types` asks for exists whenever the network has a row for every element of
the reference structure. -/
theorem C127_table (a : GnnArgs) (dimenet : List (ℕ × ℕ) → ℕ → Triplets)
    (setOrder : List ℕ → List ℕ) (hset : SetOrder setOrder)
    (lattice : Mat3 ℝ) (numbers : Fin n → ℕ) (positions : Pos n ℝ) (σ : Fin n ≃ Fin n)
    (s s' : GnnSetup) (hs : a.setup dimenet setOrder lattice numbers positions = .ok s)
    (hs' : a.setup dimenet setOrder lattice (fun i => numbers (σ i)) (fun i => positions (σ i)) =
      .ok s') (embedding : List (Row dn)) (hl : embedding.length = s.numAtomTypes) :
    ∃ table : List (Row dn), table.length = s'.numAtomTypes ∧
      ∀ i, ∃ (t t' : ℕ) (row : Row dn), s.atomTypeMap[numbers i]? = some (t : ℤ) ∧
        s'.atomTypeMap[numbers i]? = some (t' : ℤ) ∧ embedding[t]? = some row ∧
        table[t']? = some row := by
  obtain ⟨-, hn⟩ := (C98_accepts a dimenet setOrder hset lattice numbers positions).1 ⟨s, hs⟩
  obtain ⟨-, -, hc, hmp, -⟩ := setup_facts hs
  obtain ⟨-, -, hc', hmp', -⟩ := setup_facts hs'
  obtain ⟨o1, o2⟩ := hset ((List.finRange n).map numbers)
  obtain ⟨o1', o2'⟩ := hset ((List.finRange n).map fun i => numbers (σ i))
  generalize setOrder ((List.finRange n).map numbers) = order at hc hmp o1 o2
  generalize setOrder ((List.finRange n).map fun i => numbers (σ i)) = order' at hc' hmp' o1' o2'
  have hlt : ∀ z ∈ order, z < (List.replicate 119 (-1 : ℤ)).length := by
    intro z hz
    obtain ⟨i, -, rfl⟩ := List.mem_map.1 ((o2 z).1 hz)
    simpa using hn i
  have hlt' : ∀ z ∈ order', z < (List.replicate 119 (-1 : ℤ)).length := by
    intro z hz
    obtain ⟨i, -, rfl⟩ := List.mem_map.1 ((o2' z).1 hz)
    simpa using hn (σ i)
  obtain ⟨mp, e1, -, e2, -⟩ := fillTypes_ok order o1 _ 0 hlt
  obtain ⟨mp', e1', -, e2', -⟩ := fillTypes_ok order' o1' _ 0 hlt'
  obtain rfl := Except.ok.inj (e1.symm.trans hmp)
  obtain rfl := Except.ok.inj (e1'.symm.trans hmp')
  refine ⟨order'.map fun z => embedding.getD (order.idxOf z) 0, by rw [List.length_map, hc'], ?_⟩
  intro i
  have hz : numbers i ∈ order := (o2 _).2 (List.mem_map.2 ⟨i, List.mem_finRange _, rfl⟩)
  have hz' : numbers i ∈ order' :=
    (o2' _).2 (List.mem_map.2 ⟨σ.symm i, List.mem_finRange _, by simp⟩)
  have hk := List.idxOf_lt_length_of_mem hz
  have hk' := List.idxOf_lt_length_of_mem hz'
  have hke : order.idxOf (numbers i) < embedding.length := by rw [hl, hc]; exact hk
  refine ⟨order.idxOf (numbers i), order'.idxOf (numbers i), embedding[order.idxOf (numbers i)],
    ?_, ?_, List.getElem?_eq_getElem hke, ?_⟩
  · simpa using e2 (order.idxOf (numbers i)) (numbers i) (by
      rw [List.getElem?_eq_getElem hk, List.getElem_idxOf])
  · simpa using e2' (order'.idxOf (numbers i)) (numbers i) (by
      rw [List.getElem?_eq_getElem hk', List.getElem_idxOf])
  · rw [List.getElem?_map, List.getElem?_eq_getElem hk', List.getElem_idxOf]
    simp [hke]

end Verif
