import Verif.Props.Gnn
import Verif.Props.Shape

/-!
# C83, C87, C98: construction of the graph network
-/

namespace Verif

variable {n : ℕ}

/-! ## C87 -/

theorem fillTypes_ok (order : List ℕ) (hnd : order.Nodup) (m : List ℤ) (t : ℕ)
    (h : ∀ z ∈ order, z < m.length) :
    ∃ m', fillTypes m t order = .ok m' ∧ m'.length = m.length ∧
      (∀ k z : ℕ, order[k]? = some z → m'[z]? = some ((t + k : ℕ) : ℤ)) ∧
      ∀ z, z ∉ order → m'[z]? = m[z]? := by
  induction order generalizing m t with
  | nil => exact ⟨m, rfl, rfl, by simp, fun _ _ => rfl⟩
  | cons y ys ih =>
    obtain ⟨hy, hys⟩ := List.nodup_cons.1 hnd
    obtain ⟨m', h1, h2, h3, h4⟩ := ih hys (m.set y t) (t + 1) (fun z hz => by
      rw [List.length_set]; exact h z (by simp [hz]))
    refine ⟨m', ?_, by rw [h2, List.length_set], ?_, ?_⟩
    · rw [fillTypes, if_pos (h y (by simp)), h1]
    · intro k z hk
      cases k with
      | zero =>
        obtain rfl : y = z := by simpa using hk
        rw [h4 y hy, List.getElem?_set_self (h y (by simp))]
        rfl
      | succ k =>
        rw [h3 k z (by simpa using hk)]
        congr 2
        omega
    · intro z hz
      rw [h4 z (fun hm => hz (by simp [hm])), List.getElem?_set_ne]
      rintro rfl
      exact hz (by simp)

theorem fillTypes_error (order : List ℕ) (m : List ℤ) (t : ℕ) (h : ∃ z ∈ order, m.length ≤ z) :
    fillTypes m t order = .error .indexError := by
  induction order generalizing m t with
  | nil => simp at h
  | cons y ys ih =>
    rw [fillTypes]
    by_cases hy : y < m.length
    · rw [if_pos hy]
      apply ih
      obtain ⟨z, hz, hle⟩ := h
      rcases List.mem_cons.1 hz with rfl | hz
      · omega
      · exact ⟨z, hz, by rwa [List.length_set]⟩
    · rw [if_neg hy]

/-- Contract of iterating over `set(numbers)`: every number once. -/
def SetOrder (f : List ℕ → List ℕ) : Prop := ∀ l, (f l).Nodup ∧ ∀ z, z ∈ f l ↔ z ∈ l

/-- C87: the atom types of the `T` elements of a structure are 0, ..., T-1 in some order, all other
atomic numbers up to 118 have type -1, and larger atomic numbers are refused. -/
theorem C87_atom_types (setOrder : List ℕ → List ℕ) (hset : SetOrder setOrder) (numbers : List ℕ)
    (h : ∀ z ∈ numbers, z < 119) :
    ∃ m, atomTypeMapOf (setOrder numbers) = .ok m ∧
      (∀ z ∈ numbers, ∃ t < (setOrder numbers).length, convertToAtomType m z = .ok (t : ℤ)) ∧
      (∀ y ∈ numbers, ∀ z ∈ numbers, convertToAtomType m y = convertToAtomType m z → y = z) ∧
      (∀ t < (setOrder numbers).length, ∃ z ∈ numbers, convertToAtomType m z = .ok (t : ℤ)) ∧
      (∀ z, z ∉ numbers → z < 119 → convertToAtomType m z = .ok (-1)) ∧
      (∀ z, 119 ≤ z → convertToAtomType m z = .error .indexError) := by
  obtain ⟨hnd, hmem⟩ := hset numbers
  obtain ⟨m, h1, h2, h3, h4⟩ := fillTypes_ok (setOrder numbers) hnd (List.replicate 119 (-1)) 0
    (fun z hz => by rw [List.length_replicate]; exact h z ((hmem z).1 hz))
  have hconv : ∀ z t, m[z]? = some t → convertToAtomType m z = .ok t := by
    intro z t hz
    unfold convertToAtomType
    rw [hz]
  have hidx : ∀ z ∈ numbers, ∃ k, (setOrder numbers)[k]? = some z := fun z hz =>
    List.mem_iff_getElem?.1 ((hmem z).2 hz)
  refine ⟨m, h1, ?_, ?_, ?_, ?_, ?_⟩
  · intro z hz
    obtain ⟨k, hk⟩ := hidx z hz
    refine ⟨k, (List.getElem?_eq_some_iff.1 hk).1, hconv _ _ ?_⟩
    rw [h3 k z hk, Nat.zero_add]
  · intro y hy z hz heq
    obtain ⟨k, hk⟩ := hidx y hy
    obtain ⟨l, hl⟩ := hidx z hz
    rw [hconv _ _ (h3 k y hk), hconv _ _ (h3 l z hl)] at heq
    have : k = l := by
      have := Except.ok.inj heq
      omega
    subst this
    rw [hk] at hl
    exact Option.some.inj hl
  · intro t ht
    refine ⟨(setOrder numbers)[t], (hmem _).1 (List.getElem_mem ht), hconv _ _ ?_⟩
    rw [h3 t _ (List.getElem?_eq_getElem ht), Nat.zero_add]
  · intro z hz hlt
    apply hconv
    rw [h4 z (fun hm => hz ((hmem z).1 hm)), List.getElem?_replicate, if_pos hlt]
  · intro z hz
    unfold convertToAtomType
    rw [List.getElem?_eq_none (by rw [h2, List.length_replicate]; exact hz)]

/-- C87: structures with an atomic number above 118 are refused. -/
theorem C87_heavy (setOrder : List ℕ → List ℕ) (hset : SetOrder setOrder) (numbers : List ℕ)
    (h : ∃ z ∈ numbers, 119 ≤ z) : atomTypeMapOf (setOrder numbers) = .error .indexError := by
  obtain ⟨z, hz, hle⟩ := h
  exact fillTypes_error _ _ _ ⟨z, ((hset numbers).2 z).2 hz, by rwa [List.length_replicate]⟩

/-- A possible order of traversal. -/
theorem setOrder_dedup : SetOrder List.dedup := fun l => ⟨List.nodup_dedup l, fun _ => List.mem_dedup⟩

/-- C87, concrete: strontium titanate. -/
example : ∃ m, atomTypeMapOf [38, 22, 8] = .ok m ∧ convertToAtomType m 22 = .ok 1 ∧
    convertToAtomType m 8 = .ok 2 ∧ convertToAtomType m 9 = .ok (-1) := by
  have h : (atomTypeMapOf [38, 22, 8]).isOk = true := by decide +kernel
  cases hm : atomTypeMapOf [38, 22, 8] with
  | error e => rw [hm] at h; simp [Except.isOk, Except.toBool] at h
  | ok m =>
    refine ⟨m, rfl, ?_⟩
    obtain ⟨m', h1, h2, h3, h4⟩ := fillTypes_ok [38, 22, 8] (by decide) (List.replicate 119 (-1)) 0
      (by decide)
    obtain rfl : m' = m := by
      rw [atomTypeMapOf, h1] at hm
      exact Except.ok.inj hm
    unfold convertToAtomType
    rw [h3 1 22 rfl, h3 2 8 rfl, h4 9 (by decide)]
    exact ⟨rfl, rfl, rfl⟩

/-! ## C98 -/

/-- What the constructor requires of its arguments (for elements that exist). -/
structure GnnArgs.Acceptable (a : GnnArgs) : Prop where
  cutoff : 0 < a.cutoff
  node : 0 < a.sizeNode
  edge : 2 ≤ a.sizeEdge
  passes : 0 < a.passes
  start : 0 ≤ a.filterStart
  stop : a.filterStart < a.filterEnd
  mean : a.meanShape = [3, 3]
  stddev : a.stddevShape = [3, 3]

theorem verify33 (shape : List ℕ) :
    (shape = [3, 3] → verifyShape shape [some 3, some 3] = .ok ()) ∧
    (shape ≠ [3, 3] → verifyShape shape [some 3, some 3] = .error .valueError) := by
  have hiff : verifyShape shape [some 3, some 3] = .ok () ↔ shape = [3, 3] := by
    rw [C89_accepts]
    constructor
    · rintro ⟨hl, h⟩
      have h0 := h 0 3 rfl
      have h1 := h 1 3 rfl
      match shape, hl with
      | [x, y], _ =>
        simp at h0 h1
        rw [h0, h1]
    · rintro rfl
      refine ⟨rfl, ?_⟩
      intro k d hk
      match k with
      | 0 => simp at hk; simp [hk]
      | 1 => simp at hk; simp [hk]
      | k + 2 => simp at hk
  refine ⟨hiff.2, fun hne => ?_⟩
  rcases C89_rejects shape [some 3, some 3] with h | h
  · exact absurd (hiff.1 h) hne
  · exact h

theorem validate_ok {a : GnnArgs} (h1 : 0 < a.cutoff) (h2 : 0 < a.sizeNode) (h3 : 0 < a.sizeEdge)
    (h4 : 0 < a.passes) (h5 : 0 ≤ a.filterStart) (h6 : a.filterStart < a.filterEnd)
    (h7 : a.meanShape = [3, 3]) (h8 : a.stddevShape = [3, 3]) : a.validate = .ok () := by
  unfold GnnArgs.validate
  rw [if_neg (not_le.2 h1), if_neg (not_le.2 h2), if_neg (not_le.2 h3), if_neg (not_le.2 h4),
    if_neg (not_lt.2 h5), if_neg (not_le.2 h6), (verify33 _).1 h7, (verify33 _).1 h8]
  rfl

theorem validate_error {a : GnnArgs} (h : ¬ (0 < a.cutoff ∧ 0 < a.sizeNode ∧ 0 < a.sizeEdge ∧
    0 < a.passes ∧ 0 ≤ a.filterStart ∧ a.filterStart < a.filterEnd ∧ a.meanShape = [3, 3] ∧
    a.stddevShape = [3, 3])) : a.validate = .error .valueError := by
  unfold GnnArgs.validate
  by_cases h1 : a.cutoff ≤ 0
  · rw [if_pos h1]; rfl
  rw [if_neg h1]
  by_cases h2 : a.sizeNode ≤ 0
  · rw [if_pos h2]; rfl
  rw [if_neg h2]
  by_cases h3 : a.sizeEdge ≤ 0
  · rw [if_pos h3]; rfl
  rw [if_neg h3]
  by_cases h4 : a.passes ≤ 0
  · rw [if_pos h4]; rfl
  rw [if_neg h4]
  by_cases h5 : a.filterStart < 0
  · rw [if_pos h5]; rfl
  rw [if_neg h5]
  by_cases h6 : a.filterEnd ≤ a.filterStart
  · rw [if_pos h6]; rfl
  rw [if_neg h6]
  by_cases h7 : a.meanShape = [3, 3]
  · rw [(verify33 _).1 h7]
    by_cases h8 : a.stddevShape = [3, 3]
    · push Not at h1 h2 h3 h4 h5 h6
      exact absurd ⟨h1, h2, h3, h4, h5, h6, h7, h8⟩ h
    · rw [(verify33 _).2 h8]; rfl
  · rw [(verify33 _).2 h7]; rfl

theorem filter_new {a b : ℝ} {steps : ℕ} (h : 1 < steps) (hab : a < b) :
    ∃ f, GaussianFilter.new a b steps = .ok f := by
  unfold GaussianFilter.new
  rw [dif_pos h]
  dsimp only
  rw [if_neg]
  · exact ⟨_, rfl⟩
  · apply pow_ne_zero
    have hs : (0 : ℝ) < steps - 1 := by
      have : (1 : ℝ) < steps := by exact_mod_cast h
      linarith
    simp only [linspaceRow]
    have : (b - a) / ((steps : ℝ) - 1) ≠ 0 := div_ne_zero (by linarith) hs.ne'
    simpa using this

/-- C98: the constructor succeeds iff its arguments are acceptable (an edge embedding of size one
passes the validation but fails with an IndexError later) and all atomic numbers are at most 118. -/
theorem C98_accepts (a : GnnArgs) (dimenet : List (ℕ × ℕ) → ℕ → Triplets)
    (setOrder : List ℕ → List ℕ) (hset : SetOrder setOrder) (lattice : Mat3 ℝ)
    (numbers : Fin n → ℕ) (positions : Pos n ℝ) :
    (∃ s, a.setup dimenet setOrder lattice numbers positions = .ok s) ↔
      a.Acceptable ∧ ∀ i, numbers i < 119 := by
  obtain ⟨edges, he, -⟩ := radiusGraph_forall a.cutoff [(lattice, positions)]
  constructor
  · rintro ⟨s, hs⟩
    unfold GnnArgs.setup at hs
    by_cases hv : 0 < a.cutoff ∧ 0 < a.sizeNode ∧ 0 < a.sizeEdge ∧
      0 < a.passes ∧ 0 ≤ a.filterStart ∧ a.filterStart < a.filterEnd ∧ a.meanShape = [3, 3] ∧
      a.stddevShape = [3, 3]
    · obtain ⟨h1, h2, h3, h4, h5, h6, h7, h8⟩ := hv
      rw [validate_ok h1 h2 h3 h4 h5 h6 h7 h8] at hs
      dsimp only [bind, Except.bind] at hs
      rw [he] at hs
      dsimp only at hs
      by_cases hn : ∀ i, numbers i < 119
      · refine ⟨⟨h1, h2, ?_, h4, h5, h6, h7, h8⟩, hn⟩
        by_contra hlt
        have hnew : GaussianFilter.new a.filterStart a.filterEnd a.sizeEdge.toNat =
            .error .indexError := by
          unfold GaussianFilter.new
          rw [dif_neg (by omega)]
        rw [hnew] at hs
        cases hm : atomTypeMapOf (setOrder ((List.finRange n).map numbers)) with
        | error _ => rw [hm] at hs; cases hs
        | ok m => rw [hm] at hs; cases hs
      · push Not at hn
        obtain ⟨i, hi⟩ := hn
        rw [C87_heavy setOrder hset _ ⟨numbers i, List.mem_map.2 ⟨i, List.mem_finRange i, rfl⟩, hi⟩] at hs
        cases hs
    · rw [validate_error hv] at hs
      cases hs
  · rintro ⟨⟨h1, h2, h3, h4, h5, h6, h7, h8⟩, hn⟩
    obtain ⟨m, hm, -⟩ := C87_atom_types setOrder hset ((List.finRange n).map numbers) (by
      intro z hz
      obtain ⟨i, -, rfl⟩ := List.mem_map.1 hz
      exact hn i)
    obtain ⟨f, hf⟩ := filter_new (steps := a.sizeEdge.toNat) (by omega) h6
    unfold GnnArgs.setup
    rw [validate_ok h1 h2 (by omega) h4 h5 h6 h7 h8]
    dsimp only [bind, Except.bind]
    rw [he]
    dsimp only
    rw [hm]
    dsimp only
    rw [hf]
    exact ⟨_, rfl⟩

/-- C98: what goes wrong otherwise: a ValueError for arguments that the validation refuses, else an
IndexError. -/
theorem C98_errors (a : GnnArgs) (dimenet : List (ℕ × ℕ) → ℕ → Triplets)
    (setOrder : List ℕ → List ℕ) (hset : SetOrder setOrder) (lattice : Mat3 ℝ)
    (numbers : Fin n → ℕ) (positions : Pos n ℝ) :
    (¬ (0 < a.cutoff ∧ 0 < a.sizeNode ∧ 0 < a.sizeEdge ∧ 0 < a.passes ∧ 0 ≤ a.filterStart ∧
      a.filterStart < a.filterEnd ∧ a.meanShape = [3, 3] ∧ a.stddevShape = [3, 3]) →
      a.setup dimenet setOrder lattice numbers positions = .error .valueError) ∧
    ((0 < a.cutoff ∧ 0 < a.sizeNode ∧ 0 < a.sizeEdge ∧ 0 < a.passes ∧ 0 ≤ a.filterStart ∧
      a.filterStart < a.filterEnd ∧ a.meanShape = [3, 3] ∧ a.stddevShape = [3, 3]) →
      (a.sizeEdge = 1 ∨ ∃ i, 119 ≤ numbers i) →
      a.setup dimenet setOrder lattice numbers positions = .error .indexError) := by
  obtain ⟨edges, he, -⟩ := radiusGraph_forall a.cutoff [(lattice, positions)]
  constructor
  · intro h
    unfold GnnArgs.setup
    rw [validate_error h]
    rfl
  · rintro ⟨h1, h2, h3, h4, h5, h6, h7, h8⟩ h
    unfold GnnArgs.setup
    rw [validate_ok h1 h2 h3 h4 h5 h6 h7 h8]
    dsimp only [bind, Except.bind]
    rw [he]
    dsimp only
    by_cases hh : ∃ i, 119 ≤ numbers i
    · obtain ⟨i, hi⟩ := hh
      rw [C87_heavy setOrder hset _ ⟨numbers i, List.mem_map.2 ⟨i, List.mem_finRange i, rfl⟩, hi⟩]
    · have hn : ∀ i, numbers i < 119 := by
        push Not at hh
        exact hh
      obtain ⟨m, hm, -⟩ := C87_atom_types setOrder hset ((List.finRange n).map numbers) (by
        intro z hz
        obtain ⟨i, -, rfl⟩ := List.mem_map.1 hz
        exact hn i)
      have hnew : GaussianFilter.new a.filterStart a.filterEnd a.sizeEdge.toNat =
          .error .indexError := by
        unfold GaussianFilter.new
        rw [dif_neg (by rcases h with h | h; · omega
                        · exact absurd h hh)]
      rw [hm]
      dsimp only
      rw [hnew]

/-- C98: a newly constructed network is one to which the properties above apply: its reference edges
are the pairs of distinct atoms within reach, its triplets are ready for any batch, and it knows
exactly the elements of the reference structure. -/
theorem C98_ready (a : GnnArgs) (dimenet : List (ℕ × ℕ) → ℕ → Triplets)
    (hdim : ∀ edges, EdgesInRange n edges → (dimenet edges n).Valid n edges.length)
    (setOrder : List ℕ → List ℕ) (hset : SetOrder setOrder) (lattice : Mat3 ℝ)
    (numbers : Fin n → ℕ) (positions : Pos n ℝ) (s : GnnSetup)
    (hs : a.setup dimenet setOrder lattice numbers positions = .ok s) :
    (∀ i j : ℕ, (i, j) ∈ s.refEdges ↔ ∃ x y : Fin n, x ≠ y ∧ i = x.1 ∧ j = y.1 ∧
      Spec.InReach lattice a.cutoff (positions x) (positions y)) ∧
    (∀ {dn de : ℕ} (m : PotGNN dn de), m.refEdges = s.refEdges → m.atomTypeMap = s.atomTypeMap →
      m.embedding.length = s.numAtomTypes →
      m.Fits n (dimenet s.refEdges n) ∧ s.triplets.Ready (dimenet s.refEdges n) n m.refEdges.length ∧
      ∀ z, m.Knows z ↔ ∃ i, numbers i = z) ∧
    (s.numBlocks : ℤ) = a.passes ∧ (s.sizeNode : ℤ) = a.sizeNode ∧ (s.sizeEdge : ℤ) = a.sizeEdge := by
  obtain ⟨⟨h1, h2, h3, h4, h5, h6, h7, h8⟩, hn⟩ :=
    (C98_accepts a dimenet setOrder hset lattice numbers positions).1 ⟨s, hs⟩
  obtain ⟨edges, he, hedges, -⟩ := C82_edges a.cutoff [(lattice, positions)]
  obtain ⟨mp, hm, hm1, -, -, hm4, hm5⟩ := C87_atom_types setOrder hset ((List.finRange n).map numbers) (by
    intro z hz
    obtain ⟨i, -, rfl⟩ := List.mem_map.1 hz
    exact hn i)
  obtain ⟨f, hf⟩ := filter_new (steps := a.sizeEdge.toNat) (by omega) h6
  unfold GnnArgs.setup at hs
  rw [validate_ok h1 h2 (by omega) h4 h5 h6 h7 h8] at hs
  dsimp only [bind, Except.bind] at hs
  rw [he] at hs
  dsimp only at hs
  rw [hm] at hs
  dsimp only at hs
  rw [hf] at hs
  cases hs
  have hmem : ∀ i j : ℕ, (i, j) ∈ edges.map (fun e => (e.i, e.j)) ↔
      ∃ x y : Fin n, x ≠ y ∧ i = x.1 ∧ j = y.1 ∧
        Spec.InReach lattice a.cutoff (positions x) (positions y) := by
    intro i j
    constructor
    · intro hij
      obtain ⟨e, hemem, heq⟩ := List.mem_map.1 hij
      obtain ⟨rfl, rfl⟩ := Prod.mk.injEq .. ▸ heq
      obtain ⟨smp, hsmp, x, y, hne, hr, hi, hj⟩ := (hedges e.graph e.i e.j).1 ⟨e, hemem, rfl, rfl, rfl⟩
      have hg : e.graph = 0 := by
        have := (List.getElem?_eq_some_iff.1 hsmp).1
        simpa using this
      rw [hg] at hsmp hi hj
      obtain rfl : (lattice, positions) = smp := by simpa using hsmp
      exact ⟨x, y, hne, by simpa using hi, by simpa using hj, hr⟩
    · rintro ⟨x, y, hne, rfl, rfl, hr⟩
      obtain ⟨e, hemem, -, hi, hj⟩ := (hedges 0 x.1 y.1).2 ⟨(lattice, positions), rfl, x, y, hne, hr,
        by simp, by simp⟩
      exact List.mem_map.2 ⟨e, hemem, by rw [hi, hj]⟩
  refine ⟨hmem, ?_, ?_, ?_, ?_⟩
  · intro dn de m hme hmt hml
    have hrange : EdgesInRange n (edges.map fun e => (e.i, e.j)) := by
      rintro ⟨i, j⟩ hij
      obtain ⟨x, y, -, rfl, rfl, -⟩ := (hmem i j).1 hij
      exact ⟨x.2, y.2⟩
    dsimp only at hme hmt hml
    have hval := hdim _ hrange
    refine ⟨⟨by rw [hme]; exact hrange, by rw [hme]; exact hval⟩, ?_, ?_⟩
    · rw [hme]
      exact BatchTriplets.new_ready dimenet n _ hval
    · intro z
      unfold PotGNN.Knows
      rw [hmt, hml]
      constructor
      · rintro ⟨t, ht, -⟩
        by_contra hno
        have hz : z ∉ (List.finRange n).map numbers := by
          intro hz
          obtain ⟨i, -, rfl⟩ := List.mem_map.1 hz
          exact hno ⟨i, rfl⟩
        have hlt : z < 119 := by
          by_contra hge
          have := hm5 z (by omega)
          unfold convertToAtomType at this
          rw [ht] at this
          cases this
        have := hm4 z hz hlt
        unfold convertToAtomType at this
        rw [ht] at this
        have := Except.ok.inj this
        omega
      · rintro ⟨i, rfl⟩
        obtain ⟨t, ht, hc⟩ := hm1 (numbers i) (List.mem_map.2 ⟨i, List.mem_finRange i, rfl⟩)
        refine ⟨t, ?_, ht⟩
        unfold convertToAtomType at hc
        split at hc
        · rename_i h
          rw [h, Except.ok.inj hc]
        · cases hc
  · exact Int.toNat_of_nonneg h4.le
  · exact Int.toNat_of_nonneg h2.le
  · exact Int.toNat_of_nonneg (by omega)

/-- C98, concrete. -/
example (dimenet : List (ℕ × ℕ) → ℕ → Triplets) (positions : Pos 3 ℝ) :
    (∃ s, GnnArgs.setup ⟨5, 5, 3, 2, 0, 4, [3, 3], [3, 3]⟩ dimenet List.dedup 1 ![8, 1, 1] positions =
      .ok s) ∧
    GnnArgs.setup ⟨5, 5, 1, 2, 0, 4, [3, 3], [3, 3]⟩ dimenet List.dedup 1 ![8, 1, 1] positions =
      .error .indexError := by
  constructor
  · rw [C98_accepts _ _ _ setOrder_dedup]
    refine ⟨⟨by norm_num, by norm_num, by norm_num, by norm_num, by norm_num, by norm_num, rfl, rfl⟩, ?_⟩
    intro i
    fin_cases i <;> simp
  · refine (C98_errors _ _ _ setOrder_dedup _ _ _).2 ?_ (Or.inl rfl)
    norm_num

/-! ## C83 -/

/-- C83: in the graph of a batch the node indexes of sample `s` lie in `[s N, (s + 1) N)`, there is
one copy of every reference edge per sample, and sample and atoms are recovered by division. -/
theorem C83_batch_graph {dn de : ℕ} (m : PotGNN dn de) (h : EdgesInRange n m.refEdges)
    (samples : List (GSample n)) :
    ∃ edges, m.batchGraph samples = .ok edges ∧
      edges.length = samples.length * m.refEdges.length ∧
      ∀ e ∈ edges, e.graph < samples.length ∧ e.i / n = e.graph ∧ e.j / n = e.graph ∧
        (e.i % n, e.j % n) ∈ m.refEdges := by
  refine ⟨_, batchGraph_blocks m h samples, ?_, ?_⟩
  · rw [length_blocks fun s hs => by
      rw [List.length_map, onSample_lt hs, (edges1_spec m h _).2.1]]
  · intro e he
    unfold blocks at he
    obtain ⟨s, hs, he⟩ := List.mem_flatMap.1 he
    have hs := List.mem_range.1 hs
    rw [onSample_lt hs] at he
    obtain ⟨e', he', rfl⟩ := List.mem_map.1 he
    have hok := (edges1_spec m h samples[s]).1
    rw [batchGraph_eq] at hok
    change getGraphInfo _ (blocks 1 _) = _ at hok
    rw [blocks_one] at hok
    unfold getGraphInfo at hok
    obtain ⟨x, hx, hxe⟩ := forall₂_mem_right ((mapM_except_ok _ _ _).1 hok) _ he'
    obtain ⟨ab, hab, rfl⟩ := List.mem_map.1 hx
    obtain ⟨ha, hb⟩ := h ab hab
    unfold graphInfo1 at hxe
    rw [List.map_singleton, List.getElem?_cons_zero] at hxe
    dsimp only at hxe
    rw [dif_pos ⟨ha, hb⟩] at hxe
    cases hxe
    simp only [relabel, Nat.zero_mul, Nat.add_zero, Nat.zero_add]
    refine ⟨hs, ?_, ?_, ?_⟩
    · rw [Nat.add_mul_div_right _ _ (by omega), Nat.div_eq_of_lt ha, Nat.zero_add]
    · rw [Nat.add_mul_div_right _ _ (by omega), Nat.div_eq_of_lt hb, Nat.zero_add]
    · rw [Nat.add_mul_mod_self_right, Nat.add_mul_mod_self_right, Nat.mod_eq_of_lt ha,
        Nat.mod_eq_of_lt hb]
      exact hab

/-- C83, concrete: three samples. -/
example : ∃ edges, sampleGnn.batchGraph [pairSample 0, pairSample 1, pairSample (1 / 2)] = .ok edges ∧
    edges.length = 6 := by
  obtain ⟨edges, h1, h2, -⟩ := C83_batch_graph sampleGnn sampleGnn_fits.edges
    [pairSample 0, pairSample 1, pairSample (1 / 2)]
  exact ⟨edges, h1, h2⟩

end Verif
