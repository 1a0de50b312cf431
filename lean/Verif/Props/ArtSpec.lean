import Verif.Props.Art
import Verif.Props.Reference

/-!
# Property C106: `get_specification_tuples`
-/

namespace Verif
open Spec

variable {N : ℕ}

theorem dofsOfAtom_list (a : Fin N) (j : ℕ) (bs : List (Pos N ℝ)) :
    ∃ l, dofsOfAtom ((a : ℕ) : ℤ) j bs = .ok l ∧
      ∀ pre : List (Pos N ℝ), pre.length = j →
        (l.filterMap fun k => ((pre ++ bs)[k]?).map fun b => b a)
          = bs.filterMap fun b => if ∀ c, |b a c| ≤ 1 / 10 ^ 5 then none else some (b a) := by
  induction bs generalizing j with
  | nil => exact ⟨[], rfl, by simp⟩
  | cons b bs ih =>
    obtain ⟨l, h1, h2⟩ := ih (j + 1)
    have hp : pyIndex N ((a : ℕ) : ℤ) = some a := by
      have := a.2
      unfold pyIndex
      rw [dif_pos (by omega)]
      congr 1
    by_cases hz : ∀ c, |b a c| ≤ 1 / 10 ^ 5
    · refine ⟨l, ?_, fun pre hpre => ?_⟩
      · unfold dofsOfAtom
        rw [hp]
        dsimp only
        rw [h1]
        change Except.ok _ = _
        rw [if_pos (by simpa using hz)]
      · rw [List.filterMap_cons_none (by rw [if_pos hz])]
        have := h2 (pre ++ [b]) (by simp [hpre])
        simpa using this
    · refine ⟨j :: l, ?_, fun pre hpre => ?_⟩
      · unfold dofsOfAtom
        rw [hp]
        dsimp only
        rw [h1]
        change Except.ok _ = _
        rw [if_neg (by simpa using hz)]
      · have hj : (pre ++ b :: bs)[j]? = some b := by
          rw [List.getElem?_append_right (by omega), hpre]; simp
        rw [List.filterMap_cons_some (b := b a) (by rw [hj]; rfl),
          List.filterMap_cons_some (b := b a) (by rw [if_neg hz])]
        congr 1
        have := h2 (pre ++ [b]) (by simp [hpre])
        simpa using this

open Classical in
theorem directions_eq (m : IModel N) (a : Fin N) : m.getArtCartDirections a
    = .ok ((m.basis.filter fun b => decide (Touches b a)).map fun b => b a) := by
  obtain ⟨l, h1, h2⟩ := dofsOfAtom_list a 0 m.basis
  unfold IModel.getArtCartDirections IModel.getDofIndexes
  have hr : requestedAtoms m [.index ((a : ℕ) : ℤ)] = .ok [((a : ℕ) : ℤ)] := rfl
  rw [hr]
  have hd : [((a : ℕ) : ℤ)].dedup = [((a : ℕ) : ℤ)] := List.Nodup.dedup (by simp)
  simp only [bind, Except.bind, hd, List.mapM_cons, h1, List.mapM_nil, pure, Except.pure,
    List.flatten_cons, List.flatten_nil, List.append_nil]
  congr 1
  refine (h2 [] rfl).trans ?_
  rw [← List.filterMap_eq_map, List.filterMap_filter]
  refine List.filterMap_congr fun b _ => ?_
  by_cases hz : ∀ c, |b a c| ≤ 1 / 10 ^ 5
  · rw [if_pos hz, if_neg]
    simp only [decide_eq_true_eq]
    rintro ⟨c, hc⟩
    exact absurd (hz c) (not_le.2 hc)
  · rw [if_neg hz]
    push Not at hz
    exact (if_pos (decide_eq_true (show Touches b a from hz))).symm

open Classical in
/-- C106: if the symmetry package labels every atom by an earlier or equal atom that labels
itself, `get_specification_tuples` returns one triple per self-labelled atom, in increasing
order: the atom, the other atoms with the same label in increasing order, and the components on
that atom of exactly those basis vectors that move it by more than 1e-5, in the order of the
degrees of freedom. -/
theorem C106_specification_tuples (m : IModel N) (hlen : m.ref.equivAtoms.length = N)
    (hv : ∀ (i : ℕ) (hi : i < m.ref.equivAtoms.length), m.ref.equivAtoms[i] = i ∨
      (m.ref.equivAtoms[i] < i ∧
        m.ref.equivAtoms[m.ref.equivAtoms[i]]? = some m.ref.equivAtoms[i])) :
    ∃ ts, m.getSpecificationTuples = .ok ts ∧
      ts.map (fun t => t.1) = (List.range N).filter (fun i => m.ref.equivAtoms[i]? = some i) ∧
      ∀ t ∈ ts, ∃ a : Fin N, t.1 = a ∧
        t.2.1 = (List.range N).filter (fun i : ℕ => i ≠ (a : ℕ) ∧ m.ref.equivAtoms[i]? = some (a : ℕ)) ∧
        t.2.2 = (m.basis.filter fun b => decide (Touches b a)).map fun b => b a := by
  obtain ⟨d, h1, h2, h3, _, _⟩ := C17_equivalent_atom_dict m.ref hv
  rw [hlen] at h2 h3
  have hlt : ∀ x ∈ d, x.1 < N := fun x hx => by
    have : x.1 ∈ d.map Prod.fst := List.mem_map_of_mem hx
    rw [h2] at this
    exact List.mem_range.1 (List.mem_of_mem_filter this)
  let g : ℕ × List ℕ → ℕ × List ℕ × List Vec3 := fun x => (x.1, x.2,
    if h : x.1 < N then
      (m.basis.filter fun b => decide (Touches b ⟨x.1, h⟩)).map fun b => b ⟨x.1, h⟩ else [])
  refine ⟨d.map g, ?_, ?_, ?_⟩
  · unfold IModel.getSpecificationTuples
    rw [h1]
    change List.mapM _ d = _
    rw [mapM_except_ok, List.forall₂_map_right_iff, List.forall₂_same]
    intro x hx
    rw [dif_pos (hlt x hx), directions_eq]
    change Except.ok _ = Except.ok _
    congr 1
    simp only [g]
    rw [dif_pos (hlt x hx)]
  · rw [List.map_map, ← h2]
    rfl
  · intro t ht
    obtain ⟨x, hx, rfl⟩ := List.mem_map.1 ht
    refine ⟨⟨x.1, hlt x hx⟩, rfl, h3 x.1 x.2 hx, ?_⟩
    simp only [g]
    rw [dif_pos (hlt x hx)]

/-- C106, errors: with any other labelling the call raises `KeyError`. -/
theorem C106_key_error (m : IModel N)
    (hv : ¬ ∀ (i : ℕ) (hi : i < m.ref.equivAtoms.length), m.ref.equivAtoms[i] = i ∨
      (m.ref.equivAtoms[i] < i ∧
        m.ref.equivAtoms[m.ref.equivAtoms[i]]? = some m.ref.equivAtoms[i])) :
    m.getSpecificationTuples = .error .keyError := by
  unfold IModel.getSpecificationTuples
  rw [C17_key_error m.ref hv]
  rfl

/-- C106, concrete: three atoms labelled `[0, 0, 2]`, one degree of freedom on atom 0, one on
atom 2; the tuples are for atoms 0 and 2. -/
example (m : IModel 3) (h : m.ref.equivAtoms = [0, 0, 2])
    (hb : m.basis = [fun a => if a = 2 then ![0, 1, 0] else 0, fun a => if a = 0 then ![1, 0, 0] else 0]) :
    m.getSpecificationTuples = .ok [(0, [1], [![1, 0, 0]]), (2, [], [![0, 1, 0]])] := by
  have hd : m.ref.getEquivalentAtomDict = .ok [(0, [1]), (2, [])] := by
    unfold RefStructure.getEquivalentAtomDict; rw [h]; rfl
  have t1 : ¬ Touches (fun a => if a = 2 then ![0, 1, 0] else 0 : Pos 3 ℝ) 0 := by
    rintro ⟨c, hc⟩
    simp at hc
    norm_num at hc
  have t2 : Touches (fun a => if a = 0 then ![1, 0, 0] else 0 : Pos 3 ℝ) 0 :=
    ⟨0, by norm_num⟩
  have t3 : Touches (fun a => if a = 2 then ![0, 1, 0] else 0 : Pos 3 ℝ) 2 :=
    ⟨1, by norm_num⟩
  have t4 : ¬ Touches (fun a => if a = 0 then ![1, 0, 0] else 0 : Pos 3 ℝ) 2 := by
    rintro ⟨c, hc⟩
    simp at hc
    norm_num at hc
  unfold IModel.getSpecificationTuples
  rw [hd]
  simp only [bind, Except.bind, List.mapM_cons, directions_eq, hb, pure, Except.pure, List.mapM_nil]
  simp [t1, t2, t3, t4]

end Verif
