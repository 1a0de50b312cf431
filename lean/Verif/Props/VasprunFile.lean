import Verif.Props.VasprunPhonons
import Verif.Props.OutcarFile

/-!
# C135: which structures the `vasprun.xml` readers return
-/

namespace Verif

open Spec

theorem number_noSpace {s : Word} {n : ℕ} (h : IsNumber s n) : s ≠ [] ∧ NoSpace s := by
  have hall : ∀ e ∈ atomicNumbers, e.1 ≠ [] ∧ ∀ c ∈ e.1, isSpace c = false := by decide +kernel
  obtain ⟨pre, post, he, -⟩ := (dictGet_isFirst _ _ _).1 h
  exact hall (s, n) (by rw [he]; simp)

theorem strip_symbol (t : List Char) (n : ℕ) (s : Word) (hn : IsNumber s n) :
    strip t = s ↔ Words t [s] := by
  obtain ⟨hne, hs⟩ := number_noSpace hn
  constructor
  · rintro rfl
    obtain ⟨g, g', h1, h2, h3⟩ := strip_of t
    have := Words.cons g (strip t) g' [] h2 hne (fun c hc => (isSpace_false_iff c).1 (hs c hc))
      (by
        intro c hc
        cases g' with
        | nil => cases hc
        | cons x g' => exact h3 c (by rw [← Option.some.inj hc]; simp)) (.nil g' h3)
    rwa [← h1] at this
  · intro h
    cases h with
    | cons gap w rest ws h hne hw hr ht =>
      cases ht with
      | nil _ h' => exact strip_gaps h h' hs

theorem vasprunAtoms_iff (root : Elem) (numbers : List ℕ) :
    (∃ symbols, vasprunSymbols root = .ok symbols ∧ symbols.mapM numberOf = .ok numbers) ↔
      AtomsAre IsNumber root numbers := by
  have entry : ∀ e n, (∃ s, atomEntry e = .ok s ∧ IsNumber s n) ↔
      ∃ c rest t w, e.children = c :: rest ∧ c.text = some t ∧ Words t [w] ∧ IsNumber w n := by
    intro e n
    unfold atomEntry
    cases e.children with
    | nil =>
      constructor
      · rintro ⟨s, h, -⟩; cases h
      · rintro ⟨_, _, _, _, h, -⟩; cases h
    | cons c rest =>
      dsimp only
      cases ht : c.text with
      | none =>
        constructor
        · rintro ⟨s, h, -⟩; cases h
        · rintro ⟨c', _, _, _, h, h', -⟩
          obtain ⟨rfl, -⟩ := List.cons.inj h
          rw [ht] at h'; cases h'
      | some t =>
        constructor
        · rintro ⟨s, h, hn⟩
          exact ⟨c, rest, t, s, rfl, ht, (strip_symbol t n s hn).1 (Except.ok.inj h), hn⟩
        · rintro ⟨c', rest', t', w, h, h', hw, hn⟩
          obtain ⟨rfl, -⟩ := List.cons.inj h
          rw [ht] at h'
          obtain rfl := Option.some.inj h'
          exact ⟨w, congrArg Except.ok ((strip_symbol t n w hn).2 hw), hn⟩
  have chain : ∀ v, root.find [plain "atominfo", plain "array", plain "set"] = some v ↔
      FirstChain [Tag "atominfo", Tag "array", Tag "set"] root v := by
    intro v
    rw [find_chain_iff]
    simp only [List.map_cons, List.map_nil, plain_pred]
  unfold vasprunSymbols AtomsAre
  have comp : ∀ es : List Elem, (∃ symbols, es.mapM atomEntry = .ok symbols ∧
      symbols.mapM numberOf = .ok numbers) ↔
      List.Forall₂ (fun e n => ∃ s, atomEntry e = .ok s ∧ IsNumber s n) es numbers := by
    intro es
    constructor
    · rintro ⟨ss, h1, h2⟩
      replace h1 := (mapM_except_ok _ _ _).1 h1
      replace h2 := (mapM_except_ok _ _ _).1 h2
      clear chain
      induction h1 generalizing numbers with
      | nil => cases h2; exact .nil
      | cons ha _ ih =>
        cases h2 with
        | cons hb h2 => exact .cons ⟨_, ha, numberOf_eq_ok.1 hb⟩ (ih _ h2)
    · intro h
      clear chain
      induction h with
      | nil => exact ⟨[], rfl, rfl⟩
      | cons ha _ ih =>
        obtain ⟨s, h1, h2⟩ := ha
        obtain ⟨ss, h3, h4⟩ := ih
        refine ⟨s :: ss, (mapM_except_ok _ _ _).2 (.cons h1 ((mapM_except_ok _ _ _).1 h3)),
          (mapM_except_ok _ _ _).2 (.cons (numberOf_eq_ok.2 h2) ((mapM_except_ok _ _ _).1 h4))⟩
  cases hf : root.find [plain "atominfo", plain "array", plain "set"] with
  | none =>
    constructor
    · rintro ⟨_, h, -⟩; cases h
    · rintro ⟨s, h, -⟩
      rw [(chain s).2 h] at hf
      cases hf
  | some v =>
    dsimp only
    rw [comp]
    have hv := (chain v).1 hf
    constructor
    · intro h
      exact ⟨v, hv, h.imp fun e n => (entry e n).1⟩
    · rintro ⟨s, hs, h⟩
      rw [(chain s).2 hs] at hf
      obtain rfl := Option.some.inj hf
      exact h.imp fun e n => (entry e n).2

theorem initialLattice_iff (root : Elem) (rows : List (List Num)) :
    vasprunLattice root = .ok rows ↔ InitialLattice root rows := by
  unfold vasprunLattice InitialLattice ArrayAt
  rw [findVarray_iff]
  refine exists_congr fun v => and_congr ?_ Iff.rfl
  rw [find_chain_iff]
  simp only [List.map_cons, List.map_nil, plain_pred, named_pred]

theorem vasprunInitialPositions_iff (root : Elem) (rows : List (List Num)) :
    vasprunInitialPositions root = .ok rows ↔ InitialPositions root rows := by
  unfold vasprunInitialPositions InitialPositions ArrayAt
  rw [findVarray_iff]
  refine exists_congr fun v => and_congr ?_ Iff.rfl
  rw [find_chain_iff]
  simp only [List.map_cons, List.map_nil, plain_pred, named_pred]

theorem vasprunPolarizability_iff (root : Elem) (rows : List (List Num)) :
    vasprunPolarizability root = .ok rows ↔ DielectricTensor root rows := by
  unfold vasprunPolarizability DielectricTensor ArrayAt
  rw [findVarray_iff]
  refine exists_congr fun v => and_congr ?_ Iff.rfl
  rw [find_chain_iff]
  simp only [List.map_cons, List.map_nil, plain_pred, named_pred]

/-- C135: `read_structure_and_polarizability` returns exactly the elements, lattice, positions and
tensor of the file. -/
theorem C135_structure_and_polarizability (root : Elem) (s : OutcarStructure) :
    vasprunStructureAndPolarizability root = .ok s ↔
      AtomsAre IsNumber root s.atomicNumbers ∧ InitialLattice root s.lattice ∧
      InitialPositions root s.positions ∧ DielectricTensor root s.polarizability := by
  unfold vasprunStructureAndPolarizability
  rw [← vasprunAtoms_iff, ← initialLattice_iff, ← vasprunInitialPositions_iff,
    ← vasprunPolarizability_iff]
  constructor
  · intro e
    obtain ⟨symbols, h1, e⟩ := (bind_ok_iff _ _ _).1 e
    obtain ⟨ns, h2, e⟩ := (bind_ok_iff _ _ _).1 e
    obtain ⟨lat, h3, e⟩ := (bind_ok_iff _ _ _).1 e
    obtain ⟨pos, h4, e⟩ := (bind_ok_iff _ _ _).1 e
    obtain ⟨pol, h5, e⟩ := (bind_ok_iff _ _ _).1 e
    obtain rfl := Except.ok.inj e
    exact ⟨⟨symbols, h1, h2⟩, h3, h4, h5⟩
  · rintro ⟨⟨symbols, h1, h2⟩, h3, h4, h5⟩
    exact (bind_ok_iff _ _ _).2 ⟨symbols, h1, (bind_ok_iff _ _ _).2 ⟨_, h2,
      (bind_ok_iff _ _ _).2 ⟨_, h3, (bind_ok_iff _ _ _).2 ⟨_, h4,
        (bind_ok_iff _ _ _).2 ⟨_, h5, rfl⟩⟩⟩⟩⟩

/-- C135: likewise `read_ref_structure`, up to the constructor. -/
theorem C135_reference (root : Elem) (numbers : List ℕ) (lattice positions : List (List Num)) :
    vasprunRefArgs root = .ok (numbers, lattice, positions) ↔
      AtomsAre IsNumber root numbers ∧ InitialLattice root lattice ∧
      InitialPositions root positions := by
  unfold vasprunRefArgs
  rw [← vasprunAtoms_iff, ← initialLattice_iff, ← vasprunInitialPositions_iff]
  constructor
  · intro e
    obtain ⟨symbols, h1, e⟩ := (bind_ok_iff _ _ _).1 e
    obtain ⟨ns, h2, e⟩ := (bind_ok_iff _ _ _).1 e
    obtain ⟨lat, h3, e⟩ := (bind_ok_iff _ _ _).1 e
    obtain ⟨pos, h4, e⟩ := (bind_ok_iff _ _ _).1 e
    obtain ⟨rfl, e'⟩ := Prod.mk.inj (Except.ok.inj e)
    obtain ⟨rfl, rfl⟩ := Prod.mk.inj e'
    exact ⟨⟨symbols, h1, h2⟩, h3, h4⟩
  · rintro ⟨⟨symbols, h1, h2⟩, h3, h4⟩
    exact (bind_ok_iff _ _ _).2 ⟨symbols, h1, (bind_ok_iff _ _ _).2 ⟨_, h2,
      (bind_ok_iff _ _ _).2 ⟨_, h3, (bind_ok_iff _ _ _).2 ⟨_, h4, rfl⟩⟩⟩⟩

/-- C135: likewise `read_positions_and_polarizability`. -/
theorem C135_positions_and_polarizability (root : Elem) (positions tensor : List (List Num)) :
    vasprunPositionsAndPolarizability root = .ok (positions, tensor) ↔
      InitialPositions root positions ∧ DielectricTensor root tensor := by
  unfold vasprunPositionsAndPolarizability
  rw [← vasprunInitialPositions_iff, ← vasprunPolarizability_iff]
  constructor
  · intro e
    obtain ⟨pos, h4, e⟩ := (bind_ok_iff _ _ _).1 e
    obtain ⟨pol, h5, e⟩ := (bind_ok_iff _ _ _).1 e
    obtain ⟨rfl, rfl⟩ := Prod.mk.inj (Except.ok.inj e)
    exact ⟨h4, h5⟩
  · rintro ⟨h4, h5⟩
    exact (bind_ok_iff _ _ _).2 ⟨_, h4, (bind_ok_iff _ _ _).2 ⟨_, h5, rfl⟩⟩

/-- A file with one oxygen atom and forces before the dielectric tensor. -/
def oxygenRoot : Elem :=
  el "modeling" none [
    el "atominfo" none [el "array" none [el "set" none [el "rc" none [el "c" (some "O ") []]]]],
    eln "structure" "initialpos" none [
      el "crystal" none [eln "varray" "basis" none [el "v" (some "2 0 0") [],
        el "v" (some "0 2 0") [], el "v" (some "0 0 2") []]],
      eln "varray" "positions" none [el "v" (some "0.25 0.5 0") []]],
    el "calculation" none [eln "varray" "forces" none [el "v" (some "9 9 9") []],
      eln "varray" "dielectric_dft" none [el "v" (some "3 0 0") [],
        el "v" (some "0 3 0") [], el "v" (some "0 0 1") []]]]

/-- C135, concrete. -/
theorem oxygen_parts : AtomsAre IsNumber oxygenRoot [8] ∧
    InitialLattice oxygenRoot [[some 2, some 0, some 0], [some 0, some 2, some 0],
      [some 0, some 0, some 2]] ∧
    InitialPositions oxygenRoot [[some (1 / 4), some (1 / 2), some 0]] ∧
    DielectricTensor oxygenRoot [[some 3, some 0, some 0], [some 0, some 3, some 0],
      [some 0, some 0, some 1]] := by
  have h1 : ∃ x, vasprunRefArgs oxygenRoot = .ok x ∧ x = ([8], [[some 2, some 0, some 0],
      [some 0, some 2, some 0], [some 0, some 0, some 2]], [[some (1 / 4), some (1 / 2), some 0]]) :=
    projOr_ok id ([], [], []) _ (by decide +kernel) (by simp)
  have h2 : ∃ x, vasprunPolarizability oxygenRoot = .ok x ∧ x = [[some 3, some 0, some 0],
      [some 0, some 3, some 0], [some 0, some 0, some 1]] :=
    projOr_ok id [] _ (by decide +kernel) (by simp)
  obtain ⟨x, h1, rfl⟩ := h1
  obtain ⟨y, h2, rfl⟩ := h2
  have h3 := (C135_reference _ _ _ _).1 h1
  exact ⟨h3.1, h3.2.1, h3.2.2, (vasprunPolarizability_iff _ _).1 h2⟩

end Verif
