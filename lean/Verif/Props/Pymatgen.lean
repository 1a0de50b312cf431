import Verif.Model.Pymatgen
import Verif.Props.DatasetFiles
import Verif.Props.Pbc
import Verif.Props.Dynamics
import Verif.Props.InterpolationDof

/-!
# C102-C104: datasets, reference structures and trajectories from pymatgen objects
-/

namespace Verif

open Spec

variable {N : ℕ}

/-! ## C102 -/

/-- A structure as pymatgen builds it: as many coordinates as species. -/
def PmgStructure.Proper (s : PmgStructure) : Prop := s.fracCoords.length = s.atomicNumbers.length

/-- Two structures that belong to one dataset. -/
def SameCell (s first : PmgStructure) : Prop :=
  Spec.NearLattice s.lattice first.lattice ∧ s.atomicNumbers = first.atomicNumbers

theorem pmgDatasetLoop_iff (first : PmgStructure) (ss : List PmgStructure)
    (hp : ∀ s ∈ ss, s.Proper) (rows : List (List Vec3)) :
    pmgDatasetLoop first.lattice first.atomicNumbers (ss.map some) = .ok rows ↔
      (∀ s ∈ ss, SameCell s first) ∧ rows = ss.map (·.fracCoords) := by
  induction ss generalizing rows with
  | nil => simp [pmgDatasetLoop, eq_comm]
  | cons s ss ih =>
    have ih := ih fun t ht => hp t (by simp [ht])
    simp only [List.map_cons, pmgDatasetLoop, pmgLattice, pmgAtomicNumbers, pmgPositions]
    dsimp only [bind, Except.bind]
    by_cases h1 : latticeClose s.lattice first.lattice
    · rw [if_neg (not_not.2 h1)]
      rw [latticeClose_iff] at h1
      by_cases h2 : s.atomicNumbers = first.atomicNumbers
      · rw [if_neg (not_not.2 h2)]
        have hrow : assignRow first.atomicNumbers.length s.fracCoords = .ok s.fracCoords := by
          unfold assignRow
          rw [if_pos]
          rw [← h2]
          exact hp s (by simp)
        rw [hrow]
        dsimp only
        cases hl : pmgDatasetLoop first.lattice first.atomicNumbers (ss.map some) with
        | error e =>
          constructor
          · intro h; cases h
          · rintro ⟨h, -⟩
            have := (ih (ss.map (·.fracCoords))).2 ⟨fun t ht => h t (by simp [ht]), rfl⟩
            rw [hl] at this; cases this
        | ok r =>
          obtain ⟨hr, rfl⟩ := (ih r).1 hl
          constructor
          · intro h
            obtain rfl := Except.ok.inj h
            refine ⟨?_, rfl⟩
            intro t ht
            rcases List.mem_cons.1 ht with rfl | ht
            · exact ⟨h1, h2⟩
            · exact hr t ht
          · rintro ⟨-, rfl⟩
            rfl
      · rw [if_pos h2]
        constructor
        · intro h; cases h
        · rintro ⟨h, -⟩; exact absurd (h s (by simp)).2 h2
    · rw [if_pos h1]
      rw [latticeClose_iff] at h1
      constructor
      · intro h; cases h
      · rintro ⟨h, -⟩; exact absurd (h s (by simp)).1 h1

/-- C102: structures are accepted iff there is at least one, there are as many polarizabilities,
and each structure has the atomic numbers of the first one and its lattice up to `1e-5`. -/
theorem C102_accepts (ss : List PmgStructure) (hp : ∀ s ∈ ss, s.Proper) (pols : List (Mat3 ℝ)) :
    (∃ d, constructPolarizabilityDataset (ss.map some) pols = .ok d) ↔
      pols.length = ss.length ∧ ∃ first, ss.head? = some first ∧ ∀ s ∈ ss, SameCell s first := by
  unfold constructPolarizabilityDataset
  rw [List.length_map]
  by_cases hl : pols.length = ss.length
  · rw [if_neg (not_not.2 hl)]
    cases ss with
    | nil => simp
    | cons first rest =>
      simp only [List.map_cons, pmgGetStructure, pmgLattice, pmgAtomicNumbers, pmgPositions]
      dsimp only [bind, Except.bind, pure, Except.pure]
      rw [← List.map_cons (f := some)]
      constructor
      · rintro ⟨d, h⟩
        refine ⟨hl, first, rfl, ?_⟩
        cases h1 : pmgDatasetLoop first.lattice first.atomicNumbers ((first :: rest).map some) with
        | error e => rw [h1] at h; cases h
        | ok rows => exact ((pmgDatasetLoop_iff first _ hp rows).1 h1).1
      · rintro ⟨-, f, hf, hall⟩
        obtain rfl : first = f := by simpa using hf
        rw [(pmgDatasetLoop_iff first (first :: rest) hp _).2 ⟨hall, rfl⟩]
        dsimp only
        unfold makeDataset
        rw [if_neg, if_neg, scaleAndFlatten_standard]
        · exact ⟨_, rfl⟩
        · simpa using hl
        · rw [not_not]
          intro p hpm
          obtain ⟨s, hs, rfl⟩ := List.mem_map.1 hpm
          rw [← (hall s hs).2]
          exact hp s hs
  · rw [if_pos hl]
    simp [hl]

/-- C102: the dataset holds the coordinates and polarizabilities in the order given, with the
lattice and the atomic numbers of the first structure. -/
theorem C102_contents (ss : List PmgStructure) (hp : ∀ s ∈ ss, s.Proper) (pols : List (Mat3 ℝ))
    (d : PolDataset) (h : constructPolarizabilityDataset (ss.map some) pols = .ok d) :
    d.positions = ss.map (·.fracCoords) ∧ d.polarizabilities = pols ∧
      ∀ first, ss.head? = some first →
        d.lattice = first.lattice ∧ d.atomicNumbers = first.atomicNumbers := by
  unfold constructPolarizabilityDataset at h
  rw [List.length_map] at h
  split_ifs at h with hl
  cases ss with
  | nil => cases h
  | cons first rest =>
    simp only [List.map_cons, pmgGetStructure, pmgLattice, pmgAtomicNumbers, pmgPositions] at h
    dsimp only [bind, Except.bind, pure, Except.pure] at h
    rw [← List.map_cons (f := some)] at h
    cases h1 : pmgDatasetLoop first.lattice first.atomicNumbers ((first :: rest).map some) with
    | error e => rw [h1] at h; cases h
    | ok rows =>
      rw [h1] at h
      obtain ⟨-, rfl⟩ := (pmgDatasetLoop_iff first _ hp rows).1 h1
      obtain ⟨-, -, rfl⟩ := makeDataset_ok h
      refine ⟨rfl, rfl, ?_⟩
      intro f hf
      obtain rfl : first = f := by simpa using hf
      exact ⟨rfl, rfl⟩

/-- C102: unlike datasets read from files, lattices cannot drift: every structure is within the
tolerance of the lattice of the dataset, and any two are within twice the tolerance. -/
theorem C102_no_drift (ss : List PmgStructure) (hp : ∀ s ∈ ss, s.Proper) (pols : List (Mat3 ℝ))
    (d : PolDataset) (h : constructPolarizabilityDataset (ss.map some) pols = .ok d) :
    (∀ s ∈ ss, Spec.NearLattice s.lattice d.lattice ∧ s.atomicNumbers = d.atomicNumbers) ∧
    ∀ s ∈ ss, ∀ t ∈ ss, ∀ i j,
      |s.lattice i j - t.lattice i j| ≤ 2 * ((1 + |d.lattice i j|) / 100000) := by
  obtain ⟨-, first, hf, hall⟩ := (C102_accepts ss hp pols).1 ⟨d, h⟩
  obtain ⟨hl, hn⟩ := (C102_contents ss hp pols d h).2.2 first hf
  rw [hl, hn]
  refine ⟨hall, fun s hs t ht i j => ?_⟩
  have h1 := (hall s hs).1 i j
  have h2 := (hall t ht).1 i j
  calc |s.lattice i j - t.lattice i j| =
        |(s.lattice i j - first.lattice i j) - (t.lattice i j - first.lattice i j)| := by ring_nf
    _ ≤ |s.lattice i j - first.lattice i j| + |t.lattice i j - first.lattice i j| := abs_sub _ _
    _ ≤ _ := by linarith

/-- C102, refusals: no structures at all give `IndexError` (`ValueError` if there are
polarizabilities), a wrong number of polarizabilities `ValueError`, and an incompatible structure
`IncompatibleStructureException`. -/
theorem C102_refusals (ss : List PmgStructure) (hp : ∀ s ∈ ss, s.Proper) (pols : List (Mat3 ℝ)) :
    constructPolarizabilityDataset [] [] = .error .indexError ∧
    (pols.length ≠ ss.length →
      constructPolarizabilityDataset (ss.map some) pols = .error .valueError) ∧
    (pols.length = ss.length → ∀ first, ss.head? = some first → (∃ s ∈ ss, ¬ SameCell s first) →
      constructPolarizabilityDataset (ss.map some) pols = .error .incompatible) := by
  refine ⟨rfl, fun h => ?_, fun hl first hf hbad => ?_⟩
  · unfold constructPolarizabilityDataset
    rw [List.length_map, if_pos h]
  · obtain ⟨rest, rfl⟩ : ∃ rest, ss = first :: rest := by
      cases ss with
      | nil => cases hf
      | cons a as => exact ⟨as, by simpa using hf⟩
    unfold constructPolarizabilityDataset
    rw [List.length_map, if_neg (not_not.2 hl)]
    simp only [List.map_cons, pmgGetStructure, pmgLattice, pmgAtomicNumbers, pmgPositions]
    dsimp only [bind, Except.bind, pure, Except.pure]
    rw [← List.map_cons (f := some)]
    have key : ∀ l : List PmgStructure, (∀ s ∈ l, s.Proper) → (∃ s ∈ l, ¬ SameCell s first) →
        pmgDatasetLoop first.lattice first.atomicNumbers (l.map some) = .error .incompatible := by
      intro l
      induction l with
      | nil => rintro - ⟨s, hs, -⟩; cases hs
      | cons s l ih =>
        intro hpl hb
        simp only [List.map_cons, pmgDatasetLoop, pmgLattice, pmgAtomicNumbers, pmgPositions]
        dsimp only [bind, Except.bind]
        by_cases h1 : latticeClose s.lattice first.lattice
        · rw [if_neg (not_not.2 h1)]
          by_cases h2 : s.atomicNumbers = first.atomicNumbers
          · rw [if_neg (not_not.2 h2)]
            have hrow : assignRow first.atomicNumbers.length s.fracCoords = .ok s.fracCoords := by
              unfold assignRow
              rw [if_pos]
              rw [← h2]
              exact hpl s (by simp)
            rw [hrow]
            dsimp only
            rw [ih (fun t ht => hpl t (by simp [ht]))]
            obtain ⟨t, ht, hn⟩ := hb
            rcases List.mem_cons.1 ht with rfl | ht
            · exact absurd ⟨(latticeClose_iff _ _).1 h1, h2⟩ hn
            · exact ⟨t, ht, hn⟩
          · rw [if_pos h2]
        · rw [if_pos h1]
    rw [key _ hp hbad]

/-- C102: objects that are not structures give `TypeError`. -/
theorem C102_type_error (good : List PmgStructure) (hp : ∀ s ∈ good, s.Proper)
    (hsame : ∀ first, good.head? = some first → ∀ s ∈ good, SameCell s first)
    (after : List PmgArg) (pols : List (Mat3 ℝ)) (hl : pols.length = good.length + 1 + after.length) :
    constructPolarizabilityDataset (good.map some ++ none :: after) pols = .error .typeError := by
  unfold constructPolarizabilityDataset
  rw [if_neg (by simp; omega)]
  cases good with
  | nil => rfl
  | cons first rest =>
    simp only [List.map_cons, List.cons_append, pmgGetStructure, pmgLattice, pmgAtomicNumbers,
      pmgPositions]
    dsimp only [bind, Except.bind, pure, Except.pure]
    rw [← List.cons_append, ← List.map_cons (f := some)]
    have key : ∀ l : List PmgStructure, (∀ s ∈ l, s.Proper) → (∀ s ∈ l, SameCell s first) →
        pmgDatasetLoop first.lattice first.atomicNumbers (l.map some ++ none :: after) =
          .error .typeError := by
      intro l
      induction l with
      | nil => intro _ _; rfl
      | cons s l ih =>
        intro hpl hb
        simp only [List.map_cons, List.cons_append, pmgDatasetLoop, pmgLattice, pmgAtomicNumbers,
          pmgPositions]
        dsimp only [bind, Except.bind]
        have h1 := (latticeClose_iff _ _).2 (hb s (by simp)).1
        have h2 := (hb s (by simp)).2
        rw [if_neg (not_not.2 h1), if_neg (not_not.2 h2)]
        have hrow : assignRow first.atomicNumbers.length s.fracCoords = .ok s.fracCoords := by
          unfold assignRow
          rw [if_pos]
          rw [← h2]
          exact hpl s (by simp)
        rw [hrow]
        dsimp only
        rw [ih (fun t ht => hpl t (by simp [ht])) fun t ht => hb t (by simp [ht])]
    rw [key _ hp (hsame first rfl)]

/-- C102, concrete: two structures with slightly different lattices, and a third with another
species. -/
example :
    (∃ d, constructPolarizabilityDataset
      [some ⟨1, [1], [![0, 0, 0]]⟩, some ⟨(1 + 1 / 100000 : ℝ) • 1, [1], [![1 / 10, 0, 0]]⟩]
      [0, 1] = .ok d) ∧
    constructPolarizabilityDataset
      [some ⟨1, [1], [![0, 0, 0]]⟩, some ⟨1, [2], [![1 / 10, 0, 0]]⟩] [0, 1] =
        .error .incompatible := by
  constructor
  · refine (C102_accepts [⟨1, [1], [![0, 0, 0]]⟩,
      ⟨(1 + 1 / 100000 : ℝ) • 1, [1], [![1 / 10, 0, 0]]⟩] ?_ _).2 ⟨rfl, _, rfl, ?_⟩
    · intro s hs
      simp only [List.mem_cons, List.not_mem_nil, or_false] at hs
      rcases hs with rfl | rfl <;> rfl
    · intro s hs
      simp only [List.mem_cons, List.not_mem_nil, or_false] at hs
      rcases hs with rfl | rfl
      · refine ⟨fun i j => ?_, rfl⟩
        simp only [sub_self, abs_zero]
        positivity
      · refine ⟨fun i j => ?_, rfl⟩
        by_cases hij : i = j
        · subst hij
          simp only [Matrix.smul_apply, Matrix.one_apply_eq, smul_eq_mul]
          norm_num [abs_of_pos]
        · simp only [Matrix.smul_apply, Matrix.one_apply_ne hij, smul_eq_mul]
          norm_num
  · refine (C102_refusals [⟨1, [1], [![0, 0, 0]]⟩, ⟨1, [2], [![1 / 10, 0, 0]]⟩] ?_ _).2.2 rfl _ rfl
      ⟨_, by simp; right; rfl, fun h => absurd h.2 (by simp)⟩
    intro s hs
    simp only [List.mem_cons, List.not_mem_nil, or_false] at hs
    rcases hs with rfl | rfl <;> rfl

/-! ## C103 -/

theorem permMatrices_total (ops : List SymOp) (p : Pos N ℝ) (h : ∀ a i, InClosedCell (p a i)) :
    ∃ perms, computePermutationMatrices ops p = .ok perms := by
  unfold computePermutationMatrices
  induction ops with
  | nil => exact ⟨[], rfl⟩
  | cons op ops ih =>
    obtain ⟨perms, hp⟩ := ih
    obtain ⟨q, hq⟩ := (C05_transform_validation p op.rot
      (fun i => op.trans i + comShift p i)).2.1 h
    refine ⟨permMatrix (displacePositions p (bcast (comShift p))) q :: perms, ?_⟩
    rw [List.mapM_cons, hp]
    unfold permMatrixOf
    rw [hq]
    rfl

theorem permMatrices_error (ops : List SymOp) (hops : ops ≠ []) (p : Pos N ℝ)
    (h : ∃ a i, ¬ InClosedCell (p a i)) :
    computePermutationMatrices ops p = .error .valueError := by
  unfold computePermutationMatrices
  cases ops with
  | nil => exact absurd rfl hops
  | cons op ops =>
    rw [List.mapM_cons]
    unfold permMatrixOf
    rw [(C05_transform_validation p op.rot (fun i => op.trans i + comShift p i)).1.1 h]
    rfl

/-- C103: the reference structure has the atomic numbers, lattice and coordinates of the
structure. -/
theorem C103_contents
    (spglib : (n : ℕ) → Mat3 ℝ → Pos n ℝ → (Fin n → ℕ) → Option SymDict) (s : PmgStructure)
    (x : Σ n, RefStructure n) (h : constructRefStructure spglib (some s) = .ok x) :
    x.1 = s.atomicNumbers.length ∧ List.ofFn x.2.atomicNumbers = s.atomicNumbers ∧
      x.2.lattice = s.lattice ∧ List.ofFn x.2.positions = s.fracCoords := by
  unfold constructRefStructure at h
  simp only [pmgLattice, pmgAtomicNumbers, pmgPositions] at h
  dsimp only [bind, Except.bind] at h
  split_ifs at h with hl
  split at h
  · cases h
  · rename_i r hr
    obtain rfl := Except.ok.inj h
    unfold RefStructure.init at hr
    split at hr
    · cases hr
    · rename_i sym _
      dsimp only [bind, Except.bind] at hr
      split at hr
      · cases hr
      · obtain rfl := Except.ok.inj hr
        refine ⟨rfl, ?_, rfl, ?_⟩
        · exact List.ofFn_getElem (xs := s.atomicNumbers)
        · refine List.ext_getElem ?_ ?_
          · simp [hl]
          · intro i h1 h2
            simp

/-- C103: a structure is accepted if spglib finds its symmetry, unless spglib names at least one
operation and some coordinate is outside `[0,1]`; then there is a `ValueError`, although pymatgen
permits such coordinates. -/
theorem C103_accepts
    (spglib : (n : ℕ) → Mat3 ℝ → Pos n ℝ → (Fin n → ℕ) → Option SymDict) (s : PmgStructure)
    (hp : s.Proper) (hspg : ∀ n l p z, ∃ sym, spglib n l p z = some sym ∧ sym.ops ≠ []) :
    ((∀ v ∈ s.fracCoords, ∀ i, InClosedCell (v i)) ↔
      ∃ x, constructRefStructure spglib (some s) = .ok x) ∧
    ((∃ v ∈ s.fracCoords, ∃ i, ¬ InClosedCell (v i)) ↔
      constructRefStructure spglib (some s) = .error .valueError) := by
  have hl : s.fracCoords.length = s.atomicNumbers.length := hp
  obtain ⟨sym, hsym, hops⟩ := hspg s.atomicNumbers.length s.lattice
    (fun a => s.fracCoords[a]) (fun a => s.atomicNumbers[a])
  have hin : (∀ v ∈ s.fracCoords, ∀ i, InClosedCell (v i)) ↔
      ∀ (a : Fin s.atomicNumbers.length) i, InClosedCell (s.fracCoords[a] i) := by
    constructor
    · intro h a i
      exact h _ (List.getElem_mem _) i
    · intro h v hv i
      obtain ⟨k, hk, rfl⟩ := List.getElem_of_mem hv
      exact h ⟨k, by omega⟩ i
  have hmain : ((∀ v ∈ s.fracCoords, ∀ i, InClosedCell (v i)) →
      ∃ x, constructRefStructure spglib (some s) = .ok x) ∧
      (¬ (∀ v ∈ s.fracCoords, ∀ i, InClosedCell (v i)) →
        constructRefStructure spglib (some s) = .error .valueError) := by
    unfold constructRefStructure
    simp only [pmgLattice, pmgAtomicNumbers, pmgPositions]
    dsimp only [bind, Except.bind]
    rw [dif_pos hl]
    unfold RefStructure.init
    rw [hsym]
    dsimp only [bind, Except.bind]
    constructor
    · intro h
      obtain ⟨perms, hperms⟩ := permMatrices_total sym.ops _ (hin.1 h)
      rw [hperms]
      exact ⟨_, rfl⟩
    · intro h
      rw [hin] at h
      push Not at h
      rw [permMatrices_error sym.ops hops _ h]
  constructor
  · refine ⟨hmain.1, fun ⟨x, hx⟩ => ?_⟩
    by_contra hn
    rw [hmain.2 hn] at hx
    cases hx
  · constructor
    · intro h
      refine hmain.2 fun hall => ?_
      obtain ⟨v, hv, i, hi⟩ := h
      exact hi (hall v hv i)
    · intro h
      by_contra hn
      push Not at hn
      obtain ⟨x, hx⟩ := hmain.1 hn
      rw [hx] at h
      cases h

/-- C103: other objects give `TypeError`; a structure without symmetry
`SymmetryException`. -/
theorem C103_refusals
    (spglib : (n : ℕ) → Mat3 ℝ → Pos n ℝ → (Fin n → ℕ) → Option SymDict) (s : PmgStructure)
    (hp : s.Proper) (hspg : ∀ n l p z, spglib n l p z = none) :
    constructRefStructure spglib none = .error .typeError ∧
      constructRefStructure spglib (some s) = .error .symmetry := by
  refine ⟨rfl, ?_⟩
  have hl : s.fracCoords.length = s.atomicNumbers.length := hp
  unfold constructRefStructure
  simp only [pmgLattice, pmgAtomicNumbers, pmgPositions]
  dsimp only [bind, Except.bind]
  rw [dif_pos hl]
  unfold RefStructure.init
  rw [hspg]

/-- C103, concrete: one atom, in the cell and outside. -/
example :
    (∃ x, constructRefStructure (fun n _ _ _ => some ⟨[⟨1, 0⟩], List.range n⟩)
      (some ⟨1, [6], [![0, 1 / 2, 1]]⟩) = .ok x) ∧
    constructRefStructure (fun n _ _ _ => some ⟨[⟨1, 0⟩], List.range n⟩)
      (some ⟨1, [6], [![0, 1 / 2, 3 / 2]]⟩) = .error .valueError := by
  constructor
  · refine (C103_accepts (fun n _ _ _ => some ⟨[⟨1, 0⟩], List.range n⟩) ⟨1, [6], [![0, 1 / 2, 1]]⟩ rfl
      fun n _ _ _ => ⟨_, rfl, by simp⟩).1.1 ?_
    intro v hv i
    simp only [List.mem_singleton] at hv
    subst hv
    fin_cases i <;> norm_num [InClosedCell]
  · refine (C103_accepts (fun n _ _ _ => some ⟨[⟨1, 0⟩], List.range n⟩) ⟨1, [6], [![0, 1 / 2, 3 / 2]]⟩ rfl
      fun n _ _ _ => ⟨_, rfl, by simp⟩).2.1 ?_
    exact ⟨_, List.mem_singleton.2 rfl, 2, by
      rintro ⟨-, h⟩
      have h : (3 / 2 : ℝ) ≤ 1 := h
      norm_num at h⟩

/-! ## C104 -/

/-- Positions meant by a pymatgen trajectory: coordinates, or increments from frame to frame that
start at the base positions. -/
noncomputable def PmgTrajectory.frames (t : PmgTrajectory N) : List (Pos N ℝ) :=
  if t.coordsAreDisplacement then
    (t.coords.inits.tail).map fun ds a i => t.basePositions a i + (ds.map fun d => d a i).sum
  else t.coords

/-- C104, for trajectories stored as positions: exactly those with constant lattice and a positive
time step are accepted (otherwise `ValueError`); the result has the same frames with every
coordinate wrapped into the cell. -/
theorem C104_positions_partial (t : PmgTrajectory N) (hpos : t.coordsAreDisplacement = false)
    (dt : ℝ) :
    (t.constantLattice = true ∧ 0 < dt → ∃ r, constructTrajectory (some t) dt = .ok r) ∧
    (t.constantLattice = false ∨ dt ≤ 0 →
      constructTrajectory (some t) dt = .error .valueError) ∧
    ∀ r, constructTrajectory (some t) dt = .ok r → r.timestep = dt ∧ 0 < dt ∧
      List.Forall₂ (fun p q => ∀ a i, InCell (q a i) ∧ SameImage (p a i) (q a i))
        t.frames r.positionsTs := by
  have hf : t.frames = t.coords := by
    unfold PmgTrajectory.frames
    rw [hpos, if_neg (by simp)]
  rw [hf]
  unfold constructTrajectory
  dsimp only
  cases hc : t.constantLattice with
  | false =>
    rw [if_pos rfl]
    refine ⟨fun h => absurd h.1 (by simp), fun _ => rfl, fun r h => ?_⟩
    cases h
  | true =>
    rw [if_neg (by simp)]
    obtain ⟨h1, h2, h3⟩ := C47_trajectory t.coords dt
    refine ⟨fun h => h2 h.2, fun h => h1 (by simpa using h), fun r h => ?_⟩
    obtain ⟨ha, hb, -, hd⟩ := h3 r h
    exact ⟨hb, hb ▸ ha, hd⟩

/-- C104: other objects give `TypeError`. -/
theorem C104_type_error (dt : ℝ) : constructTrajectory (N := N) none dt = .error .typeError := rfl

/-- C104 is false for trajectories stored as displacements: they are accepted and their
displacements are taken for positions.  Here an atom that starts at `1/2` and then rests is reported
at the origin. -/
theorem C104_counterexample : ∃ (t : PmgTrajectory 1) (r : Trajectory 1),
    constructTrajectory (some t) 1 = .ok r ∧ t.constantLattice = true ∧
    (∀ p ∈ t.frames, ∀ a i, p a i = 1 / 2) ∧ t.frames.length = 2 ∧
    ∀ q ∈ r.positionsTs, ∀ a i, q a i = 0 := by
  refine ⟨⟨true, [fun _ _ => 0, fun _ _ => 0], true, fun _ _ => 1 / 2⟩, _,
    by
      unfold constructTrajectory Trajectory.init
      dsimp only
      rw [if_neg (by simp), if_neg (by norm_num)], rfl, ?_, ?_, ?_⟩
  · intro p hp a i
    simp only [PmgTrajectory.frames, if_true, List.inits, List.map_cons, List.map_nil,
      List.tail_cons, List.mem_cons, List.not_mem_nil, or_false] at hp
    rcases hp with rfl | rfl <;> simp
  · simp [PmgTrajectory.frames]
  · intro q hq a i
    simp only [List.mem_cons, List.not_mem_nil, or_false, List.map_cons, List.map_nil] at hq
    rcases hq with rfl | rfl <;> simp [applyPbc, pbc1, pyFloorDiv]

end Verif
