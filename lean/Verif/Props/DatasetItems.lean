import Verif.Props.Dataset
import Verif.Proofs.Index
import Verif.Spec.Index

/-!
# Property C110: samples of a dataset
-/

namespace Verif
open Spec

/-- `v` is the 6-vector of the standardized components of `p`: multiplying with the standard deviation
and adding the mean gives the components of `p` back; components with zero deviation are not
finite. -/
def Standardized (mean stddev p : Mat3 ℝ) (v : Fin 6 → Option ℝ) : Prop :=
  ∀ (i j : Fin 3) (k : Fin 6), VoigtIndex i j k → i ≤ j →
    (stddev i j = 0 → v k = none) ∧
    (stddev i j ≠ 0 → ∃ x, v k = some x ∧ x * stddev i j + mean i j = p i j)

theorem standardized_vector (mean stddev p : Mat3 ℝ) :
    Standardized mean stddev p (tensorToVector (standardize mean stddev p)) := by
  intro i j k hk hij
  rw [(C74_components (fun _ : Fin 6 => (none : Option ℝ)) (standardize mean stddev p) i j k hk).2
    hij]
  unfold standardize fdiv
  refine ⟨fun h => if_pos h, fun h => ⟨_, if_neg h, ?_⟩⟩
  field_simp
  ring

theorem getItem_eq (d : PolDataset) (hl : d.scaled.length = d.positions.length) (i : ℤ) :
    (∀ (k : Fin d.positions.length), Addresses d.positions.length i k →
      d.getItem i = .ok (d.lattice, d.atomicNumbers, d.positions[k], d.scaled[(k : ℕ)])) ∧
    ((i < -(d.positions.length : ℤ) ∨ (d.positions.length : ℤ) ≤ i) →
      d.getItem i = .error .indexError) := by
  constructor
  · intro k hk
    have h1 := (pyIndex_some_iff _ _ _).2 hk
    have h2 := (pyIndex_some_iff d.scaled.length i ⟨k, by have := k.2; omega⟩).2 (by
      unfold Addresses at hk ⊢; dsimp only; omega)
    unfold PolDataset.getItem
    rw [h1, h2]
    rfl
  · intro h
    have h1 := (pyIndex_none_iff _ _).2 h
    unfold PolDataset.getItem
    rw [h1]

/-- C110, statistics: a dataset with samples reports the mean and the population standard deviation of
every component, the atomic numbers, the number of samples and of atoms. -/
theorem C110_statistics (lattice : Mat3 ℝ) (numbers : List ℕ) (positions : List (List (Fin 3 → ℝ)))
    (ps : List (Mat3 ℝ)) (d : PolDataset) (h : makeDataset lattice numbers positions ps = .ok d) :
    d.numSamples = positions.length ∧ d.numAtoms = numbers.length ∧
    (positions = [] → d.getAtomicNumbers = .error .indexError ∧
      ∀ i j, d.meanPolarizability i j = none ∧ d.stddevPolarizability i j = none) ∧
    (positions ≠ [] → d.getAtomicNumbers = .ok numbers ∧
      ∀ i j, d.meanPolarizability i j = some (Spec.mean (ps.map fun p => p i j)) ∧
        ∃ s, d.stddevPolarizability i j = some s ∧ 0 ≤ s ∧
          s ^ 2 = Spec.variance (ps.map fun p => p i j)) := by
  obtain ⟨h1, h2, rfl⟩ := makeDataset_ok h
  refine ⟨rfl, ?_, fun h0 => ?_, fun h0 => ?_⟩
  · unfold PolDataset.numAtoms
    cases positions with
    | nil => rfl
    | cons p _ => exact h1 p List.mem_cons_self
  · subst h0
    obtain rfl : ps = [] := List.length_eq_zero_iff.1 h2
    exact ⟨rfl, fun i j => ⟨if_pos rfl, if_pos rfl⟩⟩
  · have hps : ps ≠ [] := fun e => h0 (List.length_eq_zero_iff.1 (by rw [← h2, e]; rfl))
    constructor
    · unfold PolDataset.getAtomicNumbers
      cases positions with
      | nil => exact absurd rfl h0
      | cons p _ => rfl
    · intro i j
      refine ⟨?_, stdPol ps i j, if_neg hps, Real.sqrt_nonneg _, stdPol_sq ps i j⟩
      unfold PolDataset.meanPolarizability
      rw [if_neg hps]
      simp [meanPol, Spec.mean]

/-- C110, samples: sample `i` (also counted from the end) of a new dataset is the lattice, the atomic
numbers, the positions of the configuration and its polarizability, standardized with the
statistics that the dataset reports.  Other indexes raise `IndexError`. -/
theorem C110_samples (lattice : Mat3 ℝ) (numbers : List ℕ) (positions : List (List (Fin 3 → ℝ)))
    (ps : List (Mat3 ℝ)) (d : PolDataset) (h : makeDataset lattice numbers positions ps = .ok d)
    (i : ℤ) :
    (∀ k : Fin positions.length, Addresses positions.length i k →
      ∃ (mean stddev p : Mat3 ℝ) (v : Fin 6 → Option ℝ),
        d.getItem i = .ok (lattice, numbers, positions[k], v) ∧
        (∀ a b, d.meanPolarizability a b = some (mean a b) ∧
          d.stddevPolarizability a b = some (stddev a b)) ∧
        ps[(k : ℕ)]? = some p ∧ Standardized mean stddev p v) ∧
    ((i < -(positions.length : ℤ) ∨ (positions.length : ℤ) ≤ i) →
      d.getItem i = .error .indexError) := by
  obtain ⟨h1, h2, rfl⟩ := makeDataset_ok h
  have hg := getItem_eq ⟨lattice, numbers, positions, ps,
        ps.map fun p => tensorToVector (standardize (meanPol ps) (stdPol ps) p)⟩ (by simpa using h2) i
  refine ⟨fun k hk => ?_, hg.2⟩
  have hkl : (k : ℕ) < ps.length := by have := k.2; omega
  refine ⟨meanPol ps, stdPol ps, ps[(k : ℕ)], _, hg.1 k hk, fun a b => ?_,
    List.getElem?_eq_getElem hkl, ?_⟩
  · have : ps ≠ [] := fun e => by rw [e] at hkl; exact absurd hkl (by simp)
    exact ⟨if_neg this, if_neg this⟩
  · simp only [List.getElem_map]
    exact standardized_vector _ _ _

/-- C110, rescaling: after `scale_polarizabilities(mean, stddev)` every sample has the same lattice,
atomic numbers and positions and is standardized with the given values; the unscaled
polarizabilities and the statistics are unchanged, and only the last rescaling counts. -/
theorem C110_rescaled (lattice : Mat3 ℝ) (numbers : List ℕ) (positions : List (List (Fin 3 → ℝ)))
    (ps : List (Mat3 ℝ)) (d : PolDataset) (h : makeDataset lattice numbers positions ps = .ok d)
    (mean stddev : Mat3 ℝ) :
    (∀ (i : ℤ) (k : Fin positions.length), Addresses positions.length i k → ∃ p v,
      (d.scalePolarizabilities mean stddev).getItem i = .ok (lattice, numbers, positions[k], v) ∧
        ps[(k : ℕ)]? = some p ∧ Standardized mean stddev p v) ∧
    (d.scalePolarizabilities mean stddev).polarizabilities = ps ∧
    (d.scalePolarizabilities mean stddev).meanPolarizability = d.meanPolarizability ∧
    (d.scalePolarizabilities mean stddev).stddevPolarizability = d.stddevPolarizability ∧
    ∀ mean' stddev', (d.scalePolarizabilities mean' stddev').scalePolarizabilities mean stddev
      = d.scalePolarizabilities mean stddev := by
  obtain ⟨h1, h2, rfl⟩ := makeDataset_ok h
  refine ⟨fun i k hk => ?_, rfl, rfl, rfl, fun _ _ => rfl⟩
  have hkl : (k : ℕ) < ps.length := by have := k.2; omega
  have hg := getItem_eq ⟨lattice, numbers, positions, ps,
        ps.map fun p => tensorToVector (standardize mean stddev p)⟩ (by simpa using h2) i
  refine ⟨ps[(k : ℕ)], _, hg.1 k hk, List.getElem?_eq_getElem hkl, ?_⟩
  simp only [List.getElem_map]
  exact standardized_vector _ _ _

/-- C110: rescaling with the statistics that the dataset itself reports changes nothing. -/
theorem C110_own_statistics (lattice : Mat3 ℝ) (numbers : List ℕ)
    (positions : List (List (Fin 3 → ℝ))) (ps : List (Mat3 ℝ)) (d : PolDataset)
    (h : makeDataset lattice numbers positions ps = .ok d) (mean stddev : Mat3 ℝ)
    (hm : ∀ a b, d.meanPolarizability a b = some (mean a b))
    (hs : ∀ a b, d.stddevPolarizability a b = some (stddev a b)) :
    d.scalePolarizabilities mean stddev = d := by
  obtain ⟨h1, h2, rfl⟩ := makeDataset_ok h
  have hne : ps ≠ [] := fun e => by
    have := hm 0 0
    unfold PolDataset.meanPolarizability at this
    rw [if_pos e] at this
    cases this
  have e1 : mean = meanPol ps := by
    ext a b
    have := hm a b
    unfold PolDataset.meanPolarizability at this
    rw [if_neg hne] at this
    exact (Option.some.inj this).symm
  have e2 : stddev = stdPol ps := by
    ext a b
    have := hs a b
    unfold PolDataset.stddevPolarizability at this
    rw [if_neg hne] at this
    exact (Option.some.inj this).symm
  rw [e1, e2]
  rfl

/-- C110, concrete: two samples with polarizabilities 0 and 2 in all components. -/
example : ∃ d p v, makeDataset 1 [8] [[![0, 0, 0]], [![0, 0, 1 / 2]]] [0, Matrix.of fun _ _ => 2] = .ok d ∧
    d.numSamples = 2 ∧ d.getItem (-1) = .ok (1, [8], p, v) ∧ p = [![0, 0, 1 / 2]] ∧
    d.getItem 2 = .error .indexError ∧ d.meanPolarizability 0 1 = some 1 ∧
    d.stddevPolarizability 0 1 = some 1 ∧ v 3 = some 1 := by
  have hd : ∃ d, makeDataset 1 [8] [[![0, 0, 0]], [![0, 0, 1 / 2]]] [0, Matrix.of fun _ _ => 2] = .ok d := by
    unfold makeDataset
    rw [if_neg (by simp), if_neg (by simp), scaleAndFlatten_standard]
    exact ⟨_, rfl⟩
  obtain ⟨d, hd⟩ := hd
  obtain ⟨mean, stddev, p, v, h1, h2, h3, h4⟩ := (C110_samples _ _ _ _ d hd (-1)).1 (1 : Fin 2)
    (Or.inr (by norm_num))
  have hst := C110_statistics _ _ _ _ d hd
  obtain ⟨-, h5⟩ := hst.2.2.2 (by simp)
  obtain ⟨h6, s, h7, h8, h9⟩ := h5 0 1
  have hmean : d.meanPolarizability 0 1 = some 1 := by
    rw [h6]; norm_num [Spec.mean]
  have hs : s = 1 := by
    have : s ^ 2 = 1 := by rw [h9]; norm_num [Spec.variance, Spec.mean]
    nlinarith
  subst hs
  refine ⟨d, _, v, hd, hst.1, h1, rfl, (C110_samples _ _ _ _ d hd 2).2 (Or.inr (by norm_num)), hmean,
    h7, ?_⟩
  have em : mean 0 1 = 1 := Option.some.inj ((h2 0 1).1.symm.trans hmean)
  have es : stddev 0 1 = 1 := Option.some.inj ((h2 0 1).2.symm.trans h7)
  obtain ⟨x, hx, hx'⟩ := (h4 0 1 3 .xy (by decide)).2 (by rw [es]; norm_num)
  have hp : p = Matrix.of fun _ _ => 2 := by
    have : some (Matrix.of fun _ _ => (2 : ℝ)) = some p := h3
    exact (Option.some.inj this).symm
  rw [em, es, hp, Matrix.of_apply] at hx'
  rw [hx]
  congr 1
  linarith

end Verif
