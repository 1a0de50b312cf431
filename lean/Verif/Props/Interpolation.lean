import Verif.Proofs.Interpolation

/-!
# Properties C25-C31: state and evaluation of interpolation models
(`pmodel/_interpolation.py`)
-/

namespace Verif
open Spec

variable {N : ℕ}

/-! ## Concrete models used as non-vacuity witnesses -/

/-- One atom at the origin of the unit cube, no symmetry. -/
noncomputable def cube : RefStructure 1 :=
  ⟨fun _ => 1, 1, fun _ _ => 0, [⟨1, 0⟩], [fun _ _ => true], [0]⟩

/-- A model with two degrees of freedom (x and y), the second one masked. -/
noncomputable def twoDof : IModel 1 where
  ref := cube
  refPol := 1
  dummy := false
  basis := [fun _ => ![1, 0, 0], fun _ => ![0, 1, 0]]
  interps := [fun x => x • (1 : Mat3 ℝ), fun x => (x ^ 2) • (1 : Mat3 ℝ)]
  mask := [false, true]

/-! ## C25 -/

/-- C25: after any sequence of API calls, successful or failing, there is one mask entry per
degree of freedom, and one interpolation per degree of freedom (none for dummy models). -/
theorem C25_consistent (spline : SplineFn) (m : IModel N) (h : Reachable spline m) :
    m.mask.length = m.basis.length ∧
    (m.dummy = false → m.interps.length = m.basis.length) ∧
    (m.dummy = true → m.interps = []) := by
  have hw := reachable_wellFormed h
  refine ⟨hw.mask, fun hd => by simpa [hd] using hw.interps, fun hd => ?_⟩
  exact List.length_eq_zero_iff.1 (by simpa [hd] using hw.interps)

/-! ## C26 -/

/-- C26: a failing call of any method that adds degrees of freedom leaves the model as it
was; a successful one appends new basis vectors and (for real models) as many
interpolations, all unmasked, and keeps everything else. -/
theorem C26_all_or_nothing (spline : SplineFn) (we : Bool) (m : IModel N) (o : Outcome N)
    (ho : (∃ cart amps pols order inc, o = m.addDof spline we cart amps pols order inc) ∨
      (∃ files order, o = m.addDofFromFiles spline we files order) ∨
      (∃ i d amps pols, o = m.addArt spline we i d amps pols) ∨
      (∃ files, o = m.addArtFromFiles spline we files) ∨
      (∃ present ss pols order, o = m.addDofFromPymatgen present spline we ss pols order) ∨
      (∃ present ss pols, o = m.addArtFromPymatgen present spline we ss pols)) :
    (∀ e, o.result = .error e → o.state = m) ∧
    (o.result = .ok () → ∃ newB newI,
      o.state.basis = m.basis ++ newB ∧ o.state.interps = m.interps ++ newI ∧
      o.state.mask = m.mask ++ newB.map (fun _ => false) ∧
      newI.length = (if m.dummy then 0 else newB.length) ∧
      o.state.ref = m.ref ∧ o.state.refPol = m.refPol ∧ o.state.dummy = m.dummy) := by
  have h : Atomic m o := by
    rcases ho with ⟨_, _, _, _, _, rfl⟩ | ⟨_, _, rfl⟩ | ⟨_, _, _, _, rfl⟩ | ⟨_, rfl⟩ |
      ⟨_, _, _, _, rfl⟩ | ⟨_, _, _, rfl⟩
    · exact addDofNan_atomic _ _ _ _ _ _ _ _
    · exact addDofFromFiles_atomic _ _ _ _ _
    · exact addArt_atomic _ _ _ _ _ _ _
    · exact addArtFromFiles_atomic _ _ _ _
    · exact addDofFromPymatgen_atomic _ _ _ _ _ _ _
    · exact addArtFromPymatgen_atomic _ _ _ _ _ _
  refine ⟨h.1, fun hr => ?_⟩
  obtain ⟨h1, h2, h3, b, f, h4, h5, h6, h7⟩ := h.2 hr
  exact ⟨b, f, h4, h5, by rw [h6, List.map_const'], h7, h1, h2, h3⟩

/-! ## C27 -/

/-- C27: `get_masked_model` masks exactly the degrees of freedom addressed by the given
(possibly negative) indexes, replaces earlier masks and changes nothing else; it raises
`IndexError` exactly if some index is out of range. -/
theorem C27_masked_model (m : IModel N) (idx : List ℤ) :
    ((∀ i ∈ idx, -(m.mask.length : ℤ) ≤ i ∧ i < m.mask.length) →
      ∃ m', m.getMaskedModel idx = .ok m' ∧ m' = { m with mask := m'.mask } ∧
        m'.mask.length = m.mask.length ∧
        ∀ (k : Fin m.mask.length), m'.mask[k]? = some true ↔
          ∃ i ∈ idx, Addresses m.mask.length i k) ∧
    ((∃ i ∈ idx, i < -(m.mask.length : ℤ) ∨ (m.mask.length : ℤ) ≤ i) →
      m.getMaskedModel idx = .error .indexError) := by
  constructor
  · intro h
    cases hk : maskIndexes m.mask.length idx with
    | none =>
      obtain ⟨i, hi, hc⟩ := (maskIndexes_none _ _).1 hk
      have := h i hi
      omega
    | some ks =>
      refine ⟨_, by unfold IModel.getMaskedModel; rw [hk], rfl, by simp, fun k => ?_⟩
      rw [← maskIndexes_some _ _ _ hk k]
      simp
  · intro h
    unfold IModel.getMaskedModel
    rw [(maskIndexes_none _ _).2 h]

/-- C27: `unmask` clears every mask entry and changes nothing else. -/
theorem C27_unmask (m : IModel N) :
    m.unmask.mask.length = m.mask.length ∧ (∀ b ∈ m.unmask.mask, b = false) ∧
      m.unmask = { m with mask := m.unmask.mask } := by
  refine ⟨by simp [IModel.unmask], fun b hb => ?_, rfl⟩
  simp only [IModel.unmask, List.mem_map] at hb
  obtain ⟨_, _, rfl⟩ := hb
  rfl

/-- C27, concrete: masking `-2` in the two-mode model masks mode 0 and unmasks mode 1. -/
example : ∃ m', twoDof.getMaskedModel [-2] = .ok m' ∧ m'.mask[0]? = some true ∧
    m'.mask[1]? ≠ some true := by
  obtain ⟨m', h, _, _, h3⟩ := (C27_masked_model twoDof [-2]).1 (by simp [twoDof])
  refine ⟨m', h, ?_, ?_⟩
  · exact (h3 ⟨0, by simp [twoDof]⟩).2 ⟨-2, by simp, by simp [Addresses, twoDof]⟩
  · intro hc
    obtain ⟨i, hi, ha⟩ := (h3 ⟨1, by simp [twoDof]⟩).1 hc
    simp [Addresses, twoDof] at hi ha
    omega

/-! ## C28 -/

/-- C28: the prediction for each sample is the reference polarizability plus the sum, over
unmasked degrees of freedom, of the interpolation at the projection of the minimum-image
Cartesian displacement onto the basis vector. -/
theorem C28_expansion (m : IModel N) (hi : m.interps.length = m.basis.length)
    (hk : m.mask.length = m.basis.length) (batch : List (Pos N ℝ)) :
    ∃ r, m.calcPolarizabilities batch = .ok r ∧
      List.Forall₂ (fun q α => ∀ w, NearestImage m.ref.positions q w →
        α = expansion m.refPol m.basis m.interps m.mask (toCart m.ref.lattice w)) batch r := by
  refine ⟨_, calc_ok m hi hk batch, ?_⟩
  rw [List.forall₂_map_right_iff]
  refine List.forall₂_same.2 fun q _ w hw => ?_
  rw [hw.unique (calcDisplacement_nearest m.ref.positions q)]
  rfl

theorem sum_split (bs : List (Pos N ℝ)) (fs : List (ℝ → Mat3 ℝ)) (ks : List Bool)
    (h1 : fs.length = bs.length) (h2 : ks.length = bs.length) (D : Pos N ℝ) :
    ((bs.zip (fs.zip ks)).map fun x => if x.2.2 then 0 else x.2.1 (inner3 x.1 D)).sum
      + ((bs.zip (fs.zip (ks.map not))).map fun x =>
          if x.2.2 then 0 else x.2.1 (inner3 x.1 D)).sum
    = ((bs.zip (fs.zip (ks.map fun _ => false))).map fun x =>
          if x.2.2 then 0 else x.2.1 (inner3 x.1 D)).sum := by
  induction bs generalizing fs ks with
  | nil => simp
  | cons b bs ih =>
    cases fs with
    | nil => simp at h1
    | cons f fs =>
    cases ks with
    | nil => simp at h2
    | cons k ks =>
      have := ih fs ks (by simpa using h1) (by simpa using h2)
      simp only [List.zip_cons_cons, List.map_cons, List.sum_cons]
      rw [← this]
      cases k
      · simp only [Bool.false_eq_true, if_false, Bool.not_false, if_true, zero_add]
        abel
      · simp only [Bool.false_eq_true, if_false, Bool.not_true, if_true, zero_add]
        abel

/-- C28: masking complementary sets of degrees of freedom splits the change in
polarizability additively. -/
theorem C28_complementary (m : IModel N) (hi : m.interps.length = m.basis.length)
    (hk : m.mask.length = m.basis.length) (q : Pos N ℝ) :
    ∃ α β γ, m.calcPolarizabilities [q] = .ok [α] ∧
      ({ m with mask := m.mask.map not } : IModel N).calcPolarizabilities [q] = .ok [β] ∧
      m.unmask.calcPolarizabilities [q] = .ok [γ] ∧
      (α - m.refPol) + (β - m.refPol) = γ - m.refPol := by
  refine ⟨_, _, _, calc_ok m hi hk [q],
    calc_ok { m with mask := m.mask.map not } hi (by simpa using hk) [q],
    calc_ok m.unmask hi (by simpa [IModel.unmask] using hk) [q], ?_⟩
  have := sum_split m.basis m.interps m.mask hi hk
    (toCart m.ref.lattice (calcDisplacement m.ref.positions q))
  simp only [valueAt, expansion, IModel.unmask, add_sub_cancel_left]
  exact this

/-- C28: a fully masked model predicts the reference polarizability. -/
theorem C28_fully_masked (m : IModel N) (hi : m.interps.length = m.basis.length)
    (hk : m.mask.length = m.basis.length) (hm : ∀ b ∈ m.mask, b = true)
    (batch : List (Pos N ℝ)) :
    m.calcPolarizabilities batch = .ok (batch.map fun _ => m.refPol) := by
  rw [calc_ok m hi hk]
  congr 1
  refine List.map_congr_left fun q _ => ?_
  unfold valueAt expansion
  rw [List.sum_eq_zero, add_zero]
  intro x hx
  obtain ⟨y, hy, rfl⟩ := List.mem_map.1 hx
  have := hm _ (List.of_mem_zip (List.of_mem_zip hy).2).2
  rw [this]; rfl

/-- C28, concrete: the two-mode model, displaced by 1/4 along x and y, predicts
`1 + 1/4` (the y mode is masked). -/
example : twoDof.calcPolarizabilities [fun _ => ![1 / 4, 1 / 4, 0]]
    = .ok [((5 : ℝ) / 4) • (1 : Mat3 ℝ)] := by
  obtain ⟨r, h, hr⟩ := C28_expansion twoDof rfl rfl [fun _ => ![1 / 4, 1 / 4, 0]]
  rw [h]
  cases hr with
  | cons hα ht =>
  cases ht
  have := hα (fun _ => ![1 / 4, 1 / 4, 0]) (fun a i => by
    refine ⟨?_, 0, ?_⟩
    · fin_cases i <;> norm_num [InHalfBox]
    · simp [twoDof, cube])
  rw [this]
  simp only [expansion, twoDof, cube, toCart, inner3, List.zip_cons_cons, List.zip_nil_left,
    List.map_cons, List.map_nil, List.sum_cons, List.sum_nil, Bool.false_eq_true, if_false,
    if_true, add_zero, Finset.univ_unique, Finset.sum_singleton, Fin.sum_univ_three,
    Matrix.one_apply]
  congr 2
  ext i j
  simp [Matrix.one_apply]
  split_ifs <;> norm_num

/-! ## C29 -/

/-- C29: predictions do not change when coordinates of atoms are moved by integers (also if
the call fails). -/
theorem C29_periodic (m : IModel N) (b b' : List (Pos N ℝ))
    (h : List.Forall₂ (fun q q' => ∀ a i, SameImage (q a i) (q' a i)) b b') :
    m.calcPolarizabilities b = m.calcPolarizabilities b' := by
  by_cases hw : m.interps.length = m.basis.length ∧ m.mask.length = m.basis.length
  · rw [calc_ok m hw.1 hw.2, calc_ok m hw.1 hw.2]
    congr 1
    have hval : ∀ q q' : Pos N ℝ, (∀ a i, SameImage (q a i) (q' a i)) →
        valueAt m q = valueAt m q' := fun q q' hq => by
      unfold valueAt
      have : calcDisplacement m.ref.positions q = calcDisplacement m.ref.positions q' := by
        refine (calcDisplacement_nearest _ q).unique fun a i => ?_
        obtain ⟨h1, h2⟩ := calcDisplacement_nearest m.ref.positions q' a i
        exact ⟨h1, ((hq a i).sub (SameImage.refl _)).trans h2⟩
      rw [this]
    induction h with
    | nil => rfl
    | cons hq _ ih => rw [List.map_cons, List.map_cons, hval _ _ hq, ih]
  · rw [calc_err m hw, calc_err m hw]

/-- C29, concrete. -/
example : twoDof.calcPolarizabilities [fun _ => ![1 / 4, 1 / 4, 0]]
    = twoDof.calcPolarizabilities [fun _ => ![9 / 4, -3 / 4, 0]] :=
  C29_periodic _ _ _ (List.Forall₂.cons (fun a i => by
    fin_cases i
    · exact ⟨2, by norm_num⟩
    · exact ⟨-1, by norm_num⟩
    · exact ⟨0, by norm_num⟩) List.Forall₂.nil)

/-! ## C30 -/

/-- C30: evaluation of a batch is evaluation of every sample alone: there is a function of
single samples which the model maps over every batch, so that evaluation commutes with
concatenation and permutation of batches. -/
theorem C30_batched (m : IModel N) (hi : m.interps.length = m.basis.length)
    (hk : m.mask.length = m.basis.length) :
    (∃ F : Pos N ℝ → Mat3 ℝ, (∀ q, m.calcPolarizabilities [q] = .ok [F q]) ∧
      ∀ batch, m.calcPolarizabilities batch = .ok (batch.map F)) ∧
    (∀ b₁ b₂ r₁ r₂, m.calcPolarizabilities b₁ = .ok r₁ → m.calcPolarizabilities b₂ = .ok r₂ →
      m.calcPolarizabilities (b₁ ++ b₂) = .ok (r₁ ++ r₂)) ∧
    (∀ b b' r, b.Perm b' → m.calcPolarizabilities b = .ok r →
      ∃ r', m.calcPolarizabilities b' = .ok r' ∧ r.Perm r') := by
  refine ⟨⟨valueAt m, fun q => calc_ok m hi hk [q], calc_ok m hi hk⟩, ?_, ?_⟩
  · intro b₁ b₂ r₁ r₂ h₁ h₂
    rw [calc_ok m hi hk] at h₁ h₂ ⊢
    cases h₁; cases h₂
    rw [List.map_append]
  · intro b b' r hp h
    rw [calc_ok m hi hk] at h
    cases h
    exact ⟨_, calc_ok m hi hk b', hp.map _⟩

/-! ## C31 -/

/-- C31: a dummy model with a degree of freedom raises `UserError` on every evaluation; one
without any returns the zero tensor for every sample; any other reachable model evaluates
every batch. -/
theorem C31_dummy (spline : SplineFn) (m : IModel N) (h : Reachable spline m)
    (batch : List (Pos N ℝ)) :
    (m.dummy = true → m.basis ≠ [] → m.calcPolarizabilities batch = .error .userError) ∧
    (m.dummy = true → m.basis = [] →
      m.calcPolarizabilities batch = .ok (batch.map fun _ => 0)) ∧
    (m.dummy = false → ∃ r, m.calcPolarizabilities batch = .ok r ∧ r.length = batch.length) := by
  obtain ⟨h1, h2, h3⟩ := C25_consistent spline m h
  refine ⟨fun hd hb => ?_, fun hd hb => ?_, fun hd => ?_⟩
  · rw [calc_err m ?_, hd]
    · rfl
    · rintro ⟨h4, _⟩
      rw [h3 hd] at h4
      exact hb (List.length_eq_zero_iff.1 h4.symm)
  · have hz : m.refPol = 0 := reachable_dummy_zero h hd
    rw [C28_fully_masked m (by rw [h3 hd, hb]; rfl) h1 ?_, hz]
    intro b hbm
    rw [List.length_eq_zero_iff.1 (h1.trans (by rw [hb]; rfl))] at hbm
    simp at hbm
  · exact ⟨_, calc_ok m (h2 hd) h1 batch, by simp⟩

end Verif
