import Verif.Proofs.Numbering
import Verif.Props.Origin

/-!
# C145: the numbering of the atoms

The same crystal can be written down with its atoms in any order.  `σ` lists the old numbers in the new
order.
-/

namespace Verif

open Spec

noncomputable section

variable {N : ℕ}

/-- C145: a reference structure can be built from the reordered crystal exactly when it can be built
from the original one (same exception otherwise); it has the same operations, and the permutations of
the atoms are the same written in the new numbers. -/
theorem C145_reference (spglib : Mat3 ℝ → Pos N ℝ → (Fin N → ℕ) → Option SymDict)
    (nums : Fin N → ℕ) (lat : Mat3 ℝ) (p : Pos N ℝ) (σ : Equiv.Perm (Fin N)) (eqs : List ℕ)
    (h : spglib lat (fun a => p (σ a)) (fun a => nums (σ a)) =
      (spglib lat p nums).map fun d => ⟨d.ops, eqs⟩) :
    RefStructure.init spglib (fun a => nums (σ a)) lat (fun a => p (σ a)) =
      (RefStructure.init spglib nums lat p).map fun s =>
        { atomicNumbers := fun a => s.atomicNumbers (σ a), lattice := s.lattice,
          positions := fun a => s.positions (σ a), ops := s.ops,
          perms := s.perms.map fun P j i => P (σ j) (σ i), equivAtoms := eqs } := by
  unfold RefStructure.init
  rw [h]
  cases spglib lat p nums with
  | none => rfl
  | some d =>
    dsimp only [Option.map]
    have hp := perms_renum σ p d.ops
    unfold renum at hp
    rw [hp]
    cases computePermutationMatrices d.ops p with
    | error e => rfl
    | ok Ps => rfl

/-- C145: predictions for reordered configurations, for all models and configurations. -/
theorem C145_predictions (σ : Equiv.Perm (Fin N)) (eqs : List ℕ) (m : IModel N)
    (batch : List (Pos N ℝ)) :
    (m.renumbered σ eqs).calcPolarizabilities (batch.map fun p a => p (σ a)) =
      m.calcPolarizabilities batch := calc_renum σ eqs m batch

/-- C145: the groups of equivalent displacements of a reordered displacement are the reordered groups,
found by the same operations in the same order. -/
theorem C145_equivalent_displacements (σ : Equiv.Perm (Fin N)) (eqs : List ℕ) (s : RefStructure N)
    (d : Pos N ℝ) :
    (s.renumbered σ eqs).getEquivalentDisplacements (fun a => d (σ a)) =
      (s.getEquivalentDisplacements d).map (Option.map (List.map fun g =>
        ⟨g.displacements.map fun c a => c (σ a), g.transformations⟩)) :=
  equivalent_renum σ eqs s d

/-- Images of the displacement `f` (rescaled to norm 1/10) that the code takes for collinear have
proportional largest components.  True in particular if they are exactly collinear, and if one atom
is displaced most. -/
def TiesConsistent (s : RefStructure N) (f : Pos N ℝ) : Prop :=
  ∀ op ∈ s.ops, ∀ op' ∈ s.ops, ∀ σ σ' e c c', IsSymmetry s.positions op.rot op.trans σ →
    IsSymmetry s.positions op'.rot op'.trans σ' → Rescaled f e → ImageUnder op.rot σ e c →
    ImageUnder op'.rot σ' e c' → Collinear (flatten c') (flatten c) → TiesAgree c c'

theorem exact_ties {c c' : Pos N ℝ} (h : ∃ k : ℝ, ∀ a i, c' a i = k * c a i) : TiesAgree c c' := by
  obtain ⟨k, h⟩ := h
  intro a i b j _ _ _
  rw [h, h]; ring

theorem single_ties {c : Pos N ℝ} (c' : Pos N ℝ) (k : Fin N) (h : ∀ a, a ≠ k → ∀ i, c a i = 0) :
    TiesAgree c c' := by
  intro a i b j hab ha hb
  have h0 : ∀ x l, c x l = 0 := by
    by_cases hak : a = k
    · have hbk : b ≠ k := fun e => hab (hak.trans e.symm)
      intro x l
      have := hb x l
      rw [h b hbk, abs_zero] at this
      exact abs_eq_zero.1 (le_antisymm this (abs_nonneg _))
    · intro x l
      have := ha x l
      rw [h a hak, abs_zero] at this
      exact abs_eq_zero.1 (le_antisymm this (abs_nonneg _))
  rw [h0, h0, zero_mul, zero_mul]

/-- What the groups are made of. -/
theorem Sound.images {s : RefStructure N} (hs : Sound s) {d : Pos N ℝ} {gs : List (EqGroup N)}
    (hg : s.getEquivalentDisplacements d = .ok (some gs)) {g : EqGroup N} (hm : g ∈ gs)
    {child : Pos N ℝ} {rest : List (Pos N ℝ)} (hd : g.displacements = child :: rest) :
    ∃ e, Rescaled (applyPbcDisplacement d) e ∧ (∀ c ∈ rest, Collinear (flat c) (flat child)) ∧
      ∀ c ∈ child :: rest, ∃ op ∈ s.ops, ∃ σ, IsSymmetry s.positions op.rot op.trans σ ∧
        ImageUnder op.rot σ e c := by
  by_cases hz : ∃ a i, ¬ SameImage (d a i) 0
  · obtain ⟨e, new, st, hr, -, -, h3, hI, h5⟩ := getEquivalentDisplacements_spec s d hz
    rw [hg] at h3
    cases h3
    refine ⟨e, hr, ?_, ?_⟩
    · intro c hc
      exact hI.coll g hm child (by rw [hd]; rfl) c (by rw [hd]; exact hc)
    · intro c hc
      obtain ⟨op, hop⟩ := disp_mem hI hm (d := c) (by rw [hd]; exact hc)
      have hn := pair_mem hI hm hop
      obtain ⟨spglib, hb⟩ := hs.built
      obtain ⟨hpos, _, hF⟩ := init_facts hb
      obtain ⟨x, hx, hx1, hx2⟩ := forall₂_right h5 hn
      dsimp only at hx1 hx2
      have hxo := (List.of_mem_zip hx).1
      have hxp : permMatrixOf (comShift s.positions) s.positions x.1 = .ok x.2 := by
        obtain ⟨k, hk, rfl⟩ := List.mem_iff_getElem.1 hx
        rw [List.length_zip] at hk
        have := (List.forall₂_iff_get.1 hF).2 k (by omega) (by omega)
        simpa using this
      obtain ⟨σ, hσ⟩ := hs.symmetries x.1 hxo
      obtain ⟨c', g1, g2⟩ := C13_candidate s.positions e x.1 x.2 σ hs.apart hσ hxp
      rw [g1] at hx2
      cases hx2
      exact ⟨x.1, hxo, σ, hσ, g2⟩
  · exfalso
    push Not at hz
    unfold RefStructure.getEquivalentDisplacements at hg
    have hw : applyPbcDisplacement d = 0 := by
      funext a i
      exact (((wrap1_sameImage (d a i)).symm.trans (hz a i)).eq_of_inHalfBox
        (wrap1_inHalfBox _) (by norm_num [InHalfBox]))
    have hsd : scaleDisplacement d = none := by
      unfold scaleDisplacement
      dsimp only
      rw [hw, if_pos]
      unfold norm2 dot flat
      simp
    rw [hsd] at hg
    dsimp only at hg
    split_ifs at hg
    · cases hg; cases hm
    · cases hg

theorem flat_zero {c : Pos N ℝ} (h : c = 0) : flat c = 0 := by rw [h]; rfl

theorem Sound.stable {s : RefStructure N} (hs : Sound s) {d : Pos N ℝ}
    (h : ∀ op ∈ s.ops, ∀ op' ∈ s.ops, ∀ σ σ' e c c', IsSymmetry s.positions op.rot op.trans σ →
      IsSymmetry s.positions op'.rot op'.trans σ' → Rescaled (applyPbcDisplacement d) e →
      ImageUnder op.rot σ e c → ImageUnder op'.rot σ' e c' → Collinear (flatten c') (flatten c) →
      TiesAgree c c') : StableUnder s d := by
  intro gs hg g hm child rest hd c hc
  obtain ⟨e, hr, hcol, him⟩ := hs.images hg hm hd
  rcases List.mem_cons.1 hc with rfl | hc
  · refine ⟨fun h => h, exact_ties ⟨1, fun a i => (one_mul _).symm⟩⟩
  · have hcc := hcol c hc
    refine ⟨fun h0 => absurd (flat_zero h0) hcc.2.1, ?_⟩
    obtain ⟨op, hop, σ, h1, h2⟩ := him child (by simp)
    obtain ⟨op', hop', σ', h1', h2'⟩ := him c (by simp [hc])
    exact h op hop op' hop' σ σ' e child c h1 h1' hr h2 h2' hcc

theorem Sound.stable_cart (m : IModel N) (hs : Sound m.ref) (cart : Pos N ℝ)
    (h : ∀ w, m.ref.getFracDisplacement cart = .ok w → TiesConsistent m.ref w) :
    StableCart m (some cart) := by
  intro d hd
  cases hf : m.ref.getFracDisplacement cart with
  | error e =>
    unfold parentDisplacement at hd
    dsimp only at hd
    rw [hf] at hd
    cases hd
  | ok w =>
    obtain ⟨h0, h1⟩ := parent_facts m cart w hf
    by_cases hw : w = 0
    · rw [h0 hw] at hd; cases hd
    · obtain ⟨p, c, hc, hp, hpw, hg, -, -⟩ := h1 hw
      rw [hp] at hd
      cases hd
      have hst : StableUnder m.ref w := by
        refine hs.stable ?_
        have hbox := (frac_ok _ _ _ hf).2.1
        rw [show applyPbcDisplacement w = w from funext fun a => funext fun i =>
          wrap1_of_inHalfBox (hbox a i)]
        exact h w hf
      intro gs hgs
      rw [hg] at hgs
      exact hst gs hgs

/-- C145: `add_dof` with a reordered displacement: same outcome, same warnings, and the model afterwards
is the reordered one.  Unrestricted this is false (`C145_counterexample`): the code reads the ratio of
two images at the first of their largest components, and which one is first depends on the numbering. -/
theorem C145_add_dof_partial (σ : Equiv.Perm (Fin N)) (eqs : List ℕ) (spline : SplineFn) (we : Bool)
    (m : IModel N) (hs : Sound m.ref) (cart : Pos N ℝ)
    (h : ∀ w, m.ref.getFracDisplacement cart = .ok w → TiesConsistent m.ref w)
    (amps : List ℝ) (pols : List (Mat3 ℝ)) (order : ℤ) (inc : Bool) (o : Outcome N)
    (ho : o = m.addDof spline we cart amps pols order inc) :
    (m.renumbered σ eqs).addDof spline we (fun a => cart (σ a)) amps pols order inc =
      ⟨o.result, o.warnings, o.state.renumbered σ eqs⟩ := by
  subst ho
  exact addDofNan_renum σ eqs spline we m (some cart) amps pols order inc (hs.stable_cart m cart h)

/-- C145: the same for degrees of freedom read from files that list the atoms in the new order. -/
theorem C145_files_partial (σ : Equiv.Perm (Fin N)) (eqs : List ℕ) (spline : SplineFn) (we : Bool)
    (m : IModel N) (hs : Sound m.ref) (files : List (DofFile N))
    (h : ∀ d0 ds amps pols w, readDof m files = .ok (d0 :: ds, amps, pols) →
      m.ref.getFracDisplacement (m.ref.getCartDisplacement d0) = .ok w → TiesConsistent m.ref w)
    (order : ℤ) (o : Outcome N) (ho : o = m.addDofFromFiles spline we files order) :
    (m.renumbered σ eqs).addDofFromFiles spline we
        (files.map (Except.map fun x => (x.1.map fun p a => p (σ a), x.2))) order =
      ⟨o.result, o.warnings, o.state.renumbered σ eqs⟩ := by
  subst ho
  exact addDofFromFiles_renum σ eqs spline we m files order fun d0 ds amps pols hr =>
    hs.stable_cart m _ fun w hw => h d0 ds amps pols w hr hw

theorem image_single {R : Mat3 ℝ} {σ : Equiv.Perm (Fin N)} {e c : Pos N ℝ} (h : ImageUnder R σ e c)
    {k : Fin N} (he : ∀ a, a ≠ k → ∀ i, e a i = 0) : ∀ a, a ≠ σ k → ∀ i, c a i = 0 := by
  intro a ha i
  obtain ⟨b, rfl⟩ := σ.surjective a
  have hb : b ≠ k := fun e => ha (by rw [e])
  obtain ⟨h1, h2⟩ := h b i
  rw [Finset.sum_eq_zero fun j _ => by rw [he b hb, zero_mul]] at h2
  exact (h2.eq_of_inHalfBox (by norm_num [InHalfBox]) h1).symm

theorem single_consistent {s : RefStructure N} {f : Pos N ℝ} {k : Fin N}
    (hf : ∀ a, a ≠ k → ∀ i, f a i = 0) : TiesConsistent s f := by
  intro op _ op' _ σ σ' e c c' _ _ hr hc _ _
  obtain ⟨⟨r, _, hr⟩, _⟩ := hr
  exact single_ties c' (σ k) (image_single hc fun a ha i => by rw [hr, hf a ha, mul_zero])

/-- C145: one atom displaced at a time (ART): adding the same atom, under its new number, gives the same
outcome, the same warnings, and the reordered model.  No condition on ties is needed. -/
theorem C145_art (σ : Equiv.Perm (Fin N)) (eqs : List ℕ) (spline : SplineFn) (we : Bool)
    (m : IModel N) (hs : Sound m.ref) (k : Fin N) (dir : Vec3) (amps : List ℝ) (pols : List (Mat3 ℝ))
    (o : Outcome N) (ho : o = m.addArt spline we ((σ k : ℕ) : ℤ) dir amps pols) :
    (m.renumbered σ eqs).addArt spline we ((k : ℕ) : ℤ) dir amps pols =
      ⟨o.result, o.warnings, o.state.renumbered σ eqs⟩ := by
  subst ho
  have hpi : ∀ x : Fin N, pyIndex N ((x : ℕ) : ℤ) = some x := fun x => by
    rw [pyIndex_some_iff]; unfold Addresses; have := x.2; omega
  refine addArt_renum σ eqs spline we m _ _ (σ k) (hpi _) (by rw [σ.symm_apply_apply]; exact hpi k)
    dir amps pols fun cart hc => ?_
  unfold prepareArt at hc
  rw [hpi] at hc
  cases hf : m.ref.getFracDirection dir with
  | error e => rw [hf] at hc; cases hc
  | ok v =>
    rw [hf] at hc
    dsimp only [bind, Except.bind] at hc
    by_cases ha : amps.length = 1 ∨ amps.length = 2
    · rw [if_neg (not_not.2 ha)] at hc
      change (if (usedPols m amps pols).length ≠ amps.length then _ else _) = _ at hc
      by_cases hl : (usedPols m amps pols).length ≠ amps.length
      · rw [if_pos hl] at hc; cases hc
      · rw [if_neg hl] at hc
        change Except.ok _ = Except.ok _ at hc
        cases hc
        cases hd : artDisplacement (σ k) v with
        | none =>
          intro d hd'
          unfold parentDisplacement at hd'
          dsimp only [Option.map] at hd'
          cases hi : npInv m.ref.lattice with
          | error e => rw [hi] at hd'; cases hd'
          | ok M => rw [hi] at hd'; cases hd'
        | some w =>
          have hw : ∀ a, a ≠ σ k → ∀ i, w a i = 0 := by
            unfold artDisplacement at hd
            dsimp only at hd
            split_ifs at hd
            cases hd
            intro a ha i
            dsimp only
            rw [if_neg ha]
          refine hs.stable_cart m _ fun u hu => single_consistent (k := σ k) fun a ha i => ?_
          obtain ⟨-, hbox, himg⟩ := frac_ok _ _ _ hu
          have h1 := himg a i
          rw [Finset.sum_eq_zero fun j _ => by
            unfold RefStructure.getCartDisplacement matMulPos
            rw [Finset.sum_eq_zero fun l _ => by
              rw [show applyPbcDisplacement w a l = 0 by
                unfold applyPbcDisplacement; rw [hw a ha]; exact wrap1_of_inHalfBox (by norm_num [InHalfBox]),
                zero_mul], zero_mul]] at h1
          exact (h1.eq_of_inHalfBox (by norm_num [InHalfBox]) (hbox a i)).symm
    · rw [if_pos ha] at hc; cases hc

/-- C145, whole workflow: reference structures built from the crystal and from the reordered crystal,
corresponding `add_dof` calls (exceptions caught) on either side, any configurations: the predictions
agree. -/
theorem C145_workflow_partial (spglib : Mat3 ℝ → Pos N ℝ → (Fin N → ℕ) → Option SymDict)
    (nums : Fin N → ℕ) (lat : Mat3 ℝ) (p : Pos N ℝ) (σ : Equiv.Perm (Fin N)) (eqs : List ℕ)
    (h : spglib lat (fun a => p (σ a)) (fun a => nums (σ a)) =
      (spglib lat p nums).map fun d => ⟨d.ops, eqs⟩)
    (hsep : ∀ j k, j ≠ k → Apart (2 / 10 ^ 5) (p j) (p k)) (s : RefStructure N)
    (hs : RefStructure.init spglib nums lat p = .ok s)
    (hsym : ∀ op ∈ s.ops, ∃ τ, IsSymmetry p op.rot op.trans τ) (calls : List (DofCall N))
    (hcalls : ∀ c ∈ calls, ∀ w, s.getFracDisplacement c.1 = .ok w → TiesConsistent s w) :
    ∃ s', RefStructure.init spglib (fun a => nums (σ a)) lat (fun a => p (σ a)) = .ok s' ∧
      ∀ (spline : SplineFn) (we : Bool) (pol : Mat3 ℝ) (dummy : Bool) (batch : List (Pos N ℝ)),
        (afterCalls spline we (IModel.init s' pol dummy)
          (calls.map fun c => (fun a => c.1 (σ a), c.2))).calcPolarizabilities
            (batch.map fun q a => q (σ a)) =
          (afterCalls spline we (IModel.init s pol dummy) calls).calcPolarizabilities batch := by
  have hr := C145_reference spglib nums lat p σ eqs h
  rw [hs] at hr
  have hf : s.atomicNumbers = nums ∧ s.lattice = lat ∧ s.positions = p := by
    have hs2 := hs
    unfold RefStructure.init at hs2
    cases hd : spglib lat p nums with
    | none => rw [hd] at hs2; cases hs2
    | some d =>
      rw [hd] at hs2
      dsimp only at hs2
      cases hc : computePermutationMatrices d.ops p with
      | error e => rw [hc] at hs2; cases hs2
      | ok Ps => rw [hc] at hs2; cases hs2; exact ⟨rfl, rfl, rfl⟩
  obtain ⟨hf1, hf2, hf3⟩ := hf
  have hsound : Sound s := ⟨⟨spglib, by rw [hf1, hf2, hf3]; exact hs⟩, by rw [hf3]; exact hsep,
    by rw [hf3]; exact hsym⟩
  refine ⟨s.renumbered σ eqs, hr, fun spline we pol dummy batch => ?_⟩
  have key : ∀ (cs : List (DofCall N)) (m : IModel N), m.ref = s → (∀ c ∈ cs, c ∈ calls) →
      afterCalls spline we (m.renumbered σ eqs) (cs.map fun c => (fun a => c.1 (σ a), c.2)) =
        (afterCalls spline we m cs).renumbered σ eqs := by
    intro cs
    induction cs with
    | nil => intro m _ _; rfl
    | cons c cs ih =>
      intro m hm hcs
      have h1 := C145_add_dof_partial σ eqs spline we m (by rw [hm]; exact hsound) c.1
        (by rw [hm]; exact hcalls c (hcs c (by simp))) c.2.1 c.2.2.1 c.2.2.2 true _ rfl
      unfold afterCalls at ih ⊢
      rw [List.map_cons, List.foldl_cons, List.foldl_cons, h1]
      refine ih _ ?_ fun x hx => hcs x (by simp [hx])
      rw [addDof_ref]
      exact hm
  have hk := key calls (IModel.init s pol dummy) rfl fun c hc => hc
  have h0 : IModel.init (s.renumbered σ eqs) pol dummy = (IModel.init s pol dummy).renumbered σ eqs := rfl
  rw [h0, hk]
  exact C145_predictions σ eqs _ batch

/-- C145: Raman spectra of phonons do not depend on the numbering. -/
theorem C145_phonons (σ : Equiv.Perm (Fin N)) (eqs : List ℕ) (m : IModel N) (ph : Phonons N) :
    Phonons.getRamanSpectrum ⟨fun a => ph.refPositions (σ a), ph.wavenumbers,
        ph.displacements.map fun d a => d (σ a)⟩ (m.renumbered σ eqs).calcPolarizabilities =
      ph.getRamanSpectrum m.calcPolarizabilities := by
  have e : ∀ x : Pos N ℝ, evalOne (m.renumbered σ eqs).calcPolarizabilities (fun a => x (σ a)) =
      evalOne m.calcPolarizabilities x := by
    intro x
    unfold evalOne
    rw [show [fun a => x (σ a)] = [x].map fun p a => p (σ a) from rfl, C145_predictions]
  have h2 : ∀ d : Pos N ℝ, ramanTensor (m.renumbered σ eqs).calcPolarizabilities
      (fun a => ph.refPositions (σ a)) (fun a => d (σ a)) =
      ramanTensor m.calcPolarizabilities ph.refPositions d := by
    intro d
    unfold ramanTensor
    dsimp only
    rw [e fun a i => ph.refPositions a i + d a i * centralDifference,
      e fun a i => ph.refPositions a i - d a i * centralDifference]
  unfold Phonons.getRamanSpectrum
  dsimp only
  rw [List.mapM_map]
  rw [show (ramanTensor (m.renumbered σ eqs).calcPolarizabilities fun a => ph.refPositions (σ a)) ∘
    (fun (d : Pos N ℝ) a => d (σ a)) = ramanTensor m.calcPolarizabilities ph.refPositions from funext h2]

/-- C145: Raman spectra of trajectories do not depend on the numbering. -/
theorem C145_trajectories (σ : Equiv.Perm (Fin N)) (eqs : List ℕ) (m : IModel N) (t : Trajectory N) :
    Trajectory.getRamanSpectrum { t with positionsTs := t.positionsTs.map fun p a => p (σ a) }
        (m.renumbered σ eqs).calcPolarizabilities =
      t.getRamanSpectrum m.calcPolarizabilities := by
  unfold Trajectory.getRamanSpectrum
  dsimp only
  rw [C145_predictions]

/-! ### Concrete cases

A body-centred cubic cell with two equal atoms (`csCl`); the symmetries are the identity and the
centring translation, which exchanges the atoms. -/

def bccOps : List SymOp := [⟨1, 0⟩, centreOp]

def bccSpglib : Mat3 ℝ → Pos 2 ℝ → (Fin 2 → ℕ) → Option SymDict := fun _ _ _ => some ⟨bccOps, [0, 0]⟩

/-- Two displacements of norm 1/10 that the centring exchanges and that are almost equal. -/
def tieU : Pos 2 ℝ := ![![299 / 6010, 300 / 6010, 30 / 6010], ![300 / 6010, 300 / 6010, 30 / 6010]]

def tieV : Pos 2 ℝ := ![![300 / 6010, 300 / 6010, 30 / 6010], ![299 / 6010, 300 / 6010, 30 / 6010]]

theorem bcc_sym : ∀ op ∈ bccOps, ∃ σ, IsSymmetry csCl op.rot op.trans σ := by
  intro op hop
  simp only [bccOps, List.mem_cons, List.not_mem_nil, or_false] at hop
  rcases hop with rfl | rfl
  · exact ⟨Equiv.refl _, idOp_sym csCl⟩
  · exact ⟨_, centreOp_sym⟩

theorem bcc_init (nums : Fin 2 → ℕ) : ∃ s, RefStructure.init bccSpglib nums 1 csCl = .ok s ∧
    s.ops = bccOps ∧ Sound s ∧ s.lattice = 1 := by
  obtain ⟨P, hP, _⟩ := C12_entry csCl ⟨1, 0⟩ (idOp_sym csCl).1 csCl_closed
  obtain ⟨Q, hQ, _⟩ := C12_entry csCl centreOp centreOp_sym.1 csCl_closed
  have hi : RefStructure.init bccSpglib nums 1 csCl = .ok ⟨nums, 1, csCl, bccOps, [P, Q], [0, 0]⟩ := by
    unfold RefStructure.init bccSpglib computePermutationMatrices bccOps
    simp only [List.mapM_cons, hP, hQ, List.mapM_nil]
    rfl
  exact ⟨_, hi, rfl, ⟨⟨bccSpglib, hi⟩, csCl_apart, bcc_sym⟩, rfl⟩

theorem tie_box : (∀ a i, InHalfBox (tieU a i)) ∧ ∀ a i, InHalfBox (tieV a i) := by
  constructor <;> intro a i <;> fin_cases a <;> fin_cases i <;>
    norm_num [tieU, tieV, InHalfBox, vec_two]

theorem tie_dots : dot (flat tieU) (flat tieU) = (1 / 10) ^ 2 ∧
    dot (flat tieV) (flat tieV) = (1 / 10) ^ 2 ∧
    dot (flat tieV) (flat tieU) = 361200 / 36120100 := by
  refine ⟨?_, ?_, ?_⟩ <;> unfold dot flat <;>
    rw [Fintype.sum_prod_type] <;>
    simp only [Fin.sum_univ_two, Fin.sum_univ_three] <;> norm_num [tieU, tieV, vec_two]

theorem tie_norm : norm2 (flat tieU) = 1 / 10 := by
  unfold norm2; rw [tie_dots.1, Real.sqrt_sq (by norm_num)]

theorem tie_ne : flat tieU ≠ 0 ∧ flat tieV ≠ 0 := by
  constructor <;> intro h <;> have := congrFun h (0, 0) <;> norm_num [flat, tieU, tieV] at this

theorem tie_cosine : cosine (flat tieV) (flat tieU) = 361200 / 361201 := by
  obtain ⟨h1, h2, h3⟩ := tie_dots
  unfold dot at h1 h2 h3
  unfold cosine
  rw [h3]
  simp only [sq]
  rw [h1, h2, Real.sqrt_sq (by norm_num)]
  norm_num

theorem tie_scale : scaleDisplacement tieU = some tieU := by
  have hb : applyPbcDisplacement tieU = tieU := by
    funext a i
    exact wrap1_of_inHalfBox (tie_box.1 a i)
  unfold scaleDisplacement
  dsimp only
  rw [hb, tie_norm, if_neg (by norm_num)]
  congr 1
  funext a i
  norm_num

theorem bcc_candidate {P : PermMat 2} {op : SymOp} {σ : Equiv.Perm (Fin 2)} {u v : Pos 2 ℝ}
    (hs : IsSymmetry csCl op.rot op.trans σ) (hP : permMatrixOf (comShift csCl) csCl op = .ok P)
    (hv : ∀ a j, InHalfBox (v a j)) (hk : ∀ a j, ∑ i, u a i * op.rot i j = v (σ a) j) :
    candidate csCl (displacePositions csCl u) op P = .ok v := by
  obtain ⟨c, hc, hcc⟩ := C13_candidate csCl u op P σ csCl_apart hs hP
  rw [hc]
  congr 1
  funext a j
  obtain ⟨b, rfl⟩ := σ.surjective a
  have h := hcc b j
  rw [hk] at h
  exact (h.2.eq_of_inHalfBox (hv _ _) h.1).symm

theorem tie_groups {nums : Fin 2 → ℕ} {s : RefStructure 2}
    (hs : RefStructure.init bccSpglib nums 1 csCl = .ok s) (hops : s.ops = bccOps) :
    s.getEquivalentDisplacements tieU = .ok (some [⟨[tieU, tieV], bccOps⟩]) := by
  obtain ⟨hpos, hlat, hperm⟩ := init_facts hs
  rw [hops] at hperm
  unfold bccOps at hperm
  obtain ⟨P, Ps, hP, hperm, e1⟩ := List.forall₂_cons_left_iff.1 hperm
  obtain ⟨Q, Qs, hQ, hperm, e2⟩ := List.forall₂_cons_left_iff.1 hperm
  cases hperm
  subst e2
  unfold RefStructure.getEquivalentDisplacements
  rw [tie_scale]
  dsimp only
  rw [hops, e1, hpos]
  unfold bccOps
  have c0 := bcc_candidate (u := tieU) (v := tieU) (op := ⟨1, 0⟩) (idOp_sym csCl) hP tie_box.1 (fun a j => by
    simp [Matrix.one_apply])
  have c1 := bcc_candidate (u := tieU) (v := tieV) centreOp_sym hQ tie_box.2 (fun a j => by
    fin_cases a <;> fin_cases j <;> simp [centreOp, tieU, tieV, Matrix.one_apply, Fin.sum_univ_three])
  have i1 : eqInsert (⟨[⟨[tieU], [⟨1, 0⟩]⟩], [tieU]⟩ : EqState 2) centreOp tieV
      = ⟨[⟨[tieU, tieV], [⟨1, 0⟩, centreOp]⟩], [tieU]⟩ := by
    unfold eqInsert
    rw [if_neg]
    · dsimp only
      have hcol : isNonCollinearWithAll (flat tieV) [flat tieU] = 0 := by
        unfold isNonCollinearWithAll firstIndexFrom
        rw [if_pos ((areCollinear_iff _ _).2 ⟨tie_ne.2, tie_ne.1, by
          rw [tie_cosine]; norm_num [angTol]⟩)]
        rfl
      rw [List.map_cons, List.map_nil, hcol, if_pos (by norm_num)]
      have hnc : allClose5 tieV tieU = false := by
        unfold allClose5
        rw [decide_eq_false_iff_not]
        intro h
        have := h 0 0
        norm_num [tieU, tieV] at this
      simp [modAt, hnc]
    · rw [C08_all_orthogonal]
      intro h
      have := (h (flat tieU) (by simp)).2.2
      rw [tie_cosine] at this
      norm_num [angTol] at this
  simp only [List.zip_cons_cons, List.zip_nil_left, eqLoop]
  rw [c0]
  change (do let c ← candidate _ _ _ _; _) >>= _ = _
  simp only [eqInsert_first, c1]
  change (pure _ >>= _ : Py _) = _
  rw [i1]
  rfl

theorem tie_multipliers : multiplier tieU tieV = some 1 ∧ multiplier tieV tieU = some (300 / 299) := by
  have hp : posIndexes 2 = [(0, 0), (0, 1), (0, 2), (1, 0), (1, 1), (1, 2)] := by decide
  constructor <;> unfold multiplier <;> rw [hp] <;>
    norm_num [argmaxFrom, flat, tieU, tieV, vec_two, abs_of_pos]

theorem tie_swap : renum (Equiv.swap 0 1) tieU = tieV ∧ renum (Equiv.swap 0 1) tieV = tieU := by
  constructor <;> funext a i <;> fin_cases a <;> fin_cases i <;> simp [renum, tieU, tieV]

theorem tie_parent (m : IModel 2) (hL : m.ref.lattice = 1) :
    parentDisplacement m (some tieU) = .ok (some tieU) := by
  unfold parentDisplacement RefStructure.getFracDisplacement npInv
  dsimp only
  rw [hL, if_neg (by simp)]
  change Except.ok (normalizeTenth (applyPbcDisplacement (matMulPos tieU (1 : Mat3 ℝ)⁻¹))) = _
  have hm : matMulPos tieU (1 : Mat3 ℝ)⁻¹ = tieU := by
    funext a j
    simp [matMulPos, Matrix.one_apply]
  have hb : applyPbcDisplacement tieU = tieU := by
    funext a i
    exact wrap1_of_inHalfBox (tie_box.1 a i)
  rw [hm, hb]
  have hn : norm2 (flat fun a i => tieU a i * 10) = 1 := by
    have : (flat fun a i => tieU a i * 10) = fun x => 10 * flat tieU x := by
      funext x; simp [flat, mul_comm]
    rw [this, norm2_smul, tie_norm]; norm_num
  unfold normalizeTenth
  dsimp only
  rw [hn, if_neg one_ne_zero]
  congr 2
  funext a i
  exact div_one _

/-- C145, the unrestricted claim is false: the same displacement of the same crystal, one amplitude, any
spline routine that succeeds.  With one numbering of the two atoms the centring is found to repeat the
given amplitude, and the call is refused; with the other numbering it is found to provide another
amplitude (300/299 of the given one), and the call succeeds.  The two images agree to 1 part in 300. -/
theorem C145_counterexample (nums : Fin 2 → ℕ) (pol A : Mat3 ℝ) (spline : SplineFn)
    (hspline : ∀ k l, ∃ f, spline k l = .ok f) :
    ∃ s, RefStructure.init bccSpglib nums 1 csCl = .ok s ∧ Sound s ∧
      ((IModel.init s pol false).addDof spline false tieU [1] [A] 1 true).result
        = .error .invalidDOF ∧
      (((IModel.init s pol false).renumbered (Equiv.swap 0 1) [0, 0]).addDof spline false
        (fun a => tieU (Equiv.swap 0 1 a)) [1] [A] 1 true).result = .ok () := by
  obtain ⟨s, hs, hops, hsound, hlat⟩ := bcc_init nums
  refine ⟨s, hs, hsound, ?_, ?_⟩
  · have hg := tie_groups hs hops
    unfold IModel.addDof IModel.addDofNan
    rw [prepareDof_eq _ _ _ _ _ _ (tie_parent (IModel.init s pol false) hlat)
      (by simp [usedPols, IModel.init]), getDof_eq _ _ _ _ _ _ (by rfl) hg]
    have hu : usedPols (IModel.init s pol false) [1] [A] = [A] := rfl
    have d1 := dofGroup_eq (IModel.init s pol false) [1] [A] true ⟨[tieU, tieV], bccOps⟩ tieU _ rfl
      (by intro op hop; simp only [bccOps, List.mem_cons, List.not_mem_nil, or_false] at hop
          rcases hop with rfl | rfl <;> simp [centreOp])
    rw [hu, List.mapM_cons, d1]
    unfold bccOps
    simp only [List.zip_cons_cons, List.zip_nil_left, List.flatMap_cons, List.flatMap_nil,
      List.append_nil, multiplier_self tieU (fun h => tie_ne.1 (by rw [h]; rfl)), tie_multipliers.1,
      List.map_cons, List.map_nil, imagePoint, refPoint, Option.map_some, one_mul, if_true,
      List.singleton_append]
    change (constructAndAdd _ _ _ [_] _).result = _
    unfold constructAndAdd
    rw [if_neg (by norm_num)]
    simp only [buildAll, buildOne]
    rw [if_pos]
    norm_num [hasDuplicates, closeOpt, isclose]
  · have hg := C145_equivalent_displacements (Equiv.swap 0 1) [0, 0] s tieU
    rw [tie_groups hs hops] at hg
    have hpar := parent_renum (Equiv.swap 0 1) [0, 0] (IModel.init s pol false) (some tieU)
    rw [tie_parent (IModel.init s pol false) hlat] at hpar
    change parentDisplacement _ (some (renum (Equiv.swap 0 1) tieU)) =
      .ok (some (renum (Equiv.swap 0 1) tieU)) at hpar
    change (s.renumbered (Equiv.swap 0 1) [0, 0]).getEquivalentDisplacements
      (renum (Equiv.swap 0 1) tieU) = Except.ok (some
        [⟨[renum (Equiv.swap 0 1) tieU, renum (Equiv.swap 0 1) tieV], bccOps⟩]) at hg
    change (IModel.addDof spline false _ (renum (Equiv.swap 0 1) tieU) [1] [A] 1 true).result = _
    rw [tie_swap.1] at hg hpar ⊢
    rw [tie_swap.2] at hg
    unfold IModel.addDof IModel.addDofNan
    rw [prepareDof_eq _ _ _ _ _ _ hpar
      (by simp [usedPols, IModel.init, IModel.renumbered]), getDof_eq _ _ _ _ _ _ (by rfl) hg]
    have hu : usedPols ((IModel.init s pol false).renumbered (Equiv.swap 0 1) [0, 0]) [1] [A] = [A] := rfl
    have d1 := dofGroup_eq ((IModel.init s pol false).renumbered (Equiv.swap 0 1) [0, 0]) [1] [A] true
      ⟨[tieV, tieU], bccOps⟩ tieV _ rfl
      (by intro op hop; simp only [bccOps, List.mem_cons, List.not_mem_nil, or_false] at hop
          rcases hop with rfl | rfl <;> simp [centreOp])
    have hnorm : ∃ b, normalizePos (((IModel.init s pol false).renumbered (Equiv.swap 0 1)
        [0, 0]).ref.getCartDisplacement tieV) = some b := by
      have hcart : ((IModel.init s pol false).renumbered (Equiv.swap 0 1)
          [0, 0]).ref.getCartDisplacement tieV = tieV := by
        funext a j
        change ∑ i, applyPbcDisplacement tieV a i * s.lattice i j = _
        rw [hlat]
        have hb : applyPbcDisplacement tieV = tieV := by
          funext a i
          exact wrap1_of_inHalfBox (tie_box.2 a i)
        rw [hb]
        simp [Matrix.one_apply]
      rw [hcart]
      unfold normalizePos norm2
      rw [tie_dots.2.1, if_neg (by rw [Real.sqrt_sq (by norm_num)]; norm_num)]
      exact ⟨_, rfl⟩
    obtain ⟨b, hb⟩ := hnorm
    rw [hu, List.mapM_cons, d1, hb]
    unfold bccOps
    simp only [List.zip_cons_cons, List.zip_nil_left, List.flatMap_cons, List.flatMap_nil,
      List.append_nil, multiplier_self tieV (fun h => tie_ne.2 (by rw [h]; rfl)), tie_multipliers.2,
      List.map_cons, List.map_nil, imagePoint, refPoint, Option.map_some, one_mul, if_true,
      List.singleton_append]
    change (constructAndAdd _ _ _ [_] _).result = _
    unfold constructAndAdd
    rw [if_neg (by norm_num)]
    have h1 : (1 : ℤ).toNat = 1 := rfl
    simp only [buildAll, h1]
    unfold buildOne
    rw [if_neg, if_neg (by simp)]
    · simp only [finitePts, Option.map_some, Bool.false_and, Bool.false_eq_true, if_false]
      obtain ⟨f, hf⟩ := hspline 1 (List.insertionSort (fun a b => a.1 ≤ b.1) _)
      rw [hf]
      rfl
    · norm_num [hasDuplicates, closeOpt, isclose]

theorem bcc_consistent {s : RefStructure 2} (hops : s.ops = bccOps) (v : Vec3) :
    TiesConsistent s fun _ => v := by
  intro op hop op' hop' σ σ' e c c' _ _ hr hc hc' _
  obtain ⟨⟨r, _, hr⟩, hn⟩ := hr
  have hrot : ∀ o ∈ s.ops, o.rot = 1 := by
    intro o ho
    rw [hops] at ho
    simp only [bccOps, List.mem_cons, List.not_mem_nil, or_false] at ho
    rcases ho with rfl | rfl <;> rfl
  have hbox : ∀ a j, InHalfBox (e a j) := by
    refine box_of_norm (le_of_eq ?_)
    unfold norm2 dot flat
    rw [Fintype.sum_prod_type]
    simp only [← sq]
    rw [hn, show (1 / 100 : ℝ) = (1 / 10) ^ 2 by norm_num, Real.sqrt_sq (by norm_num)]
  have key : ∀ (o : SymOp) (τ : Equiv.Perm (Fin 2)) (x : Pos 2 ℝ), o ∈ s.ops →
      ImageUnder o.rot τ e x → ∀ a j, x a j = r * v j := by
    intro o τ x ho hx a j
    obtain ⟨b, rfl⟩ := τ.surjective a
    obtain ⟨h1, h2⟩ := hx b j
    rw [hrot o ho] at h2
    simp only [Matrix.one_apply, mul_ite, mul_one, mul_zero, Finset.sum_ite_eq', Finset.mem_univ,
      if_true] at h2
    rw [← hr b j]
    exact (h2.eq_of_inHalfBox (hbox b j) h1).symm
  exact exact_ties ⟨1, fun a i => by rw [key op' σ' c' hop' hc', key op σ c hop hc, one_mul]⟩

/-- C145, concrete: in the body-centred cell, moving both atoms along any direction and moving one atom
along any direction satisfy the hypothesis on ties; the numbering does not matter for such calls. -/
example (nums : Fin 2 → ℕ) : ∃ s, RefStructure.init bccSpglib nums 1 csCl = .ok s ∧ Sound s ∧
    (∀ v : Vec3, TiesConsistent s fun _ => v) ∧
    (∀ v : Vec3, TiesConsistent s fun a => if a = 0 then v else 0) ∧
    ∀ (spline : SplineFn) (we : Bool) (pol A : Mat3 ℝ) (v : Vec3),
      ((IModel.init s pol false).renumbered (Equiv.swap 0 1) [0, 0]).addArt spline we 1 v [1 / 10] [A] =
        ((IModel.init s pol false).addArt spline we 0 v [1 / 10] [A]).renumbered (Equiv.swap 0 1)
          [0, 0] := by
  obtain ⟨s, hs, hops, hsound, hlat⟩ := bcc_init nums
  refine ⟨s, hs, hsound, bcc_consistent hops, fun v => single_consistent (k := 0) fun a ha i => ?_,
    fun spline we pol A v => ?_⟩
  · rw [if_neg ha]; rfl
  · exact C145_art (Equiv.swap 0 1) [0, 0] spline we (IModel.init s pol false) hsound 1 v [1 / 10] [A] _ rfl

/-- C145, concrete: the hypothesis on spglib's answer. -/
example (nums : Fin 2 → ℕ) : bccSpglib 1 (fun a => csCl (Equiv.swap 0 1 a))
    (fun a => nums (Equiv.swap 0 1 a)) = (bccSpglib 1 csCl nums).map fun d => ⟨d.ops, [0, 0]⟩ := rfl

end

end Verif
