import Verif.Proofs.Origin
import Verif.Props.Frame
import Verif.Props.SpglibConvention

/-!
# C143: the choice of the origin

The same crystal can be described from any origin of its cell: all atoms move by `v` (up to lattice
translations), the symmetry operations keep their rotations and get other translations.
-/

namespace Verif

open Spec

noncomputable section

variable {N : ℕ}

/-- C143: the moved operation is a symmetry of the moved crystal, with the same permutation of the
atoms, exactly when the original one is a symmetry of the original crystal. -/
theorem C143_symmetry {v : Vec3} {p q : Pos N ℝ} (h : MovedBy v p q) {R R' : Mat3 ℝ} {t t' : Vec3}
    (ho : MovedOperation v R t R' t') (σ : Equiv.Perm (Fin N)) :
    IsSymmetry q R' t' σ ↔ IsSymmetry p R t σ := by
  unfold IsSymmetry
  rw [ho.1]
  refine and_congr_right fun hR => forall₂_congr fun a j => ?_
  have h1 := moved_image (op := ⟨R, t⟩) (op' := ⟨R', t'⟩) h ho hR a j
  dsimp only at h1
  rw [ho.1] at h1
  constructor
  · intro h2
    have h3 := (h1.trans h2).trans (h (σ a) j).symm
    have h4 := h3.sub (SameImage.refl (v j))
    simpa using h4
  · intro h2
    exact h1.symm.trans ((h2.add (SameImage.refl (v j))).trans (h (σ a) j))

/-- C143: a reference structure can be built from the moved crystal exactly when it can be built from
the original one, and then it has the same permutations of the atoms. -/
theorem C143_reference (spglib : Mat3 ℝ → Pos N ℝ → (Fin N → ℕ) → Option SymDict)
    (nums : Fin N → ℕ) (lat : Mat3 ℝ) {v : Vec3} {p q : Pos N ℝ} (h : MovedBy v p q)
    (hp : ∀ a i, InClosedCell (p a i)) (hq : ∀ a i, InClosedCell (q a i)) (d d' : SymDict)
    (hd : spglib lat p nums = some d) (hd' : spglib lat q nums = some d')
    (hR : ∀ op ∈ d.ops, IntegerMatrix op.rot) (he : d'.equivAtoms = d.equivAtoms)
    (ho : List.Forall₂ (fun op op' => MovedOperation v op.rot op.trans op'.rot op'.trans)
      d.ops d'.ops) :
    ∃ s, RefStructure.init spglib nums lat p = .ok s ∧
      RefStructure.init spglib nums lat q = .ok { s with positions := q, ops := d'.ops } := by
  unfold RefStructure.init
  rw [hd, hd']
  dsimp only
  rw [perms_moved h ho hR hp hq, he]
  have hex : ∃ Ps, computePermutationMatrices d.ops p = .ok Ps := by
    unfold computePermutationMatrices
    have : ∀ l : List SymOp, (∀ op ∈ l, IntegerMatrix op.rot) →
        ∃ Ps, l.mapM (permMatrixOf (comShift p) p) = .ok Ps := by
      intro l
      induction l with
      | nil => intro _; exact ⟨[], rfl⟩
      | cons op l ih =>
        intro hl
        obtain ⟨Ps, hPs⟩ := ih fun x hx => hl x (by simp [hx])
        obtain ⟨P, hP, -⟩ := C12_entry p op (hl op (by simp)) hp
        refine ⟨P :: Ps, ?_⟩
        rw [List.mapM_cons, hP, hPs]
        rfl
    exact this d.ops hR
  obtain ⟨Ps, hPs⟩ := hex
  rw [hPs]
  exact ⟨_, rfl, rfl⟩

theorem map_rot {l l' : List SymOp} (h : List.Forall₂ (fun op op' : SymOp => op'.rot = op.rot) l l') :
    l'.map SymOp.rot = l.map SymOp.rot := by
  induction h with
  | nil => rfl
  | cons h _ ih => rw [List.map_cons, List.map_cons, ih, h]

/-- C143: the groups of equivalent displacements are the same seen from either origin. -/
theorem C143_equivalent_displacements_partial {v : Vec3} {s s' : RefStructure N} (h : OriginMoved v s s')
    (hR : ∀ op ∈ s.ops, IntegerMatrix op.rot) (hP : ∀ P ∈ s.perms, SingleRows P) (d : Pos N ℝ)
    (gs : List (EqGroup N)) (hg : s.getEquivalentDisplacements d = .ok (some gs)) :
    ∃ gs', s'.getEquivalentDisplacements d = .ok (some gs') ∧
      gs'.map EqGroup.displacements = gs.map EqGroup.displacements ∧
      gs'.map (fun g => g.transformations.map SymOp.rot) =
        gs.map fun g => g.transformations.map SymOp.rot := by
  rcases equivalent_moved h hR hP d with ⟨e1, -⟩ | ⟨gs₀, gs', e1, e2, e3⟩
  · rw [hg] at e1; cases e1
  · rw [hg] at e1
    cases e1
    refine ⟨gs', e2, ?_, ?_⟩
    · clear hg e2
      induction e3 with
      | nil => rfl
      | cons h1 _ ih => rw [List.map_cons, List.map_cons, ih, h1.1]
    · clear hg e2
      induction e3 with
      | nil => rfl
      | cons h1 _ ih =>
        rw [List.map_cons, List.map_cons, ih]
        congr 1
        exact map_rot h1.2

/-- C143: predictions of a model seen from the other origin, for all configurations. -/
theorem C143_predictions {v : Vec3} (m : IModel N) {s' : RefStructure N} (hl : s'.lattice = m.ref.lattice)
    (h : MovedBy v m.ref.positions s'.positions) {batch batch' : List (Pos N ℝ)}
    (hb : List.Forall₂ (MovedBy v) batch batch') :
    IModel.calcPolarizabilities { m with ref := s' } batch' = m.calcPolarizabilities batch := by
  have h1 : batch'.map (fun _ => (0 : Mat3 ℝ)) = batch.map fun _ => 0 := by
    induction hb with
    | nil => rfl
    | cons _ _ ih => rw [List.map_cons, List.map_cons, ih]
  have h2 : batch'.map (fun p => s'.getCartDisplacement (calcDisplacement s'.positions p)) =
      batch.map fun p => m.ref.getCartDisplacement (calcDisplacement m.ref.positions p) := by
    clear h1
    induction hb with
    | nil => rfl
    | cons h3 _ ih =>
      rw [List.map_cons, List.map_cons, ih, calc_moved h h3]
      unfold RefStructure.getCartDisplacement
      rw [hl]
  unfold IModel.calcPolarizabilities
  dsimp only
  rw [h1, h2]

/-- What C143 assumes about a structure: it was built from separated atoms with operations that are
symmetries as the code applies them (row convention). -/
structure Sound (s : RefStructure N) : Prop where
  built : ∃ spglib, RefStructure.init spglib s.atomicNumbers s.lattice s.positions = .ok s
  apart : ∀ j k, j ≠ k → Apart (2 / 10 ^ 5) (s.positions j) (s.positions k)
  symmetries : ∀ op ∈ s.ops, ∃ σ, IsSymmetry s.positions op.rot op.trans σ

theorem Sound.integer {s : RefStructure N} (h : Sound s) : ∀ op ∈ s.ops, IntegerMatrix op.rot :=
  fun op hop => by obtain ⟨σ, hσ⟩ := h.symmetries op hop; exact hσ.1

theorem forall₂_right {α β : Type} {R : α → β → Prop} {l : List α} {r : List β}
    (h : List.Forall₂ R l r) {y : β} (hy : y ∈ r) : ∃ x ∈ l, R x y := by
  induction h with
  | nil => cases hy
  | cons h1 _ ih =>
    rcases List.mem_cons.1 hy with rfl | h2
    · exact ⟨_, List.mem_cons_self, h1⟩
    · obtain ⟨x, hx, hxy⟩ := ih h2
      exact ⟨x, List.mem_cons_of_mem _ hx, hxy⟩

theorem Sound.rows {s : RefStructure N} (h : Sound s) : ∀ P ∈ s.perms, SingleRows P := by
  obtain ⟨spglib, hb⟩ := h.built
  obtain ⟨-, -, hperms⟩ := init_facts hb
  intro P hP
  obtain ⟨op, hop, hPop⟩ := forall₂_right hperms hP
  obtain ⟨σ, hσ⟩ := h.symmetries op hop
  have h1 := fun j i => permMatrixOf_sym _ hσ h.apart hPop j i
  intro j
  refine ⟨σ.symm j, fun k => ?_⟩
  rw [h1, decide_eq_true_iff]
  constructor
  · intro e; rw [e, Equiv.symm_apply_apply]
  · intro e; rw [e, Equiv.apply_symm_apply]

/-- C143: `add_dof` behaves the same from either origin: same outcome, same warnings, and the same
basis vectors, interpolations and mask afterwards. -/
theorem C143_add_dof_partial {v : Vec3} (spline : SplineFn) (we : Bool) (m : IModel N)
    {s' : RefStructure N} (h : OriginMoved v m.ref s') (hs : Sound m.ref) (cart : Pos N ℝ)
    (amps : List ℝ) (pols : List (Mat3 ℝ)) (order : ℤ) (inc : Bool) (o : Outcome N)
    (ho : o = m.addDof spline we cart amps pols order inc) :
    IModel.addDof spline we { m with ref := s' } cart amps pols order inc =
      ⟨o.result, o.warnings, { o.state with ref := s' }⟩ := by
  subst ho
  exact addDofNan_moved spline we m h hs.integer hs.rows (some cart) amps pols order inc

/-- C143: the same for degrees of freedom read from files that hold the moved configurations. -/
theorem C143_files_partial {v : Vec3} (spline : SplineFn) (we : Bool) (m : IModel N)
    {s' : RefStructure N} (h : OriginMoved v m.ref s') (hs : Sound m.ref)
    {files files' : List (DofFile N)} (hf : List.Forall₂ (MovedFile v) files files') (order : ℤ)
    (o : Outcome N) (ho : o = m.addDofFromFiles spline we files order) :
    IModel.addDofFromFiles spline we { m with ref := s' } files' order =
      ⟨o.result, o.warnings, { o.state with ref := s' }⟩ := by
  subst ho
  have hr := readDof_moved m h hf
  unfold IModel.withRef at hr
  unfold IModel.addDofFromFiles
  rw [hr]
  rcases readDof m files with e | ⟨ds, amps, pols⟩
  · rfl
  · cases ds with
    | nil => rfl
    | cons d0 ds =>
      dsimp only
      rw [cart_moved h]
      exact C143_add_dof_partial spline we m h hs _ amps pols order true _ rfl

/-- C143: the same for atoms displaced one at a time. -/
theorem C143_art_partial {v : Vec3} (spline : SplineFn) (we : Bool) (m : IModel N)
    {s' : RefStructure N} (h : OriginMoved v m.ref s') (hs : Sound m.ref) (a : ℤ) (dir : Vec3)
    (amps : List ℝ) (pols : List (Mat3 ℝ)) (o : Outcome N)
    (ho : o = m.addArt spline we a dir amps pols) :
    IModel.addArt spline we { m with ref := s' } a dir amps pols =
      ⟨o.result, o.warnings, { o.state with ref := s' }⟩ := by
  subst ho
  have hp : prepareArt { m with ref := s' } a dir amps pols = prepareArt m a dir amps pols := by
    have hc : s'.getCartDisplacement = m.ref.getCartDisplacement := funext fun d => cart_moved h d
    unfold prepareArt RefStructure.getFracDirection
    dsimp only
    rw [h.lattice, hc]
  unfold IModel.addArt
  rw [hp]
  cases prepareArt m a dir amps pols with
  | error e => rfl
  | ok cart => exact addDofNan_moved spline we m h hs.integer hs.rows cart amps pols 1 false

/-- C143: the same for atoms displaced one at a time, from files. -/
theorem C143_art_files_partial {v : Vec3} (spline : SplineFn) (we : Bool) (m : IModel N)
    {s' : RefStructure N} (h : OriginMoved v m.ref s') (hs : Sound m.ref)
    {files files' : List (DofFile N)} (hf : List.Forall₂ (MovedFile v) files files')
    (o : Outcome N) (ho : o = m.addArtFromFiles spline we files) :
    IModel.addArtFromFiles spline we { m with ref := s' } files' =
      ⟨o.result, o.warnings, { o.state with ref := s' }⟩ := by
  subst ho
  have hr := readDof_moved m h hf
  have hg := getDof_moved m h hs.integer hs.rows
  unfold IModel.withRef at hr hg
  unfold IModel.addArtFromFiles
  rw [hr]
  rcases readDof m files with e | ⟨ds, amps, pols⟩
  · rfl
  · cases ds with
    | nil => rfl
    | cons d0 ds =>
      dsimp only
      rw [hg]
      split_ifs
      · rfl
      · rcases getDof m (some d0) amps pols false with e | gs
        · rfl
        · cases gs with
          | nil => rfl
          | cons g gs =>
            dsimp only
            split_ifs
            · rfl
            · exact constructAndAdd_withRef spline we m s' (g :: gs) 1

theorem addDof_ref (spline : SplineFn) (we : Bool) (m : IModel N) (cart : Pos N ℝ) (amps : List ℝ)
    (pols : List (Mat3 ℝ)) (order : ℤ) (inc : Bool) :
    (m.addDof spline we cart amps pols order inc).state.ref = m.ref := by
  unfold IModel.addDof IModel.addDofNan constructAndAdd
  cases prepareDof m (some cart) amps pols inc with
  | error e => rfl
  | ok gs =>
    dsimp only
    by_cases ho : order < 1
    · rw [if_pos ho]
    · rw [if_neg ho]
      rcases buildAll spline we order.toNat gs with ⟨r, ws⟩
      cases r with
      | error e => rfl
      | ok fs =>
        dsimp only
        cases finiteBasis gs with
        | error e => rfl
        | ok bs => dsimp only; split_ifs <;> rfl

/-- C143, whole workflow: reference structures built from the crystal and from the moved crystal, the
same `add_dof` calls (exceptions caught) on either side, any configurations: the predictions agree. -/
theorem C143_workflow_partial (spglib : Mat3 ℝ → Pos N ℝ → (Fin N → ℕ) → Option SymDict)
    (nums : Fin N → ℕ) (lat : Mat3 ℝ) {v : Vec3} {p q : Pos N ℝ} (h : MovedBy v p q)
    (hp : ∀ a i, InClosedCell (p a i)) (hq : ∀ a i, InClosedCell (q a i))
    (hsep : ∀ j k, j ≠ k → Apart (2 / 10 ^ 5) (p j) (p k)) (d d' : SymDict)
    (hd : spglib lat p nums = some d) (hd' : spglib lat q nums = some d')
    (hsym : ∀ op ∈ d.ops, ∃ σ, IsSymmetry p op.rot op.trans σ) (he : d'.equivAtoms = d.equivAtoms)
    (ho : List.Forall₂ (fun op op' => MovedOperation v op.rot op.trans op'.rot op'.trans)
      d.ops d'.ops) :
    ∃ s s', RefStructure.init spglib nums lat p = .ok s ∧ RefStructure.init spglib nums lat q = .ok s' ∧
      ∀ (spline : SplineFn) (we : Bool) (pol : Mat3 ℝ) (dummy : Bool) (calls : List (DofCall N))
        (batch batch' : List (Pos N ℝ)), List.Forall₂ (MovedBy v) batch batch' →
        (afterCalls spline we (IModel.init s' pol dummy) calls).calcPolarizabilities batch' =
          (afterCalls spline we (IModel.init s pol dummy) calls).calcPolarizabilities batch := by
  obtain ⟨s, hs, hs'⟩ := C143_reference spglib nums lat h hp hq d d' hd hd'
    (fun op hop => by obtain ⟨σ, hσ⟩ := hsym op hop; exact hσ.1) he ho
  have hf : s.atomicNumbers = nums ∧ s.lattice = lat ∧ s.positions = p ∧ s.ops = d.ops := by
    have hs2 := hs
    unfold RefStructure.init at hs2
    rw [hd] at hs2
    dsimp only at hs2
    cases hc : computePermutationMatrices d.ops p with
    | error e => rw [hc] at hs2; cases hs2
    | ok Ps => rw [hc] at hs2; cases hs2; exact ⟨rfl, rfl, rfl, rfl⟩
  obtain ⟨hf1, hf2, hf3, hf4⟩ := hf
  have hsound : Sound s := ⟨⟨spglib, by rw [hf1, hf2, hf3]; exact hs⟩, by rw [hf3]; exact hsep,
    by rw [hf3, hf4]; exact hsym⟩
  have hmoved : OriginMoved v s { s with positions := q, ops := d'.ops } :=
    ⟨rfl, rfl, by rw [hf3]; exact h, by rw [hf4]; exact ho, rfl, rfl⟩
  refine ⟨s, _, hs, hs', fun spline we pol dummy calls batch batch' hb => ?_⟩
  have key : ∀ (cs : List (DofCall N)) (m : IModel N), m.ref = s →
      afterCalls spline we { m with ref := { s with positions := q, ops := d'.ops } } cs =
        { afterCalls spline we m cs with ref := { s with positions := q, ops := d'.ops } } ∧
      (afterCalls spline we m cs).ref = s := by
    intro cs
    induction cs with
    | nil => intro m hm; exact ⟨rfl, hm⟩
    | cons c cs ih =>
      intro m hm
      have h1 := C143_add_dof_partial spline we m (by rw [hm]; exact hmoved) (by rw [hm]; exact hsound) c.1 c.2.1
        c.2.2.1 c.2.2.2 true _ rfl
      unfold afterCalls at ih ⊢
      rw [List.foldl_cons, List.foldl_cons, h1]
      refine ih _ ?_
      rw [addDof_ref]
      exact hm
  obtain ⟨k1, k2⟩ := key calls (IModel.init s pol dummy) rfl
  have h2 := C143_predictions (afterCalls spline we (IModel.init s pol dummy) calls)
    (s' := { s with positions := q, ops := d'.ops }) (by rw [k2]) (by rw [k2, hf3]; exact h) hb
  rw [← h2, ← k1]
  rfl

/-- C143: Raman spectra of phonons do not depend on the origin. -/
theorem C143_phonons {v : Vec3} (m : IModel N) {s' : RefStructure N} (hl : s'.lattice = m.ref.lattice)
    (h : MovedBy v m.ref.positions s'.positions) (ph : Phonons N) {q : Pos N ℝ}
    (hq : MovedBy v ph.refPositions q) :
    Phonons.getRamanSpectrum { ph with refPositions := q }
        (IModel.calcPolarizabilities { m with ref := s' }) =
      ph.getRamanSpectrum m.calcPolarizabilities := by
  have h1 : ∀ d : Pos N ℝ, MovedBy v (fun a i => ph.refPositions a i + d a i) fun a i => q a i + d a i := by
    intro d a i
    have := (hq a i).add (SameImage.refl (d a i))
    rwa [add_right_comm] at this
  have h2 : ∀ d, ramanTensor (IModel.calcPolarizabilities { m with ref := s' }) q d =
      ramanTensor m.calcPolarizabilities ph.refPositions d := by
    intro d
    have e : ∀ x y : Pos N ℝ, MovedBy v x y →
        evalOne (IModel.calcPolarizabilities { m with ref := s' }) y =
          evalOne m.calcPolarizabilities x := by
      intro x y hxy
      unfold evalOne
      rw [C143_predictions m hl h (.cons hxy .nil)]
    unfold ramanTensor
    dsimp only
    rw [e _ _ (h1 fun a i => d a i * centralDifference)]
    have e2 := e _ _ (h1 fun a i => -(d a i * centralDifference))
    simp only [← sub_eq_add_neg] at e2
    rw [e2]
  unfold Phonons.getRamanSpectrum
  dsimp only
  rw [show ramanTensor (IModel.calcPolarizabilities { m with ref := s' }) q =
    ramanTensor m.calcPolarizabilities ph.refPositions from funext h2]

/-- C143: Raman spectra of trajectories do not depend on the origin. -/
theorem C143_trajectories {v : Vec3} (m : IModel N) {s' : RefStructure N}
    (hl : s'.lattice = m.ref.lattice) (h : MovedBy v m.ref.positions s'.positions) (t : Trajectory N)
    {ts : List (Pos N ℝ)} (ht : List.Forall₂ (MovedBy v) t.positionsTs ts) :
    Trajectory.getRamanSpectrum { t with positionsTs := ts }
        (IModel.calcPolarizabilities { m with ref := s' }) =
      t.getRamanSpectrum m.calcPolarizabilities := by
  unfold Trajectory.getRamanSpectrum
  dsimp only
  rw [C143_predictions m hl h ht]

/-! ### spglib's convention -/

/-- C143: spglib reports operations for columns.  A change of origin acts on them as the code needs it
exactly when `R v` and `v R` agree up to lattice translations, in particular for symmetric rotation
matrices. -/
theorem C143_columns {v : Vec3} {R R' : Mat3 ℝ} {t t' : Vec3} (h : MovedColumnOperation v R t R' t') :
    (MovedOperation v R t R' t' ↔ ∀ i, SameImage (∑ j, R i j * v j) (∑ j, v j * R j i)) ∧
    (R.IsSymm → MovedOperation v R t R' t') := by
  obtain ⟨h1, h2⟩ := h
  have key : MovedOperation v R t R' t' ↔ ∀ i, SameImage (∑ j, R i j * v j) (∑ j, v j * R j i) := by
    unfold MovedOperation
    constructor
    · rintro ⟨-, h3⟩ i
      have h4 := (SameImage.refl (t i + v i)).sub ((h2 i).trans (h3 i).symm)
      simpa using h4
    · intro h3
      refine ⟨h1, fun i => ?_⟩
      exact ((SameImage.refl (t i + v i)).sub (h3 i)).symm.trans (h2 i)
  refine ⟨key, fun hs => key.2 fun i => ?_⟩
  have : ∑ j, R i j * v j = ∑ j, v j * R j i :=
    Finset.sum_congr rfl fun j _ => by rw [mul_comm, hs.apply]
  rw [this]
  exact SameImage.refl _

/-! ### Concrete cases -/

theorem eqInsert_length {st : EqState N} (op : SymOp) (c : Pos N ℝ)
    (h : ∃ x ∈ st.orth, ¬ Orthogonal (flat c) (flat x)) :
    (eqInsert st op c).orth = st.orth ∧ (eqInsert st op c).result.length = st.result.length := by
  have hm : ∀ (f : EqGroup N → EqGroup N) (k : ℕ) (l : List (EqGroup N)),
      (modAt f k l).length = l.length := by
    intro f k l
    induction l generalizing k with
    | nil => unfold modAt; rfl
    | cons x l ih =>
      cases k with
      | zero => rfl
      | succ k => rw [modAt, List.length_cons, ih, List.length_cons]
  obtain ⟨x, hx, hno⟩ := h
  unfold eqInsert
  rw [if_neg]
  · dsimp only
    split_ifs
    · exact ⟨rfl, hm _ _ _⟩
    · exact ⟨rfl, rfl⟩
  · rw [C08_all_orthogonal]
    intro h
    exact hno (h _ (List.mem_map_of_mem hx))

theorem grid_parallel (U V : Fin N → Fin 3 → ℤ) (hU : 0 < gridDot U U) (hV : 0 < gridDot V V)
    (h : gridDot U V ^ 2 = gridDot U U * gridDot V V) :
    ¬ Orthogonal (flat (gridPos U)) (flat (gridPos V)) := by
  have hU' : (0 : ℝ) < gridDot U U := by exact_mod_cast hU
  have hV' : (0 : ℝ) < gridDot V V := by exact_mod_cast hV
  have h' : (gridDot U V : ℝ) ^ 2 = gridDot U U * gridDot V V := by exact_mod_cast h
  have hc : cosine (flat (gridPos U)) (flat (gridPos V)) ^ 2 = 1 := by
    rw [grid_cos, div_pow, mul_pow, Real.sq_sqrt hU'.le, Real.sq_sqrt hV'.le, h',
      div_self (mul_pos hU' hV').ne']
  rintro ⟨_, _, h1⟩
  rw [← sq_abs] at hc
  have h0 := abs_nonneg (cosine (flat (gridPos U)) (flat (gridPos V)))
  norm_num [angTol] at h1
  nlinarith

/-- One atom in a primitive cell, in twentieths of the edges. -/
def atomAt (x : ℤ) : Fin 1 → Fin 3 → ℤ := fun _ => ![x, 0, 0]

def alongX (x : ℤ) : Fin 1 → Fin 3 → ℤ := fun _ => ![x, 0, 0]

def alongY (x : ℤ) : Fin 1 → Fin 3 → ℤ := fun _ => ![0, x, 0]

/-- The powers of the fourfold rotation about the `z` axis through the atom. -/
def fourfoldT : ℤ → Fin 4 → Fin 3 → ℤ := fun x => ![0, ![x, -x, 0], ![2 * x, 0, 0], ![x, x, 0]]

/-- What spglib reports. -/
def fourfoldSpglib (x : ℤ) : Mat3 ℝ → Pos 1 ℝ → (Fin 1 → ℕ) → Option SymDict := fun _ _ _ =>
  some ⟨(List.finRange 4).map fun k => gridOp (screwR k) (fourfoldT x k), [0]⟩

theorem fourfold_init (x : ℤ) (hx : 0 ≤ x ∧ x ≤ 20) (nums : Fin 1 → ℕ) :
    ∃ s P0 P1 P2 P3, RefStructure.init (fourfoldSpglib x) nums 1 (gridPos (atomAt x)) = .ok s ∧
    s.positions = gridPos (atomAt x) ∧
    s.ops = (List.finRange 4).map (fun k => gridOp (screwR k) (fourfoldT x k)) ∧ s.perms = [P0, P1, P2, P3] ∧
    permMatrixOf (comShift (gridPos (atomAt x))) (gridPos (atomAt x)) (gridOp (screwR 0) (fourfoldT x 0)) =
      .ok P0 ∧
    permMatrixOf (comShift (gridPos (atomAt x))) (gridPos (atomAt x)) (gridOp (screwR 1) (fourfoldT x 1)) =
      .ok P1 ∧
    permMatrixOf (comShift (gridPos (atomAt x))) (gridPos (atomAt x)) (gridOp (screwR 2) (fourfoldT x 2)) =
      .ok P2 ∧
    permMatrixOf (comShift (gridPos (atomAt x))) (gridPos (atomAt x)) (gridOp (screwR 3) (fourfoldT x 3)) =
      .ok P3 := by
  have hin : ∀ a i, InClosedCell (gridPos (atomAt x) a i) := grid_closed _ fun a i => by
    fin_cases i <;> simp [atomAt, hx.1, hx.2]
  have h : ∀ k, ∃ P, permMatrixOf (comShift (gridPos (atomAt x))) (gridPos (atomAt x))
      (gridOp (screwR k) (fourfoldT x k)) = .ok P := fun k => by
    obtain ⟨P, hP, -⟩ := C12_entry (gridPos (atomAt x)) (gridOp (screwR k) (fourfoldT x k))
      ⟨screwR k, fun i j => rfl⟩ hin
    exact ⟨P, hP⟩
  choose P hP using h
  have hl : (List.finRange 4).map (fun k => gridOp (screwR k) (fourfoldT x k)) =
      [gridOp (screwR 0) (fourfoldT x 0), gridOp (screwR 1) (fourfoldT x 1), gridOp (screwR 2) (fourfoldT x 2),
        gridOp (screwR 3) (fourfoldT x 3)] := by
    simp [List.finRange_succ]
  refine ⟨⟨nums, 1, gridPos (atomAt x), _, [P 0, P 1, P 2, P 3], [0]⟩, P 0, P 1, P 2, P 3, ?_, rfl, rfl, rfl,
    hP 0, hP 1, hP 2, hP 3⟩
  unfold RefStructure.init fourfoldSpglib
  dsimp only
  have : computePermutationMatrices ((List.finRange 4).map fun k => gridOp (screwR k) (fourfoldT x k))
      (gridPos (atomAt x)) = .ok [P 0, P 1, P 2, P 3] := by
    rw [hl, computePermutationMatrices, mapM_except_ok]
    exact .cons (hP 0) (.cons (hP 1) (.cons (hP 2) (.cons (hP 3) .nil)))
  rw [this]
  rfl

theorem fourfold_scale : scaleDisplacement (gridPos (alongX 2)) = some (gridPos (alongX 2)) := by
  have hb : applyPbcDisplacement (gridPos (alongX 2)) = gridPos (alongX 2) := by
    funext a i
    refine wrap1_of_inHalfBox ?_
    have h : ∀ a i, -10 < alongX 2 a i ∧ alongX 2 a i ≤ 10 := by decide
    obtain ⟨w1, w2⟩ := h a i
    have w1' : (-10 : ℝ) < alongX 2 a i := by exact_mod_cast w1
    have w2' : (alongX 2 a i : ℝ) ≤ 10 := by exact_mod_cast w2
    unfold gridPos InHalfBox
    constructor <;> linarith
  have hn : norm2 (flat (gridPos (alongX 2))) = 1 / 10 := by
    unfold norm2 dot
    rw [grid_sum, show gridDot (alongX 2) (alongX 2) = 4 by decide,
      show ((4 : ℤ) : ℝ) / 400 = (1 / 10) ^ 2 by norm_num, Real.sqrt_sq (by norm_num)]
  unfold scaleDisplacement
  dsimp only
  rw [hb, hn, if_neg (by norm_num)]
  congr 1
  funext a i
  norm_num

/-- The groups found from four candidates. -/
theorem fourfold_groups (s : RefStructure 1) (p : Pos 1 ℝ) (hpos : s.positions = p)
    (o0 o1 o2 o3 : SymOp) (P0 P1 P2 P3 : PermMat 1)
    (hops : s.ops.zip s.perms = [(o0, P0), (o1, P1), (o2, P2), (o3, P3)]) (c0 c1 c2 c3 : Pos 1 ℝ)
    (h0 : candidate p (displacePositions p (gridPos (alongX 2))) o0 P0 = .ok c0)
    (h1 : candidate p (displacePositions p (gridPos (alongX 2))) o1 P1 = .ok c1)
    (h2 : candidate p (displacePositions p (gridPos (alongX 2))) o2 P2 = .ok c2)
    (h3 : candidate p (displacePositions p (gridPos (alongX 2))) o3 P3 = .ok c3) :
    s.getEquivalentDisplacements (gridPos (alongX 2)) = .ok (some
      (eqInsert (eqInsert (eqInsert (eqInsert ⟨[], []⟩ o0 c0) o1 c1) o2 c2) o3 c3).result) := by
  unfold RefStructure.getEquivalentDisplacements
  rw [fourfold_scale]
  dsimp only
  rw [hops, hpos]
  simp only [eqLoop]
  rw [h0]
  change (candidate _ _ _ _ >>= _) >>= _ = _
  rw [h1]
  change (candidate _ _ _ _ >>= _) >>= _ = _
  rw [h2]
  change (candidate _ _ _ _ >>= _) >>= _ = _
  rw [h3]
  rfl

theorem eqInsert_first (op : SymOp) (c : Pos N ℝ) :
    eqInsert ⟨[], []⟩ op c = ⟨[⟨[c], [op]⟩], [c]⟩ := by
  unfold eqInsert
  rw [if_pos (by simp [isOrthogonalToAll, firstIndexFrom])]
  rfl

/-- C143, the claim is false for operations in spglib's convention: one atom in a primitive cubic cell
with a fourfold axis through the atom.  With the atom at the corner of the cell a displacement along
`x` has images along `x` and along `y`, which makes two groups.  With the atom at `(1/4, 0, 0)` and the
operations moved as spglib moves them, all of them symmetries of the crystal in spglib's sense, the
code finds one group. -/
theorem C143_counterexample :
    ∃ (v : Vec3) (p q d : Pos 1 ℝ) (spglib spglib' : Mat3 ℝ → Pos 1 ℝ → (Fin 1 → ℕ) → Option SymDict)
      (s s' : RefStructure 1) (gs gs' : List (EqGroup 1)),
      MovedBy v p q ∧ RefStructure.init spglib (fun _ => 14) 1 p = .ok s ∧
      RefStructure.init spglib' (fun _ => 14) 1 q = .ok s' ∧
      List.Forall₂ (fun op op' => MovedColumnOperation v op.rot op.trans op'.rot op'.trans)
        s.ops s'.ops ∧
      (∀ op ∈ s.ops, ColumnSymmetry p op.rot op.trans 1) ∧
      (∀ op ∈ s'.ops, ColumnSymmetry q op.rot op.trans 1) ∧
      s.getEquivalentDisplacements d = .ok (some gs) ∧ gs.length = 2 ∧
      s'.getEquivalentDisplacements d = .ok (some gs') ∧ gs'.length = 1 := by
  obtain ⟨s, P0, P1, P2, P3, hs, hp, hops, hperms, hP0, hP1, hP2, hP3⟩ :=
    fourfold_init 0 (by norm_num) fun _ => 14
  obtain ⟨s', P0', P1', P2', P3', hs', hp', hops', hperms', hP0', hP1', hP2', hP3'⟩ :=
    fourfold_init 5 (by norm_num) fun _ => 14
  have hl : ∀ x, (List.finRange 4).map (fun k => gridOp (screwR k) (fourfoldT x k)) =
      [gridOp (screwR 0) (fourfoldT x 0), gridOp (screwR 1) (fourfoldT x 1), gridOp (screwR 2) (fourfoldT x 2),
        gridOp (screwR 3) (fourfoldT x 3)] := by
    intro x; simp [List.finRange_succ]
  have k0 := grid_good (atomAt 0) (by decide) (screwR 0) (fourfoldT 0 0) P0 hP0 (Equiv.refl _) (by decide)
    (alongX 2) (alongX 2) (by decide) (by decide)
  have k1 := grid_good (atomAt 0) (by decide) (screwR 1) (fourfoldT 0 1) P1 hP1 (Equiv.refl _) (by decide)
    (alongX 2) (alongY (-2)) (by decide) (by decide)
  have k2 := grid_good (atomAt 0) (by decide) (screwR 2) (fourfoldT 0 2) P2 hP2 (Equiv.refl _) (by decide)
    (alongX 2) (alongX (-2)) (by decide) (by decide)
  have k3 := grid_good (atomAt 0) (by decide) (screwR 3) (fourfoldT 0 3) P3 hP3 (Equiv.refl _) (by decide)
    (alongX 2) (alongY 2) (by decide) (by decide)
  have l0 := grid_good (atomAt 5) (by decide) (screwR 0) (fourfoldT 5 0) P0' hP0' (Equiv.refl _) (by decide)
    (alongX 2) (alongX 2) (by decide) (by decide)
  have l1 := grid_bad (atomAt 5) (by decide) (screwR 1) (fourfoldT 5 1) P1' hP1' (by decide) (alongX (-5))
    (by decide) (by decide) (by norm_num) (gridPos (alongX 2))
  have l2 := grid_good (atomAt 5) (by decide) (screwR 2) (fourfoldT 5 2) P2' hP2' (Equiv.refl _) (by decide)
    (alongX 2) (alongX (-2)) (by decide) (by decide)
  have l3 := grid_bad (atomAt 5) (by decide) (screwR 3) (fourfoldT 5 3) P3' hP3' (by decide) (alongX (-5))
    (by decide) (by decide) (by norm_num) (gridPos (alongX 2))
  have hg := fourfold_groups s _ hp _ _ _ _ P0 P1 P2 P3 (by rw [hops, hl, hperms]; rfl) _ _ _ _ k0 k1 k2 k3
  have hg' := fourfold_groups s' _ hp' _ _ _ _ P0' P1' P2' P3' (by rw [hops', hl, hperms']; rfl) _ _ _ _
    l0 l1 l2 l3
  have hcol : ∀ x, (x = 0 ∨ x = 5) → ∀ k, ColumnSymmetry (gridPos (atomAt x))
      (gridOp (screwR k) (fourfoldT x k)).rot (gridOp (screwR k) (fourfoldT x k)).trans 1 := by
    intro x hx k
    refine grid_column _ _ _ _ ?_
    rcases hx with rfl | rfl <;> revert k <;> decide
  refine ⟨gridPos (atomAt 5) 0, gridPos (atomAt 0), gridPos (atomAt 5), gridPos (alongX 2), fourfoldSpglib 0,
    fourfoldSpglib 5, s, s', _, _, ?_, hs, hs', ?_, ?_, ?_, hg, ?_, hg', ?_⟩
  · intro a i
    refine ⟨0, ?_⟩
    fin_cases a
    fin_cases i <;> norm_num [gridPos, atomAt]
  · rw [hops, hops', List.forall₂_map_left_iff, List.forall₂_map_right_iff, List.forall₂_same]
    intro k _
    refine ⟨rfl, fun i => ?_⟩
    have h : ∀ k i, (fourfoldT 0 k i + atomAt 5 0 i - ∑ j, screwR k i j * atomAt 5 0 j - fourfoldT 5 k i) % 20 = 0 := by
      decide
    have h' := twentieth_same _ _ (h k i)
    rwa [show ((fourfoldT 0 k i + atomAt 5 0 i - ∑ j, screwR k i j * atomAt 5 0 j : ℤ) : ℝ) / 20 =
      (gridOp (screwR k) (fourfoldT 0 k)).trans i + gridPos (atomAt 5) 0 i -
        ∑ j, (gridOp (screwR k) (fourfoldT 0 k)).rot i j * gridPos (atomAt 5) 0 j by
      simp only [gridPos, gridOp]
      push_cast
      rw [sub_div, add_div, Finset.sum_div]
      congr 1
      exact Finset.sum_congr rfl fun j _ => by ring] at h'
  · intro op hop
    rw [hops] at hop
    obtain ⟨k, -, rfl⟩ := List.mem_map.1 hop
    exact hcol 0 (Or.inl rfl) k
  · intro op hop
    rw [hops'] at hop
    obtain ⟨k, -, rfl⟩ := List.mem_map.1 hop
    exact hcol 5 (Or.inr rfl) k
  · have i1 : eqInsert ⟨[⟨[gridPos (alongX 2)], [gridOp (screwR 0) (fourfoldT 0 0)]⟩], [gridPos (alongX 2)]⟩
        (gridOp (screwR 1) (fourfoldT 0 1)) (gridPos (alongY (-2))) =
        ⟨[⟨[gridPos (alongX 2)], [gridOp (screwR 0) (fourfoldT 0 0)]⟩,
          ⟨[gridPos (alongY (-2))], [gridOp (screwR 1) (fourfoldT 0 1)]⟩],
          [gridPos (alongX 2), gridPos (alongY (-2))]⟩ := by
      unfold eqInsert
      rw [if_pos]
      · rfl
      · rw [C08_all_orthogonal]
        intro x hx
        simp only [List.map_cons, List.map_nil, List.mem_singleton] at hx
        subst hx
        exact grid_orth _ _ (by decide) (by decide) (by decide)
    rw [eqInsert_first, i1]
    have j2 := eqInsert_length (st := ⟨[⟨[gridPos (alongX 2)], [gridOp (screwR 0) (fourfoldT 0 0)]⟩,
      ⟨[gridPos (alongY (-2))], [gridOp (screwR 1) (fourfoldT 0 1)]⟩],
      [gridPos (alongX 2), gridPos (alongY (-2))]⟩) (gridOp (screwR 2) (fourfoldT 0 2)) (gridPos (alongX (-2)))
      ⟨gridPos (alongX 2), by simp, grid_parallel _ _ (by decide) (by decide) (by decide)⟩
    have j3 := eqInsert_length (st := eqInsert ⟨[⟨[gridPos (alongX 2)], [gridOp (screwR 0) (fourfoldT 0 0)]⟩,
      ⟨[gridPos (alongY (-2))], [gridOp (screwR 1) (fourfoldT 0 1)]⟩],
      [gridPos (alongX 2), gridPos (alongY (-2))]⟩ (gridOp (screwR 2) (fourfoldT 0 2)) (gridPos (alongX (-2))))
      (gridOp (screwR 3) (fourfoldT 0 3)) (gridPos (alongY 2))
      ⟨gridPos (alongY (-2)), by rw [j2.1]; simp, grid_parallel _ _ (by decide) (by decide) (by decide)⟩
    rw [j3.2, j2.2]
    rfl
  · rw [eqInsert_first]
    have j1 := eqInsert_length (st := ⟨[⟨[gridPos (alongX 2)], [gridOp (screwR 0) (fourfoldT 5 0)]⟩],
      [gridPos (alongX 2)]⟩) (gridOp (screwR 1) (fourfoldT 5 1)) (gridPos (alongX (-5)))
      ⟨gridPos (alongX 2), by simp, grid_parallel _ _ (by decide) (by decide) (by decide)⟩
    have j2 := eqInsert_length (st := eqInsert ⟨[⟨[gridPos (alongX 2)], [gridOp (screwR 0) (fourfoldT 5 0)]⟩],
      [gridPos (alongX 2)]⟩ (gridOp (screwR 1) (fourfoldT 5 1)) (gridPos (alongX (-5))))
      (gridOp (screwR 2) (fourfoldT 5 2)) (gridPos (alongX (-2)))
      ⟨gridPos (alongX 2), by rw [j1.1]; simp, grid_parallel _ _ (by decide) (by decide) (by decide)⟩
    have j3 := eqInsert_length (st := eqInsert (eqInsert ⟨[⟨[gridPos (alongX 2)],
      [gridOp (screwR 0) (fourfoldT 5 0)]⟩], [gridPos (alongX 2)]⟩ (gridOp (screwR 1) (fourfoldT 5 1))
      (gridPos (alongX (-5)))) (gridOp (screwR 2) (fourfoldT 5 2)) (gridPos (alongX (-2))))
      (gridOp (screwR 3) (fourfoldT 5 3)) (gridPos (alongX (-5)))
      ⟨gridPos (alongX 2), by rw [j2.1, j1.1]; simp, grid_parallel _ _ (by decide) (by decide) (by decide)⟩
    rw [j3.2, j2.2, j1.2]
    rfl

/-- What spglib reports for the atom with the twofold axis only. -/
def twofoldSpglib : Mat3 ℝ → Pos 1 ℝ → (Fin 1 → ℕ) → Option SymDict := fun _ p _ =>
  some ⟨[gridOp (screwR 0) 0, gridOp (screwR 2) (if p 0 0 = 0 then 0 else ![10, 0, 0])], [0]⟩

/-- C143, concrete: with the twofold axis the atom may be at the corner or at `(1/4, 0, 0)`: all models
built from the same calls give the same predictions, here for an atom displaced along `x`. -/
example : ∃ s s', RefStructure.init twofoldSpglib (fun _ => 14) 1 (gridPos (atomAt 0)) = .ok s ∧
    RefStructure.init twofoldSpglib (fun _ => 14) 1 (gridPos (atomAt 5)) = .ok s' ∧ s'.ops ≠ s.ops ∧
    ∀ (spline : SplineFn) (we : Bool) (pol : Mat3 ℝ) (dummy : Bool) (calls : List (DofCall 1)),
      (afterCalls spline we (IModel.init s' pol dummy) calls).calcPolarizabilities
          [gridPos (atomAt 6)] =
        (afterCalls spline we (IModel.init s pol dummy) calls).calcPolarizabilities
          [gridPos (atomAt 1)] := by
  have e0 : gridPos (atomAt 0) 0 0 = 0 := by norm_num [gridPos, atomAt]
  have e5 : gridPos (atomAt 5) 0 0 ≠ 0 := by norm_num [gridPos, atomAt]
  have hm : ∀ x : ℤ, MovedBy (gridPos (atomAt 5) 0) (gridPos (atomAt x)) (gridPos (atomAt (x + 5))) := by
    intro x a i
    refine ⟨0, ?_⟩
    fin_cases i <;> norm_num [gridPos, atomAt]
    ring
  have d0 : twofoldSpglib 1 (gridPos (atomAt 0)) (fun _ => 14) =
      some ⟨[gridOp (screwR 0) 0, gridOp (screwR 2) 0], [0]⟩ := by
    unfold twofoldSpglib; rw [if_pos e0]
  have d5 : twofoldSpglib 1 (gridPos (atomAt 5)) (fun _ => 14) =
      some ⟨[gridOp (screwR 0) 0, gridOp (screwR 2) ![10, 0, 0]], [0]⟩ := by
    unfold twofoldSpglib; rw [if_neg e5]
  have hmo : ∀ (R : Matrix (Fin 3) (Fin 3) ℤ) (t' : Fin 3 → ℤ),
      (∀ i, (atomAt 5 0 i - ∑ j, atomAt 5 0 j * R j i - t' i) % 20 = 0) →
      MovedOperation (gridPos (atomAt 5) 0) (gridOp R 0).rot (gridOp R 0).trans (gridOp R t').rot
        (gridOp R t').trans := by
    intro R t' h
    refine ⟨rfl, fun i => ?_⟩
    have h' := twentieth_same _ _ (h i)
    rwa [show ((atomAt 5 0 i - ∑ j, atomAt 5 0 j * R j i : ℤ) : ℝ) / 20 =
      (gridOp R 0).trans i + gridPos (atomAt 5) 0 i -
        ∑ j, gridPos (atomAt 5) 0 j * (gridOp R 0).rot j i by
      simp only [gridPos, gridOp]
      push_cast
      rw [sub_div, Finset.sum_div]
      simp only [Pi.zero_apply, Int.cast_zero, zero_div, zero_add]
      congr 1
      exact Finset.sum_congr rfl fun j _ => by ring] at h'
  have hsym : ∀ op ∈ [gridOp (screwR 0) 0, gridOp (screwR 2) 0],
      ∃ σ, IsSymmetry (gridPos (atomAt 0)) op.rot op.trans σ := by
    intro op hop
    rcases List.mem_cons.1 hop with rfl | hop
    · exact ⟨1, grid_row _ _ _ _ (by decide)⟩
    · rw [List.mem_singleton.1 hop]
      exact ⟨1, grid_row _ _ _ _ (by decide)⟩
  obtain ⟨s, s', hs, hs', h⟩ := C143_workflow_partial twofoldSpglib (fun _ => 14) 1 (hm 0)
    (grid_closed _ (by decide)) (grid_closed _ (by decide))
    (fun j k hjk => absurd (Subsingleton.elim j k) hjk) _ _ d0 d5 hsym rfl
    (.cons (hmo _ _ (by decide)) (.cons (hmo _ _ (by decide)) .nil))
  refine ⟨s, s', hs, hs', ?_, fun spline we pol dummy calls =>
    h spline we pol dummy calls _ _ (.cons (hm 1) .nil)⟩
  have ops : ∀ (p : Pos 1 ℝ) (s : RefStructure 1) (d : SymDict),
      twofoldSpglib 1 p (fun _ => 14) = some d → RefStructure.init twofoldSpglib (fun _ => 14) 1 p = .ok s →
      s.ops = d.ops := by
    intro p s d hd hs
    unfold RefStructure.init at hs
    rw [hd] at hs
    dsimp only at hs
    cases hc : computePermutationMatrices d.ops p with
    | error e => rw [hc] at hs; cases hs
    | ok Ps => rw [hc] at hs; cases hs; rfl
  rw [ops _ s _ d0 hs, ops _ s' _ d5 hs']
  intro hcon
  have h1 := (List.cons.inj (List.cons.inj hcon).2).1
  have h2 := congrFun (congrArg SymOp.trans h1) 0
  norm_num [gridOp] at h2

end

end Verif
