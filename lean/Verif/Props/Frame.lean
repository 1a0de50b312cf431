import Verif.Proofs.Frame
import Verif.Proofs.Spectrum
import Verif.Props.Spectrum
import Verif.Props.Dynamics

/-!
# C142: the laboratory frame

The same crystal can be described in any orientation: `IModel.inFrame Q m` is the model `m` with
lattice vectors and basis vectors rotated by the orthogonal matrix `Q` and with polarizabilities
turned accordingly; fractional coordinates stay.
-/

namespace Verif

open Spec

noncomputable section

variable {N : ℕ}

/-- C142: if spglib's (fractional) operations do not depend on the orientation of the cell, the
reference structure in the rotated frame differs in its lattice vectors only. -/
theorem C142_reference (spglib : Mat3 ℝ → Pos N ℝ → (Fin N → ℕ) → Option SymDict)
    (nums : Fin N → ℕ) (lat Q : Mat3 ℝ) (p : Pos N ℝ)
    (h : spglib (lat * Q) p nums = spglib lat p nums) :
    RefStructure.init spglib nums (lat * Q) p =
      (RefStructure.init spglib nums lat p).map fun s => { s with lattice := lat * Q } := by
  unfold RefStructure.init
  rw [h]
  cases spglib lat p nums with
  | none => rfl
  | some sym =>
    dsimp only
    cases computePermutationMatrices sym.ops p with
    | error e => rfl
    | ok P => rfl

/-- C142: predictions (and failures) in the rotated frame are the turned ones, for every model and
all configurations. -/
theorem C142_predictions {Q : Mat3 ℝ} (hQ : Q * Q.transpose = 1) (m : IModel N)
    (batch : List (Pos N ℝ)) :
    (m.inFrame Q).calcPolarizabilities batch =
      (m.calcPolarizabilities batch).map (List.map (turned Q)) := by
  unfold IModel.inFrame
  rw [calc_turned, calc_reoriented hQ]

/-- C142: without exception, `add_dof` with the rotated displacement in a rotated cell does what it
does in the original cell with the same numbers for the polarizabilities; the basis vectors added are
rotated.  (Hence the components of the polarizabilities of symmetry images refer to axes that do not
turn with the crystal, see `C142_counterexample`.) -/
theorem C142_geometry {Q : Mat3 ℝ} (hQ : Q * Q.transpose = 1) (spline : SplineFn) (we : Bool)
    (m : IModel N) (cart : Pos N ℝ) (amps : List ℝ) (pols : List (Mat3 ℝ)) (order : ℤ) (inc : Bool)
    (o : Outcome N) (ho : o = m.addDof spline we cart amps pols order inc) :
    (m.reoriented Q).addDof spline we (toCart Q cart) amps pols order inc =
      { o with state := { o.state with
          ref := { o.state.ref with lattice := o.state.ref.lattice * Q }
          basis := o.state.basis.map (toCart Q) } } := by
  subst ho
  exact addDofNan_reoriented hQ spline we m (some cart) amps pols order inc

/-- C142, building a model: if all symmetry operations commute with `Q` (as matrices), then `add_dof`
with rotated displacement and turned polarizabilities succeeds or fails as in the original frame, with
the same warnings, and leaves behind the same model as seen from the rotated frame.  Missing:
operations that do not commute, for which this is false (`C142_counterexample`). -/
theorem C142_add_dof_partial {Q : Mat3 ℝ} (hQ : Q * Q.transpose = 1) (spline : SplineFn)
    (hs : SplineTurns Q spline) (we : Bool) (m : IModel N)
    (h : ∀ op ∈ m.ref.ops, op.rot * Q = Q * op.rot) (cart : Pos N ℝ) (amps : List ℝ)
    (pols : List (Mat3 ℝ)) (order : ℤ) (inc : Bool) (o : Outcome N)
    (ho : o = m.addDof spline we cart amps pols order inc) :
    (m.inFrame Q).addDof spline we (toCart Q cart) amps (pols.map (turned Q)) order inc =
      ⟨o.result, o.warnings, o.state.inFrame Q⟩ := by
  subst ho
  have h1 := addDofNan_turned hQ hs we (m.reoriented Q) h (some (toCart Q cart)) amps pols order inc
  have h2 := addDofNan_reoriented hQ spline we m (some cart) amps pols order inc
  rw [show (some (toCart Q cart)) = (some cart).map (toCart Q) from rfl, h2] at h1
  exact h1

/-- C142, the same for degrees of freedom read from files. -/
theorem C142_files_partial {Q : Mat3 ℝ} (hQ : Q * Q.transpose = 1) (spline : SplineFn)
    (hs : SplineTurns Q spline) (we : Bool) (m : IModel N)
    (h : ∀ op ∈ m.ref.ops, op.rot * Q = Q * op.rot) (files : List (DofFile N)) (order : ℤ)
    (o : Outcome N) (ho : o = m.addDofFromFiles spline we files order) :
    (m.inFrame Q).addDofFromFiles spline we (files.map (DofFile.turnedBy Q)) order =
      ⟨o.result, o.warnings, o.state.inFrame Q⟩ := by
  subst ho
  have h1 := addDofFromFiles_turned hQ hs we (m.reoriented Q) h files order
  rw [addDofFromFiles_reoriented hQ] at h1
  exact h1

/-- C142, the same for atoms displaced one at a time. -/
theorem C142_art_partial {Q : Mat3 ℝ} (hQ : Q * Q.transpose = 1) (spline : SplineFn)
    (hs : SplineTurns Q spline) (we : Bool) (m : IModel N)
    (h : ∀ op ∈ m.ref.ops, op.rot * Q = Q * op.rot) (a : ℤ) (dir : Vec3) (amps : List ℝ)
    (pols : List (Mat3 ℝ)) (o : Outcome N) (ho : o = m.addArt spline we a dir amps pols) :
    (m.inFrame Q).addArt spline we a (fun j => ∑ i, dir i * Q i j) amps (pols.map (turned Q)) =
      ⟨o.result, o.warnings, o.state.inFrame Q⟩ := by
  subst ho
  have h1 := addArt_turned hQ hs we (m.reoriented Q) h a (fun j => ∑ i, dir i * Q i j) amps pols
  rw [addArt_reoriented hQ] at h1
  exact h1

/-- C142, the same for atoms displaced one at a time, from files. -/
theorem C142_art_files_partial {Q : Mat3 ℝ} (hQ : Q * Q.transpose = 1) (spline : SplineFn)
    (hs : SplineTurns Q spline) (we : Bool) (m : IModel N)
    (h : ∀ op ∈ m.ref.ops, op.rot * Q = Q * op.rot) (files : List (DofFile N))
    (o : Outcome N) (ho : o = m.addArtFromFiles spline we files) :
    (m.inFrame Q).addArtFromFiles spline we (files.map (DofFile.turnedBy Q)) =
      ⟨o.result, o.warnings, o.state.inFrame Q⟩ := by
  subst ho
  have h1 := addArtFromFiles_turned hQ hs we (m.reoriented Q) h files
  rw [addArtFromFiles_reoriented hQ] at h1
  exact h1

/-- One `add_dof` call: displacement, amplitudes, polarizabilities, order. -/
abbrev DofCall (N : ℕ) := Pos N ℝ × List ℝ × List (Mat3 ℝ) × ℤ

/-- The model after a number of `add_dof` calls (exceptions caught). -/
def afterCalls (spline : SplineFn) (we : Bool) (m : IModel N) (calls : List (DofCall N)) : IModel N :=
  calls.foldl (fun m c => (m.addDof spline we c.1 c.2.1 c.2.2.1 c.2.2.2 true).state) m

/-- C142 for crystals with no symmetry but the identity and the inversion: any number of `add_dof`
calls gives, in every frame, the same model, so that all predictions turn with the crystal. -/
theorem C142_triclinic {Q : Mat3 ℝ} (hQ : Q * Q.transpose = 1) (spline : SplineFn)
    (hs : SplineTurns Q spline) (we : Bool) (s : RefStructure N)
    (h : ∀ op ∈ s.ops, op.rot = 1 ∨ op.rot = -1) (pol : Mat3 ℝ) (dummy : Bool)
    (calls : List (DofCall N)) (batch : List (Pos N ℝ)) :
    (afterCalls spline we (IModel.init { s with lattice := s.lattice * Q } (turned Q pol) dummy)
      (calls.map fun c => (toCart Q c.1, c.2.1, c.2.2.1.map (turned Q), c.2.2.2))).calcPolarizabilities
        batch =
    ((afterCalls spline we (IModel.init s pol dummy) calls).calcPolarizabilities batch).map
      (List.map (turned Q)) := by
  have h0 : IModel.init { s with lattice := s.lattice * Q } (turned Q pol) dummy =
      (IModel.init s pol dummy).inFrame Q := by
    unfold IModel.init IModel.inFrame IModel.turnedBy IModel.reoriented RefStructure.reoriented
    dsimp only [List.map_nil]
    congr 1
    split_ifs
    · exact (turned_zero Q).symm
    · rfl
  have key : ∀ (cs : List (DofCall N)) (m : IModel N), m.ref = s →
      afterCalls spline we (m.inFrame Q)
        (cs.map fun c => (toCart Q c.1, c.2.1, c.2.2.1.map (turned Q), c.2.2.2)) =
      (afterCalls spline we m cs).inFrame Q := by
    intro cs
    induction cs with
    | nil => intro m _; rfl
    | cons c cs ih =>
      intro m hm
      have h1 := C142_add_dof_partial hQ spline hs we m (fun op hop => by
        rcases h op (hm ▸ hop) with e | e <;> rw [e] <;> simp) c.1 c.2.1 c.2.2.1 c.2.2.2 true _ rfl
      unfold afterCalls at ih ⊢
      rw [List.map_cons, List.foldl_cons, List.foldl_cons]
      dsimp only
      rw [h1]
      refine ih _ ?_
      rw [← hm]
      unfold IModel.addDof IModel.addDofNan constructAndAdd
      cases prepareDof m (some c.1) c.2.1 c.2.2.1 true with
      | error e => rfl
      | ok gs =>
        dsimp only
        by_cases ho : c.2.2.2 < 1
        · rw [if_pos ho]
        · rw [if_neg ho]
          rcases buildAll spline we c.2.2.2.toNat gs with ⟨r, ws⟩
          cases r with
          | error e => rfl
          | ok fs =>
            dsimp only
            cases finiteBasis gs with
            | error e => rfl
            | ok bs => dsimp only; split_ifs <;> rfl
  rw [h0, key calls _ rfl, C142_predictions hQ]

/-- C142: phonon Raman tensors computed with a model in the rotated frame are the turned ones; if they
are symmetric, every measured spectrum is the same, with any options. -/
theorem C142_phonons {Q : Mat3 ℝ} (hQ : Q * Q.transpose = 1) (m : IModel N) (ph : Phonons N)
    (s : PhononSpectrum) (h : ph.getRamanSpectrum m.calcPolarizabilities = .ok s) :
    ∃ s', ph.getRamanSpectrum (m.inFrame Q).calcPolarizabilities = .ok s' ∧
      s'.wavenumbers = s.wavenumbers ∧ s'.tensors = s.tensors.map (turned Q) ∧
      ((∀ R ∈ s.tensors, R.IsSymm) → ∀ args, (s'.measure args).1 = (s.measure args).1) := by
  have hm : ph.displacements.mapM (ramanTensor (m.inFrame Q).calcPolarizabilities ph.refPositions) =
      (ph.displacements.mapM (ramanTensor m.calcPolarizabilities ph.refPositions)).map
        (List.map (turned Q)) := by
    rw [← mapM_except_map]
    congr 1
    funext d
    exact ramanTensor_turned Q (C142_predictions hQ m) _ d
  unfold Phonons.getRamanSpectrum at h ⊢
  rw [hm]
  cases hts : ph.displacements.mapM (ramanTensor m.calcPolarizabilities ph.refPositions) with
  | error e => rw [hts] at h; cases h
  | ok ts =>
    rw [hts] at h
    change (if ts.isEmpty then _ else PhononSpectrum.init ph.wavenumbers ts) = _ at h
    change ∃ s', (if (ts.map (turned Q)).isEmpty then _ else
      PhononSpectrum.init ph.wavenumbers (ts.map (turned Q))) = _ ∧ _
    rw [List.isEmpty_map]
    split_ifs at h ⊢ with he
    unfold PhononSpectrum.init at h ⊢
    rw [List.length_map]
    split_ifs at h ⊢ with hl
    cases h
    refine ⟨_, rfl, rfl, rfl, fun hsym args => ?_⟩
    have := C49_rotation ⟨ph.wavenumbers, ts⟩ hsym Q.transpose
      (by rw [Matrix.transpose_transpose]; exact hQ) args
    rw [Matrix.transpose_transpose] at this
    exact this

/-- C142: molecular-dynamics spectra are the same in every frame if the predictions are symmetric. -/
theorem C142_trajectories {Q : Mat3 ℝ} (hQ : Q * Q.transpose = 1) (m : IModel N) (t : Trajectory N)
    (s : MDSpectrum) (h : t.getRamanSpectrum m.calcPolarizabilities = .ok s)
    (h2 : 2 ≤ s.polarizabilityTs.length) (hdt : 0 < t.timestep)
    (hsym : ∀ A ∈ s.polarizabilityTs, A.IsSymm) :
    ∃ s', t.getRamanSpectrum (m.inFrame Q).calcPolarizabilities = .ok s' ∧
      s'.timestep = s.timestep ∧ s'.polarizabilityTs = s.polarizabilityTs.map (turned Q) ∧
      ∀ args, (s'.measure args).1 = (s.measure args).1 := by
  unfold Trajectory.getRamanSpectrum at h ⊢
  rw [C142_predictions hQ]
  rw [asIncompatible_id] at h ⊢
  cases hts : m.calcPolarizabilities t.positionsTs with
  | error e => rw [hts] at h; cases h
  | ok ts =>
    rw [hts] at h
    cases h
    refine ⟨_, rfl, rfl, rfl, fun args => ?_⟩
    have := C55_rotation ts t.timestep h2 hdt hsym Q.transpose
      (by rw [Matrix.transpose_transpose]; exact hQ) args
    rw [Matrix.transpose_transpose] at this
    exact this

/-! ### Concrete cases -/

theorem lookupSpline_turns (Q : Mat3 ℝ) : SplineTurns Q lookupSpline := by
  intro k pts
  unfold lookupSpline
  change Except.ok _ = Except.ok _
  congr 1
  funext x
  rw [List.find?_map]
  rw [show ((fun p : ℝ × Mat3 ℝ => decide (p.1 = x)) ∘ fun x => (x.1, turned Q x.2))
    = fun p : ℝ × Mat3 ℝ => decide (p.1 = x) from rfl]
  cases hp : pts.find? (fun p => decide (p.1 = x)) with
  | none => simp [hp, turned_zero]
  | some p => simp [hp]

/-- A rotation about `z`. -/
def tilt : Mat3 ℝ := !![3 / 5, 4 / 5, 0; -(4 / 5), 3 / 5, 0; 0, 0, 1]

theorem tilt_orthogonal : tilt * tilt.transpose = 1 := by
  unfold tilt
  ext i j
  fin_cases i <;> fin_cases j <;> simp [Matrix.mul_apply, Fin.sum_univ_three] <;> norm_num

/-- The prediction for the mirror image of the displaced structure. -/
theorem mir_predict (nums : Fin 1 → ℕ) (s : RefStructure 1)
    (hs : RefStructure.init mirSpglib nums 1 (fun _ _ => 0) = .ok s) (hops : s.ops = mirOps)
    (C D : Mat3 ℝ) : ∃ o, o = (IModel.init s 1 false).addDof lookupSpline true (one1 mirV)
      [-(3 / 50), 3 / 50] [C, D] 2 true ∧ o.result = .ok () ∧
      o.state.calcPolarizabilities [one1 ![0, 3 / 50, 0]] =
        .ok [1 + mirRot * (D - 1) * mirRot] := by
  obtain ⟨hpos, hlat, _⟩ := init_facts hs
  have ho : orthCheck (IModel.init s 1 false) (some (one1 mirV)) = -1 := by
    unfold orthCheck
    dsimp only
    rw [C08_all_orthogonal]
    intro x hx
    simp [IModel.init] at hx
  obtain ⟨g, h, hgh, hg0, hh⟩ := mir_addV nums s hs hops C D (IModel.init s 1 false) rfl rfl ho
  refine ⟨_, rfl, by rw [hgh], ?_⟩
  rw [hgh]
  have hn : calcDisplacement s.positions (one1 ![0, 3 / 50, 0]) = one1 ![0, 3 / 50, 0] := by
    refine (calcDisplacement_nearest _ _).unique fun a i => ⟨?_, 0, ?_⟩
    · fin_cases i <;> norm_num [one1, InHalfBox]
    · rw [hpos]; simp
  have hc : s.getCartDisplacement (one1 ![0, 3 / 50, 0]) = one1 ![0, 3 / 50, 0] := by
    rw [getCart_of_box _ _ fun a i => by fin_cases i <;> norm_num [one1, InHalfBox], hlat, toCart_one]
  have a1 : getAmplitude (one1 mirX) (one1 ![0, 3 / 50, 0]) = 0 := by
    unfold getAmplitude
    rw [dot_flat]
    simp [inner3, one1, mirX, mirV, Fin.sum_univ_three]
  have a2 : getAmplitude (one1 mirY) (one1 ![0, 3 / 50, 0]) = 3 / 50 := by
    unfold getAmplitude
    rw [dot_flat]
    simp [inner3, one1, mirY, mirV', Fin.sum_univ_three]
  unfold IModel.calcPolarizabilities
  simp only [IModel.init, List.nil_append, List.map_cons, List.map_nil, hn, hc, accumulate,
    List.zipWith_cons_cons, List.zipWith_nil_right, a1, a2, hg0, hh, oneMinus]
  simp [add_comm]

/-- C142, counterexample: one atom in a simple cubic cell with the mirror plane `x ↔ y`, an isotropic
reference polarizability, and one `add_dof` call.  In the frame rotated by `tilt` the same data give a
prediction (for the mirrored structure) that is not the turned one: the symmetry image of the
polarizability was computed as if the cell axes were those of the laboratory. -/
theorem C142_counterexample (nums : Fin 1 → ℕ) :
    ∃ (s s' : RefStructure 1) (C D A A' : Mat3 ℝ) (o o' : Outcome 1) (q : Pos 1 ℝ),
      tilt * tilt.transpose = 1 ∧
      RefStructure.init mirSpglib nums 1 (fun _ _ => 0) = .ok s ∧
      RefStructure.init mirSpglib nums (1 * tilt) (fun _ _ => 0) = .ok s' ∧
      turned tilt (1 : Mat3 ℝ) = 1 ∧
      o = (IModel.init s 1 false).addDof lookupSpline true (one1 mirV) [-(3 / 50), 3 / 50] [C, D] 2
        true ∧ o.result = .ok () ∧
      o' = (IModel.init s' (turned tilt 1) false).addDof lookupSpline true (toCart tilt (one1 mirV))
        [-(3 / 50), 3 / 50] [turned tilt C, turned tilt D] 2 true ∧ o'.result = .ok () ∧
      o.state.calcPolarizabilities [q] = .ok [A] ∧ o'.state.calcPolarizabilities [q] = .ok [A'] ∧
      A' ≠ turned tilt A := by
  obtain ⟨s, hs, hops⟩ := mirInit nums
  obtain ⟨hpos, hlat, _⟩ := init_facts hs
  have ht1 : turned tilt (1 : Mat3 ℝ) = 1 := by
    unfold turned
    rw [Matrix.mul_one]
    exact mul_eq_one_comm.1 tilt_orthogonal
  have hs' := C142_reference mirSpglib nums 1 tilt (fun _ _ => 0) rfl
  rw [hs] at hs'
  have es : ({ s with lattice := 1 * tilt } : RefStructure 1) = s.reoriented tilt := by
    unfold RefStructure.reoriented; rw [hlat]
  obtain ⟨o, ho, hok, hp⟩ := mir_predict nums s hs hops 1 !![2, 0, 0; 0, 1, 0; 0, 0, 1]
  obtain ⟨o₁, ho₁, hok₁, hp₁⟩ := mir_predict nums s hs hops (turned tilt 1)
    (turned tilt !![2, 0, 0; 0, 1, 0; 0, 0, 1])
  have hr := addDofNan_reoriented tilt_orthogonal lookupSpline true (IModel.init s 1 false)
    (some (one1 mirV)) [-(3 / 50), 3 / 50]
    [turned tilt 1, turned tilt !![2, 0, 0; 0, 1, 0; 0, 0, 1]] 2 true
  rw [← IModel.addDof, ← ho₁] at hr
  refine ⟨s, s.reoriented tilt, 1, !![2, 0, 0; 0, 1, 0; 0, 0, 1],
    1 + mirRot * (!![2, 0, 0; 0, 1, 0; 0, 0, 1] - 1) * mirRot,
    1 + mirRot * (turned tilt !![2, 0, 0; 0, 1, 0; 0, 0, 1] - 1) * mirRot, o, o₁.reoriented tilt,
    one1 ![0, 3 / 50, 0], tilt_orthogonal, hs, by rw [hs']; exact congrArg Except.ok es, ht1, ho, hok,
    ?_, hok₁, hp, ?_, ?_⟩
  · rw [ht1]
    rw [ht1] at hr
    exact hr.symm
  · change (o₁.state.reoriented tilt).calcPolarizabilities _ = _
    rw [calc_reoriented tilt_orthogonal]
    exact hp₁
  · have h1 : turned tilt !![2, 0, 0; 0, 1, 0; 0, 0, 1] =
        !![34 / 25, 12 / 25, 0; 12 / 25, 41 / 25, 0; 0, 0, 1] := by
      unfold turned tilt
      ext i j
      fin_cases i <;> fin_cases j <;> simp [Matrix.mul_apply, Fin.sum_univ_three] <;> norm_num
    have h2 : ∀ a b c d : ℝ, mirRot * (!![a, b, 0; c, d, 0; 0, 0, 1] - 1) * mirRot =
        !![d - 1, c, 0; b, a - 1, 0; 0, 0, 0] := by
      intro a b c d
      have h : (!![a, b, 0; c, d, 0; 0, 0, 1] - 1 : Mat3 ℝ) =
          !![a - 1, b, 0; c, d - 1, 0; 0, 0, 0] := by
        ext i j
        fin_cases i <;> fin_cases j <;> simp
      rw [h]
      unfold mirRot
      ext i j
      fin_cases i <;> fin_cases j <;> simp [Matrix.mul_apply, Fin.sum_univ_three]
    have h3 : turned tilt !![1 - 1, 0, 0; 0, 2 - 1, 0; 0, 0, 0] =
        !![16 / 25, -(12 / 25), 0; -(12 / 25), 9 / 25, 0; 0, 0, 0] := by
      unfold turned tilt
      ext i j
      fin_cases i <;> fin_cases j <;> simp [Matrix.mul_apply, Fin.sum_univ_three] <;> norm_num
    rw [h1, h2, h2, turned_add, ht1, h3]
    intro hcon
    have hc : (!![41 / 25 - 1, 12 / 25, 0; 12 / 25, 34 / 25 - 1, 0; 0, 0, 0] : Mat3 ℝ) = _ :=
      add_left_cancel hcon
    have := congrFun (congrFun hc 0) 1
    simp at this
    norm_num at this

/-- C142, concrete: one atom in a cubic cell without symmetry, one call, any two polarizabilities:
the call succeeds in the rotated frame and predictions there are the turned ones. -/
example (A B pol : Mat3 ℝ) : ∃ (s : RefStructure 1) (cart : Pos 1 ℝ) (o o' : Outcome 1),
    o = (IModel.init s pol false).addDof lookupSpline true cart [-1 / 10, 1 / 10] [A, B] 2 ∧
    o.result = .ok () ∧ o.state.basis.length = 1 ∧
    o' = ((IModel.init s pol false).inFrame tilt).addDof lookupSpline true (toCart tilt cart)
      [-1 / 10, 1 / 10] [turned tilt A, turned tilt B] 2 ∧ o'.result = .ok () ∧
    ∀ batch, o'.state.calcPolarizabilities batch =
      (o.state.calcPolarizabilities batch).map (List.map (turned tilt)) := by
  obtain ⟨s, hs, hops⟩ := trivialInit
  obtain ⟨o, b, ho, hok, hb, _⟩ := C32_concrete A B pol s hs hops
  have h := C142_add_dof_partial tilt_orthogonal lookupSpline (lookupSpline_turns tilt) true
    (IModel.init s pol false) (fun op hop => by
      have h1 : op ∈ s.ops := hop
      rw [hops] at h1
      rw [List.mem_singleton.1 h1]
      simp) _ _ _ _ _ o ho
  refine ⟨s, _, o, _, ho, hok, by rw [hb]; rfl, h.symm, hok, fun batch => ?_⟩
  exact C142_predictions tilt_orthogonal _ _

end

end Verif
