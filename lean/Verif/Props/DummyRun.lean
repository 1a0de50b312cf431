import Verif.Proofs.DummyRun
import Verif.Props.DofPaths

/-!
# Property C170: dummy models rehearse real ones

The vocabulary (`SameGeometry`, `SameCall`, `DependsOnAmplitudes`, `Agree`) is defined at the beginning of
`Verif.Proofs.DummyRun`.
-/

namespace Verif

open Spec

variable {N : ℕ}

/-- C170: a call has the same result (the same exception if any), issues the same warnings and adds the
same basis vectors and mask entries in two models with the same geometry, whatever the polarizabilities
and whether or not one of the models is a dummy. -/
theorem C170_call {spline : SplineFn} (hs : DependsOnAmplitudes spline) (we : Bool) (m m' : IModel N)
    (hm : SameGeometry m m') (c c' : AddCall N) (hc : SameCall m.dummy m'.dummy c c') :
    Agree (c.run spline we m) (c'.run spline we m') := by
  cases hc with
  | dof cart amps order h => exact addDofNan_same hs we hm (some cart) amps h order true
  | files order h =>
    unfold AddCall.run IModel.addDofFromFiles
    dsimp only
    rcases (readDof_same hm h).cases with ⟨e, h1, h2⟩ | ⟨⟨ds, amps, pols⟩, ⟨ds', amps', pols'⟩, h1, h2, h3⟩
    · rw [h1, h2]; exact ⟨rfl, rfl, hm⟩
    · obtain ⟨h3, h4, h5, h6, h7⟩ := h3
      dsimp only at h3 h4 h5 h6 h7
      subst h3 h4
      rw [h1, h2]
      cases ds with
      | nil => exact ⟨rfl, rfl, hm⟩
      | cons d0 ds =>
        dsimp only
        rw [hm.ref]
        exact addDofNan_same hs we hm _ amps
          (iff_of_true (.inr (h5.trans h7.symm)) (.inr (h6.trans h7.symm))) order true
  | pymatgen ss order h =>
    unfold AddCall.run IModel.addDofFromPymatgen
    dsimp only
    rw [← pmg_same hm]
    rw [if_neg (by simp), if_neg (by simp)]
    cases hp : pmgDisplacementAmplitudes true m ss with
    | error e => exact ⟨rfl, rfl, hm⟩
    | ok r =>
      rcases r with ⟨ds, amps⟩
      cases ds with
      | nil => exact ⟨rfl, rfl, hm⟩
      | cons d0 ds =>
        dsimp only
        rw [hm.ref]
        exact addDofNan_same hs we hm _ amps (by rw [pmg_count hp]; exact h) order true
  | art atom dir amps h =>
    unfold AddCall.run IModel.addArt
    dsimp only
    rw [← prepareArt_same hm atom dir amps h]
    cases prepareArt m atom dir amps _ with
    | error e => exact ⟨rfl, rfl, hm⟩
    | ok cart => exact addDofNan_same hs we hm cart amps h 1 false
  | artFiles h =>
    unfold AddCall.run IModel.addArtFromFiles
    dsimp only
    rcases (readDof_same hm h).cases with ⟨e, h1, h2⟩ | ⟨⟨ds, amps, pols⟩, ⟨ds', amps', pols'⟩, h1, h2, h3⟩
    · rw [h1, h2]; exact ⟨rfl, rfl, hm⟩
    · obtain ⟨h3, h4, h5, h6, h7⟩ := h3
      dsimp only at h3 h4 h5 h6 h7
      subst h3 h4
      rw [h1, h2]
      cases ds with
      | nil => exact ⟨rfl, rfl, hm⟩
      | cons d0 ds => exact artRest_same hs we hm d0 amps (h5.trans h6.symm) rfl rfl
  | artPymatgen ss h =>
    unfold AddCall.run IModel.addArtFromPymatgen
    dsimp only
    rw [← pmg_same hm]
    cases hp : pmgDisplacementAmplitudes true m ss with
    | error e => exact ⟨rfl, rfl, hm⟩
    | ok r =>
      rcases r with ⟨ds, amps⟩
      cases ds with
      | nil => exact ⟨rfl, rfl, hm⟩
      | cons d0 ds => exact artRest_same hs we hm d0 amps h rfl rfl

theorem AddCall.run_flag (spline : SplineFn) (we : Bool) (m : IModel N) (c : AddCall N) :
    (c.run spline we m).state.dummy = m.dummy ∧ (c.run spline we m).state.ref = m.ref := by
  rcases c.run_state spline we m with h | ⟨gs, order, h⟩
  · rw [h]; exact ⟨rfl, rfl⟩
  · rw [h]
    unfold constructAndAdd
    split_ifs
    · exact ⟨rfl, rfl⟩
    · rcases buildAll spline we order.toNat gs with ⟨r, ws⟩
      cases r with
      | error e => exact ⟨rfl, rfl⟩
      | ok fs =>
        dsimp only
        cases finiteBasis gs with
        | error e => exact ⟨rfl, rfl⟩
        | ok bs => dsimp only; split_ifs <;> exact ⟨rfl, rfl⟩

/-- C170: the same for any sequence of calls: it is refused in both models with the same exception, or
accepted in both with the same warnings and the same degrees of freedom. -/
theorem C170_scripts {spline : SplineFn} (hs : DependsOnAmplitudes spline) (we : Bool) (m m' : IModel N)
    (hm : SameGeometry m m') (cs cs' : List (AddCall N))
    (hc : List.Forall₂ (SameCall m.dummy m'.dummy) cs cs') :
    (∃ e, runScript spline we m cs = .error e ∧ runScript spline we m' cs' = .error e) ∨
    ∃ ws r r', runScript spline we m cs = .ok (ws, r) ∧ runScript spline we m' cs' = .ok (ws, r') ∧
      r.ref = m.ref ∧ SameGeometry r r' := by
  generalize hd : m.dummy = d at hc
  generalize hd' : m'.dummy = d' at hc
  induction hc generalizing m m' with
  | nil => exact .inr ⟨[], m, m', rfl, rfl, rfl, hm⟩
  | @cons c c' cs cs' h _ ih =>
    subst hd hd'
    obtain ⟨h1, h2, h3⟩ := C170_call hs we m m' hm c c' h
    rw [runScript, runScript, ← h1, ← h2]
    cases hr : (c.run spline we m).result with
    | error e => exact .inl ⟨e, rfl, rfl⟩
    | ok u =>
      dsimp only
      rcases ih _ _ h3 (c.run_flag spline we m).1 (c'.run_flag spline we m').1 with
        ⟨e, e1, e2⟩ | ⟨ws, r, r', e1, e2, e3, e4⟩
      · rw [e1, e2]; exact .inl ⟨e, rfl, rfl⟩
      · rw [e1, e2]
        exact .inr ⟨_, r, r', rfl, rfl, e3.trans (c.run_flag spline we m).2, e4⟩

/-- A call that gives a polarizability for every displacement. -/
def AddCall.Complete : AddCall N → Prop
  | .dof _ amps pols _ => pols.length = amps.length
  | .pymatgen ss pols _ => pols.length = ss.length
  | .art _ _ amps pols => pols.length = amps.length
  | _ => True

/-- The same call for a dummy model: other polarizabilities.  Any number of them will do, except for
`add_art_from_pymatgen`. -/
inductive Rehearsal : AddCall N → AddCall N → Prop
  | dof (cart amps pols order) (pols') : Rehearsal (.dof cart amps pols order) (.dof cart amps pols' order)
  | files {fs fs'} (order) : List.Forall₂ (SameOutcome fun x x' => x.1 = x'.1) fs fs' →
      Rehearsal (.files fs order) (.files fs' order)
  | pymatgen (ss pols order) (pols') : Rehearsal (.pymatgen ss pols order) (.pymatgen ss pols' order)
  | art (atom dir amps pols) (pols') : Rehearsal (.art atom dir amps pols) (.art atom dir amps pols')
  | artFiles {fs fs'} : List.Forall₂ (SameOutcome fun x x' => x.1 = x'.1) fs fs' →
      Rehearsal (.artFiles fs) (.artFiles fs')
  | artPymatgen (ss) {pols pols'} : pols.length = pols'.length →
      Rehearsal (.artPymatgen ss pols) (.artPymatgen ss pols')

/-- C170: a dummy model is a rehearsal of the real one.  A script that gives polarizabilities for all
displacements runs through in the real model if and only if the script without polarizabilities runs
through in a dummy model of the same structure; otherwise both stop with the same exception.  Both issue
the same warnings and end with the same basis vectors and mask. -/
theorem C170_dry_run {spline : SplineFn} (hs : DependsOnAmplitudes spline) (we : Bool)
    (ref : RefStructure N) (pol pol' : Mat3 ℝ) (real rehearsal : List (AddCall N))
    (hc : ∀ c ∈ real, c.Complete) (hr : List.Forall₂ Rehearsal real rehearsal) :
    (∃ e, runScript spline we (IModel.init ref pol false) real = .error e ∧
      runScript spline we (IModel.init ref pol' true) rehearsal = .error e) ∨
    ∃ ws m d, runScript spline we (IModel.init ref pol false) real = .ok (ws, m) ∧
      runScript spline we (IModel.init ref pol' true) rehearsal = .ok (ws, d) ∧
      d.basis = m.basis ∧ d.mask = m.mask := by
  have h : List.Forall₂ (SameCall false true) real rehearsal := by
    induction hr with
    | nil => exact List.Forall₂.nil
    | @cons c c' cs cs' h _ ih =>
      refine List.Forall₂.cons ?_ (ih fun c hc' => hc c (List.mem_cons_of_mem _ hc'))
      have h1 := hc c List.mem_cons_self
      cases h with
      | dof cart amps pols order pols' => exact .dof _ _ _ (iff_of_true (.inr h1) (.inl rfl))
      | files order h => exact .files _ h
      | pymatgen ss pols order pols' => exact .pymatgen _ _ (iff_of_true (.inr h1) (.inl rfl))
      | art atom dir amps pols pols' => exact .art _ _ _ (iff_of_true (.inr h1) (.inl rfl))
      | artFiles h => exact .artFiles h
      | artPymatgen ss h => exact .artPymatgen _ h
  rcases C170_scripts hs we (IModel.init ref pol false) (IModel.init ref pol' true) ⟨rfl, rfl, rfl⟩ _ _ h
    with h | ⟨ws, r, r', e1, e2, -, e4⟩
  · exact .inl h
  · exact .inr ⟨ws, r, r', e1, e2, e4.basis.symm, e4.mask.symm⟩

/-- C170: what can be asked of the geometry afterwards has the same answer, and masking keeps the two
models in step. -/
theorem C170_queries (m m' : IModel N) (hm : SameGeometry m m') :
    (∀ reqs, m.getDofIndexes reqs = m'.getDofIndexes reqs) ∧
    m.getSpecificationTuples = m'.getSpecificationTuples ∧
    (∀ v, (m.setMask v).result = (m'.setMask v).result ∧
      SameGeometry (m.setMask v).state (m'.setMask v).state) ∧
    (∀ idx, SameOutcome SameGeometry (m.getMaskedModel idx) (m'.getMaskedModel idx)) ∧
    SameGeometry m.unmask m'.unmask := by
  have h1 : ∀ reqs, m.getDofIndexes reqs = m'.getDofIndexes reqs := by
    intro reqs
    have : ∀ reqs : List AtomReq, requestedAtoms m reqs = requestedAtoms m' reqs := by
      intro reqs
      induction reqs with
      | nil => rfl
      | cons r rs ih =>
        cases r with
        | index i => rw [requestedAtoms, requestedAtoms, ih]
        | symbol s => rw [requestedAtoms, requestedAtoms, ih, hm.ref]
    unfold IModel.getDofIndexes
    rw [this, hm.basis]
  refine ⟨h1, ?_, ?_, ?_, ?_⟩
  · have h2 : ∀ a, m.getArtCartDirections a = m'.getArtCartDirections a := by
      intro a
      unfold IModel.getArtCartDirections
      rw [h1, hm.basis]
    unfold IModel.getSpecificationTuples
    rw [hm.ref]
    simp only [h2]
  · intro v
    unfold IModel.setMask
    rw [hm.mask]
    split_ifs
    · exact ⟨rfl, hm⟩
    · exact ⟨rfl, hm.ref, hm.basis, rfl⟩
  · intro idx
    clear h1
    rcases m with ⟨ref, p, d, basis, fs, mask⟩
    rcases m' with ⟨ref', p', d', basis', fs', mask'⟩
    obtain rfl : mask = mask' := hm.mask
    unfold IModel.getMaskedModel
    dsimp only
    cases maskIndexes mask.length idx with
    | none => rfl
    | some ks => exact ⟨hm.ref, hm.basis, rfl⟩
  · exact ⟨hm.ref, hm.basis, by unfold IModel.unmask; rw [hm.mask]⟩

variable {R : Type}

/-- C170: with files, the structures to be computed can be checked before the calculations are run.  If
a dummy model is given files with the positions of the displaced structures (POSCAR files, say), and the
real model later gets files with the same positions and polarizabilities, then the two calls agree. -/
theorem C170_files (env env' : Env R) {spline : SplineFn} (hs : DependsOnAmplitudes spline) (we : Bool)
    (hN : N ≠ 0) (m d : IModel N) (hm : SameGeometry m d) (hreal : m.dummy = false)
    (hdum : d.dummy = true) (arg arg' : PathsArg) (fmt fmt' : Word) (path path' : Path)
    (paths paths' : List Path) (hp : PathsOf arg (path :: paths)) (hp' : PathsOf arg' (path' :: paths'))
    (data data' : List (Pos N ℝ × Mat3 ℝ)) (hsame : data.map Prod.fst = data'.map Prod.fst)
    (hd : List.Forall₂ (DescribesDof env false fmt) (path :: paths) data)
    (hd' : List.Forall₂ (DescribesDof env' true fmt') (path' :: paths') data') (order : ℤ) :
    Agree (m.addDofFromPaths env spline we arg fmt order)
      (d.addDofFromPaths env' spline we arg' fmt' order) ∧
    Agree (m.addArtFromPaths env spline we arg fmt) (d.addArtFromPaths env' spline we arg' fmt') := by
  have e1 : ∀ run runF runS, fromPaths env m arg fmt run runF runS =
      run (data.map fun x => .ok (some x.1, if m.dummy then 0 else x.2)) := by
    intro run runF runS
    rw [fromPaths_placed hp ((by rw [hreal]; exact hd : List.Forall₂ (DescribesDof env m.dummy fmt)
      (path :: paths) data).imp fun _ _ h => h.placed hN)]
    unfold goodFiles
    rw [List.map_map]
    rfl
  have e2 : ∀ run runF runS, fromPaths env' d arg' fmt' run runF runS =
      run (data'.map fun x => .ok (some x.1, if d.dummy then 0 else x.2)) := by
    intro run runF runS
    rw [fromPaths_placed hp' ((by rw [hdum]; exact hd' : List.Forall₂ (DescribesDof env' d.dummy fmt')
      (path' :: paths') data').imp fun _ _ h => h.placed hN)]
    unfold goodFiles
    rw [List.map_map]
    rfl
  have hf : List.Forall₂ (SameOutcome fun x x' => x.1 = x'.1)
      (data.map fun x => (.ok (some x.1, if m.dummy then 0 else x.2) : DofFile N))
      (data'.map fun x => (.ok (some x.1, if d.dummy then 0 else x.2) : DofFile N)) := by
    clear hd hd' e1 e2
    induction data generalizing data' with
    | nil =>
      cases data' with
      | nil => exact List.Forall₂.nil
      | cons _ _ => cases hsame
    | cons x data ih =>
      cases data' with
      | nil => cases hsame
      | cons y data' =>
        rw [List.map_cons, List.map_cons, List.cons.injEq] at hsame
        refine List.Forall₂.cons ?_ (ih data' hsame.2)
        change some x.1 = some y.1
        rw [hsame.1]
  unfold IModel.addDofFromPaths IModel.addArtFromPaths
  rw [e1, e1, e2, e2]
  exact ⟨C170_call hs we m d hm _ _ (.files order hf), C170_call hs we m d hm _ _ (.artFiles hf)⟩

/-- C170: what a rehearsal cannot show.  A number of polarizabilities that does not fit is refused by the
real model only, so the hypothesis that the calls are complete is needed. -/
theorem C170_incomplete (spline : SplineFn) (we : Bool) (m : IModel N) (hreal : m.dummy = false)
    (hL : m.ref.lattice.det ≠ 0) (cart : Pos N ℝ) (amps : List ℝ) (pols : List (Mat3 ℝ))
    (h : pols.length ≠ amps.length) (order : ℤ) (inc : Bool) :
    m.addDof spline we cart amps pols order inc = ⟨.error .valueError, [], m⟩ := by
  unfold IModel.addDof IModel.addDofNan prepareDof parentDisplacement RefStructure.getFracDisplacement npInv
  rw [if_neg hL]
  dsimp only [bind, Except.bind, pure, Except.pure]
  rw [hreal]
  simp [h]

theorem lookupSpline_depends : DependsOnAmplitudes lookupSpline := fun _ _ _ _ => trivial

/-- Concrete case: in the mirror crystal the order of two displacements matters (`C144_counterexample`);
a dummy model without any polarizabilities shows which order works and which basis vectors result. -/
example (nums : Fin 1 → ℕ) (pol A B C D : Mat3 ℝ) : ∃ (s : RefStructure 1) (m d : IModel 1),
    RefStructure.init mirSpglib nums 1 (fun _ _ => 0) = .ok s ∧
    runScript lookupSpline true (IModel.init s 0 true)
      [.dof (one1 mirV) [-(3 / 50), 3 / 50] [] 2, .dof (one1 mirU) [-(1 / 10), 1 / 10] [] 2] =
        .error .invalidDOF ∧
    runScript lookupSpline true (IModel.init s 0 true)
      [.dof (one1 mirU) [-(1 / 10), 1 / 10] [] 2, .dof (one1 mirV) [-(3 / 50), 3 / 50] [] 2] =
        .ok ([], d) ∧
    runScript lookupSpline true (IModel.init s pol false)
      [.dof (one1 mirU) [-(1 / 10), 1 / 10] [A, B] 2, .dof (one1 mirV) [-(3 / 50), 3 / 50] [C, D] 2] =
        .ok ([], m) ∧ d.basis = m.basis := by
  obtain ⟨s, c, c', hs, rfl, rfl, h1, h2⟩ := C144_counterexample nums pol A B C D
  have k1 := C170_dry_run lookupSpline_depends true s pol 0 _
    [.dof (one1 mirU) [-(1 / 10), 1 / 10] [] 2, .dof (one1 mirV) [-(3 / 50), 3 / 50] [] 2]
    (by simp [AddCall.Complete]) (.cons (.dof _ _ [A, B] _ _) (.cons (.dof _ _ [C, D] _ _) .nil))
  have k2 := C170_dry_run lookupSpline_depends true s pol 0 _
    [.dof (one1 mirV) [-(3 / 50), 3 / 50] [] 2, .dof (one1 mirU) [-(1 / 10), 1 / 10] [] 2]
    (by simp [AddCall.Complete]) (.cons (.dof _ _ [C, D] _ _) (.cons (.dof _ _ [A, B] _ _) .nil))
  rw [h1] at k1
  rw [h2] at k2
  rcases k1 with ⟨e, k, -⟩ | ⟨ws, m, d, k, k', k3, -⟩
  · cases k
  · cases k
    rcases k2 with ⟨e, g, g'⟩ | ⟨ws, m', d', g, -⟩
    · cases g
      exact ⟨s, _, d, hs, g', k', h1, k3⟩
    · cases g

end Verif
