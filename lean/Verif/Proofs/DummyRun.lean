import Verif.Props.CallOrder

/-!
# Lemmas for C170: calls that differ only in polarizabilities
-/

namespace Verif

open Spec

variable {N : ℕ}

/-- Same exception, or values in the relation. -/
def SameOutcome {α β : Type} (R : α → β → Prop) : Py α → Py β → Prop
  | .ok a, .ok b => R a b
  | .error e, .error e' => e = e'
  | _, _ => False

/-- The same structure, basis vectors and mask; polarizabilities, interpolations and the dummy flag may
differ. -/
structure SameGeometry (m m' : IModel N) : Prop where
  ref : m.ref = m'.ref
  basis : m.basis = m'.basis
  mask : m.mask = m'.mask

/-- Whether the number of polarizabilities given for `n` displacements can be used: it has to be `n`
unless the model is a dummy. -/
def CountFits (dummy : Bool) (n : ℕ) (pols : List (Mat3 ℝ)) : Prop := dummy = true ∨ pols.length = n

/-- The same call up to the values of the polarizabilities: same displacements, amplitudes and order,
files with the same positions (or failing alike), and numbers of polarizabilities that both models can
use or neither can. -/
inductive SameCall (d d' : Bool) : AddCall N → AddCall N → Prop
  | dof (cart amps order) {pols pols'} :
      (CountFits d amps.length pols ↔ CountFits d' amps.length pols') →
      SameCall d d' (.dof cart amps pols order) (.dof cart amps pols' order)
  | files (order) {fs fs'} :
      List.Forall₂ (SameOutcome fun x x' => x.1 = x'.1) fs fs' →
      SameCall d d' (.files fs order) (.files fs' order)
  | pymatgen (ss order) {pols pols'} :
      (CountFits d ss.length pols ↔ CountFits d' ss.length pols') →
      SameCall d d' (.pymatgen ss pols order) (.pymatgen ss pols' order)
  | art (atom dir amps) {pols pols'} :
      (CountFits d amps.length pols ↔ CountFits d' amps.length pols') →
      SameCall d d' (.art atom dir amps pols) (.art atom dir amps pols')
  | artFiles {fs fs'} :
      List.Forall₂ (SameOutcome fun x x' => x.1 = x'.1) fs fs' →
      SameCall d d' (.artFiles fs) (.artFiles fs')
  | artPymatgen (ss) {pols pols'} : pols.length = pols'.length →
      SameCall d d' (.artPymatgen ss pols) (.artPymatgen ss pols')

/-- What is assumed of SciPy: whether a spline can be built, and which exception is raised otherwise,
depends on the order and the abscissae, not on the values to interpolate. -/
def DependsOnAmplitudes (spline : SplineFn) : Prop :=
  ∀ k pts pts', pts.map Prod.fst = pts'.map Prod.fst →
    SameOutcome (fun _ _ => True) (spline k pts) (spline k pts')

/-! ### Relational lemmas -/

theorem SameOutcome.mapM {α β γ δ : Type} {R : γ → δ → Prop} {f : α → Py γ} {g : β → Py δ}
    {l : List α} {l' : List β} (h : List.Forall₂ (fun x y => SameOutcome R (f x) (g y)) l l') :
    SameOutcome (List.Forall₂ R) (l.mapM f) (l'.mapM g) := by
  induction h with
  | nil => exact List.Forall₂.nil
  | @cons a b l l' hx _ ih =>
    rw [List.mapM_cons, List.mapM_cons]
    dsimp only [bind, Except.bind, pure, Except.pure]
    cases h1 : f a with
    | error e =>
      cases h2 : g b with
      | error e' => rw [h1, h2] at hx; exact hx
      | ok y => rw [h1, h2] at hx; exact hx.elim
    | ok x =>
      cases h2 : g b with
      | error e' => rw [h1, h2] at hx; exact hx.elim
      | ok y =>
        rw [h1, h2] at hx
        dsimp only
        cases h3 : l.mapM f with
        | error e =>
          cases h4 : l'.mapM g with
          | error e' => rw [h3, h4] at ih; exact ih
          | ok y => rw [h3, h4] at ih; exact ih.elim
        | ok xs =>
          cases h4 : l'.mapM g with
          | error e' => rw [h3, h4] at ih; exact ih.elim
          | ok ys => rw [h3, h4] at ih; exact List.Forall₂.cons hx ih

theorem SameOutcome.cases {α β : Type} {R : α → β → Prop} {a : Py α} {b : Py β}
    (h : SameOutcome R a b) :
    (∃ e, a = .error e ∧ b = .error e) ∨ ∃ x y, a = .ok x ∧ b = .ok y ∧ R x y := by
  cases a with
  | error e =>
    cases b with
    | error e' => left; exact ⟨e, rfl, by rw [show e = e' from h]⟩
    | ok y => exact h.elim
  | ok x =>
    cases b with
    | error e' => exact h.elim
    | ok y => right; exact ⟨x, y, rfl, rfl, h⟩

abbrev SamePts (l l' : List (Option ℝ × Mat3 ℝ)) : Prop := List.Forall₂ (fun x y => x.1 = y.1) l l'

abbrev SameGroups (gs gs' : List (DofGroup N)) : Prop :=
  List.Forall₂ (fun g g' => g.basis = g'.basis ∧ SamePts g.pts g'.pts) gs gs'

theorem zip_same (amps : List ℝ) {pols pols' : List (Mat3 ℝ)} (h : pols.length = pols'.length) :
    List.Forall₂ (fun x y => x.1 = y.1) (amps.zip pols) (amps.zip pols') := by
  induction amps generalizing pols pols' with
  | nil => exact List.Forall₂.nil
  | cons a amps ih =>
    cases pols with
    | nil =>
      cases pols' with
      | nil => exact List.Forall₂.nil
      | cons _ _ => cases h
    | cons p pols =>
      cases pols' with
      | nil => cases h
      | cons q pols' => exact List.Forall₂.cons rfl (ih (by simpa using h))

theorem groupPoints_same (r r' : Mat3 ℝ) (amps : List ℝ) {pols pols' : List (Mat3 ℝ)}
    (h : pols.length = pols'.length) (mu : Option ℝ) (op : SymOp) :
    SameOutcome SamePts (groupPoints r amps pols mu op) (groupPoints r' amps pols' mu op) := by
  unfold groupPoints
  apply SameOutcome.mapM
  refine (zip_same amps h).imp ?_
  intro x y hxy
  dsimp only [bind, Except.bind, pure, Except.pure]
  cases npInv op.rot with
  | error e => rfl
  | ok inv => change Option.map _ _ = Option.map _ _; rw [hxy]

theorem refPoint_same (inc : Bool) : SamePts (refPoint inc) (refPoint inc) := by
  unfold refPoint
  split_ifs
  · exact List.Forall₂.cons rfl List.Forall₂.nil
  · exact List.Forall₂.nil

theorem flatten_same {l l' : List (List (Option ℝ × Mat3 ℝ))} (h : List.Forall₂ SamePts l l') :
    SamePts l.flatten l'.flatten := by
  induction h with
  | nil => exact List.Forall₂.nil
  | cons hx _ ih => exact List.rel_append hx ih

theorem forall₂_self {α : Type} {R : α → α → Prop} (l : List α) (h : ∀ x, R x x) :
    List.Forall₂ R l l := by
  induction l with
  | nil => exact List.Forall₂.nil
  | cons x l ih => exact List.Forall₂.cons (h x) ih

theorem dofGroup_same {m m' : IModel N} (hm : SameGeometry m m') (amps : List ℝ)
    {pols pols' : List (Mat3 ℝ)} (h : pols.length = pols'.length) (inc : Bool) (g : EqGroup N) :
    SameOutcome (fun g g' : DofGroup N => g.basis = g'.basis ∧ SamePts g.pts g'.pts)
      (dofGroup m amps pols inc g) (dofGroup m' amps pols' inc g) := by
  unfold dofGroup
  cases g.displacements with
  | nil => rfl
  | cons child rest =>
    dsimp only [bind, Except.bind, pure, Except.pure]
    have hs : SameOutcome (List.Forall₂ SamePts)
        (((child :: rest).zip g.transformations).mapM fun x =>
          groupPoints m.refPol amps pols (multiplier child x.1) x.2)
        (((child :: rest).zip g.transformations).mapM fun x =>
          groupPoints m'.refPol amps pols' (multiplier child x.1) x.2) :=
      SameOutcome.mapM (forall₂_self _ fun x => groupPoints_same _ _ amps h _ _)
    rcases hs.cases with ⟨e, h1, h2⟩ | ⟨x, y, h1, h2, hxy⟩
    · rw [h1, h2]; rfl
    · rw [h1, h2]
      refine ⟨?_, List.rel_append (refPoint_same inc) (flatten_same hxy)⟩
      dsimp only
      rw [hm.ref]

theorem nanGroups_same {m m' : IModel N} (hm : SameGeometry m m') (amps : List ℝ)
    {pols pols' : List (Mat3 ℝ)} (h : pols.length = pols'.length) (inc : Bool) :
    SameOutcome SameGroups (nanGroups m amps pols inc) (nanGroups m' amps pols' inc) := by
  unfold nanGroups
  rw [← hm.ref]
  cases m.ref.ops.zip m.ref.perms with
  | nil => exact List.Forall₂.nil
  | cons x rest =>
    rcases x with ⟨op, perm⟩
    dsimp only [bind, Except.bind, pure, Except.pure]
    rcases (groupPoints_same m.refPol m'.refPol amps h none op).cases with
      ⟨e, h1, h2⟩ | ⟨x, y, h1, h2, hxy⟩
    · rw [h1, h2]; rfl
    · rw [h1, h2]
      exact List.Forall₂.cons ⟨rfl, List.rel_append (refPoint_same inc) hxy⟩ List.Forall₂.nil

theorem orthCheck_geometry {m m' : IModel N} (hm : SameGeometry m m') (p : Option (Pos N ℝ)) :
    orthCheck m p = orthCheck m' p := by
  unfold orthCheck
  rw [hm.ref, hm.basis]

theorem getDof_same {m m' : IModel N} (hm : SameGeometry m m') (p : Option (Pos N ℝ))
    (amps : List ℝ) {pols pols' : List (Mat3 ℝ)} (h : pols.length = pols'.length) (inc : Bool) :
    SameOutcome SameGroups (getDof m p amps pols inc) (getDof m' p amps pols' inc) := by
  unfold getDof
  rw [← orthCheck_geometry hm]
  split_ifs with ho
  · rfl
  · cases p with
    | none => exact nanGroups_same hm amps h inc
    | some p =>
      dsimp only [bind, Except.bind]
      rw [← hm.ref]
      cases m.ref.getEquivalentDisplacements p with
      | error e => rfl
      | ok r =>
        cases r with
        | none => exact nanGroups_same hm amps h inc
        | some groups =>
          exact SameOutcome.mapM (forall₂_self _ fun g => dofGroup_same hm amps h inc g)

theorem fst_same {α : Type} {l l' : List (α × Mat3 ℝ)}
    (h : List.Forall₂ (fun x y => x.1 = y.1) l l') : l.map Prod.fst = l'.map Prod.fst := by
  induction h with
  | nil => rfl
  | cons hx _ ih => rw [List.map_cons, List.map_cons, hx, ih]

theorem finitePts_same {l l' : List (Option ℝ × Mat3 ℝ)} (h : SamePts l l') :
    (finitePts l = none ∧ finitePts l' = none) ∨
    ∃ r r', finitePts l = some r ∧ finitePts l' = some r' ∧ r.map Prod.fst = r'.map Prod.fst := by
  induction h with
  | nil => exact .inr ⟨[], [], rfl, rfl, rfl⟩
  | @cons x y l l' hx _ ih =>
    rcases x with ⟨x, P⟩
    rcases y with ⟨y, Q⟩
    obtain rfl : x = y := hx
    cases x with
    | none => left; exact ⟨rfl, rfl⟩
    | some x =>
      rw [finitePts, finitePts]
      rcases ih with ⟨h1, h2⟩ | ⟨r, r', h1, h2, h3⟩
      · left; rw [h1, h2]; exact ⟨rfl, rfl⟩
      · right
        rw [h1, h2]
        exact ⟨_, _, rfl, rfl, by rw [List.map_cons, List.map_cons, h3]⟩

theorem sorted_same {l l' : List (ℝ × Mat3 ℝ)} (h : l.map Prod.fst = l'.map Prod.fst) :
    (l.insertionSort fun a b => a.1 ≤ b.1).map Prod.fst =
      (l'.insertionSort fun a b => a.1 ≤ b.1).map Prod.fst := by
  rw [List.map_insertionSort (r := fun a b : ℝ × Mat3 ℝ => a.1 ≤ b.1) (s := fun a b : ℝ => a ≤ b)
      Prod.fst l (fun _ _ _ _ => Iff.rfl),
    List.map_insertionSort (r := fun a b : ℝ × Mat3 ℝ => a.1 ≤ b.1) (s := fun a b : ℝ => a ≤ b)
      Prod.fst l' (fun _ _ _ _ => Iff.rfl), h]

theorem buildOne_same {spline : SplineFn} (hs : DependsOnAmplitudes spline) (we : Bool) (k : ℕ)
    {l l' : List (Option ℝ × Mat3 ℝ)} (h : SamePts l l') :
    SameOutcome (fun _ _ => True) (buildOne spline we k l).1 (buildOne spline we k l').1 ∧
      (buildOne spline we k l).2 = (buildOne spline we k l').2 := by
  unfold buildOne
  rw [fst_same h, h.length_eq]
  split_ifs with h1 h2
  · exact ⟨rfl, rfl⟩
  · exact ⟨rfl, rfl⟩
  · rcases finitePts_same h with ⟨e1, e2⟩ | ⟨r, r', e1, e2, e3⟩
    · rw [e1, e2]; exact ⟨rfl, rfl⟩
    · rw [e1, e2]
      dsimp only
      rw [e3]
      split_ifs
      · exact ⟨rfl, rfl⟩
      · exact ⟨hs _ _ _ (sorted_same e3), rfl⟩

theorem buildAll_same {spline : SplineFn} (hs : DependsOnAmplitudes spline) (we : Bool) (k : ℕ)
    {gs gs' : List (DofGroup N)} (h : SameGroups gs gs') :
    SameOutcome (fun _ _ => True) (buildAll spline we k gs).1 (buildAll spline we k gs').1 ∧
      (buildAll spline we k gs).2 = (buildAll spline we k gs').2 := by
  induction h with
  | nil => exact ⟨trivial, rfl⟩
  | @cons g g' gs gs' hg _ ih =>
    rw [buildAll, buildAll]
    have h1 := buildOne_same hs we k hg.2
    rcases ho : buildOne spline we k g.pts with ⟨r, ws⟩
    rcases ho' : buildOne spline we k g'.pts with ⟨r', ws'⟩
    rw [ho, ho'] at h1
    obtain ⟨h1, rfl⟩ := h1
    rcases h1.cases with ⟨e, rfl, rfl⟩ | ⟨f, f', rfl, rfl, -⟩
    · exact ⟨rfl, rfl⟩
    · dsimp only
      rcases ha : buildAll spline we k gs with ⟨q, us⟩
      rcases ha' : buildAll spline we k gs' with ⟨q', us'⟩
      rw [ha, ha'] at ih
      obtain ⟨h2, rfl⟩ := ih
      rcases h2.cases with ⟨e, rfl, rfl⟩ | ⟨f, f', rfl, rfl, -⟩
      · exact ⟨rfl, rfl⟩
      · exact ⟨trivial, rfl⟩

theorem finiteBasis_same {gs gs' : List (DofGroup N)} (h : SameGroups gs gs') :
    finiteBasis gs = finiteBasis gs' := by
  unfold finiteBasis
  induction h with
  | nil => rfl
  | cons hg _ ih =>
    rw [List.mapM_cons, List.mapM_cons, hg.1, ih]

/-- The two outcomes agree in everything but polarizabilities and interpolations. -/
def Agree (o o' : Outcome N) : Prop :=
  o.result = o'.result ∧ o.warnings = o'.warnings ∧ SameGeometry o.state o'.state

theorem constructAndAdd_same {spline : SplineFn} (hs : DependsOnAmplitudes spline) (we : Bool)
    {m m' : IModel N} (hm : SameGeometry m m') {gs gs' : List (DofGroup N)} (h : SameGroups gs gs')
    (order : ℤ) :
    Agree (constructAndAdd spline we m gs order) (constructAndAdd spline we m' gs' order) := by
  unfold constructAndAdd
  split_ifs with ho
  · exact ⟨rfl, rfl, hm⟩
  · have hb := buildAll_same hs we order.toNat h
    rcases ha : buildAll spline we order.toNat gs with ⟨q, us⟩
    rcases ha' : buildAll spline we order.toNat gs' with ⟨q', us'⟩
    rw [ha, ha'] at hb
    obtain ⟨h2, rfl⟩ := hb
    rcases h2.cases with ⟨e, rfl, rfl⟩ | ⟨f, f', rfl, rfl, -⟩
    · exact ⟨rfl, rfl, hm⟩
    · dsimp only
      rw [finiteBasis_same h]
      cases finiteBasis gs' with
      | error e => exact ⟨rfl, rfl, hm⟩
      | ok bs =>
        refine ⟨rfl, rfl, ?_, ?_, ?_⟩
        · dsimp only
          split_ifs <;> exact hm.ref
        · dsimp only
          split_ifs <;> (dsimp only; rw [hm.basis])
        · dsimp only
          split_ifs <;> (dsimp only; rw [hm.mask])

theorem parentDisplacement_same {m m' : IModel N} (hm : SameGeometry m m')
    (cart : Option (Pos N ℝ)) : parentDisplacement m cart = parentDisplacement m' cart := by
  unfold parentDisplacement
  rw [hm.ref]

theorem countFits_iff (d : Bool) (amps : List ℝ) (pols : List (Mat3 ℝ)) :
    (if d = true then amps.map fun _ => (0 : Mat3 ℝ) else pols).length = amps.length ↔
      CountFits d amps.length pols := by
  unfold CountFits
  cases d <;> simp

theorem addDofNan_same {spline : SplineFn} (hs : DependsOnAmplitudes spline) (we : Bool)
    {m m' : IModel N} (hm : SameGeometry m m') (cart : Option (Pos N ℝ)) (amps : List ℝ)
    {pols pols' : List (Mat3 ℝ)}
    (h : CountFits m.dummy amps.length pols ↔ CountFits m'.dummy amps.length pols') (order : ℤ)
    (inc : Bool) :
    Agree (m.addDofNan spline we cart amps pols order inc)
      (m'.addDofNan spline we cart amps pols' order inc) := by
  have key : SameOutcome SameGroups (prepareDof m cart amps pols inc)
      (prepareDof m' cart amps pols' inc) := by
    unfold prepareDof
    rw [← parentDisplacement_same hm]
    cases parentDisplacement m cart with
    | error e => rfl
    | ok parent =>
      dsimp only [bind, Except.bind]
      rw [← countFits_iff, ← countFits_iff] at h
      by_cases hc : (if m.dummy = true then amps.map fun _ => (0 : Mat3 ℝ) else pols).length
          = amps.length
      · rw [if_neg (not_not.2 hc), if_neg (not_not.2 (h.1 hc))]
        exact getDof_same hm parent amps (hc.trans (h.1 hc).symm) inc
      · rw [if_pos hc, if_pos (fun h' => hc (h.2 h'))]
        rfl
  unfold IModel.addDofNan
  rcases key.cases with ⟨e, h1, h2⟩ | ⟨x, y, h1, h2, hxy⟩
  · rw [h1, h2]; exact ⟨rfl, rfl, hm⟩
  · rw [h1, h2]; exact constructAndAdd_same hs we hm hxy order

theorem readDofFiles_same {m m' : IModel N} (hm : SameGeometry m m') {fs fs' : List (DofFile N)}
    (h : List.Forall₂ (SameOutcome fun x x' => x.1 = x'.1) fs fs') :
    SameOutcome (List.Forall₂ fun x y => x.1 = y.1) (readDofFiles m fs) (readDofFiles m' fs') := by
  induction h with
  | nil => exact List.Forall₂.nil
  | @cons f f' fs fs' hf _ ih =>
    rw [readDofFiles, readDofFiles]
    dsimp only [bind, Except.bind]
    rcases hf.cases with ⟨e, rfl, rfl⟩ | ⟨⟨p, A⟩, ⟨q, B⟩, rfl, rfl, hpq⟩
    · rfl
    · obtain rfl : p = q := hpq
      cases p with
      | none => rfl
      | some p =>
        dsimp only
        rcases ih.cases with ⟨e, h1, h2⟩ | ⟨x, y, h1, h2, hxy⟩
        · rw [h1, h2]; rfl
        · rw [h1, h2]
          exact List.Forall₂.cons (by dsimp only; rw [hm.ref]) hxy

theorem readDof_same {m m' : IModel N} (hm : SameGeometry m m') {fs fs' : List (DofFile N)}
    (h : List.Forall₂ (SameOutcome fun x x' => x.1 = x'.1) fs fs') :
    SameOutcome (fun r r' => r.1 = r'.1 ∧ r.2.1 = r'.2.1 ∧ r.2.2.length = r.1.length ∧
      r'.2.2.length = r.1.length ∧ r.2.1.length = r.1.length) (readDof m fs) (readDof m' fs') := by
  unfold readDof
  dsimp only [bind, Except.bind, pure, Except.pure]
  rcases (readDofFiles_same hm h).cases with ⟨e, h1, h2⟩ | ⟨x, y, h1, h2, hxy⟩
  · rw [h1, h2]; rfl
  · rw [h1, h2]
    have hl : x.length = y.length := hxy.length_eq
    have hf := fst_same hxy
    dsimp only
    rw [hf, hm.ref]
    cases hy : y.map Prod.fst with
    | nil => rfl
    | cons d0 rest =>
      dsimp only
      split_ifs
      · rfl
      · cases normalizePos (m'.ref.getCartDisplacement d0) with
        | none => rfl
        | some b =>
          have : y.length = rest.length + 1 := by
            have := congrArg List.length hy
            simpa using this
          exact ⟨rfl, rfl, by simp [hl, this], by simp [this], by simp⟩

theorem artRest_same {spline : SplineFn} (hs : DependsOnAmplitudes spline) (we : Bool)
    {m m' : IModel N} (hm : SameGeometry m m') (d : Pos N ℝ) (amps : List ℝ)
    {pols pols' : List (Mat3 ℝ)} (h : pols.length = pols'.length) {o o' : Outcome N}
    (ho : o = (if multipleAtomsDisplaced d then ⟨.error .invalidDOF, [], m⟩
      else match getDof m (some d) amps pols false with
        | .error e => ⟨.error e, [], m⟩
        | .ok [] => ⟨.error .indexError, [], m⟩
        | .ok (g :: gs) =>
          if g.pts.length ≠ 2 then ⟨.error .invalidDOF, [], m⟩
          else constructAndAdd spline we m (g :: gs) 1))
    (ho' : o' = (if multipleAtomsDisplaced d then ⟨.error .invalidDOF, [], m'⟩
      else match getDof m' (some d) amps pols' false with
        | .error e => ⟨.error e, [], m'⟩
        | .ok [] => ⟨.error .indexError, [], m'⟩
        | .ok (g :: gs) =>
          if g.pts.length ≠ 2 then ⟨.error .invalidDOF, [], m'⟩
          else constructAndAdd spline we m' (g :: gs) 1)) : Agree o o' := by
  subst ho ho'
  split_ifs
  · exact ⟨rfl, rfl, hm⟩
  · rcases (getDof_same hm (some d) amps h false).cases with ⟨e, h1, h2⟩ | ⟨x, y, h1, h2, hxy⟩
    · rw [h1, h2]; exact ⟨rfl, rfl, hm⟩
    · rw [h1, h2]
      cases hxy with
      | nil => exact ⟨rfl, rfl, hm⟩
      | @cons g g' gs gs' hg hgs =>
        dsimp only
        rw [hg.2.length_eq]
        split_ifs
        · exact ⟨rfl, rfl, hm⟩
        · exact constructAndAdd_same hs we hm (List.Forall₂.cons hg hgs) 1

theorem pmg_same {m m' : IModel N} (hm : SameGeometry m m') (ss : List PmgArg) :
    pmgDisplacementAmplitudes true m ss = pmgDisplacementAmplitudes true m' ss := by
  have key : ∀ ss : List PmgArg, pmgDisplacements m ss = pmgDisplacements m' ss := by
    intro ss
    induction ss with
    | nil => rfl
    | cons s ss ih => rw [pmgDisplacements, pmgDisplacements, ih, hm.ref]
  unfold pmgDisplacementAmplitudes
  rw [key, hm.ref]

theorem pmg_count {m : IModel N} {ss : List PmgArg} {ds : List (Pos N ℝ)} {amps : List ℝ}
    (h : pmgDisplacementAmplitudes true m ss = .ok (ds, amps)) : amps.length = ss.length := by
  have key : ∀ (ss : List PmgArg) (ds : List (Pos N ℝ)), pmgDisplacements m ss = .ok ds →
      ds.length = ss.length := by
    intro ss
    induction ss with
    | nil => intro ds h; cases h; rfl
    | cons s ss ih =>
      intro ds h
      rw [pmgDisplacements] at h
      dsimp only [bind, Except.bind, pure, Except.pure] at h
      cases h1 : pmgPositions s with
      | error e => rw [h1] at h; cases h
      | ok c =>
        rw [h1] at h
        dsimp only at h
        cases h2 : coordsFor N c with
        | error e => rw [h2] at h; cases h
        | ok r =>
          rw [h2] at h
          cases r with
          | none => cases h
          | some p =>
            dsimp only at h
            cases h3 : pmgDisplacements m ss with
            | error e => rw [h3] at h; cases h
            | ok rest =>
              rw [h3] at h
              cases h
              simp [ih rest h3]
  unfold pmgDisplacementAmplitudes at h
  rw [if_neg (by simp)] at h
  dsimp only [bind, Except.bind, pure, Except.pure] at h
  cases h1 : pmgDisplacements m ss with
  | error e => rw [h1] at h; cases h
  | ok l =>
    rw [h1] at h
    have := key ss l h1
    cases l with
    | nil => cases h
    | cons d0 rest =>
      dsimp only at h
      split_ifs at h
      split at h
      · cases h
      · cases h
        simpa using this

theorem prepareArt_same {m m' : IModel N} (hm : SameGeometry m m') (atom : ℤ) (dir : Vec3)
    (amps : List ℝ) {pols pols' : List (Mat3 ℝ)}
    (h : CountFits m.dummy amps.length pols ↔ CountFits m'.dummy amps.length pols') :
    prepareArt m atom dir amps pols = prepareArt m' atom dir amps pols' := by
  rw [← countFits_iff, ← countFits_iff] at h
  unfold prepareArt
  rw [hm.ref]
  cases m'.ref.getFracDirection dir with
  | error e => rfl
  | ok d =>
    dsimp only [bind, Except.bind]
    by_cases ha : amps.length = 1 ∨ amps.length = 2
    · rw [if_neg (not_not.2 ha), if_neg (not_not.2 ha)]
      by_cases hc : (if m.dummy = true then amps.map fun _ => (0 : Mat3 ℝ) else pols).length
          = amps.length
      · rw [if_neg (not_not.2 hc), if_neg (not_not.2 (h.1 hc))]
      · rw [if_pos hc, if_pos (fun h' => hc (h.2 h'))]
    · rw [if_pos ha, if_pos ha]

end Verif
