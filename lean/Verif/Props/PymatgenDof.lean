import Verif.Props.Art

/-!
# C100, C101, C105: degrees of freedom from pymatgen structures
-/

namespace Verif
open Spec

variable {N : ℕ}

/-- A structure given in memory: lattice, atomic numbers, positions of `N` atoms and the
polarizability that goes with it. -/
structure Snapshot (N : ℕ) where
  lattice : Mat3 ℝ
  numbers : List ℕ
  positions : Pos N ℝ
  polarizability : Mat3 ℝ

/-- The pymatgen structure of a snapshot. -/
def Snapshot.pmg (x : Snapshot N) : PmgArg :=
  some ⟨x.lattice, x.numbers, List.ofFn x.positions⟩

/-- A file with the positions and the polarizability of a snapshot. -/
def Snapshot.file (x : Snapshot N) : DofFile N := .ok (some x.positions, x.polarizability)

theorem coordsFor_ofFn (p : Pos N ℝ) : coordsFor N (List.ofFn p) = .ok (some p) := by
  unfold coordsFor
  rw [dif_pos (by simp)]
  congr 2
  funext a
  simp

theorem pmgDisplacements_snapshots (m : IModel N) (xs : List (Snapshot N)) :
    pmgDisplacements m (xs.map Snapshot.pmg) =
      .ok (xs.map fun x => calcDisplacement m.ref.positions x.positions) := by
  induction xs with
  | nil => rfl
  | cons x xs ih =>
    rw [List.map_cons]
    unfold pmgDisplacements Snapshot.pmg
    dsimp only [pmgPositions, bind, Except.bind]
    rw [coordsFor_ofFn]
    dsimp only
    rw [show (fun x : Snapshot N => (some ⟨x.lattice, x.numbers, List.ofFn x.positions⟩ : PmgArg)) =
      Snapshot.pmg from rfl, ih]
    rfl

theorem readDofFiles_snapshots (m : IModel N) (xs : List (Snapshot N)) :
    readDofFiles m (xs.map Snapshot.file) =
      .ok (xs.map fun x => (calcDisplacement m.ref.positions x.positions,
        if m.dummy then 0 else x.polarizability)) := by
  induction xs with
  | nil => rfl
  | cons x xs ih =>
    rw [List.map_cons]
    unfold readDofFiles
    change (do
      let rest ← readDofFiles m (xs.map Snapshot.file)
      return (calcDisplacement m.ref.positions x.positions,
        if m.dummy then 0 else x.polarizability) :: rest) = _
    rw [ih]
    rfl

/-- Displacements and amplitudes from files and from structures agree. -/
theorem readDof_snapshots (m : IModel N) (xs : List (Snapshot N)) :
    readDof m (xs.map Snapshot.file) =
      match pmgDisplacementAmplitudes true m (xs.map Snapshot.pmg) with
      | .error e => .error e
      | .ok (ds, amps) => .ok (ds, amps, xs.map fun x => if m.dummy then 0 else x.polarizability) := by
  unfold readDof pmgDisplacementAmplitudes
  rw [readDofFiles_snapshots, pmgDisplacements_snapshots, if_neg (by simp)]
  dsimp only [bind, Except.bind]
  have e1 : (xs.map fun x : Snapshot N => (calcDisplacement m.ref.positions x.positions,
      (if m.dummy then 0 else x.polarizability : Mat3 ℝ))).map Prod.fst =
      xs.map fun x : Snapshot N => calcDisplacement m.ref.positions x.positions := by simp
  have e2 : (xs.map fun x : Snapshot N => (calcDisplacement m.ref.positions x.positions,
      (if m.dummy then 0 else x.polarizability : Mat3 ℝ))).map Prod.snd =
      xs.map fun x : Snapshot N => (if m.dummy then 0 else x.polarizability : Mat3 ℝ) := by simp
  rw [e1, e2]
  cases xs with
  | nil => rfl
  | cons x xs =>
    simp only [List.map_cons]
    by_cases hcol : isCollinearWithAll (flat (calcDisplacement m.ref.positions x.positions))
        (flat (calcDisplacement m.ref.positions x.positions) ::
          List.map flat (List.map (fun x => calcDisplacement m.ref.positions x.positions) xs)) = -1
    · rw [if_neg (not_not.2 hcol), if_neg (not_not.2 hcol)]
      cases normalizePos (m.ref.getCartDisplacement
        (calcDisplacement m.ref.positions x.positions)) <;> rfl
    · rw [if_pos hcol, if_pos hcol]

theorem pmgAmplitudes_length (m : IModel N) (ss : List PmgArg) (present : Bool)
    (ds : List (Pos N ℝ)) (amps : List ℝ)
    (h : pmgDisplacementAmplitudes present m ss = .ok (ds, amps)) :
    pmgDisplacements m ss = .ok ds ∧ amps.length = ds.length ∧ ds.length = ss.length ∧ ds ≠ [] := by
  have hlen : ∀ (ss : List PmgArg) ds, pmgDisplacements m ss = .ok ds → ds.length = ss.length := by
    intro ss
    induction ss with
    | nil => intro ds h; cases h; rfl
    | cons s ss ih =>
      intro ds h
      unfold pmgDisplacements at h
      cases hp : pmgPositions s with
      | error e => rw [hp] at h; cases h
      | ok c =>
        rw [hp] at h
        dsimp only [bind, Except.bind] at h
        cases hc : coordsFor N c with
        | error e => rw [hc] at h; cases h
        | ok o =>
          rw [hc] at h
          cases o with
          | none => cases h
          | some p =>
            dsimp only at h
            cases hr : pmgDisplacements m ss with
            | error e => rw [hr] at h; cases h
            | ok r => rw [hr] at h; cases h; simp [ih r hr]
  unfold pmgDisplacementAmplitudes at h
  split_ifs at h
  cases hd : pmgDisplacements m ss with
  | error e => rw [hd] at h; cases h
  | ok ds' =>
    rw [hd] at h
    dsimp only [bind, Except.bind] at h
    cases ds' with
    | nil => cases h
    | cons d0 rest =>
      dsimp only at h
      split_ifs at h
      cases hn : normalizePos (m.ref.getCartDisplacement d0) with
      | none => rw [hn] at h; cases h
      | some b =>
        rw [hn] at h
        cases h
        exact ⟨rfl, by simp, hlen _ _ hd, by simp⟩

/-- Polarizabilities given to a dummy model do not matter. -/
theorem addDof_dummy (spline : SplineFn) (we : Bool) (m : IModel N) (hm : m.dummy = true)
    (cart : Pos N ℝ) (amps : List ℝ) (pols pols' : List (Mat3 ℝ)) (order : ℤ) (inc : Bool) :
    m.addDof spline we cart amps pols order inc = m.addDof spline we cart amps pols' order inc := by
  unfold IModel.addDof IModel.addDofNan prepareDof
  simp only [hm, if_true]

/-- C100: adding a degree of freedom from pymatgen structures is the same as adding it from files
with the same positions and polarizabilities. -/
theorem C100_same_as_files (spline : SplineFn) (we : Bool) (m : IModel N) (xs : List (Snapshot N))
    (order : ℤ) :
    m.addDofFromPymatgen true spline we (xs.map Snapshot.pmg) (xs.map Snapshot.polarizability) order
      = m.addDofFromFiles spline we (xs.map Snapshot.file) order := by
  unfold IModel.addDofFromPymatgen IModel.addDofFromFiles
  rw [readDof_snapshots, if_neg (by simp)]
  cases h : pmgDisplacementAmplitudes true m (xs.map Snapshot.pmg) with
  | error e => rfl
  | ok r =>
    obtain ⟨ds, amps⟩ := r
    cases ds with
    | nil => rfl
    | cons d0 rest =>
      dsimp only
      cases hm : m.dummy with
      | true => exact addDof_dummy spline we m hm _ _ _ _ _ _
      | false => simp

/-- C100: polarizabilities that do not match the structures in number are refused with a
`ValueError` (if nothing else is wrong) and the model stays as it was. -/
theorem C100_count (spline : SplineFn) (we : Bool) (m : IModel N) (hm : m.dummy = false)
    (structures : List PmgArg) (pols : List (Mat3 ℝ)) (order : ℤ)
    (hne : pols.length ≠ structures.length) (o : Outcome N)
    (ho : o = m.addDofFromPymatgen true spline we structures pols order) :
    (∃ e, o.result = .error e) ∧ o.state = m ∧
    ((∃ pols', (m.addDofFromPymatgen true spline we structures pols' order).result = .ok ()) →
      o.result = .error .valueError) := by
  subst ho
  have hat := addDofFromPymatgen_atomic true spline we m structures pols order
  have key : ((∃ e, (m.addDofFromPymatgen true spline we structures pols order).result = .error e) ∧
      ((∃ pols', (m.addDofFromPymatgen true spline we structures pols' order).result = .ok ()) →
      (m.addDofFromPymatgen true spline we structures pols order).result = .error .valueError)) := by
    unfold IModel.addDofFromPymatgen
    simp only [Bool.true_eq_false, if_false]
    cases h : pmgDisplacementAmplitudes true m structures with
    | error e => exact ⟨⟨e, rfl⟩, fun ⟨_, h⟩ => by cases h⟩
    | ok r =>
      obtain ⟨ds, amps⟩ := r
      obtain ⟨h1, h2, h3, h4⟩ := pmgAmplitudes_length m structures true ds amps h
      cases ds with
      | nil => exact absurd rfl h4
      | cons d0 rest =>
        dsimp only
        have hbad : pols.length ≠ amps.length := by rw [h2, h3]; exact hne
        unfold IModel.addDof IModel.addDofNan prepareDof
        simp only [hm, Bool.false_eq_true, if_false]
        cases hp : parentDisplacement m (some (m.ref.getCartDisplacement d0)) with
        | error e => exact ⟨⟨e, rfl⟩, fun ⟨_, h⟩ => by cases h⟩
        | ok par =>
          dsimp only [bind, Except.bind]
          rw [if_pos hbad]
          exact ⟨⟨_, rfl⟩, fun _ => rfl⟩
  obtain ⟨⟨e, he⟩, h2⟩ := key
  exact ⟨⟨e, he⟩, hat.1 e he, h2⟩

/-! ## C101 -/

/-- C101: adding an atomic Raman tensor from pymatgen structures is the same as adding it from files
with the same positions and polarizabilities.  What is missing: the numbers of structures and
polarizabilities have to agree, see `C101_surplus_structures`. -/
theorem C101_same_as_files_partial (spline : SplineFn) (we : Bool) (m : IModel N)
    (hm : m.dummy = false) (xs : List (Snapshot N)) :
    m.addArtFromPymatgen true spline we (xs.map Snapshot.pmg) (xs.map Snapshot.polarizability)
      = m.addArtFromFiles spline we (xs.map Snapshot.file) := by
  unfold IModel.addArtFromPymatgen IModel.addArtFromFiles
  rw [readDof_snapshots]
  simp only [hm, Bool.false_eq_true, if_false]
  cases pmgDisplacementAmplitudes true m (xs.map Snapshot.pmg) with
  | error e => rfl
  | ok r =>
    obtain ⟨ds, amps⟩ := r
    cases ds <;> rfl

theorem getDof_zip (m : IModel N) (parent : Option (Pos N ℝ)) (amps amps' : List ℝ)
    (pols pols' : List (Mat3 ℝ)) (inc : Bool) (h : amps.zip pols = amps'.zip pols') :
    getDof m parent amps pols inc = getDof m parent amps' pols' inc := by
  unfold getDof nanGroups dofGroup groupPoints
  rw [h]

/-- C101 fails: polarizabilities beyond the number of structures are ignored. -/
theorem C101_surplus_polarizabilities (present : Bool) (spline : SplineFn) (we : Bool)
    (m : IModel N) (structures : List PmgArg) (pols extra : List (Mat3 ℝ))
    (hl : pols.length = structures.length) :
    m.addArtFromPymatgen present spline we structures (pols ++ extra) =
      m.addArtFromPymatgen present spline we structures pols := by
  unfold IModel.addArtFromPymatgen
  cases h : pmgDisplacementAmplitudes present m structures with
  | error e => rfl
  | ok r =>
    obtain ⟨ds, amps⟩ := r
    obtain ⟨h1, h2, h3, h4⟩ := pmgAmplitudes_length m structures present ds amps h
    cases ds with
    | nil => rfl
    | cons d0 rest =>
      dsimp only
      rw [getDof_zip m (some d0) amps amps (pols ++ extra) pols false]
      have hz : amps.length = pols.length := by omega
      have := List.zip_append (l₁ := amps) (r₁ := []) (l₂ := pols) (r₂ := extra) hz
      simpa using this

theorem pmgDisplacements_append (m : IModel N) (ss extra : List PmgArg) (ds : List (Pos N ℝ))
    (h : pmgDisplacements m (ss ++ extra) = .ok ds) :
    ∃ ds' more, pmgDisplacements m ss = .ok ds' ∧ ds = ds' ++ more := by
  induction ss generalizing ds with
  | nil => exact ⟨[], ds, rfl, rfl⟩
  | cons s ss ih =>
    rw [List.cons_append] at h
    unfold pmgDisplacements at h ⊢
    cases hp : pmgPositions s with
    | error e => rw [hp] at h; cases h
    | ok c =>
      rw [hp] at h
      dsimp only [bind, Except.bind] at h ⊢
      cases hc : coordsFor N c with
      | error e => rw [hc] at h; cases h
      | ok o =>
        rw [hc] at h
        cases o with
        | none => cases h
        | some p =>
          dsimp only at h ⊢
          cases hr : pmgDisplacements m (ss ++ extra) with
          | error e => rw [hr] at h; cases h
          | ok r =>
            rw [hr] at h
            cases h
            obtain ⟨ds', more, h1, rfl⟩ := ih r hr
            rw [h1]
            exact ⟨_, more, rfl, rfl⟩

/-- C101 fails: whenever a call with structures beyond the number of polarizabilities succeeds, the
surplus structures have no influence. -/
theorem C101_surplus_structures (present : Bool) (spline : SplineFn) (we : Bool) (m : IModel N)
    (structures extra : List PmgArg) (pols : List (Mat3 ℝ))
    (hl : pols.length = structures.length) (hs : structures ≠ [])
    (hok : (m.addArtFromPymatgen present spline we (structures ++ extra) pols).result = .ok ()) :
    m.addArtFromPymatgen present spline we structures pols =
      m.addArtFromPymatgen present spline we (structures ++ extra) pols := by
  unfold IModel.addArtFromPymatgen at hok ⊢
  cases h : pmgDisplacementAmplitudes present m (structures ++ extra) with
  | error e => rw [h] at hok; cases hok
  | ok r =>
    obtain ⟨ds, amps⟩ := r
    unfold pmgDisplacementAmplitudes at h ⊢
    split_ifs at h ⊢ with hpres
    cases hd : pmgDisplacements m (structures ++ extra) with
    | error e => rw [hd] at h; cases h
    | ok ds₁ =>
      rw [hd] at h
      dsimp only [bind, Except.bind] at h
      obtain ⟨ds', more, h1, rfl⟩ := pmgDisplacements_append m structures extra ds₁ hd
      rw [h1]
      dsimp only [bind, Except.bind]
      cases ds' with
      | nil =>
        cases structures with
        | nil => exact absurd rfl hs
        | cons s ss =>
          exfalso
          unfold pmgDisplacements at h1
          cases hp : pmgPositions s with
          | error e => rw [hp] at h1; cases h1
          | ok c =>
            rw [hp] at h1
            dsimp only [bind, Except.bind] at h1
            cases hc : coordsFor N c with
            | error e => rw [hc] at h1; cases h1
            | ok o =>
              rw [hc] at h1
              cases o with
              | none => cases h1
              | some p =>
                dsimp only at h1
                cases hr : pmgDisplacements m ss with
                | error e => rw [hr] at h1; cases h1
                | ok r => rw [hr] at h1; cases h1
      | cons d0 rest =>
        rw [List.cons_append] at h
        dsimp only at h ⊢
        split_ifs at h with hcol
        have hcol' : isCollinearWithAll (flat d0) ((d0 :: rest).map flat) = -1 := by
          rw [not_not, (C09_neg_one _ _).1] at hcol
          rw [(C09_neg_one _ _).1]
          intro w hw
          apply hcol w
          rw [← List.cons_append, List.map_append]
          exact List.mem_append_left _ hw
        rw [if_neg (not_not.2 hcol')]
        cases hn : normalizePos (m.ref.getCartDisplacement d0) with
        | none => rw [hn] at h; cases h
        | some b =>
          rw [hn] at h
          cases h
          dsimp only [pure, Except.pure]
          have hlen : (d0 :: rest).length = pols.length := by
            have : pmgDisplacementAmplitudes true m structures = .ok (d0 :: rest,
                (d0 :: rest).map fun d => getAmplitude b (m.ref.getCartDisplacement d)) := by
              unfold pmgDisplacementAmplitudes
              rw [if_neg (by simp), h1]
              dsimp only [bind, Except.bind]
              rw [if_neg (not_not.2 hcol'), hn]
              rfl
            have := (pmgAmplitudes_length m structures true _ _ this).2.2.1
            omega
          rw [← List.cons_append, List.map_append]
          have hz := List.zip_append (l₁ := (d0 :: rest).map fun d => getAmplitude b (m.ref.getCartDisplacement d))
            (r₁ := more.map fun d => getAmplitude b (m.ref.getCartDisplacement d)) (l₂ := pols) (r₂ := [])
            (by simpa using hlen)
          rw [getDof_zip m (some d0) ((d0 :: rest).map fun d =>
            getAmplitude b (m.ref.getCartDisplacement d)) _ pols pols false
            (by simpa only [List.append_nil, List.zip_nil_right] using hz.symm)]

/-! ## C105 -/

/-- C105 fails: lattice and atomic numbers of the structures are never looked at. -/
theorem C105_species_ignored (present : Bool) (spline : SplineFn) (we : Bool) (m : IModel N)
    (ss ss' : List PmgStructure) (pols : List (Mat3 ℝ)) (order : ℤ)
    (h : ss.map PmgStructure.fracCoords = ss'.map PmgStructure.fracCoords) :
    m.addDofFromPymatgen present spline we (ss.map some) pols order =
      m.addDofFromPymatgen present spline we (ss'.map some) pols order ∧
    m.addArtFromPymatgen present spline we (ss.map some) pols =
      m.addArtFromPymatgen present spline we (ss'.map some) pols := by
  have key : pmgDisplacements m (ss.map some) = pmgDisplacements m (ss'.map some) := by
    induction ss generalizing ss' with
    | nil =>
      cases ss' with
      | nil => rfl
      | cons s' ss' => simp at h
    | cons s ss ih =>
      cases ss' with
      | nil => simp at h
      | cons s' ss' =>
        simp only [List.map_cons, List.cons.injEq] at h
        simp only [List.map_cons, pmgDisplacements, pmgPositions]
        rw [h.1, ih ss' h.2]
  unfold IModel.addDofFromPymatgen IModel.addArtFromPymatgen pmgDisplacementAmplitudes
  rw [key]
  exact ⟨rfl, rfl⟩

/-- C105 fails: a structure with a single atom at `x` counts as one with all atoms at `x`. -/
theorem C105_single_atom (present : Bool) (spline : SplineFn) (we : Bool) (m : IModel N)
    (before after : List PmgArg) (lattice lattice' : Mat3 ℝ) (numbers numbers' : List ℕ) (x : Vec3)
    (pols : List (Mat3 ℝ)) (order : ℤ) :
    m.addDofFromPymatgen present spline we (before ++ some ⟨lattice, numbers, [x]⟩ :: after) pols order
      = m.addDofFromPymatgen present spline we
          (before ++ some ⟨lattice', numbers', List.replicate N x⟩ :: after) pols order := by
  have h1 : coordsFor N [x] = .ok (some fun _ => x) := by
    unfold coordsFor
    by_cases h : [x].length = N
    · rw [dif_pos h]
      congr 2
      funext a
      simp
    · rw [dif_neg h, dif_pos (show [x].length = 1 from rfl)]
      rfl
  have h2 : coordsFor N (List.replicate N x) = .ok (some fun _ => x) := by
    unfold coordsFor
    rw [dif_pos (by simp)]
    congr 2
    funext a
    simp
  have key : pmgDisplacements m (before ++ some ⟨lattice, numbers, [x]⟩ :: after) =
      pmgDisplacements m (before ++ some ⟨lattice', numbers', List.replicate N x⟩ :: after) := by
    induction before with
    | nil =>
      simp only [List.nil_append, pmgDisplacements, pmgPositions]
      dsimp only [bind, Except.bind]
      rw [h1, h2]
    | cons s before ih =>
      simp only [List.cons_append, pmgDisplacements]
      rw [ih]
  unfold IModel.addDofFromPymatgen pmgDisplacementAmplitudes
  rw [key]

/-- C105: objects that are not structures are refused with `TypeError`, structures with another
number of atoms (but not one) with `InvalidDOFException`; the model stays as it was. -/
theorem C105_wrong_size_partial (spline : SplineFn) (we : Bool) (m : IModel N) (hN : N ≠ 1)
    (good : List (Snapshot N)) (bad : PmgArg) (after : List PmgArg) (pols : List (Mat3 ℝ))
    (order : ℤ) (e : PyErr)
    (hbad : (bad = none ∧ e = .typeError) ∨
      ∃ s : PmgStructure, bad = some s ∧ s.fracCoords.length ≠ N ∧ s.fracCoords.length ≠ 1 ∧
        e = .invalidDOF) (o : Outcome N)
    (ho : o = m.addDofFromPymatgen true spline we (good.map Snapshot.pmg ++ bad :: after) pols order ∨
      o = m.addArtFromPymatgen true spline we (good.map Snapshot.pmg ++ bad :: after) pols) :
    o.result = .error e ∧ o.state = m ∧ o.warnings = [] := by
  have key : pmgDisplacements m (good.map Snapshot.pmg ++ bad :: after) = .error e := by
    clear ho
    induction good with
    | nil =>
      rcases hbad with ⟨rfl, rfl⟩ | ⟨s, rfl, h1, h2, rfl⟩
      · rfl
      · simp only [List.map_nil, List.nil_append, pmgDisplacements, pmgPositions]
        dsimp only [bind, Except.bind]
        have : coordsFor N s.fracCoords = .ok none := by
          unfold coordsFor
          rw [dif_neg h1, dif_neg h2, if_neg hN]
        rw [this]
    | cons x good ih =>
      simp only [List.map_cons, List.cons_append, pmgDisplacements, Snapshot.pmg, pmgPositions]
      dsimp only [bind, Except.bind]
      rw [coordsFor_ofFn]
      dsimp only
      rw [ih]
  have ha : pmgDisplacementAmplitudes true m (good.map Snapshot.pmg ++ bad :: after) = .error e := by
    unfold pmgDisplacementAmplitudes
    rw [if_neg (by simp), key]
    rfl
  rcases ho with rfl | rfl
  · unfold IModel.addDofFromPymatgen
    rw [if_neg (by simp), ha]
    exact ⟨rfl, rfl, rfl⟩
  · unfold IModel.addArtFromPymatgen
    rw [ha]
    exact ⟨rfl, rfl, rfl⟩

/-! ## Concrete cases -/

/-- One atom moved to `x` along the first axis. -/
def atX (x : ℝ) : Pos 1 ℝ := fun _ => ![x, 0, 0]

theorem atX_displacement (x : ℝ) (h : InHalfBox x) :
    calcDisplacement (fun (_ : Fin 1) _ => (0 : ℝ)) (atX x) = atX x := by
  refine (calcDisplacement_nearest _ _).unique fun a i => ⟨?_, 0, by simp⟩
  fin_cases i
  · exact h
  · norm_num [InHalfBox, atX]
  · norm_num [InHalfBox, atX]

theorem atX_ne {x : ℝ} (hx : x ≠ 0) : atX x ≠ 0 := fun h => hx (by simpa [atX] using congrFun (congrFun h 0) 0)

theorem atX_norm {x : ℝ} (hx : 0 < x) : norm2 (flat (atX x)) = x := by
  unfold norm2 dot
  rw [Fintype.sum_prod_type]
  simp only [Finset.univ_unique, Finset.sum_singleton, Fin.sum_univ_three, flat, atX]
  simp
  rw [Real.sqrt_mul_self hx.le]

theorem atX_collinear {x y : ℝ} (hx : x ≠ 0) (hy : y ≠ 0) :
    Collinear (flat (atX x)) (flat (atX y)) := by
  refine ⟨flat_ne_zero (atX_ne hx), flat_ne_zero (atX_ne hy), ?_⟩
  have hxy : flat (atX y) = (y / x) • flat (atX x) := by
    funext ⟨a, i⟩
    fin_cases i <;> simp [flat, atX]
    field_simp
  have h0 := flat_ne_zero (atX_ne hx)
  have hc : |cosine (flat (atX x)) (flat (atX y))| = 1 := by
    rw [cosine_eq, hxy]
    have hd : dot (flat (atX x)) ((y / x) • flat (atX x)) = (y / x) * norm2 (flat (atX x)) ^ 2 := by
      rw [norm2_sq]
      simp only [dot, Pi.smul_apply, smul_eq_mul, Finset.mul_sum]
      exact Finset.sum_congr rfl fun i _ => by ring
    have hn : norm2 ((y / x) • flat (atX x)) = |y / x| * norm2 (flat (atX x)) := by
      have : dot ((y / x) • flat (atX x)) ((y / x) • flat (atX x)) =
          (|y / x| * norm2 (flat (atX x))) ^ 2 := by
        rw [mul_pow, sq_abs, norm2_sq]
        simp only [dot, Pi.smul_apply, smul_eq_mul, Finset.mul_sum]
        exact Finset.sum_congr rfl fun i _ => by ring
      unfold norm2 at this ⊢
      rw [this, Real.sqrt_sq (mul_nonneg (abs_nonneg _) (Real.sqrt_nonneg _))]
    rw [hd, hn]
    have hp := norm2_pos h0
    have hq : |y / x| ≠ 0 := abs_ne_zero.2 (div_ne_zero hy hx)
    rw [abs_div, abs_mul, abs_of_pos (pow_pos hp 2), abs_of_pos (by positivity : 0 < norm2 (flat (atX x)) *
      (|y / x| * norm2 (flat (atX x))))]
    field_simp
  rw [hc]
  norm_num [angTol]

/-- `add_art_from_pymatgen` for one atom in a cubic cell displaced by ±1/10, with any further
structures that displace it along the same axis. -/
theorem cube_addArtFromPymatgen (A B pol : Mat3 ℝ) (s : RefStructure 1)
    (hs : RefStructure.init trivialSpglib (fun _ => 1) 1 (fun _ _ => 0) = .ok s)
    (hops : s.ops = [⟨1, 0⟩]) (lat : Mat3 ℝ) (nums : List ℕ) (extra : List ℝ)
    (hx : ∀ x ∈ extra, InHalfBox x ∧ x ≠ 0) :
    ((IModel.init s pol false).addArtFromPymatgen true lookupSpline true
      ((1 / 10 :: -1 / 10 :: extra).map fun x => (some ⟨lat, nums, [![x, 0, 0]]⟩ : PmgArg))
      [A, B]).result = .ok () := by
  obtain ⟨hpos, hlat, _⟩ := init_facts hs
  obtain ⟨xs, hxs⟩ : ∃ xs, xs = -1 / 10 :: extra := ⟨_, rfl⟩
  have hall : ∀ x ∈ 1 / 10 :: xs, InHalfBox x ∧ x ≠ 0 := by
    intro x h
    rw [hxs] at h
    simp only [List.mem_cons] at h
    rcases h with rfl | rfl | h
    · norm_num [InHalfBox]
    · norm_num [InHalfBox]
    · exact hx x h
  rw [← hxs]
  have hds : ∀ l : List ℝ, (∀ x ∈ l, InHalfBox x) → pmgDisplacements (IModel.init s pol false)
      (l.map fun x => (some ⟨lat, nums, [![x, 0, 0]]⟩ : PmgArg)) = .ok (l.map atX) := by
    intro l hl
    induction l with
    | nil => rfl
    | cons x l ih =>
      have hc : coordsFor 1 [(![x, 0, 0] : Vec3)] = .ok (some (atX x)) := by
        have := coordsFor_ofFn (atX x)
        simpa [atX] using this
      simp only [List.map_cons, pmgDisplacements, pmgPositions]
      dsimp only [bind, Except.bind]
      rw [hc]
      dsimp only
      rw [ih fun y hy => hl y (by simp [hy])]
      have : (IModel.init s pol false).ref.positions = fun _ _ => 0 := hpos
      rw [this, atX_displacement x (hl x (by simp))]
      rfl
  have hcart : ∀ x, InHalfBox x → s.getCartDisplacement (atX x) = atX x := by
    intro x h
    rw [getCart_of_box, hlat]
    · funext a j
      simp [toCart, Matrix.one_apply]
    · intro a i
      fin_cases i
      · exact h
      · norm_num [InHalfBox, atX]
      · norm_num [InHalfBox, atX]
  have hnorm : normalizePos (atX (1 / 10)) = some (atX 1) := by
    unfold normalizePos
    rw [atX_norm (by norm_num), if_neg (by norm_num)]
    congr 1
    funext a i
    fin_cases i <;> simp [atX]
  have hamp : ∀ x, InHalfBox x → getAmplitude (atX 1) (s.getCartDisplacement (atX x)) = x := by
    intro x h
    rw [hcart x h]
    unfold getAmplitude dot
    rw [Fintype.sum_prod_type]
    simp [Fin.sum_univ_three, flat, atX]
  have hda : pmgDisplacementAmplitudes true (IModel.init s pol false)
      ((1 / 10 :: xs).map fun x => (some ⟨lat, nums, [![x, 0, 0]]⟩ : PmgArg)) =
      .ok ((1 / 10 :: xs).map atX, 1 / 10 :: xs) := by
    unfold pmgDisplacementAmplitudes
    rw [if_neg (by simp), hds _ fun x h => (hall x h).1]
    dsimp only [bind, Except.bind]
    rw [List.map_cons]
    dsimp only
    rw [if_neg]
    · have : normalizePos ((IModel.init s pol false).ref.getCartDisplacement (atX (1 / 10))) =
          some (atX 1) := by
        rw [← hnorm]; congr 1; exact hcart _ (by norm_num [InHalfBox])
      rw [this]
      dsimp only
      congr 2
      rw [← List.map_cons (f := atX), List.map_map]
      conv_rhs => rw [← List.map_id (1 / 10 :: xs)]
      exact List.map_congr_left fun x h => hamp x (hall x h).1
    · rw [not_not, (C09_neg_one _ _).1]
      intro w hw
      rw [← List.map_cons (f := atX), List.map_map] at hw
      obtain ⟨x, h, rfl⟩ := List.mem_map.1 hw
      exact atX_collinear (by norm_num) (hall x h).2
  have hmult : multipleAtomsDisplaced (atX (1 / 10)) = false := by
    unfold multipleAtomsDisplaced
    simp only [List.finRange_succ, List.finRange_zero, List.map_nil, Bool.not_eq_false']
    refine decide_eq_true ?_
    intro a i
    rw [if_pos (Subsingleton.elim _ _)]
    norm_num
  obtain ⟨e, he, hresc⟩ := getEq_single trivialSpglib _ _ _ s hs (one_apart _) hops (atX (1 / 10))
    ⟨0, 0, fun ⟨n, hn⟩ => by
      simp only [atX, Matrix.cons_val_zero] at hn
      have h10 : (-1 : ℤ) = 10 * n := by
        have : (-1 : ℝ) = 10 * n := by linarith
        exact_mod_cast this
      omega⟩
  obtain ⟨⟨c, hc, hscale⟩, hn⟩ := hresc
  have hwrap : applyPbcDisplacement (atX (1 / 10)) = atX (1 / 10) := by
    funext a i
    apply wrap1_of_inHalfBox
    fin_cases i <;> norm_num [InHalfBox, atX]
  have he0 : e ≠ 0 := by
    rintro rfl
    simp at hn
  have hbox : ∀ a i, InHalfBox (e a i) := by
    refine box_of_norm (le_of_eq ?_)
    unfold norm2
    have : dot (flat e) (flat e) = (1 / 10) ^ 2 := by
      rw [dot, Fintype.sum_prod_type]
      calc _ = ∑ a, ∑ i, e a i ^ 2 := Finset.sum_congr rfl fun a _ =>
            Finset.sum_congr rfl fun i _ => by simp [flat, sq]
        _ = _ := by rw [hn]; norm_num
    rw [this, Real.sqrt_sq (by norm_num)]
  obtain ⟨b, hb⟩ : ∃ b, normalizePos (s.getCartDisplacement e) = some b := by
    rw [getCart_of_box _ _ hbox, hlat]
    have : toCart 1 e = e := by funext a j; simp [toCart, Matrix.one_apply]
    rw [this]
    unfold normalizePos
    rw [if_neg fun h => flat_ne_zero he0 (norm2_eq_zero.1 h)]
    exact ⟨_, rfl⟩
  have hdof : getDof (IModel.init s pol false) (some (atX (1 / 10))) (1 / 10 :: xs) [A, B] false =
      .ok [⟨some b, [(some (1 / 10), A - pol), (some (-1 / 10), B - pol)]⟩] := by
    rw [getDof_eq _ _ _ _ _ [⟨[e], [⟨1, 0⟩]⟩] rfl he, List.mapM_cons,
      dofGroup_eq (IModel.init s pol false) _ _ _ ⟨[e], [⟨1, 0⟩]⟩ e [] rfl (by simp)]
    have hb' : normalizePos ((IModel.init s pol false).ref.getCartDisplacement e) = some b := hb
    rw [hb', hxs]
    simp only [List.zip_cons_cons, List.zip_nil_left, List.flatMap_cons, List.flatMap_nil,
      List.append_nil, multiplier_self e he0, refPoint, imagePoint]
    have hp : (IModel.init s pol false).refPol = pol := rfl
    have hone : ∀ x : ℝ × Mat3 ℝ, imagePoint pol (some 1) ⟨1, 0⟩ x = (some x.1, x.2 - pol) := by
      intro x
      simp [imagePoint]
    simp only [hp, List.map_cons, List.zip_nil_right, List.map_nil, hone]
    rfl
  unfold IModel.addArtFromPymatgen
  rw [hda, List.map_cons]
  dsimp only
  rw [hmult, if_neg (by simp), hdof]
  dsimp only
  rw [if_neg (by simp)]
  unfold constructAndAdd
  rw [if_neg (by norm_num)]
  have hbuild : ∃ f, buildOne lookupSpline true (1 : ℤ).toNat
      [(some (1 / 10), A - pol), (some (-1 / 10), B - pol)] = (.ok f, []) := by
    have hd : hasDuplicates (([(some (1 / 10), A - pol), (some (-1 / 10), B - pol)] :
        List (Option ℝ × Mat3 ℝ)).map Prod.fst) = false := by
      have : (([(some (1 / 10), A - pol), (some (-1 / 10), B - pol)] :
        List (Option ℝ × Mat3 ℝ)).map Prod.fst) = [1 / 10, -1 / 10].map some := rfl
      rw [this, hasDuplicates_false]
      simp [TooClose]
      norm_num [abs_of_pos, abs_of_neg]
    unfold buildOne
    rw [hd, if_neg (by simp), if_neg (by simp)]
    simp only [finitePts, Option.map_some]
    have hws : dofWarnings (([(1 / 10, A - pol), (-1 / 10, B - pol)] : List (ℝ × Mat3 ℝ)).map
        Prod.fst) = [] := by
      rw [dofWarnings_eq _ (by simp)]
      unfold warnSpec
      rw [if_neg, if_neg]
      · rfl
      · intro h
        have := h (-1 / 10) (by simp)
        norm_num at this
      · intro h
        have := h (1 / 10) (by simp)
        norm_num at this
    rw [hws]
    exact ⟨_, rfl⟩
  obtain ⟨f, hf⟩ := hbuild
  simp only [buildAll, hf]
  rfl

/-- C101 fails, concrete: three structures with two polarizabilities are accepted, the third
structure is dropped. -/
theorem C101_counterexample (A B pol : Mat3 ℝ) : ∃ (m : IModel 1) (structures : List PmgArg),
    structures.length = 3 ∧
    (m.addArtFromPymatgen true lookupSpline true structures [A, B]).result = .ok () ∧
    m.addArtFromPymatgen true lookupSpline true (structures.take 2) [A, B] =
      m.addArtFromPymatgen true lookupSpline true structures [A, B] := by
  obtain ⟨s, hs, hops⟩ := trivialInit
  have h := cube_addArtFromPymatgen A B pol s hs hops 1 [1] [1 / 5]
    (by intro x hx; rw [List.mem_singleton] at hx; subst hx; norm_num [InHalfBox])
  refine ⟨IModel.init s pol false, _, ?_, h, ?_⟩
  · simp
  · exact C101_surplus_structures true lookupSpline true _ _ [some ⟨1, [1], [![1 / 5, 0, 0]]⟩] [A, B]
      (by simp) (by simp) h

/-- C105 fails, concrete: structures with another lattice and another element than the reference
structure (a cubic cell of hydrogen) are accepted. -/
theorem C105_counterexample (A B pol : Mat3 ℝ) : ∃ (m : IModel 1) (s1 s2 : PmgStructure),
    (m.addArtFromPymatgen true lookupSpline true [some s1, some s2] [A, B]).result = .ok () ∧
    m.ref.lattice ≠ s1.lattice ∧ s1.atomicNumbers ≠ List.ofFn m.ref.atomicNumbers := by
  obtain ⟨s, hs, hops⟩ := trivialInit
  have h := cube_addArtFromPymatgen A B pol s hs hops ((5 : ℝ) • 1) [92] [] (by simp)
  refine ⟨IModel.init s pol false, ⟨(5 : ℝ) • 1, [92], [![1 / 10, 0, 0]]⟩, ⟨(5 : ℝ) • 1, [92], [![-1 / 10, 0, 0]]⟩, h, ?_,
    ?_⟩
  · have : (IModel.init s pol false).ref.lattice = 1 := (init_facts hs).2.1
    rw [this]
    intro h
    have := congrFun (congrFun h 0) 0
    simp at this
  · have : (IModel.init s pol false).ref.atomicNumbers = fun _ => 1 := by
      change s.atomicNumbers = _
      unfold RefStructure.init at hs
      split at hs
      · cases hs
      · dsimp only [bind, Except.bind] at hs
        split at hs
        · cases hs
        · obtain rfl := Except.ok.inj hs
          rfl
    rw [this]
    simp

/-- C101, C100, concrete: the same data from files and from structures, accepted. -/
example (A B pol : Mat3 ℝ) : ∃ m : IModel 1,
    (m.addArtFromFiles lookupSpline true
      [.ok (some (atX (1 / 10)), A), .ok (some (atX (-1 / 10)), B)]).result = .ok () := by
  obtain ⟨s, hs, hops⟩ := trivialInit
  refine ⟨IModel.init s pol false, ?_⟩
  have h := cube_addArtFromPymatgen A B pol s hs hops 1 [1] [] (by simp)
  have key := C101_same_as_files_partial lookupSpline true (IModel.init s pol false) rfl
    [⟨1, [1], atX (1 / 10), A⟩, ⟨1, [1], atX (-1 / 10), B⟩]
  simp only [List.map_cons, List.map_nil, Snapshot.file, Snapshot.pmg] at key
  rw [← key]
  have hx : ∀ x, List.ofFn (atX x) = [![x, 0, 0]] := fun x => by simp [atX]
  simp only [List.map_cons, List.map_nil] at h
  rw [hx, hx]
  exact h

/-- C100, C105, concrete refusals: no polarizability for one structure; a structure with three atoms
for a crystal with two. -/
example (spline : SplineFn) (s : RefStructure 1) (s' : RefStructure 2) (pol : Mat3 ℝ) :
    (∃ e, ((IModel.init s pol false).addDofFromPymatgen true spline true
      [some ⟨1, [1], [![1 / 10, 0, 0]]⟩] [] 1).result = .error e) ∧
    ((IModel.init s' pol false).addDofFromPymatgen true spline true
      [some ⟨1, [1, 1, 1], [0, 0, 0]⟩] [pol] 1).result = .error .invalidDOF :=
  ⟨(C100_count spline true (IModel.init s pol false) rfl [some ⟨1, [1], [![1 / 10, 0, 0]]⟩] [] 1
      (by simp) _ rfl).1,
    (C105_wrong_size_partial spline true (IModel.init s' pol false) (by decide) []
      (some ⟨1, [1, 1, 1], [0, 0, 0]⟩) [] [pol] 1 .invalidDOF
      (Or.inr ⟨_, rfl, by simp, by simp, rfl⟩) _ (Or.inl rfl)).1⟩

end Verif
