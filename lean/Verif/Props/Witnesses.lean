import Verif.Props.CallOrder
import Verif.Props.Origin
import Verif.Props.RadiusGraph
import Verif.Props.VasprunPhonons

/-!
# Concrete cases for C25, C26, C31, C33, C39, C82 and C97

The theorems are in other files; here their hypotheses are met by concrete, non-trivial data.
-/

namespace Verif
open Spec

/-- C25, concrete: a reachable model with three degrees of freedom. -/
example (pol A B C D : Mat3 ℝ) : ∃ m : IModel 1, Reachable lookupSpline m ∧ m.dummy = false ∧
    m.basis.length = 3 ∧ m.mask.length = 3 ∧ m.interps.length = 3 := by
  obtain ⟨s, o₁, o₂, b₁, b₂, b₃, d₁, d₂, R, -, -, h1, r1, h2, r2, hr, -, hb, -⟩ :=
    C38_cubic_counterexample (fun _ => 1) pol A B C D
  have e1 := (C26_all_or_nothing lookupSpline true _ o₁ (Or.inl ⟨_, _, _, _, _, h1⟩)).2 r1
  have e2 := (C26_all_or_nothing lookupSpline true _ o₂ (Or.inl ⟨_, _, _, _, _, h2⟩)).2 r2
  obtain ⟨_, _, -, -, -, -, -, -, e1⟩ := e1
  obtain ⟨_, _, -, -, -, -, -, -, e2⟩ := e2
  have hd : o₂.state.dummy = false := by rw [e2, e1]; rfl
  obtain ⟨k1, k2, -⟩ := C25_consistent lookupSpline o₂.state hr
  exact ⟨o₂.state, hr, hd, by rw [hb]; rfl, by rw [k1, hb]; rfl, by rw [k2 hd, hb]; rfl⟩

/-- C26, concrete: in the mirror crystal a first call adds two degrees of freedom, a second one fails
and leaves the model with these two. -/
example (pol A B C D : Mat3 ℝ) : ∃ (m : IModel 1) (o₁ o₂ : Outcome 1),
    o₁ = m.addDof lookupSpline true (one1 mirV) [-(3 / 50), 3 / 50] [C, D] 2 true ∧
    o₁.result = .ok () ∧ m.basis = [] ∧ o₁.state.basis = [one1 mirX, one1 mirY] ∧
    o₂ = o₁.state.addDof lookupSpline true (one1 mirU) [-(1 / 10), 1 / 10] [A, B] 2 true ∧
    o₂.result = .error .invalidDOF ∧ o₂.state = o₁.state := by
  obtain ⟨s, hs, hops⟩ := mirInit fun _ => 1
  obtain ⟨hpos, hlat, _⟩ := init_facts hs
  obtain ⟨g, h, hgh, -, -⟩ := mir_addV _ s hs hops C D (IModel.init s pol false) rfl rfl
    (plain_orth s hlat _ rfl _ mirV' mir_norms.2.2.1 mir_norms.2.2.2 mir_box.2.2.1
      (by norm_num [mirV, mirV', vec_two]) (Or.inl rfl))
  refine ⟨IModel.init s pol false, _, _, rfl, by rw [hgh], rfl, by rw [hgh]; rfl, rfl, ?_, ?_⟩
  · rw [hgh]
    exact mir_refused _ s hs A B _ rfl rfl (by simp)
  · refine (C26_all_or_nothing lookupSpline true _ _ (Or.inl ⟨_, _, _, _, _, rfl⟩)).1 .invalidDOF ?_
    rw [hgh]
    exact mir_refused _ s hs A B _ rfl rfl (by simp)

/-- C31, concrete: a dummy model with one degree of freedom is reachable, and refuses to predict; without
degrees of freedom it predicts zero. -/
example (pol : Mat3 ℝ) (q : Pos 1 ℝ) : ∃ m m' : IModel 1, Reachable lookupSpline m ∧
    m.dummy = true ∧ m.basis.length = 1 ∧ m.calcPolarizabilities [q] = .error .userError ∧
    Reachable lookupSpline m' ∧ m'.dummy = true ∧ m'.calcPolarizabilities [q] = .ok [0] := by
  obtain ⟨s, hs, hops⟩ := trivialInit
  obtain ⟨hpos, hlat, _⟩ := init_facts hs
  obtain ⟨h1, h2⟩ : ((IModel.init s pol true).addDof lookupSpline true (one1 mirV) [-(3 / 50), 3 / 50]
      [] 2 true).state.dummy = true ∧ ((IModel.init s pol true).addDof lookupSpline true (one1 mirV)
      [-(3 / 50), 3 / 50] [] 2 true).state.basis.length = 1 := by
    obtain ⟨g, hg⟩ := plain_add_any s hs hops mirV mir_norms.2.2.1 mir_box.2.2.1 [] 0 0
      (IModel.init s pol true) rfl rfl (plain_orth s hlat _ rfl _ mirV' mir_norms.2.2.1
        mir_norms.2.2.2 mir_box.2.2.1 (by norm_num [mirV, mirV', vec_two]) (Or.inl rfl))
    rw [hg]
    exact ⟨rfl, rfl⟩
  have hr : Reachable lookupSpline ((IModel.init s pol true).addDof lookupSpline true (one1 mirV)
      [-(3 / 50), 3 / 50] [] 2 true).state := Reachable.addDof _ _ _ _ _ _ (Reachable.init _ _ _)
  refine ⟨_, _, hr, h1, h2, (C31_dummy lookupSpline _ hr [q]).1 h1 ?_, Reachable.init s pol true, rfl,
    (C31_dummy lookupSpline _ (Reachable.init s pol true) [q]).2.1 rfl rfl⟩
  intro h
  rw [h] at h2
  cases h2

/-- A spline routine that insists on what `C33_valid_calls` promises. -/
noncomputable def strictSpline : SplineFn := fun k pts =>
  open Classical in if SplineReady k pts then lookupSpline k pts else .error .valueError

/-- C33, concrete: two routines that differ, but not on what they are called with; both build the same
degree of freedom. -/
example (pol A B : Mat3 ℝ) : ∃ m : IModel 1,
    strictSpline 2 [] ≠ lookupSpline 2 [] ∧
    m.addDof strictSpline true (one1 mirU) [-(1 / 10), 1 / 10] [A, B] 2 true =
      m.addDof lookupSpline true (one1 mirU) [-(1 / 10), 1 / 10] [A, B] 2 true ∧
    (m.addDof lookupSpline true (one1 mirU) [-(1 / 10), 1 / 10] [A, B] 2 true).result = .ok () ∧
    m.dummy = false := by
  obtain ⟨s, hs, hops⟩ := mirInit fun _ => 1
  obtain ⟨f, h1, -⟩ := mir_add₁ _ s hs hops pol A B
  refine ⟨IModel.init s pol false, ?_, ?_, by rw [h1], rfl⟩
  · unfold strictSpline
    rw [if_neg (by unfold SplineReady; simp)]
    unfold lookupSpline
    simp
  · refine (C33_valid_calls strictSpline lookupSpline ?_ true _).1 _ _ _ _ _
    intro k pts h
    unfold strictSpline
    rw [if_pos h]

/-- The identity and the inversion at the only atom. -/
def invSpglib : Mat3 ℝ → Pos 1 ℝ → (Fin 1 → ℕ) → Option SymDict :=
  fun _ _ _ => some ⟨[⟨1, 0⟩, ⟨-1, 0⟩], [0]⟩

theorem one_sym (R : Mat3 ℝ) (h : IntegerMatrix R) :
    IsSymmetry (fun (_ : Fin 1) _ => (0 : ℝ)) R 0 (Equiv.refl _) :=
  ⟨h, fun a j => ⟨0, by simp⟩⟩

theorem integer_one : IntegerMatrix (1 : Mat3 ℝ) ∧ IntegerMatrix (-1 : Mat3 ℝ) := by
  refine ⟨⟨1, ?_⟩, ⟨-1, ?_⟩⟩ <;> intro i j <;> fin_cases i <;> fin_cases j <;> simp [Matrix.one_apply]

/-- The image of a displacement of the only atom. -/
theorem one_candidate (P : PermMat 1) (R : Mat3 ℝ) (h : IntegerMatrix R)
    (hP : permMatrixOf (comShift fun (_ : Fin 1) _ => (0 : ℝ)) (fun _ _ => 0) ⟨R, 0⟩ = .ok P)
    (u v : Fin 3 → ℝ) (hv : ∀ j, InHalfBox (v j)) (hk : ∀ j, ∑ i, u i * R i j = v j) :
    candidate (fun _ _ => 0) (displacePositions (fun _ _ => 0) (one1 u)) ⟨R, 0⟩ P
      = .ok (one1 v) := by
  obtain ⟨c, hc, hcc⟩ := C13_candidate (fun (_ : Fin 1) _ => (0 : ℝ)) (one1 u) ⟨R, 0⟩ P
    (Equiv.refl _) (one_apart _) (one_sym R h) hP
  rw [hc]
  congr 1
  funext a j
  have h := hcc a j
  rw [Equiv.refl_apply] at h
  unfold one1 at h
  rw [hk j] at h
  exact (h.2.eq_of_inHalfBox (hv j) h.1).symm

/-- The crystal with an inversion centre, and the images of the displacement along `x`. -/
theorem inv_groups (nums : Fin 1 → ℕ) : ∃ s : RefStructure 1,
    RefStructure.init invSpglib nums 1 (fun _ _ => 0) = .ok s ∧ s.lattice = 1 ∧
    s.ops = [⟨1, 0⟩, ⟨-1, 0⟩] ∧ s.getEquivalentDisplacements (one1 mirV) =
      .ok (some [⟨[one1 mirV, one1 fun i => -mirV i], [⟨1, 0⟩, ⟨-1, 0⟩]⟩]) := by
  have hz : ∀ (a : Fin 1) (i : Fin 3), InClosedCell ((fun _ _ => 0 : Pos 1 ℝ) a i) :=
    fun _ _ => by norm_num [InClosedCell]
  obtain ⟨P, hP, _⟩ := C12_entry (fun _ _ => 0 : Pos 1 ℝ) ⟨1, 0⟩ integer_one.1 hz
  obtain ⟨Q, hQ, _⟩ := C12_entry (fun _ _ => 0 : Pos 1 ℝ) ⟨-1, 0⟩ integer_one.2 hz
  have hs : RefStructure.init invSpglib nums 1 (fun _ _ => 0) =
      .ok ⟨nums, 1, fun _ _ => 0, [⟨1, 0⟩, ⟨-1, 0⟩], [P, Q], [0]⟩ := by
    unfold RefStructure.init invSpglib computePermutationMatrices
    simp only [List.mapM_cons, hP, hQ, List.mapM_nil]
    rfl
  generalize hse : (⟨nums, 1, fun _ _ => 0, [⟨1, 0⟩, ⟨-1, 0⟩], [P, Q], [0]⟩ : RefStructure 1) = s
    at hs
  have hlat : s.lattice = 1 := by rw [← hse]
  obtain ⟨-, -, n1, -⟩ := mir_norms
  obtain ⟨-, -, b1, -⟩ := mir_box
  have b2 : ∀ j, InHalfBox (-mirV j) := by
    intro j
    fin_cases j <;> norm_num [mirV, InHalfBox]
  have hgr : s.getEquivalentDisplacements (one1 mirV) =
      .ok (some [⟨[one1 mirV, one1 fun i => -mirV i], [⟨1, 0⟩, ⟨-1, 0⟩]⟩]) := by
    have c0 := one_candidate P 1 integer_one.1 hP mirV mirV b1 (fun j => by simp [Matrix.one_apply])
    have c1 := one_candidate Q (-1) integer_one.2 hQ mirV (fun i => -mirV i) b2
      (fun j => by simp [Matrix.one_apply])
    unfold RefStructure.getEquivalentDisplacements
    rw [mir_scale mirV n1 b1, ← hse]
    simp only [List.zip_cons_cons, List.zip_nil_left, eqLoop]
    rw [c0]
    change (candidate _ _ _ _ >>= _) >>= _ = _
    rw [c1, eqInsert_first]
    have n2 : (fun i => -mirV i) 0 ^ 2 + (fun i => -mirV i) 1 ^ 2 + (fun i => -mirV i) 2 ^ 2 =
        (1 / 10) ^ 2 := by norm_num [mirV, vec_two]
    have hcos : cosine (flat (one1 fun i => -mirV i)) (flat (one1 mirV)) = -1 := by
      rw [cosine_one1 _ _ (1 / 10) (by norm_num) n2 n1]
      norm_num [mirV, vec_two]
    have hc : Collinear (flat (one1 fun i => -mirV i)) (flat (one1 mirV)) :=
      ⟨one1_ne (vec_ne_zero n2), one1_ne (vec_ne_zero n1), by rw [hcos]; norm_num [angTol]⟩
    have i1 : eqInsert (⟨[⟨[one1 mirV], [⟨1, 0⟩]⟩], [one1 mirV]⟩ : EqState 1) ⟨-1, 0⟩
        (one1 fun i => -mirV i) =
        ⟨[⟨[one1 mirV, one1 fun i => -mirV i], [⟨1, 0⟩, ⟨-1, 0⟩]⟩], [one1 mirV]⟩ := by
      unfold eqInsert
      rw [if_neg]
      · have hr : isNonCollinearWithAll (flat (one1 fun i => -mirV i)) [flat (one1 mirV)] = 0 := by
          rcases C09_is_non_collinear_with_all (flat (one1 fun i => -mirV i)) [flat (one1 mirV)] with
            ⟨-, h⟩ | ⟨k, hk, h, -, -⟩
          · exact absurd hc (h _ (by simp))
          · have : k = 0 := by simpa using hk
            rw [h, this]
            rfl
        have hfar : allClose5 (one1 fun i => -mirV i) (one1 mirV) = false := by
          unfold allClose5
          rw [decide_eq_false_iff_not]
          intro h
          have := h 0 0
          norm_num [one1, mirV, abs_of_pos, abs_of_neg] at this
        simp only [List.map_cons, List.map_nil, hr]
        rw [if_pos (by norm_num)]
        simp [modAt, hfar]
      · rw [C08_all_orthogonal]
        intro h
        have := (h (flat (one1 mirV)) (by simp)).2.2
        rw [hcos] at this
        norm_num [angTol] at this
    dsimp only [bind, Except.bind]
    rw [i1]
    rfl
  exact ⟨s, hs, hlat, by rw [← hse], hgr⟩

/-- C39, concrete: with an inversion centre the displacement and its negative are one group, and the data
supplied for amplitude 3/50 are used at 3/50 and at -3/50. -/
example (pol A : Mat3 ℝ) : ∃ (s : RefStructure 1) (m : IModel 1) (G : DofGroup 1),
    RefStructure.init invSpglib (fun _ => 1) 1 (fun _ _ => 0) = .ok s ∧ m = IModel.init s pol false ∧
    s.getEquivalentDisplacements (one1 mirV) =
      .ok (some [⟨[one1 mirV, one1 fun i => -mirV i], [⟨1, 0⟩, ⟨-1, 0⟩]⟩]) ∧
    getDof m (some (one1 mirV)) [3 / 50] [A] true = .ok [G] ∧
    G.pts.map Prod.fst = [some 0, some (3 / 50), some (-(3 / 50))] := by
  obtain ⟨s, hs, hlat, -, hgr⟩ := inv_groups fun _ => 1
  have hne : one1 mirV ≠ 0 := fun h => one1_ne (vec_ne_zero mir_norms.2.2.1) (by rw [h]; rfl)
  have ho : orthCheck (IModel.init s pol false) (some (one1 mirV)) = -1 :=
    plain_orth s hlat _ rfl _ mirV' mir_norms.2.2.1 mir_norms.2.2.2 mir_box.2.2.1
      (by norm_num [mirV, mirV', vec_two]) (Or.inl rfl)
  have d1 := dofGroup_eq (IModel.init s pol false) [3 / 50] [A] true
    ⟨[one1 mirV, one1 fun i => -mirV i], [⟨1, 0⟩, ⟨-1, 0⟩]⟩ (one1 mirV) [one1 fun i => -mirV i] rfl
    (by simp [Matrix.det_neg])
  obtain ⟨G, hG⟩ : ∃ G, dofGroup (IModel.init s pol false) [3 / 50] [A] true
      ⟨[one1 mirV, one1 fun i => -mirV i], [⟨1, 0⟩, ⟨-1, 0⟩]⟩ = .ok G := ⟨_, d1⟩
  have hpts := Except.ok.inj (hG.symm.trans d1)
  refine ⟨s, _, G, hs, rfl, hgr, ?_, ?_⟩
  · rw [getDof_eq _ _ _ _ _ _ ho hgr, List.mapM_cons, hG]
    rfl
  · have hm := multiplier_smul (one1 mirV) hne (-1) (by norm_num)
    have he : (fun a i => -1 * one1 mirV a i) = one1 fun i => -mirV i := by
      funext a i
      simp [one1]
    rw [he] at hm
    rw [hpts]
    simp only [List.zip_cons_cons, List.zip_nil_left, List.flatMap_cons, List.flatMap_nil,
      List.append_nil, multiplier_self _ hne, hm, List.map_cons, List.map_nil, imagePoint, refPoint,
      Option.map_some, if_true, List.map_append]
    norm_num [Function.comp_def]

/-- C82, concrete: in a cubic cell being within reach is symmetric for all pairs of atoms, also those
half a cell apart. -/
example (p : Pos 2 ℝ) (_hp : p = ![![0, 0, 0], ![1 / 2, 1 / 4, 0]]) :
    InReach (1 : Mat3 ℝ) 1 (p 0) (p 1) ↔ InReach (1 : Mat3 ℝ) 1 (p 1) (p 0) := by
  refine C82_symmetric 1 p 0 1 1 (Or.inr ?_)
  intro i i' h
  fin_cases i <;> fin_cases i' <;> simp [Matrix.one_apply] at h ⊢

/-- C97, concrete: the sample file has a finite time step. -/
example : vasprunTimestep (sampleRoot (el "rc" none [el "c" (some "O ") []])) = .ok (some (1 / 2)) := by
  decide +kernel

end Verif
