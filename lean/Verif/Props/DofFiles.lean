import Verif.Props.Workflow
import Verif.Props.Art

/-!
# Property C117: degrees of freedom read from files
-/

namespace Verif
open Spec

variable {N : ℕ}

/-- Readable files of the right size. -/
def goodFiles (data : List (Pos N ℝ × Mat3 ℝ)) : List (DofFile N) :=
  data.map fun x => .ok (some x.1, x.2)

/-- C117, refusal: if the displacement of some structure from the reference is not collinear with that
of the first structure (in particular, if it is zero), `add_dof_from_files` and `add_art_from_files`
raise `InvalidDOFException` and leave the model alone. -/
theorem C117_not_collinear (spline : SplineFn) (we : Bool) (m : IModel N)
    (x₀ : Pos N ℝ × Mat3 ℝ) (xs : List (Pos N ℝ × Mat3 ℝ)) (w : Pos N ℝ → Pos N ℝ)
    (hw : ∀ p, NearestImage m.ref.positions p (w p))
    (x : Pos N ℝ × Mat3 ℝ) (hx : x ∈ x₀ :: xs)
    (hc : ¬ Collinear (flatten (w x₀.1)) (flatten (w x.1))) (order : ℤ) :
    m.addDofFromFiles spline we (goodFiles (x₀ :: xs)) order = ⟨.error .invalidDOF, [], m⟩ ∧
    m.addArtFromFiles spline we (goodFiles (x₀ :: xs)) = ⟨.error .invalidDOF, [], m⟩ := by
  have hcalc : ∀ p, calcDisplacement m.ref.positions p = w p := fun p =>
    (calcDisplacement_nearest _ _).unique (hw p)
  have hr : readDof m (goodFiles (x₀ :: xs)) = .error .invalidDOF := by
    unfold readDof goodFiles
    rw [readDofFiles_ok]
    dsimp only [bind, Except.bind]
    simp only [List.map_cons, hcalc]
    rw [if_pos]
    intro h
    have h := (C09_neg_one _ _).1.1 h
    rcases List.mem_cons.1 hx with rfl | hx
    · exact hc (h _ List.mem_cons_self)
    · refine hc (h _ (List.mem_cons_of_mem _ ?_))
      rw [List.map_map, List.map_map]
      exact List.mem_map.2 ⟨x, hx, rfl⟩
  unfold IModel.addDofFromFiles IModel.addArtFromFiles
  rw [hr]
  exact ⟨rfl, rfl⟩

/-- C117, acceptance: otherwise `add_dof_from_files` does what `add_dof` does with the Cartesian
displacement of the first structure, the signed lengths of all displacements along it and the
polarizabilities in the order of the files (zeros for a model without polarizabilities). -/
theorem C117_files (spline : SplineFn) (we : Bool) (m : IModel N) (hL : m.ref.lattice.det ≠ 0)
    (x₀ : Pos N ℝ × Mat3 ℝ) (xs : List (Pos N ℝ × Mat3 ℝ)) (w : Pos N ℝ → Pos N ℝ)
    (hw : ∀ p, NearestImage m.ref.positions p (w p))
    (hc : ∀ x ∈ x₀ :: xs, Collinear (flatten (w x₀.1)) (flatten (w x.1))) (order : ℤ) :
    m.addDofFromFiles spline we (goodFiles (x₀ :: xs)) order =
      m.addDof spline we (toCart m.ref.lattice (w x₀.1))
        ((x₀ :: xs).map fun x =>
          inner3 (toCart m.ref.lattice (w x₀.1)) (toCart m.ref.lattice (w x.1)) /
            Real.sqrt (inner3 (toCart m.ref.lattice (w x₀.1)) (toCart m.ref.lattice (w x₀.1))))
        ((x₀ :: xs).map fun x => if m.dummy then 0 else x.2) order := by
  have hcalc : ∀ p, calcDisplacement m.ref.positions p = w p := fun p =>
    (calcDisplacement_nearest _ _).unique (hw p)
  have hcart : ∀ p, m.ref.getCartDisplacement (w p) = toCart m.ref.lattice (w p) := fun p =>
    getCart_of_box _ _ fun a i => (hw p a i).1
  have hdot : ∀ u v : Pos N ℝ, dot (flat u) (flat v) = inner3 u v := fun u v => by
    simp [inner3, dot, flat, Fintype.sum_prod_type]
  have hw0 : w x₀.1 ≠ 0 := fun h => (hc x₀ List.mem_cons_self).1 (by rw [h]; rfl)
  have hne : toCart m.ref.lattice (w x₀.1) ≠ 0 := fun h => hw0 (toCart_injective hL (by
    rw [h]; funext a j; simp [toCart]))
  have hnorm : norm2 (flat (toCart m.ref.lattice (w x₀.1))) =
      Real.sqrt (inner3 (toCart m.ref.lattice (w x₀.1)) (toCart m.ref.lattice (w x₀.1))) := by
    unfold norm2
    rw [hdot]
  have hr : readDof m (goodFiles (x₀ :: xs)) = .ok ((x₀ :: xs).map (fun x => w x.1),
      ((x₀ :: xs).map fun x =>
          inner3 (toCart m.ref.lattice (w x₀.1)) (toCart m.ref.lattice (w x.1)) /
            Real.sqrt (inner3 (toCart m.ref.lattice (w x₀.1)) (toCart m.ref.lattice (w x₀.1)))),
        ((x₀ :: xs).map fun x => if m.dummy then 0 else x.2)) := by
    unfold readDof goodFiles
    rw [readDofFiles_ok]
    dsimp only [bind, Except.bind]
    simp only [List.map_cons, hcalc]
    rw [if_neg]
    · rw [hcart]
      unfold normalizePos
      rw [if_neg (fun h => (norm2_pos (flat_ne_zero hne)).ne' h)]
      dsimp only
      change Except.ok _ = Except.ok _
      have hamp : ∀ p, getAmplitude (fun a i => toCart m.ref.lattice (w x₀.1) a i /
          norm2 (flat (toCart m.ref.lattice (w x₀.1)))) (toCart m.ref.lattice (w p)) =
          inner3 (toCart m.ref.lattice (w x₀.1)) (toCart m.ref.lattice (w p)) /
            Real.sqrt (inner3 (toCart m.ref.lattice (w x₀.1)) (toCart m.ref.lattice (w x₀.1))) := by
        intro p
        unfold getAmplitude
        rw [hdot, hnorm]
        unfold inner3
        simp only [div_mul_eq_mul_div, Finset.sum_div]
      simp only [List.map_map, Function.comp_def, hcart, hamp]
    · rw [not_not, (C09_neg_one _ _).1]
      intro v hv
      rcases List.mem_cons.1 hv with rfl | hv
      · exact hc x₀ List.mem_cons_self
      · rw [List.map_map, List.map_map] at hv
        obtain ⟨x, hx, rfl⟩ := List.mem_map.1 hv
        exact hc x (List.mem_cons_of_mem _ hx)
  unfold IModel.addDofFromFiles
  rw [hr]
  simp only [List.map_cons]
  rw [hcart]

/-- C117, unusable files: without files `IndexError` is raised; otherwise the first file that cannot be
read determines the exception, and a file with a different number of atoms gives
`InvalidDOFException`.  The model is left alone. -/
theorem C117_unusable (spline : SplineFn) (we : Bool) (m : IModel N) (order : ℤ)
    (good : List (Pos N ℝ × Mat3 ℝ)) (rest : List (DofFile N)) :
    m.addDofFromFiles spline we [] order = ⟨.error .indexError, [], m⟩ ∧
    m.addArtFromFiles spline we [] = ⟨.error .indexError, [], m⟩ ∧
    (∀ e, m.addDofFromFiles spline we (goodFiles good ++ .error e :: rest) order =
        ⟨.error e, [], m⟩ ∧
      m.addArtFromFiles spline we (goodFiles good ++ .error e :: rest) = ⟨.error e, [], m⟩) ∧
    ∀ pol, m.addDofFromFiles spline we (goodFiles good ++ .ok (none, pol) :: rest) order =
        ⟨.error .invalidDOF, [], m⟩ ∧
      m.addArtFromFiles spline we (goodFiles good ++ .ok (none, pol) :: rest) =
        ⟨.error .invalidDOF, [], m⟩ := by
  have hbad : ∀ (f : DofFile N) (e : PyErr), readDofFiles m (f :: rest) = .error e →
      readDof m (goodFiles good ++ f :: rest) = .error e := by
    intro f e h
    have : readDofFiles m (goodFiles good ++ f :: rest) = .error e := by
      induction good with
      | nil => exact h
      | cons x good ih =>
        change readDofFiles m (.ok (some x.1, x.2) :: (goodFiles good ++ f :: rest)) = _
        rw [readDofFiles]
        dsimp only [bind, Except.bind]
        rw [ih]
    unfold readDof
    rw [this]
    rfl
  refine ⟨rfl, rfl, fun e => ?_, fun pol => ?_⟩
  · unfold IModel.addDofFromFiles IModel.addArtFromFiles
    rw [hbad (.error e) e rfl]
    exact ⟨rfl, rfl⟩
  · unfold IModel.addDofFromFiles IModel.addArtFromFiles
    rw [hbad (.ok (none, pol)) .invalidDOF rfl]
    exact ⟨rfl, rfl⟩

theorem near_zero {w : Fin 3 → ℝ} (hw : ∀ i, InHalfBox (w i)) :
    calcDisplacement (fun _ _ => 0 : Pos 1 ℝ) (fun _ => w) = fun _ => w :=
  (calcDisplacement_nearest _ _).unique fun _ i => ⟨hw i, 0, by simp⟩

/-- C117, concrete: structures displaced along x and along y are refused; structures displaced by 1/10
and -1/20 along x are taken as these amplitudes. -/
example (A B pol : Mat3 ℝ) : ∃ s : RefStructure 1,
    (IModel.init s pol false).addDofFromFiles lookupSpline true
        [.ok (some fun _ => ![1 / 10, 0, 0], A), .ok (some fun _ => ![0, 1 / 10, 0], B)] 1
      = ⟨.error .invalidDOF, [], IModel.init s pol false⟩ ∧
    (IModel.init s pol false).addDofFromFiles lookupSpline true
        [.ok (some fun _ => ![1 / 10, 0, 0], A), .ok (some fun _ => ![-(1 / 20), 0, 0], B)] 1
      = (IModel.init s pol false).addDof lookupSpline true (fun _ => ![1 / 10, 0, 0])
          [1 / 10, -(1 / 20)] [A, B] 1 := by
  obtain ⟨s, hs, hops⟩ := trivialInit
  obtain ⟨hpos, hlat, -⟩ := init_facts hs
  have hL : s.lattice.det ≠ 0 := by rw [hlat]; simp
  have hx : calcDisplacement s.positions (fun _ => ![1 / 10, 0, 0]) = fun _ => ![1 / 10, 0, 0] := by
    rw [hpos]
    exact near_zero fun i => by fin_cases i <;> norm_num [InHalfBox]
  have hy : calcDisplacement s.positions (fun _ => ![0, 1 / 10, 0]) = fun _ => ![0, 1 / 10, 0] := by
    rw [hpos]
    exact near_zero fun i => by fin_cases i <;> norm_num [InHalfBox]
  have hz : calcDisplacement s.positions (fun _ => ![-(1 / 20), 0, 0])
      = fun _ => ![-(1 / 20), 0, 0] := by
    rw [hpos]
    exact near_zero fun i => by fin_cases i <;> norm_num [InHalfBox]
  refine ⟨s, ?_, ?_⟩
  · refine (C117_not_collinear lookupSpline true (IModel.init s pol false)
      (fun _ => ![1 / 10, 0, 0], A) [(fun _ => ![0, 1 / 10, 0], B)] (calcDisplacement s.positions)
      (calcDisplacement_nearest _) (fun _ => ![0, 1 / 10, 0], B) (by simp) ?_ 1).1
    dsimp only
    rw [hx, hy]
    rintro ⟨-, -, h⟩
    have : cosine (flatten (fun _ => ![1 / 10, 0, 0] : Pos 1 ℝ)) (flatten fun _ => ![0, 1 / 10, 0]) = 0 := by
      simp [cosine, flatten, Fintype.sum_prod_type, Fin.sum_univ_three]
    rw [this] at h
    norm_num [angTol] at h
  · have hu : (flatten (fun _ => ![1, 0, 0] : Pos 1 ℝ)) ≠ 0 := fun h => by
      have := congrFun h (0, 0)
      norm_num [flatten] at this
    have e : ∀ x : ℝ, flatten (fun _ => ![x, 0, 0] : Pos 1 ℝ)
        = fun i => x * flatten (fun _ => ![1, 0, 0] : Pos 1 ℝ) i := by
      intro x
      funext ⟨a, i⟩
      fin_cases i <;> simp [flatten]
    have h := C117_files lookupSpline true (IModel.init s pol false) hL
      (fun _ => ![1 / 10, 0, 0], A) [(fun _ => ![-(1 / 20), 0, 0], B)] (calcDisplacement s.positions)
      (calcDisplacement_nearest _) (by
        intro x hx'
        simp only [List.mem_cons, List.not_mem_nil, or_false] at hx'
        rcases hx' with rfl | rfl
        · dsimp only
          rw [hx, e]
          exact collinear_scaled hu (by norm_num) (by norm_num)
        · dsimp only
          rw [hx, hz, e, e (-(1 / 20))]
          exact collinear_scaled hu (by norm_num) (by norm_num)) 1
    refine h.trans ?_
    have hc : ∀ v : Fin 3 → ℝ, toCart (IModel.init s pol false).ref.lattice (fun _ => v : Pos 1 ℝ)
        = fun _ => v := by
      intro v
      change toCart s.lattice _ = _
      rw [hlat]
      funext a j
      simp [toCart, Matrix.one_apply]
    have hsq : Real.sqrt (1 / 10 * (1 / 10)) = 1 / 10 := Real.sqrt_mul_self (by norm_num)
    simp only [List.map_cons, List.map_nil, hx, hz, hc]
    have h1 : inner3 (fun _ => ![1 / 10, 0, 0] : Pos 1 ℝ) (fun _ => ![1 / 10, 0, 0])
        = 1 / 10 * (1 / 10) := by simp [inner3, Fin.sum_univ_three]
    have h2 : inner3 (fun _ => ![1 / 10, 0, 0] : Pos 1 ℝ) (fun _ => ![-(1 / 20), 0, 0])
        = 1 / 10 * (-(1 / 20)) := by simp [inner3, Fin.sum_univ_three]
    rw [h1, h2, hsq]
    have h3 : (1 / 10 * (1 / 10) / (1 / 10) : ℝ) = 1 / 10 := by norm_num
    have h4 : (1 / 10 * -(1 / 20) / (1 / 10) : ℝ) = -(1 / 20) := by norm_num
    rw [h3, h4]
    rfl

end Verif
