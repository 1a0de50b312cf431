import Verif.Model.OneAtom
import Verif.Props.DofRows
import Verif.Props.DofFiles
import Verif.Props.PymatgenDof

/-!
# C185: one atom in the reference structure, other numbers of atoms in the files
-/

namespace Verif

open Spec

theorem collinearSized_rows {m : IModel 1} {x₀ : SizedSnapshot} {k : ℕ} {xs : List SizedSnapshot}
    (h : collinearSized m x₀ k xs = .ok (-1)) : ∀ x ∈ xs, x.rows = x₀.rows := by
  induction xs generalizing k with
  | nil => simp
  | cons y ys ih =>
    unfold collinearSized at h
    split at h
    · rename_i hy
      split at h
      · intro x hx
        rcases List.mem_cons.1 hx with rfl | hx
        · exact hy
        · exact ih h x hx
      · have := Except.ok.inj h
        omega
    · cases h

theorem collinearSized_error {m : IModel 1} {x₀ : SizedSnapshot} {k : ℕ} {xs : List SizedSnapshot}
    {e : PyErr} (h : collinearSized m x₀ k xs = .error e) : e = .valueError := by
  induction xs generalizing k with
  | nil => cases h
  | cons y ys ih =>
    unfold collinearSized at h
    split at h
    · split at h
      · exact ih h
      · cases h
    · cases h; rfl

/-- The first displacement is not zero if it is collinear with itself. -/
theorem collinearSized_first {m : IModel 1} {x₀ : SizedSnapshot} {xs : List SizedSnapshot}
    (hL : m.ref.lattice.det ≠ 0) (h : collinearSized m x₀ 0 (x₀ :: xs) = .ok (-1)) :
    ∃ b, normalizePos (x₀.cart m) = some b := by
  unfold collinearSized at h
  rw [dif_pos rfl] at h
  have hc : areCollinear (flat (x₀.displacement m)) (flat (x₀.displacement m)) = true := by
    by_contra hc
    simp only [Fin.cast_refl, id_eq] at h
    rw [if_neg hc] at h
    have := Except.ok.inj h
    omega
  have hd : x₀.displacement m ≠ 0 := by
    intro h0
    rw [h0] at hc
    have hz : normalize (flat (0 : Pos x₀.rows ℝ)) = none := by
      unfold normalize
      rw [if_pos]
      simp [norm2, dot, flat]
    unfold areCollinear at hc
    rw [hz] at hc
    exact absurd hc (by simp [dotNan, isclose])
  have hcart : x₀.cart m = toCart m.ref.lattice (x₀.displacement m) := by
    unfold SizedSnapshot.cart
    have : applyPbcDisplacement (x₀.displacement m) = x₀.displacement m := by
      funext a i
      exact wrap1_of_inHalfBox (calcDisplacement_nearest _ _ a i).1
    rw [this]
    rfl
  have hne : x₀.cart m ≠ 0 := by
    rw [hcart]
    exact fun h0 => hd (toCart_injective hL (by rw [h0]; funext a j; simp [toCart]))
  unfold normalizePos
  rw [if_neg (norm2_pos (flat_ne_zero hne)).ne']
  exact ⟨_, rfl⟩

theorem sizedDof_cases (m : IModel 1) (hL : m.ref.lattice.det ≠ 0) (x₀ : SizedSnapshot)
    (xs : List SizedSnapshot) (h : ∃ x ∈ x₀ :: xs, x.rows ≠ 1) :
    (∃ e ∈ [PyErr.invalidDOF, .valueError], sizedDof m x₀ xs = .error e) ∨
      (x₀.rows ≠ 1 ∧ ∃ r, sizedDof m x₀ xs = .ok r) := by
  unfold sizedDof
  cases hc : collinearSized m x₀ 0 (x₀ :: xs) with
  | error e =>
    obtain rfl := collinearSized_error hc
    exact .inl ⟨.valueError, by simp, rfl⟩
  | ok i =>
    dsimp only [bind, Except.bind]
    by_cases hi : i ≠ -1
    · rw [if_pos hi]
      exact .inl ⟨.invalidDOF, by simp, rfl⟩
    · rw [if_neg hi]
      rw [not_not] at hi
      subst hi
      obtain ⟨b, hb⟩ := collinearSized_first hL hc
      rw [hb]
      refine .inr ⟨?_, _, rfl⟩
      obtain ⟨x, hx, h1⟩ := h
      rwa [collinearSized_rows hc x hx] at h1

/-- C185: if one of the files does not have exactly one atom, `add_dof_from_files` raises
`InvalidDOFException` or `ValueError` and leaves the model as it was. -/
theorem C185_dof (spline : SplineFn) (we : Bool) (m : IModel 1) (hdet : m.ref.lattice.det ≠ 0)
    (hops : m.ref.ops.zip m.ref.perms ≠ []) (xs : List SizedSnapshot) (h : ∃ x ∈ xs, x.rows ≠ 1)
    (order : ℤ) :
    ∃ e ∈ [PyErr.invalidDOF, .valueError], Refused m (m.addDofSized spline we xs order) e := by
  cases xs with
  | nil => obtain ⟨x, hx, -⟩ := h; cases hx
  | cons x₀ xs =>
    unfold IModel.addDofSized
    dsimp only
    rcases sizedDof_cases m hdet x₀ xs h with ⟨e, he, hd⟩ | ⟨h1, r, hd⟩
    · rw [hd]
      exact ⟨e, he, rfl, rfl, rfl⟩
    · rw [hd]
      exact ⟨.valueError, by simp, C164_other_sizes spline we m _ _ _ order true hdet hops h1 h1⟩

theorem getDofRows_other (m : IModel 1) {M : ℕ} (hM : M ≠ 1) (d : Pos M ℝ)
    (hops : m.ref.ops.zip m.ref.perms ≠ []) (amps : List ℝ) (pols : List (Mat3 ℝ)) (inc : Bool) :
    getDofRows m (some d) amps pols inc = .error .valueError := by
  have hsingle : singleAtomLoop (m.ref.ops.zip m.ref.perms) = .error .valueError := by
    cases hx : m.ref.ops.zip m.ref.perms with
    | nil => exact absurd hx hops
    | cons x l => rfl
  unfold getDofRows orthRows
  rw [dif_neg hM]
  by_cases hb : m.basis.isEmpty
  · rw [if_pos hb]
    dsimp only [bind, Except.bind]
    rw [if_neg (by simp)]
    have he : equivalentRows m.ref d = .error .valueError := by
      unfold equivalentRows
      have hbr : ∀ d : Pos M ℝ, broadcastRows 1 d = none := fun d => by
        unfold broadcastRows
        rw [dif_neg hM, dif_neg hM]
      generalize (if M = 0 then some (applyPbcDisplacement d) else scaleDisplacement d) = x
      cases x with
      | none =>
        dsimp only
        rw [if_neg (by tauto), hsingle, ite_self]
      | some d =>
        dsimp only
        rw [hbr]
        dsimp only
        rw [hsingle, ite_self]
    rw [he]
  · rw [if_neg hb]
    rfl

/-- C185: the same for `add_art_from_files`. -/
theorem C185_art (spline : SplineFn) (we : Bool) (m : IModel 1) (hdet : m.ref.lattice.det ≠ 0)
    (hops : m.ref.ops.zip m.ref.perms ≠ []) (xs : List SizedSnapshot) (h : ∃ x ∈ xs, x.rows ≠ 1) :
    ∃ e ∈ [PyErr.invalidDOF, .valueError], Refused m (m.addArtSized spline we xs) e := by
  cases xs with
  | nil => obtain ⟨x, hx, -⟩ := h; cases hx
  | cons x₀ xs =>
    unfold IModel.addArtSized
    dsimp only
    rcases sizedDof_cases m hdet x₀ xs h with ⟨e, he, hd⟩ | ⟨h1, r, hd⟩
    · rw [hd]
      exact ⟨e, he, rfl, rfl, rfl⟩
    · rw [hd]
      dsimp only
      split_ifs with hm
      · exact ⟨.invalidDOF, by simp, rfl, rfl, rfl⟩
      · rw [getDofRows_other m h1 _ hops]
        exact ⟨.valueError, by simp, rfl, rfl, rfl⟩

/-- Files that all have `K` atoms. -/
def sameSize {K : ℕ} (ys : List (Pos K ℝ × Mat3 ℝ)) : List SizedSnapshot :=
  ys.map fun y => ⟨K, y.1, y.2⟩

theorem collinearSized_same {K : ℕ} (m : IModel 1) (y₀ : Pos K ℝ × Mat3 ℝ) (k : ℕ)
    (ys : List (Pos K ℝ × Mat3 ℝ)) :
    collinearSized m ⟨K, y₀.1, y₀.2⟩ k (sameSize ys) =
      .ok (firstIndexFrom
        (fun v => !areCollinear (flat (calcDisplacement (fun _ => m.ref.positions 0) y₀.1)) v) k
        (ys.map fun y => flat (calcDisplacement (fun _ => m.ref.positions 0) y.1))) := by
  induction ys generalizing k with
  | nil => rfl
  | cons y ys ih =>
    simp only [sameSize, List.map_cons]
    unfold collinearSized firstIndexFrom
    rw [dif_pos rfl]
    simp only [Fin.cast_refl, id_eq]
    unfold SizedSnapshot.displacement
    dsimp only
    by_cases hc : areCollinear (flat (calcDisplacement (fun _ => m.ref.positions 0) y₀.1))
        (flat (calcDisplacement (fun _ => m.ref.positions 0) y.1)) = true
    · rw [if_pos hc, if_neg (by simp [hc])]
      exact ih (k + 1)
    · rw [if_neg hc, if_pos (by simpa using hc)]

/-- C185: when every file has one atom, this is the model of `add_dof_from_files` used elsewhere. -/
theorem C185_one_atom_each (spline : SplineFn) (we : Bool) (m : IModel 1)
    (ys : List (Pos 1 ℝ × Mat3 ℝ)) (order : ℤ) :
    m.addDofSized spline we (sameSize ys) order = m.addDofFromFiles spline we (goodFiles ys) order := by
  have hp : (fun _ => m.ref.positions 0 : Pos 1 ℝ) = m.ref.positions := by
    funext a
    rw [Subsingleton.elim a 0]
  cases ys with
  | nil => rfl
  | cons y₀ ys =>
    unfold IModel.addDofFromFiles readDof goodFiles
    rw [readDofFiles_ok]
    have hcol := collinearSized_same m y₀ 0 (y₀ :: ys)
    rw [hp] at hcol
    unfold IModel.addDofSized
    simp only [sameSize, List.map_cons] at hcol ⊢
    unfold sizedDof
    rw [hcol]
    dsimp only [bind, Except.bind]
    have hcart : ∀ y : Pos 1 ℝ × Mat3 ℝ, SizedSnapshot.cart m ⟨1, y.1, y.2⟩ =
        m.ref.getCartDisplacement (calcDisplacement m.ref.positions y.1) := by
      intro y
      unfold SizedSnapshot.cart SizedSnapshot.displacement
      dsimp only
      rw [hp]
      rfl
    unfold isCollinearWithAll
    simp only [List.map_cons, List.map_map, Function.comp_def, hcart]
    by_cases hc : firstIndexFrom
        (fun v2 => !areCollinear (flat (calcDisplacement m.ref.positions y₀.1)) v2) 0
        (flat (calcDisplacement m.ref.positions y₀.1) ::
          ys.map fun y => flat (calcDisplacement m.ref.positions y.1)) ≠ -1
    · rw [if_pos hc, if_pos hc]
    · rw [if_neg hc, if_neg hc]
      cases hb : normalizePos (m.ref.getCartDisplacement (calcDisplacement m.ref.positions y₀.1)) with
      | none => rfl
      | some b =>
        dsimp only [pure, Except.pure]
        rw [C164_one_row_per_atom (by norm_num)]
        congr 1

/-- C185: files that all have the same number `K ≠ 1` of atoms and whose displacements from the repeated
reference row are all collinear pass the check for collinearity; `ValueError` is then raised. -/
theorem C185_collinear {K : ℕ} (hK : K ≠ 1) (spline : SplineFn) (we : Bool) (m : IModel 1)
    (hdet : m.ref.lattice.det ≠ 0) (hops : m.ref.ops.zip m.ref.perms ≠ [])
    (y₀ : Pos K ℝ × Mat3 ℝ) (ys : List (Pos K ℝ × Mat3 ℝ)) (w : Pos K ℝ → Pos K ℝ)
    (hw : ∀ p, NearestImage (fun _ => m.ref.positions 0) p (w p))
    (hc : ∀ y ∈ y₀ :: ys, Collinear (flatten (w y₀.1)) (flatten (w y.1))) (order : ℤ) :
    Refused m (m.addDofSized spline we (sameSize (y₀ :: ys)) order) .valueError := by
  have hcalc : ∀ p, calcDisplacement (fun _ => m.ref.positions 0) p = w p := fun p =>
    (calcDisplacement_nearest _ _).unique (hw p)
  have hcol := collinearSized_same m y₀ 0 (y₀ :: ys)
  simp only [hcalc] at hcol
  have h1 : firstIndexFrom (fun v => !areCollinear (flat (w y₀.1)) v) 0
      ((y₀ :: ys).map fun y => flat (w y.1)) = -1 := by
    have := (C09_neg_one (flat (w y₀.1)) ((y₀ :: ys).map fun y => flat (w y.1))).1
    unfold isCollinearWithAll at this
    rw [this]
    intro v hv
    obtain ⟨y, hy, rfl⟩ := List.mem_map.1 hv
    exact hc y hy
  rw [h1] at hcol
  simp only [sameSize, List.map_cons] at hcol ⊢
  obtain ⟨b, hb⟩ := collinearSized_first hdet hcol
  unfold IModel.addDofSized
  dsimp only
  unfold sizedDof
  rw [hcol, hb]
  exact C164_other_sizes spline we m _ _ _ order true hdet hops hK hK

/-- Other displacements are refused by the check itself. -/
theorem C185_not_collinear {K : ℕ} (spline : SplineFn) (we : Bool) (m : IModel 1)
    (y₀ : Pos K ℝ × Mat3 ℝ) (ys : List (Pos K ℝ × Mat3 ℝ)) (w : Pos K ℝ → Pos K ℝ)
    (hw : ∀ p, NearestImage (fun _ => m.ref.positions 0) p (w p))
    (hc : ∃ y ∈ y₀ :: ys, ¬ Collinear (flatten (w y₀.1)) (flatten (w y.1))) (order : ℤ) :
    Refused m (m.addDofSized spline we (sameSize (y₀ :: ys)) order) .invalidDOF ∧
    Refused m (m.addArtSized spline we (sameSize (y₀ :: ys))) .invalidDOF := by
  have hcalc : ∀ p, calcDisplacement (fun _ => m.ref.positions 0) p = w p := fun p =>
    (calcDisplacement_nearest _ _).unique (hw p)
  have hcol := collinearSized_same m y₀ 0 (y₀ :: ys)
  simp only [hcalc] at hcol
  have h1 : firstIndexFrom (fun v => !areCollinear (flat (w y₀.1)) v) 0
      ((y₀ :: ys).map fun y => flat (w y.1)) ≠ -1 := by
    have := (C09_neg_one (flat (w y₀.1)) ((y₀ :: ys).map fun y => flat (w y.1))).1
    unfold isCollinearWithAll at this
    rw [Ne, this]
    intro h
    obtain ⟨y, hy, hn⟩ := hc
    exact hn (h _ (List.mem_map.2 ⟨y, hy, rfl⟩))
  simp only [sameSize, List.map_cons] at hcol ⊢
  have hd : sizedDof m ⟨K, y₀.1, y₀.2⟩ (ys.map fun y => ⟨K, y.1, y.2⟩) = .error .invalidDOF := by
    unfold sizedDof
    rw [hcol]
    dsimp only [bind, Except.bind]
    exact if_pos h1
  unfold IModel.addDofSized IModel.addArtSized
  dsimp only
  rw [hd]
  exact ⟨⟨rfl, rfl, rfl⟩, ⟨rfl, rfl, rfl⟩⟩

theorem collinear_refl {ι : Type} [Fintype ι] {u : ι → ℝ} (h : u ≠ 0) : Collinear u u := by
  refine ⟨h, h, ?_⟩
  have hs : 0 < ∑ i, u i ^ 2 := by
    obtain ⟨i, hi⟩ := Function.ne_iff.1 h
    exact Finset.sum_pos' (fun j _ => sq_nonneg _) ⟨i, Finset.mem_univ _, by
      have : u i ≠ 0 := hi
      positivity⟩
  have : cosine u u = 1 := by
    unfold cosine
    rw [Real.mul_self_sqrt hs.le]
    simp only [← pow_two]
    exact div_self hs.ne'
  rw [this, abs_one]
  unfold angTol
  norm_num

/-- A single file with two atoms, both displaced by the same vector from the only atom of the reference
structure, passes the check for collinearity, and `ValueError` is raised. -/
example (spline : SplineFn) (we : Bool) (m : IModel 1) (hdet : m.ref.lattice.det ≠ 0)
    (hops : m.ref.ops.zip m.ref.perms ≠ []) (h0 : m.ref.positions = 0) (A : Mat3 ℝ) :
    Refused m (m.addDofSized spline we (sameSize (K := 2) [(fun _ _ => 1 / 10, A)]) 1) .valueError := by
  refine C185_collinear (by norm_num) spline we m hdet hops _ _
    (fun p => calcDisplacement (fun _ => m.ref.positions 0) p)
    (fun p => calcDisplacement_nearest _ p) ?_ 1
  intro y hy
  obtain rfl : y = (fun _ _ => 1 / 10, A) := List.mem_singleton.1 hy
  have hw : calcDisplacement (fun _ => m.ref.positions 0) (fun _ _ => 1 / 10 : Pos 2 ℝ) =
      fun _ _ => 1 / 10 := by
    refine (calcDisplacement_nearest _ _).unique fun a i => ?_
    rw [h0]
    refine ⟨⟨by norm_num, by norm_num⟩, ⟨0, by simp⟩⟩
  dsimp only
  rw [hw]
  have hne : flatten (fun _ _ => 1 / 10 : Pos 2 ℝ) ≠ 0 := fun h => by
    have := congrFun h (0, 0)
    simp [flatten] at this
  exact collinear_refl hne

theorem getDofRows_same {N : ℕ} (hN : 0 < N) (m : IModel N) (p : Pos N ℝ) (amps : List ℝ)
    (pols : List (Mat3 ℝ)) (inc : Bool) :
    getDofRows m (some p) amps pols inc = getDof m (some p) amps pols inc := by
  unfold getDofRows getDof orthRows
  rw [dif_pos rfl]
  dsimp only [bind, Except.bind]
  have hc : ((some p).map fun p a => p (a.cast (rfl : N = N))) = some p := rfl
  rw [hc]
  have he : equivalentRows m.ref p = m.ref.getEquivalentDisplacements p := by
    unfold equivalentRows RefStructure.getEquivalentDisplacements
    rw [if_neg hN.ne']
    cases scaleDisplacement p with
    | none => simp only [true_or, if_true]
    | some d =>
      have hb : broadcastRows N d = some d := by
        unfold broadcastRows; rw [dif_pos rfl]; rfl
      dsimp only
      rw [hb]
  rw [he]
  rfl

/-- C185: the same for `add_art_from_files`. -/
theorem C185_art_one_atom_each (spline : SplineFn) (we : Bool) (m : IModel 1)
    (ys : List (Pos 1 ℝ × Mat3 ℝ)) :
    m.addArtSized spline we (sameSize ys) = m.addArtFromFiles spline we (goodFiles ys) := by
  have hp : (fun _ => m.ref.positions 0 : Pos 1 ℝ) = m.ref.positions := by
    funext a
    rw [Subsingleton.elim a 0]
  cases ys with
  | nil => rfl
  | cons y₀ ys =>
    unfold IModel.addArtFromFiles readDof goodFiles
    rw [readDofFiles_ok]
    have hcol := collinearSized_same m y₀ 0 (y₀ :: ys)
    rw [hp] at hcol
    unfold IModel.addArtSized
    simp only [sameSize, List.map_cons] at hcol ⊢
    unfold sizedDof
    rw [hcol]
    dsimp only [bind, Except.bind]
    have hdisp : ∀ y : Pos 1 ℝ × Mat3 ℝ, SizedSnapshot.displacement m ⟨1, y.1, y.2⟩ =
        calcDisplacement m.ref.positions y.1 := by
      intro y
      unfold SizedSnapshot.displacement
      dsimp only
      rw [hp]
    have hcart : ∀ y : Pos 1 ℝ × Mat3 ℝ, SizedSnapshot.cart m ⟨1, y.1, y.2⟩ =
        m.ref.getCartDisplacement (calcDisplacement m.ref.positions y.1) := by
      intro y
      unfold SizedSnapshot.cart
      rw [hdisp]
      rfl
    unfold isCollinearWithAll
    simp only [List.map_cons, List.map_map, Function.comp_def, hcart]
    by_cases hc : firstIndexFrom
        (fun v2 => !areCollinear (flat (calcDisplacement m.ref.positions y₀.1)) v2) 0
        (flat (calcDisplacement m.ref.positions y₀.1) ::
          ys.map fun y => flat (calcDisplacement m.ref.positions y.1)) ≠ -1
    · rw [if_pos hc, if_pos hc]
    · rw [if_neg hc, if_neg hc]
      cases hb : normalizePos (m.ref.getCartDisplacement (calcDisplacement m.ref.positions y₀.1)) with
      | none => rfl
      | some b =>
        dsimp only [pure, Except.pure]
        rw [hdisp, getDofRows_same (by norm_num)]
        have hamp : ∀ y : Pos 1 ℝ × Mat3 ℝ,
            sizedAmplitude m ⟨1, y₀.1, y₀.2⟩ b ⟨1, y.1, y.2⟩ =
              getAmplitude b (m.ref.getCartDisplacement (calcDisplacement m.ref.positions y.1)) := by
          intro y
          unfold sizedAmplitude
          rw [dif_pos rfl]
          simp only [Fin.cast_refl, id_eq, hcart]
        simp only [hamp]
        congr 1
        generalize getDof m _ _ _ false = g
        rcases g with e | _ | ⟨g, gs⟩ <;> rfl

/-- C185: files of different sizes.  A file whose number of rows differs from that of the first one is
refused with `ValueError` instead of `InvalidDOFException`, if no file before it was refused. -/
theorem C185_sizes_differ {K : ℕ} (spline : SplineFn) (we : Bool) (m : IModel 1)
    (y₀ : Pos K ℝ × Mat3 ℝ) (ys : List (Pos K ℝ × Mat3 ℝ)) (w : Pos K ℝ → Pos K ℝ)
    (hw : ∀ p, NearestImage (fun _ => m.ref.positions 0) p (w p))
    (hc : ∀ y ∈ y₀ :: ys, Collinear (flatten (w y₀.1)) (flatten (w y.1)))
    (x : SizedSnapshot) (hx : x.rows ≠ K) (rest : List SizedSnapshot) (order : ℤ) :
    Refused m (m.addDofSized spline we (sameSize (y₀ :: ys) ++ x :: rest) order) .valueError ∧
    Refused m (m.addArtSized spline we (sameSize (y₀ :: ys) ++ x :: rest)) .valueError := by
  have hcalc : ∀ p, calcDisplacement (fun _ => m.ref.positions 0) p = w p := fun p =>
    (calcDisplacement_nearest _ _).unique (hw p)
  have hloop : ∀ (zs : List (Pos K ℝ × Mat3 ℝ)) (k : ℕ),
      (∀ y ∈ zs, Collinear (flatten (w y₀.1)) (flatten (w y.1))) →
      collinearSized m ⟨K, y₀.1, y₀.2⟩ k (sameSize zs ++ x :: rest) = .error .valueError := by
    intro zs
    induction zs with
    | nil =>
      intro k _
      simp only [sameSize, List.map_nil, List.nil_append]
      unfold collinearSized
      rw [dif_neg hx]
    | cons z zs ih =>
      intro k h
      simp only [sameSize, List.map_cons, List.cons_append]
      unfold collinearSized
      rw [dif_pos rfl, if_pos]
      · exact ih (k + 1) fun y hy => h y (List.mem_cons_of_mem _ hy)
      · simp only [Fin.cast_refl, id_eq]
        unfold SizedSnapshot.displacement
        dsimp only
        rw [hcalc, hcalc]
        exact (areCollinear_iff _ _).2 (h z List.mem_cons_self)
  have hd : sizedDof m ⟨K, y₀.1, y₀.2⟩ (sameSize ys ++ x :: rest) = .error .valueError := by
    unfold sizedDof
    have := hloop (y₀ :: ys) 0 hc
    simp only [sameSize, List.map_cons, List.cons_append] at this ⊢
    rw [this]
    rfl
  unfold IModel.addDofSized IModel.addArtSized
  simp only [sameSize, List.map_cons, List.cons_append] at hd ⊢
  rw [hd]
  exact ⟨⟨rfl, rfl, rfl⟩, ⟨rfl, rfl, rfl⟩⟩

/-! ## pymatgen structures -/

theorem pmgSized_ok : ∀ (ss : List PmgArg) (xs : List SizedSnapshot), pmgSized ss = .ok xs →
    ∀ s ∈ ss, ∃ t, s = some t ∧ ∃ x ∈ xs, x.rows = t.fracCoords.length := by
  intro ss
  induction ss with
  | nil => simp
  | cons s ss ih =>
    intro xs h
    unfold pmgSized at h
    obtain ⟨coords, h1, h⟩ := (bind_ok_iff _ _ _).1 h
    split_ifs at h with h0
    obtain ⟨rest, h2, h⟩ := (bind_ok_iff _ _ _).1 h
    cases h
    cases s with
    | none => cases h1
    | some t =>
      cases h1
      intro s hs
      rcases List.mem_cons.1 hs with rfl | hs
      · exact ⟨t, rfl, _, List.mem_cons_self, rfl⟩
      · obtain ⟨t', rfl, x, hx, hr⟩ := ih rest h2 s hs
        exact ⟨t', rfl, x, List.mem_cons_of_mem _ hx, hr⟩

theorem pmgSized_error : ∀ (ss : List PmgArg) (e : PyErr), pmgSized ss = .error e →
    (e = .typeError ∧ none ∈ ss) ∨ e = .invalidDOF := by
  intro ss
  induction ss with
  | nil => intro e h; cases h
  | cons s ss ih =>
    intro e h
    unfold pmgSized at h
    cases s with
    | none => cases h; exact .inl ⟨rfl, List.mem_cons_self⟩
    | some t =>
      dsimp only [pmgPositions, bind, Except.bind] at h
      split_ifs at h with h0
      · cases h; exact .inr rfl
      · cases hr : pmgSized ss with
        | error e' =>
          rw [hr] at h
          cases h
          exact (ih e hr).imp (fun h => ⟨h.1, List.mem_cons_of_mem _ h.2⟩) id
        | ok rest => rw [hr] at h; cases h

/-- C185: if one of the pymatgen structures does not have exactly one atom, `add_dof_from_pymatgen` and
`add_art_from_pymatgen` refuse the data and leave the model as it was, whatever the polarizabilities. -/
theorem C185_pymatgen (spline : SplineFn) (we : Bool) (m : IModel 1) (hdet : m.ref.lattice.det ≠ 0)
    (hops : m.ref.ops.zip m.ref.perms ≠ []) (ss : List PmgStructure)
    (h : ∃ s ∈ ss, s.fracCoords.length ≠ 1) (pols : List (Mat3 ℝ)) (order : ℤ) :
    (∃ e ∈ [PyErr.invalidDOF, .valueError],
      Refused m (m.addDofSizedPmg spline we (ss.map some) pols order) e) ∧
    ∃ e ∈ [PyErr.invalidDOF, .valueError],
      Refused m (m.addArtSizedPmg spline we (ss.map some) pols) e := by
  unfold IModel.addDofSizedPmg IModel.addArtSizedPmg
  cases hp : pmgSized (ss.map some) with
  | error e =>
    obtain ⟨-, hn⟩ | rfl := pmgSized_error _ _ hp
    · simp at hn
    · exact ⟨⟨_, by simp, rfl, rfl, rfl⟩, ⟨_, by simp, rfl, rfl, rfl⟩⟩
  | ok xs =>
    obtain ⟨s, hs, h1⟩ := h
    obtain ⟨t, ht, x, hx, hr⟩ := pmgSized_ok _ _ hp (some s) (List.mem_map.2 ⟨s, hs, rfl⟩)
    cases ht
    rw [← hr] at h1
    cases xs with
    | nil => cases hx
    | cons x₀ xs =>
      dsimp only
      rcases sizedDof_cases m hdet x₀ xs ⟨x, hx, h1⟩ with ⟨e, he, hd⟩ | ⟨h1, r, hd⟩
      · rw [hd]
        exact ⟨⟨e, he, rfl, rfl, rfl⟩, ⟨e, he, rfl, rfl, rfl⟩⟩
      · rw [hd]
        dsimp only
        refine ⟨⟨.valueError, by simp, C164_other_sizes spline we m _ _ _ order true hdet hops h1 h1⟩, ?_⟩
        split_ifs with hm
        · exact ⟨.invalidDOF, by simp, rfl, rfl, rfl⟩
        · rw [getDofRows_other m h1 _ hops]
          exact ⟨.valueError, by simp, rfl, rfl, rfl⟩

theorem sized_ofFn {K : ℕ} (p : Pos K ℝ) (A : Mat3 ℝ) :
    (⟨(List.ofFn p).length, fun a => (List.ofFn p)[a], A⟩ : SizedSnapshot) = ⟨K, p, A⟩ := by
  rw [SizedSnapshot.mk.injEq]
  refine ⟨by simp, ?_, rfl⟩
  rw [Fin.heq_fun_iff (by simp)]
  intro i
  simp

theorem pmgSized_snapshots (xs : List (Snapshot 1)) :
    pmgSized (xs.map Snapshot.pmg) = .ok (sameSize (xs.map fun x => (x.positions, (0 : Mat3 ℝ)))) := by
  induction xs with
  | nil => rfl
  | cons x xs ih =>
    rw [List.map_cons]
    unfold pmgSized
    rw [ih]
    dsimp only [Snapshot.pmg, pmgPositions, bind, Except.bind]
    rw [if_neg (by simp), sized_ofFn]
    rfl

/-- C185: when every pymatgen structure has one atom, this is the model of `add_dof_from_pymatgen` used
elsewhere. -/
theorem C185_pymatgen_one_atom_each (spline : SplineFn) (we : Bool) (m : IModel 1)
    (xs : List (Snapshot 1)) (pols : List (Mat3 ℝ)) (order : ℤ) :
    m.addDofSizedPmg spline we (xs.map Snapshot.pmg) pols order =
      m.addDofFromPymatgen true spline we (xs.map Snapshot.pmg) pols order := by
  have hp : (fun _ => m.ref.positions 0 : Pos 1 ℝ) = m.ref.positions := by
    funext a
    rw [Subsingleton.elim a 0]
  unfold IModel.addDofSizedPmg IModel.addDofFromPymatgen pmgDisplacementAmplitudes
  rw [pmgSized_snapshots, pmgDisplacements_snapshots, if_neg (by simp), if_neg (by simp)]
  cases xs with
  | nil => rfl
  | cons y₀ ys =>
    have hcol := collinearSized_same m (y₀.positions, (0 : Mat3 ℝ)) 0
      ((y₀ :: ys).map fun x => (x.positions, (0 : Mat3 ℝ)))
    rw [hp] at hcol
    simp only [sameSize, List.map_cons, List.map_map, Function.comp_def] at hcol ⊢
    unfold sizedDof
    rw [hcol]
    dsimp only [bind, Except.bind]
    have hcart : ∀ y : Snapshot 1, SizedSnapshot.cart m ⟨1, y.positions, 0⟩ =
        m.ref.getCartDisplacement (calcDisplacement m.ref.positions y.positions) := by
      intro y
      unfold SizedSnapshot.cart SizedSnapshot.displacement
      dsimp only
      rw [hp]
      rfl
    unfold isCollinearWithAll
    simp only [List.map_cons, List.map_map, Function.comp_def, hcart]
    by_cases hc : firstIndexFrom
        (fun v2 => !areCollinear (flat (calcDisplacement m.ref.positions y₀.positions)) v2) 0
        (flat (calcDisplacement m.ref.positions y₀.positions) ::
          ys.map fun y => flat (calcDisplacement m.ref.positions y.positions)) ≠ -1
    · rw [if_pos hc, if_pos hc]
    · rw [if_neg hc, if_neg hc]
      cases hb : normalizePos
          (m.ref.getCartDisplacement (calcDisplacement m.ref.positions y₀.positions)) with
      | none => rfl
      | some b =>
        dsimp only [pure, Except.pure]
        rw [C164_one_row_per_atom (by norm_num)]
        congr 1

/-- C185: the same for `add_art_from_pymatgen`. -/
theorem C185_art_pymatgen_one_atom_each (spline : SplineFn) (we : Bool) (m : IModel 1)
    (xs : List (Snapshot 1)) (pols : List (Mat3 ℝ)) :
    m.addArtSizedPmg spline we (xs.map Snapshot.pmg) pols =
      m.addArtFromPymatgen true spline we (xs.map Snapshot.pmg) pols := by
  have hp : (fun _ => m.ref.positions 0 : Pos 1 ℝ) = m.ref.positions := by
    funext a
    rw [Subsingleton.elim a 0]
  unfold IModel.addArtSizedPmg IModel.addArtFromPymatgen pmgDisplacementAmplitudes
  rw [pmgSized_snapshots, pmgDisplacements_snapshots, if_neg (by simp)]
  cases xs with
  | nil => rfl
  | cons y₀ ys =>
    have hcol := collinearSized_same m (y₀.positions, (0 : Mat3 ℝ)) 0
      ((y₀ :: ys).map fun x => (x.positions, (0 : Mat3 ℝ)))
    rw [hp] at hcol
    simp only [sameSize, List.map_cons, List.map_map, Function.comp_def] at hcol ⊢
    unfold sizedDof
    rw [hcol]
    dsimp only [bind, Except.bind]
    have hdisp : ∀ y : Snapshot 1, SizedSnapshot.displacement m ⟨1, y.positions, 0⟩ =
        calcDisplacement m.ref.positions y.positions := by
      intro y
      unfold SizedSnapshot.displacement
      dsimp only
      rw [hp]
    have hcart : ∀ y : Snapshot 1, SizedSnapshot.cart m ⟨1, y.positions, 0⟩ =
        m.ref.getCartDisplacement (calcDisplacement m.ref.positions y.positions) := by
      intro y
      unfold SizedSnapshot.cart
      rw [hdisp]
      rfl
    unfold isCollinearWithAll
    simp only [List.map_cons, List.map_map, Function.comp_def, hcart]
    by_cases hc : firstIndexFrom
        (fun v2 => !areCollinear (flat (calcDisplacement m.ref.positions y₀.positions)) v2) 0
        (flat (calcDisplacement m.ref.positions y₀.positions) ::
          ys.map fun y => flat (calcDisplacement m.ref.positions y.positions)) ≠ -1
    · rw [if_pos hc, if_pos hc]
    · rw [if_neg hc, if_neg hc]
      cases hb : normalizePos
          (m.ref.getCartDisplacement (calcDisplacement m.ref.positions y₀.positions)) with
      | none => rfl
      | some b =>
        dsimp only [pure, Except.pure]
        rw [hdisp, getDofRows_same (by norm_num)]
        have hamp : ∀ y : Snapshot 1,
            sizedAmplitude m ⟨1, y₀.positions, 0⟩ b ⟨1, y.positions, 0⟩ =
              getAmplitude b (m.ref.getCartDisplacement
                (calcDisplacement m.ref.positions y.positions)) := by
          intro y
          unfold sizedAmplitude
          rw [dif_pos rfl]
          simp only [Fin.cast_refl, id_eq, hcart]
        simp only [hamp]
        congr 1
        generalize getDof m _ _ _ false = g
        rcases g with e | _ | ⟨g, gs⟩ <;> rfl

/-- Two structures of two atoms each for a one-atom reference. -/
example (spline : SplineFn) (we : Bool) (m : IModel 1) (hdet : m.ref.lattice.det ≠ 0)
    (hops : m.ref.ops.zip m.ref.perms ≠ []) (A : Mat3 ℝ) :
    ∃ e ∈ [PyErr.invalidDOF, .valueError], Refused m (m.addDofSizedPmg spline we
      [some ⟨1, [6, 6], [![0, 0, 0], ![1 / 4, 0, 0]]⟩, some ⟨1, [6, 6], [![0, 0, 0], ![1 / 2, 0, 0]]⟩]
      [A, A] 1) e :=
  (C185_pymatgen spline we m hdet hops
    [⟨1, [6, 6], [![0, 0, 0], ![1 / 4, 0, 0]]⟩, ⟨1, [6, 6], [![0, 0, 0], ![1 / 2, 0, 0]]⟩]
    ⟨_, List.mem_cons_self, by simp⟩ [A, A] 1).1

end Verif
