import Verif.Props.InterpolationSym
import Verif.Props.Art

/-!
# Exact limits of C19, C36, C40 and C43

`C19_direction_partial`, `C36_scale_partial` and `C40_rotation_partial` give conditions under which conversions of
directions, the magnitude of displacements and rotations of tensors behave as documented.  Here
these conditions are shown to be necessary.
-/

namespace Verif
open Spec

variable {N : ℕ}

/-! ## C19 -/

theorem wrap1_eq_self_iff {x : ℝ} : wrap1 x = x ↔ InHalfBox x :=
  ⟨fun h => h ▸ wrap1_inHalfBox x, wrap1_of_inHalfBox⟩

/-- Scaling a number that is not zero to three quarters of a cell reverses its sign. -/
theorem wrap1_reversed {x : ℝ} (hx : x ≠ 0) : ∃ s : ℝ, 0 < s ∧ wrap1 (s * x) * x < 0 := by
  rcases lt_or_gt_of_ne hx with h | h
  · refine ⟨3 / 4 / -x, by have := neg_pos.2 h; positivity, ?_⟩
    have e : 3 / 4 / -x * x = -3 / 4 := by field_simp
    rw [e, ← wrap1_unique (x := -3 / 4) (y := 1 / 4) ⟨1, by norm_num⟩ (by norm_num [InHalfBox])]
    linarith
  · refine ⟨3 / 4 / x, by positivity, ?_⟩
    have e : 3 / 4 / x * x = 3 / 4 := by field_simp
    rw [e, ← wrap1_unique (x := 3 / 4) (y := -1 / 4) ⟨-1, by norm_num⟩ (by norm_num [InHalfBox])]
    linarith

theorem vec_inv_left {L : Mat3 ℝ} (hL : L.det ≠ 0) (c : Vec3) :
    (fun j => ∑ i, (∑ k, c k * L⁻¹ k i) * L i j) = c := by
  have := congrFun (matMulPos_inv_left hL (N := 1) fun _ => c) 0
  exact this

theorem vec_inv_right {L : Mat3 ℝ} (hL : L.det ≠ 0) (f : Vec3) :
    (fun j => ∑ i, (∑ k, f k * L k i) * L⁻¹ i j) = f := by
  have := congrFun (matMulPos_inv_right hL (N := 1) fun _ => f) 0
  exact this

theorem vec_inv_right' (s : RefStructure N) (hL : s.lattice.det ≠ 0) (f : Vec3) :
    (fun j => wrap1 (∑ i, (fun j => ∑ k, f k * s.lattice k j) i * s.lattice⁻¹ i j))
      = fun j => wrap1 (f j) := by
  funext j
  rw [← congrFun (vec_inv_right hL f) j]

theorem fracDirection_eq (s : RefStructure N) (hL : s.lattice.det ≠ 0) (c : Vec3) :
    s.getFracDirection c = .ok fun j => wrap1 (∑ i, c i * s.lattice⁻¹ i j) := by
  unfold RefStructure.getFracDirection npInv
  rw [if_neg hL]
  rfl

/-- C19, exact: the two conversions are the linear ones exactly on the directions with
fractional coordinates in (-1/2,1/2]. -/
theorem C19_linear_iff (s : RefStructure N) (hL : s.lattice.det ≠ 0) (f : Vec3) :
    (s.getCartDirection f = (fun j => ∑ i, f i * s.lattice i j) ↔ ∀ i, InHalfBox (f i)) ∧
    (s.getFracDirection (fun j => ∑ i, f i * s.lattice i j) = .ok f ↔ ∀ i, InHalfBox (f i)) := by
  have hinj : ∀ g g' : Vec3, (fun j => ∑ i, g i * s.lattice i j)
      = (fun j => ∑ i, g' i * s.lattice i j) → g = g' := by
    intro g g' h
    rw [← vec_inv_right hL g, ← vec_inv_right hL g']
    funext j
    exact Finset.sum_congr rfl fun i _ => by rw [congrFun h i]
  constructor
  · constructor
    · intro h i
      have := hinj (fun i => wrap1 (f i)) f h
      exact wrap1_eq_self_iff.1 (congrFun this i)
    · exact fun h => (C19_direction_partial s hL f h).1
  · rw [fracDirection_eq s hL, vec_inv_right' s hL f]
    constructor
    · intro h i
      exact wrap1_eq_self_iff.1 (congrFun (Except.ok.inj h) i)
    · intro h
      congr 1
      funext i
      exact wrap1_of_inHalfBox (h i)

/-- C19, exact: no direction is safe.  Every direction except zero can be lengthened or
shortened such that `get_frac_direction` (and `get_cart_direction`) return a vector that is not a
positive multiple of the true direction. -/
theorem C19_no_safe_direction (s : RefStructure N) (hL : s.lattice.det ≠ 0) (f : Vec3)
    (hf : f ≠ 0) :
    ∃ k : ℝ, 0 < k ∧ ∀ r : ℝ, 0 ≤ r →
      s.getFracDirection (fun j => k * ∑ i, f i * s.lattice i j) ≠ .ok (fun i => r * f i) ∧
      s.getCartDirection (fun i => k * f i) ≠ fun j => r * ∑ i, f i * s.lattice i j := by
  obtain ⟨i, hi⟩ := Function.ne_iff.1 hf
  obtain ⟨k, hk, hneg⟩ := wrap1_reversed hi
  refine ⟨k, hk, fun r hr => ⟨fun h => ?_, fun h => ?_⟩⟩
  · have e : (fun j => k * ∑ i, f i * s.lattice i j) = fun j => ∑ i, (k * f i) * s.lattice i j := by
      funext j
      rw [Finset.mul_sum]
      exact Finset.sum_congr rfl fun i _ => by ring
    rw [e, fracDirection_eq s hL, vec_inv_right' s hL] at h
    have := congrFun (Except.ok.inj h) i
    rw [this] at hneg
    nlinarith [mul_self_nonneg (f i)]
  · have e : (fun j => r * ∑ i, f i * s.lattice i j) = fun j => ∑ i, (r * f i) * s.lattice i j := by
      funext j
      rw [Finset.mul_sum]
      exact Finset.sum_congr rfl fun i _ => by ring
    rw [e] at h
    have h2 : (fun i => wrap1 (k * f i)) = fun i => r * f i := by
      rw [← vec_inv_right hL (fun i => wrap1 (k * f i)), ← vec_inv_right hL fun i => r * f i]
      funext j
      exact Finset.sum_congr rfl fun i _ => congrArg (· * _) (congrFun h i)
    have := congrFun h2 i
    rw [this] at hneg
    nlinarith [mul_self_nonneg (f i)]

/-! ## C36 -/

/-- C36, exact: two displacements have the same effect in `add_dof` if (and, by
`C36_no_safe_displacement`, in general only if) their fractional coordinates, wrapped into
(-1/2,1/2], differ by a positive factor. -/
theorem C36_same_direction (spline : SplineFn) (we : Bool) (m : IModel N) (c c' w w' : Pos N ℝ)
    (hw : m.ref.getFracDisplacement c = .ok w) (hw' : m.ref.getFracDisplacement c' = .ok w')
    (s : ℝ) (hs : 0 < s) (h : ∀ a i, w' a i = s * w a i)
    (amps : List ℝ) (pols : List (Mat3 ℝ)) (order : ℤ) (inc : Bool) :
    m.addDof spline we c' amps pols order inc = m.addDof spline we c amps pols order inc := by
  have key : parentDisplacement m (some c') = parentDisplacement m (some c) := by
    unfold parentDisplacement
    dsimp only
    rw [hw, hw']
    change Except.ok _ = Except.ok _
    congr 1
    have hw2 : w' = fun a i => s * w a i := by funext a i; exact h a i
    rw [hw2]
    unfold normalizeTenth
    dsimp only
    have hn : norm2 (flat fun a i => s * w a i * 10)
        = s * norm2 (flat fun a i => w a i * 10) := by
      have : (flat fun a i => s * w a i * 10) = fun x => s * flat (fun a i => w a i * 10) x := by
        funext x; simp only [flat]; ring
      rw [this, norm2_smul, abs_of_pos hs]
    rw [hn]
    by_cases h0 : norm2 (flat fun a i => w a i * 10) = 0
    · rw [if_pos h0, if_pos (by rw [h0, mul_zero])]
    · rw [if_neg h0, if_neg (mul_ne_zero hs.ne' h0)]
      congr 1
      funext a i
      rw [mul_div_mul_left _ _ hs.ne']
  unfold IModel.addDof IModel.addDofNan prepareDof
  rw [key]

/-- C36, exact: no displacement is safe.  Every displacement except zero can be lengthened or
shortened such that its fractional coordinates are wrapped to something that is not a positive
multiple of what they were. -/
theorem C36_no_safe_displacement (s : RefStructure N) (hL : s.lattice.det ≠ 0) (c w : Pos N ℝ)
    (hw : s.getFracDisplacement c = .ok w) (hw0 : w ≠ 0) :
    ∃ k : ℝ, 0 < k ∧ ∀ r : ℝ, 0 ≤ r →
      s.getFracDisplacement (fun a i => k * c a i) ≠ .ok (fun a i => r * w a i) := by
  have hfrac : ∀ c : Pos N ℝ, s.getFracDisplacement c
      = .ok fun a j => wrap1 (∑ i, c a i * s.lattice⁻¹ i j) := by
    intro c
    unfold RefStructure.getFracDisplacement npInv
    rw [if_neg hL]
    rfl
  obtain ⟨a, ha⟩ := Function.ne_iff.1 hw0
  obtain ⟨j, hj⟩ := Function.ne_iff.1 ha
  have hwa : w a j = wrap1 (∑ i, c a i * s.lattice⁻¹ i j) := by
    rw [hfrac] at hw
    exact (congrFun (congrFun (Except.ok.inj hw) a) j).symm
  obtain ⟨x, hx⟩ : ∃ x, ∑ i, c a i * s.lattice⁻¹ i j = x := ⟨_, rfl⟩
  rw [hx] at hwa
  have hx0 : x ≠ 0 := by
    rintro rfl
    exact hj (by rw [hwa, wrap1_zero]; rfl)
  have hk : ∃ k : ℝ, 0 < k ∧ wrap1 (k * x) * wrap1 x < 0 := by
    have hwx : wrap1 x ≠ 0 := by rw [← hwa]; exact hj
    rcases lt_or_gt_of_ne hwx with h | h <;> rcases lt_or_gt_of_ne hx0 with h' | h'
    · obtain ⟨k, hk, hn⟩ := wrap1_reversed hx0
      have : 0 < wrap1 (k * x) := by
        by_contra hc
        nlinarith [mul_nonneg_of_nonpos_of_nonpos (not_lt.1 hc) h'.le]
      exact ⟨k, hk, mul_neg_of_pos_of_neg this h⟩
    · refine ⟨1 / 4 / x, by positivity, ?_⟩
      have e : 1 / 4 / x * x = 1 / 4 := by field_simp
      rw [e, wrap1_of_inHalfBox (by norm_num [InHalfBox])]
      linarith
    · refine ⟨1 / 4 / -x, by have := neg_pos.2 h'; positivity, ?_⟩
      have e : 1 / 4 / -x * x = -1 / 4 := by field_simp
      rw [e, wrap1_of_inHalfBox (by norm_num [InHalfBox])]
      linarith
    · obtain ⟨k, hk, hn⟩ := wrap1_reversed hx0
      have : wrap1 (k * x) < 0 := by
        by_contra hc
        nlinarith [mul_nonneg (not_lt.1 hc) h'.le]
      exact ⟨k, hk, mul_neg_of_neg_of_pos this h⟩
  obtain ⟨k, hk, hneg⟩ := hk
  refine ⟨k, hk, fun r hr h => ?_⟩
  rw [hfrac] at h
  have h1 := congrFun (congrFun (Except.ok.inj h) a) j
  have e : ∑ i, k * c a i * s.lattice⁻¹ i j = k * x := by
    rw [← hx, Finset.mul_sum]
    exact Finset.sum_congr rfl fun i _ => by ring
  rw [e, hwa] at h1
  rw [h1] at hneg
  nlinarith [mul_self_nonneg (wrap1 x)]

/-- C36, concrete: in the unit cubic cell the displacement by 11/8 of the cell has the
same effect as 1/8 of it. -/
example (m : IModel 1) (hm : m.ref.lattice = 1) (spline : SplineFn) (amps : List ℝ)
    (pols : List (Mat3 ℝ)) :
    m.addDof spline true (fun _ => ![11 / 8, 0, 0]) amps pols 2 true
      = m.addDof spline true (fun _ => ![1 / 8, 0, 0]) amps pols 2 true := by
  have h : ∀ x y : ℝ, SameImage x y → InHalfBox y →
      m.ref.getFracDisplacement (fun _ => ![x, 0, 0]) = .ok fun _ => ![y, 0, 0] := by
    intro x y hxy hy
    unfold RefStructure.getFracDisplacement npInv
    rw [hm, if_neg (by simp), inv_one]
    change Except.ok _ = Except.ok _
    congr 1
    funext a i
    have h : matMulPos (fun (_ : Fin 1) => ![x, 0, 0]) (1 : Mat3 ℝ) a i = ![x, 0, 0] i := by
      simp [matMulPos, Matrix.one_apply]
    unfold applyPbcDisplacement
    rw [h]
    fin_cases i
    · exact (wrap1_unique hxy hy).symm
    · exact wrap1_zero
    · exact wrap1_zero
  refine C36_same_direction spline true m _ _ _ _
    (h (1 / 8) (1 / 8) (SameImage.refl _) (by norm_num [InHalfBox]))
    (h (11 / 8) (3 / 8) ⟨-1, by norm_num⟩ (by norm_num [InHalfBox])) 3 (by norm_num) ?_ amps pols 2 true
  intro a i
  fin_cases i <;> norm_num

/-! ## C40 -/

/-- A matrix that commutes with all symmetric matrices is a multiple of the identity. -/
theorem scalar_of_commutes {T : Mat3 ℝ} (h : ∀ A : Mat3 ℝ, A.transpose = A → T * A = A * T) :
    ∃ c : ℝ, T = c • (1 : Mat3 ℝ) := by
  have h1 := h !![1, 0, 0; 0, 2, 0; 0, 0, 3] (by ext i j; fin_cases i <;> fin_cases j <;> rfl)
  have h2 := h !![1, 1, 1; 1, 1, 1; 1, 1, 1] (by ext i j; fin_cases i <;> fin_cases j <;> rfl)
  have e1 := fun i j => congrFun (congrFun h1 i) j
  have e2 := fun i j => congrFun (congrFun h2 i) j
  have a01 := e1 0 1
  have a02 := e1 0 2
  have a10 := e1 1 0
  have a12 := e1 1 2
  have a20 := e1 2 0
  have a21 := e1 2 1
  have b01 := e2 0 1
  have b02 := e2 0 2
  simp [Matrix.mul_apply, Fin.sum_univ_three] at a01 a02 a10 a12 a20 a21 b01 b02
  refine ⟨T 0 0, ?_⟩
  ext i j
  fin_cases i <;> fin_cases j <;> simp <;> linarith

/-- C40, exact: for an operation `R` of the structure that is a Cartesian isometry
`Q = L⁻¹ R L`, the tensor `R⁻¹ A R` stored by the code is the rotated tensor `Qᵀ A Q` for all
symmetric tensors exactly if the operation commutes with the lattice. -/
theorem C40_rotated_iff {L R Q : Mat3 ℝ} (hdet : L.det ≠ 0) (hQ : Q = L⁻¹ * R * L)
    (hiso : Q.transpose * Q = 1) :
    (∀ A : Mat3 ℝ, A.transpose = A → R⁻¹ * A * R = Q.transpose * A * Q) ↔ L * R = R * L := by
  constructor
  · intro h
    have huL : IsUnit L.det := isUnit_iff_ne_zero.2 hdet
    have hQQ : Q * Q.transpose = 1 := mul_eq_one_comm.1 hiso
    have hdQ : Q.det ≠ 0 := by
      intro h0
      have := congrArg Matrix.det hiso
      rw [Matrix.det_mul, h0, mul_zero, Matrix.det_one] at this
      exact one_ne_zero this.symm
    have hLQ : L * Q = R * L := by
      rw [hQ, Matrix.mul_assoc, Matrix.mul_nonsing_inv_cancel_left _ _ huL]
    have hdet_eq : R.det = Q.det := by
      have := congrArg Matrix.det hLQ
      rw [Matrix.det_mul, Matrix.det_mul, mul_comm] at this
      exact (mul_right_cancel₀ hdet this).symm
    have huR : IsUnit R.det := isUnit_iff_ne_zero.2 (hdet_eq ▸ hdQ)
    have hcomm : ∀ A : Mat3 ℝ, A.transpose = A →
        (R * Q.transpose) * A = A * (R * Q.transpose) := by
      intro A hA
      have e := h A hA
      have e2 : R * (R⁻¹ * A * R) * Q.transpose = R * (Q.transpose * A * Q) * Q.transpose := by
        rw [e]
      rw [Matrix.mul_assoc R⁻¹, Matrix.mul_nonsing_inv_cancel_left _ _ huR] at e2
      have e3 : R * (Q.transpose * A * Q) * Q.transpose = (R * Q.transpose) * A := by
        simp only [Matrix.mul_assoc, hQQ, Matrix.mul_one]
      rw [e3] at e2
      rw [← e2, Matrix.mul_assoc]
    obtain ⟨c, hc⟩ := scalar_of_commutes hcomm
    have hRQ : R = c • Q := by
      have : R * Q.transpose * Q = (c • (1 : Mat3 ℝ)) * Q := by rw [hc]
      rw [Matrix.mul_assoc, hiso, Matrix.mul_one, Matrix.smul_mul, Matrix.one_mul] at this
      exact this
    have hc1 : c = 1 := by
      have h3 : c ^ 3 = 1 := by
        have := congrArg Matrix.det hRQ
        rw [Matrix.det_smul, Fintype.card_fin, hdet_eq] at this
        have h' : (c ^ 3 - 1) * Q.det = 0 := by linarith
        rcases mul_eq_zero.1 h' with h' | h'
        · linarith
        · exact absurd h' hdQ
      have h' : (c - 1) * (c ^ 2 + c + 1) = 0 := by ring_nf; linarith
      rcases mul_eq_zero.1 h' with h' | h'
      · linarith
      · nlinarith [sq_nonneg (c + 1 / 2)]
    rw [hc1, one_smul] at hRQ
    rw [← hRQ] at hLQ
    exact hLQ
  · intro h A _
    exact physical_rotation A hQ hdet h hiso

/-- C40, exact: the tensors `R⁻¹ A R` stored by the code are symmetric for all symmetric `A`
exactly if the matrix of the rotation in fractional coordinates is a multiple of an orthogonal
matrix (so not for the three- and sixfold rotations of hexagonal cells). -/
theorem C40_symmetric_iff {R : Mat3 ℝ} (hR : R.det ≠ 0) :
    (∀ A : Mat3 ℝ, A.transpose = A → (R⁻¹ * A * R).transpose = R⁻¹ * A * R) ↔
      ∃ c : ℝ, R * R.transpose = c • 1 := by
  have hu : IsUnit R.det := isUnit_iff_ne_zero.2 hR
  have huT : IsUnit R.transpose.det := by rw [Matrix.det_transpose]; exact hu
  have key : ∀ A : Mat3 ℝ, A.transpose = A →
      ((R⁻¹ * A * R).transpose = R⁻¹ * A * R ↔
        (R * R.transpose) * A = A * (R * R.transpose)) := by
    intro A hA
    have ht : (R⁻¹ * A * R).transpose = R.transpose * A * (R.transpose)⁻¹ := by
      rw [Matrix.transpose_mul, Matrix.transpose_mul, hA, Matrix.transpose_nonsing_inv,
        Matrix.mul_assoc]
    rw [ht]
    constructor
    · intro h
      have h2 : R * (R.transpose * A * (R.transpose)⁻¹) * R.transpose
          = R * (R⁻¹ * A * R) * R.transpose := by rw [h]
      rw [Matrix.mul_assoc R⁻¹, Matrix.mul_nonsing_inv_cancel_left _ _ hu,
        Matrix.mul_assoc R, Matrix.mul_assoc (R.transpose * A),
        Matrix.nonsing_inv_mul _ huT, Matrix.mul_one] at h2
      rw [Matrix.mul_assoc, h2, Matrix.mul_assoc]
    · intro h
      have h2 : R⁻¹ * ((R * R.transpose) * A) * (R.transpose)⁻¹
          = R⁻¹ * (A * (R * R.transpose)) * (R.transpose)⁻¹ := by rw [h]
      have e1 : R⁻¹ * ((R * R.transpose) * A) = R.transpose * A := by
        rw [Matrix.mul_assoc R, Matrix.nonsing_inv_mul_cancel_left _ _ hu]
      have e2 : R⁻¹ * (A * (R * R.transpose)) * (R.transpose)⁻¹ = R⁻¹ * A * R := by
        simp only [Matrix.mul_assoc]
        rw [Matrix.mul_nonsing_inv _ huT, Matrix.mul_one]
      rw [e1, e2] at h2
      exact h2
  constructor
  · intro h
    exact scalar_of_commutes fun A hA => (key A hA).1 (h A hA)
  · rintro ⟨c, hc⟩ A hA
    rw [key A hA, hc, Matrix.smul_mul, Matrix.mul_smul, Matrix.one_mul, Matrix.mul_one]

/-- C40, concrete: the threefold rotation of a hexagonal cell is not a multiple of an orthogonal
matrix, so some symmetric tensor is stored as one that is not symmetric. -/
example : ∃ A : Mat3 ℝ, A.transpose = A ∧ (hexRot⁻¹ * A * hexRot).transpose ≠ hexRot⁻¹ * A * hexRot := by
  by_contra hc
  push Not at hc
  have hd : hexRot.det ≠ 0 := by simp [hexRot, Matrix.det_fin_three]
  obtain ⟨c, h⟩ := (C40_symmetric_iff hd).1 hc
  have h01 := congrFun (congrFun h 0) 1
  simp [hexRot, Matrix.mul_apply, Fin.sum_univ_three] at h01

/-! ## C43 -/

/-- Which numbers `get_dof_indexes` looks at: a negative number only if it was requested as such,
the number of an atom if it or the symbol of the atom was requested. -/
theorem requestedAtoms_numbers (m : IModel N) (reqs : List AtomReq) (is : List ℤ)
    (h : requestedAtoms m reqs = .ok is) (i : ℤ) :
    i ∈ is ↔ AtomReq.index i ∈ reqs ∨
      ∃ w, AtomReq.symbol w ∈ reqs ∧ ∃ a : Fin N, ((a : ℕ) : ℤ) = i ∧
        Asks m.ref.atomicNumbers (.symbol w) a := by
  induction reqs generalizing is with
  | nil => cases h; simp
  | cons r rs ih =>
    cases hr : requestedAtoms m rs with
    | error e =>
      cases r with
      | index i => unfold requestedAtoms at h; rw [hr] at h; cases h
      | symbol w =>
        unfold requestedAtoms at h
        rw [hr] at h
        cases hg : m.ref.getAtomIndexes (.one w) with
        | error e => rw [hg] at h; cases h
        | ok l => rw [hg] at h; cases h
    | ok is' =>
      have ih' := ih is' hr
      cases r with
      | index i' =>
        unfold requestedAtoms at h
        rw [hr] at h
        change Except.ok _ = Except.ok _ at h
        cases h
        rw [List.mem_cons, ih']
        simp only [List.mem_cons, AtomReq.index.injEq, reduceCtorEq, false_or]
        tauto
      | symbol w =>
        unfold requestedAtoms at h
        rw [hr] at h
        cases hg : m.ref.getAtomIndexes (.one w) with
        | error e => rw [hg] at h; cases h
        | ok l =>
          rw [hg] at h
          change Except.ok _ = Except.ok _ at h
          cases h
          have hl : ∀ a, a ∈ l ↔ Asks m.ref.atomicNumbers (.symbol w) a := by
            intro a
            have h1 := requestedAtoms_mem m [.symbol w] (l.map (fun a : Fin N => ((a : ℕ) : ℤ)) ++ [])
              (by unfold requestedAtoms; rw [hg]; rfl) a
            simp only [List.append_nil, List.mem_singleton, exists_eq_left] at h1
            rw [← h1]
            constructor
            · exact fun ha => ⟨_, List.mem_map_of_mem ha, Or.inl rfl⟩
            · rintro ⟨x, hx, ha⟩
              obtain ⟨b, hb, rfl⟩ := List.mem_map.1 hx
              have : b = a := by
                apply Fin.ext
                have := b.2; have := a.2
                unfold Addresses at ha; omega
              rwa [← this]
          rw [List.mem_append, ih', List.mem_map]
          simp only [List.mem_cons, AtomReq.symbol.injEq, reduceCtorEq, false_or, hl]
          constructor
          · rintro (⟨a, ha, rfl⟩ | h | ⟨w', hw', h⟩)
            · exact .inr ⟨w, .inl rfl, a, rfl, ha⟩
            · exact .inl h
            · exact .inr ⟨w', .inr hw', h⟩
          · rintro (h | ⟨w', rfl | hw', a, ha, h⟩)
            · exact .inr (.inl h)
            · exact .inl ⟨a, h, ha⟩
            · exact .inr (.inr ⟨w', hw', a, ha, h⟩)

/-- C43, exact: if each basis vector moves one atom only (`C42_one_atom`), a degree of freedom is
returned twice exactly if some atom that has one is requested by its negative index and also by
its symbol or nonnegative index. -/
theorem C43_no_repetition_iff (m : IModel N) (reqs : List AtomReq) (l : List ℕ)
    (hone : ∀ b ∈ m.basis, ∃! a, b a ≠ 0) (h : m.getDofIndexes reqs = .ok l) :
    l.Nodup ↔ ∀ a : Fin N, (∃ b ∈ m.basis, Touches b a) →
      AtomReq.index ((a : ℕ) - N) ∈ reqs →
      AtomReq.index (a : ℕ) ∉ reqs ∧
        ∀ w, AtomReq.symbol w ∈ reqs → ¬ Asks m.ref.atomicNumbers (.symbol w) a := by
  obtain ⟨is, lists, h1, h2, rfl⟩ := getDofIndexes_ok m reqs l h
  have hnum := requestedAtoms_numbers m reqs is h1
  have hneg : ∀ a : Fin N, ((a : ℕ) : ℤ) - N ∈ is ↔ AtomReq.index ((a : ℕ) - N) ∈ reqs := by
    intro a
    rw [hnum]
    constructor
    · rintro (h | ⟨w, _, b, hb, _⟩)
      · exact h
      · have := a.2; omega
    · exact .inl
  have hpos : ∀ a : Fin N, ((a : ℕ) : ℤ) ∉ is ↔ AtomReq.index (a : ℕ) ∉ reqs ∧
        ∀ w, AtomReq.symbol w ∈ reqs → ¬ Asks m.ref.atomicNumbers (.symbol w) a := by
    intro a
    rw [hnum]
    push Not
    refine and_congr_right fun _ => ⟨fun h w hw => h w hw a rfl, ?_⟩
    intro h w hw b hb
    have : b = a := Fin.ext (by omega)
    rw [this]
    exact h w hw
  have hl := h2.length_eq
  have hget : ∀ n (hn : n < lists.length), dofsOfAtom (is.dedup[n]'(by omega)) 0 m.basis
      = .ok lists[n] := fun n hn => by
    have := (List.forall₂_iff_get.1 h2).2 n (by omega) hn
    simpa using this
  rw [List.nodup_flatten]
  constructor
  · rintro ⟨_, hp⟩ a ⟨b, hb, c, hc⟩ hna
    rw [← hpos]
    intro hpa
    rw [← hneg] at hna
    obtain ⟨n, hn, en⟩ := List.mem_iff_getElem.1 (List.mem_dedup.2 hna)
    obtain ⟨n', hn', en'⟩ := List.mem_iff_getElem.1 (List.mem_dedup.2 hpa)
    obtain ⟨k, hk, rfl⟩ := List.mem_iff_getElem.1 hb
    have ha := a.2
    have i1 : (0 + k) ∈ lists[n]'(by omega) :=
      ((dofsOfAtom_ok _ _ _ _ (hget n (by omega))).2 _).2
        ⟨k, hk, rfl, a, by rw [en]; unfold Addresses; omega, c, hc⟩
    have i2 : (0 + k) ∈ lists[n']'(by omega) :=
      ((dofsOfAtom_ok _ _ _ _ (hget n' (by omega))).2 _).2
        ⟨k, hk, rfl, a, by rw [en']; unfold Addresses; omega, c, hc⟩
    have hne : n ≠ n' := by
      rintro rfl
      rw [en] at en'
      omega
    rw [List.pairwise_iff_getElem] at hp
    rcases lt_or_gt_of_ne hne with hlt | hlt
    · exact hp n n' (by omega) (by omega) hlt i1 i2
    · exact hp n' n (by omega) (by omega) hlt i2 i1
  · intro H
    constructor
    · intro x hx
      obtain ⟨n, hn, rfl⟩ := List.mem_iff_getElem.1 hx
      exact (dofsOfAtom_ok _ _ _ _ (hget n hn)).1
    · rw [List.pairwise_iff_getElem]
      intro n n' hn hn' hlt x hx hx'
      obtain ⟨k, hk, rfl, a, ha, c, hc⟩ := ((dofsOfAtom_ok _ _ _ _ (hget n hn)).2 x).1 hx
      obtain ⟨k', hk', hkk, a', ha', c', hc'⟩ := ((dofsOfAtom_ok _ _ _ _ (hget n' hn')).2 _).1 hx'
      have : k' = k := by omega
      subst this
      obtain ⟨a0, _, hu⟩ := hone _ (List.getElem_mem hk)
      have hz : ∀ a c, 1 / 10 ^ 5 < |m.basis[k'] a c| → a = a0 := fun a c h => hu a fun h0 => by
        rw [h0] at h
        have : (1 : ℝ) / 10 ^ 5 < 0 := by simpa using h
        norm_num at this
      have haa : a = a' := (hz a c hc).trans (hz a' c' hc').symm
      subst haa
      have e1 := List.mem_dedup.1 (List.getElem_mem (show n < is.dedup.length by omega))
      have e2 := List.mem_dedup.1 (List.getElem_mem (show n' < is.dedup.length by omega))
      have hne := (List.pairwise_iff_getElem.1 (List.nodup_dedup is)) n n' (by omega) (by omega) hlt
      have H' := H a ⟨_, List.getElem_mem hk, c, hc⟩
      rw [← hneg, ← hpos] at H'
      unfold Addresses at ha ha'
      have := a.2
      rcases ha with ha | ha <;> rcases ha' with ha' | ha'
      · exact hne (by omega)
      · refine H' ?_ ?_
        · rw [show ((a : ℕ) : ℤ) - N = is.dedup[n'] by omega]; exact e2
        · rw [show ((a : ℕ) : ℤ) = is.dedup[n] by omega]; exact e1
      · refine H' ?_ ?_
        · rw [show ((a : ℕ) : ℤ) - N = is.dedup[n] by omega]; exact e1
        · rw [show ((a : ℕ) : ℤ) = is.dedup[n'] by omega]; exact e2
      · exact hne (by omega)

/-- C43, concrete: requesting the only atom of a structure as -1 alone, twice, is harmless. -/
example (m : IModel 1) (hone : ∀ b ∈ m.basis, ∃! a, b a ≠ 0) (l : List ℕ)
    (h : m.getDofIndexes [.index (-1), .index (-1)] = .ok l) : l.Nodup := by
  rw [C43_no_repetition_iff m _ l hone h]
  intro a _ _
  refine ⟨?_, ?_⟩ <;> simp

end Verif
