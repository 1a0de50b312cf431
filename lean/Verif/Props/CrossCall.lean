import Verif.Props.InterpolationSym

/-!
# Property C38: degrees of freedom of different calls, in a cubic cell

`add_dof` compares the supplied displacement with the basis vectors already present, but not
the symmetry images of that displacement.  Here: one atom at the origin of a cubic cell with a
mirror plane exchanging x and y.
-/

namespace Verif

open Spec

/-- The mirror plane exchanging x and y. -/
def mirRot : Mat3 ℝ := !![0, 1, 0; 1, 0, 0; 0, 0, 1]

def mirOps : List SymOp := [⟨1, 0⟩, ⟨mirRot, 0⟩]

/-- An (oracle for an) spglib answer: identity and mirror plane. -/
def mirSpglib : Mat3 ℝ → Pos 1 ℝ → (Fin 1 → ℕ) → Option SymDict :=
  fun _ _ _ => some ⟨mirOps, [0]⟩

theorem mir_sq : mirRot * mirRot = 1 := by
  ext i j
  fin_cases i <;> fin_cases j <;> simp [mirRot, Matrix.mul_apply, Fin.sum_univ_three]

theorem mir_inv : mirRot⁻¹ = mirRot := Matrix.inv_eq_right_inv mir_sq

theorem mir_transpose : mirRot.transpose = mirRot := by
  ext i j
  fin_cases i <;> fin_cases j <;> rfl

theorem mir_det : mirRot.det ≠ 0 := by
  intro h
  have := congrArg Matrix.det mir_sq
  rw [Matrix.det_mul, h] at this
  simp at this

theorem mir_integer : ∀ op ∈ mirOps, IntegerMatrix op.rot ∧ op.trans = 0 := by
  intro op hop
  simp only [mirOps, List.mem_cons, List.not_mem_nil, or_false] at hop
  rcases hop with rfl | rfl
  · exact ⟨(idOp_sym (fun (_ : Fin 1) _ => (0 : ℝ))).1, rfl⟩
  · refine ⟨⟨!![0, 1, 0; 1, 0, 0; 0, 0, 1], ?_⟩, rfl⟩
    intro i j
    fin_cases i <;> fin_cases j <;> simp [mirRot]

theorem mir_sym (op : SymOp) (hop : op ∈ mirOps) :
    IsSymmetry (fun (_ : Fin 1) _ => (0 : ℝ)) op.rot op.trans (Equiv.refl _) := by
  obtain ⟨h1, h2⟩ := mir_integer op hop
  refine ⟨h1, fun a j => ⟨0, ?_⟩⟩
  rw [h2]; simp

theorem mirInit (nums : Fin 1 → ℕ) : ∃ s,
    RefStructure.init mirSpglib nums 1 (fun _ _ => 0) = .ok s ∧ s.ops = mirOps := by
  have hz : ∀ (a : Fin 1) (i : Fin 3), InClosedCell ((fun _ _ => 0 : Pos 1 ℝ) a i) :=
    fun _ _ => by norm_num [InClosedCell]
  obtain ⟨P, hP, _⟩ := C12_entry (fun _ _ => 0 : Pos 1 ℝ) ⟨1, 0⟩
    (mir_integer _ (by simp [mirOps])).1 hz
  obtain ⟨Q, hQ, _⟩ := C12_entry (fun _ _ => 0 : Pos 1 ℝ) ⟨mirRot, 0⟩
    (mir_integer _ (by simp [mirOps])).1 hz
  refine ⟨⟨nums, 1, fun _ _ => 0, mirOps, [P, Q], [0]⟩, ?_, rfl⟩
  unfold RefStructure.init mirSpglib computePermutationMatrices mirOps
  simp only [List.mapM_cons, hP, hQ, List.mapM_nil]
  rfl

theorem vec_two (a b c : ℝ) : (![a, b, c] : Fin 3 → ℝ) 2 = c := rfl

/-- A displacement of the single atom. -/
def one1 (v : (Fin 3 → ℝ)) : Pos 1 ℝ := fun _ => v

theorem mir_candidate (P : PermMat 1) (op : SymOp) (hop : op ∈ mirOps)
    (hP : permMatrixOf (comShift fun (_ : Fin 1) _ => (0 : ℝ)) (fun _ _ => 0) op = .ok P)
    (u v : (Fin 3 → ℝ)) (hv : ∀ j, InHalfBox (v j)) (hk : ∀ j, ∑ i, u i * op.rot i j = v j) :
    candidate (fun _ _ => 0) (displacePositions (fun _ _ => 0) (one1 u)) op P
      = .ok (one1 v) := by
  obtain ⟨c, hc, hcc⟩ := C13_candidate (fun (_ : Fin 1) _ => (0 : ℝ)) (one1 u) op P
    (Equiv.refl _) (one_apart _) (mir_sym op hop) hP
  rw [hc]
  congr 1
  funext a j
  have h := hcc a j
  rw [Equiv.refl_apply] at h
  unfold one1 at h
  rw [hk j] at h
  exact (h.2.eq_of_inHalfBox (hv j) h.1).symm

theorem norm_one1 (v : (Fin 3 → ℝ)) (r : ℝ) (hr : 0 ≤ r) (h : v 0 ^ 2 + v 1 ^ 2 + v 2 ^ 2 = r ^ 2) :
    norm2 (flat (one1 v)) = r := by
  unfold norm2 dot
  rw [show ∑ i, flat (one1 v) i * flat (one1 v) i = r ^ 2 by
    rw [Fintype.sum_prod_type, ← h]
    simp [flat, one1, Fin.sum_univ_three]; ring, Real.sqrt_sq hr]

theorem cosine_one1 (u v : (Fin 3 → ℝ)) (r : ℝ) (hr : 0 ≤ r) (hu : u 0 ^ 2 + u 1 ^ 2 + u 2 ^ 2 = r ^ 2)
    (hv : v 0 ^ 2 + v 1 ^ 2 + v 2 ^ 2 = r ^ 2) :
    cosine (flat (one1 u)) (flat (one1 v)) = (u 0 * v 0 + u 1 * v 1 + u 2 * v 2) / (r * r) := by
  have key : ∀ w : (Fin 3 → ℝ), w 0 ^ 2 + w 1 ^ 2 + w 2 ^ 2 = r ^ 2 →
      Real.sqrt (∑ x, flat (one1 w) x ^ 2) = r := by
    intro w hw
    rw [show ∑ x, flat (one1 w) x ^ 2 = r ^ 2 by
      rw [Fintype.sum_prod_type, ← hw]
      simp [flat, one1, Fin.sum_univ_three], Real.sqrt_sq hr]
  unfold cosine
  rw [key u hu, key v hv, Fintype.sum_prod_type]
  simp [flat, one1, Fin.sum_univ_three]

theorem one1_ne {v : (Fin 3 → ℝ)} (h : v ≠ 0) : flat (one1 v) ≠ 0 := by
  intro h0
  apply h
  funext i
  exact congrFun h0 (0, i)

theorem vec_ne_zero {v : (Fin 3 → ℝ)} (h : v 0 ^ 2 + v 1 ^ 2 + v 2 ^ 2 = (1 / 10) ^ 2) : v ≠ 0 := by
  rintro rfl
  norm_num at h

/-- Symmetry images of a displacement of length 1/10: kept if orthogonal, dropped if neither
orthogonal nor collinear. -/
theorem mir_groups (nums : Fin 1 → ℕ) (s : RefStructure 1)
    (hs : RefStructure.init mirSpglib nums 1 (fun _ _ => 0) = .ok s)
    (hops : s.ops = mirOps) (w : Pos 1 ℝ) (u v : (Fin 3 → ℝ)) (hw : scaleDisplacement w = some (one1 u))
    (hu : u 0 ^ 2 + u 1 ^ 2 + u 2 ^ 2 = (1 / 10) ^ 2)
    (hv : v 0 ^ 2 + v 1 ^ 2 + v 2 ^ 2 = (1 / 10) ^ 2)
    (hub : ∀ j, InHalfBox (u j)) (hvb : ∀ j, InHalfBox (v j))
    (hk : ∀ j, ∑ i, u i * mirRot i j = v j) :
    (cosine (flat (one1 v)) (flat (one1 u)) = 0 → s.getEquivalentDisplacements w
      = .ok (some [⟨[one1 u], [⟨1, 0⟩]⟩, ⟨[one1 v], [⟨mirRot, 0⟩]⟩])) ∧
    (1 / 10 < cosine (flat (one1 v)) (flat (one1 u)) →
      cosine (flat (one1 v)) (flat (one1 u)) < 9 / 10 → s.getEquivalentDisplacements w
      = .ok (some [⟨[one1 u], [⟨1, 0⟩]⟩])) := by
  obtain ⟨hpos, hlat, hperm⟩ := init_facts hs
  rw [hops] at hperm
  unfold mirOps at hperm
  obtain ⟨P, Ps, hP, hperm, e1⟩ := List.forall₂_cons_left_iff.1 hperm
  obtain ⟨Q, Qs, hQ, hperm, e2⟩ := List.forall₂_cons_left_iff.1 hperm
  cases hperm
  subst e2
  unfold RefStructure.getEquivalentDisplacements
  rw [hw]
  dsimp only
  rw [hops, e1, hpos]
  unfold mirOps
  have c0 := mir_candidate P ⟨1, 0⟩ (by simp [mirOps]) hP u u hub (fun j => by
    simp [Matrix.one_apply])
  have c1 := mir_candidate Q ⟨mirRot, 0⟩ (by simp [mirOps]) hQ u v hvb hk
  have i0 : eqInsert (⟨[], []⟩ : EqState 1) ⟨1, 0⟩ (one1 u)
      = ⟨[⟨[one1 u], [⟨1, 0⟩]⟩], [one1 u]⟩ := by
    unfold eqInsert isOrthogonalToAll
    simp [firstIndexFrom]
  have hun := one1_ne (vec_ne_zero hu)
  have hvn := one1_ne (vec_ne_zero hv)
  simp only [List.zip_cons_cons, List.zip_nil_left, eqLoop]
  rw [c0]
  change _ ∧ _
  refine ⟨fun hc => ?_, fun hc hc' => ?_⟩
  · have i1 : eqInsert (⟨[⟨[one1 u], [⟨1, 0⟩]⟩], [one1 u]⟩ : EqState 1) ⟨mirRot, 0⟩ (one1 v)
        = ⟨[⟨[one1 u], [⟨1, 0⟩]⟩, ⟨[one1 v], [⟨mirRot, 0⟩]⟩], [one1 u, one1 v]⟩ := by
      unfold eqInsert
      rw [if_pos]
      · rfl
      · rw [C08_all_orthogonal]
        intro x hx
        simp only [List.map_cons, List.map_nil, List.mem_singleton] at hx
        subst hx
        exact ⟨hvn, hun, by rw [hc]; norm_num [angTol]⟩
    change (do let c ← candidate _ _ _ _; _) >>= _ = _
    simp only [i0, c1]
    change (pure _ >>= _ : Py _) = _
    rw [i1]
    rfl
  · have i1 : eqInsert (⟨[⟨[one1 u], [⟨1, 0⟩]⟩], [one1 u]⟩ : EqState 1) ⟨mirRot, 0⟩ (one1 v)
        = ⟨[⟨[one1 u], [⟨1, 0⟩]⟩], [one1 u]⟩ := by
      unfold eqInsert
      rw [if_neg]
      · dsimp only
        rw [if_neg]
        rw [not_not, (C09_neg_one _ _).2]
        intro x hx
        simp only [List.map_cons, List.map_nil, List.mem_singleton] at hx
        subst hx
        rintro ⟨_, _, h⟩
        rw [abs_of_pos (by linarith)] at h
        norm_num [angTol] at h
        linarith
      · rw [C08_all_orthogonal]
        intro h
        have := (h (flat (one1 u)) (by simp)).2.2
        rw [abs_of_pos (by linarith)] at this
        norm_num [angTol] at this
        linarith
    change (do let c ← candidate _ _ _ _; _) >>= _ = _
    simp only [i0, c1]
    change (pure _ >>= _ : Py _) = _
    rw [i1]
    rfl

/-- Building the interpolation of three points at 0, -a and a succeeds silently. -/
theorem build_sym (a : ℝ) (ha : 1 / 100 ≤ a) (ha1 : a ≤ 1) (Y₀ Y₁ Y₂ : Mat3 ℝ) : ∃ f : ℝ → Mat3 ℝ,
    buildOne lookupSpline true 2 [(some 0, Y₀), (some (-a), Y₁), (some a, Y₂)]
      = (.ok f, []) ∧ f 0 = Y₀ ∧ f a = Y₂ := by
  have hd : hasDuplicates (([(some 0, Y₀), (some (-a), Y₁), (some a, Y₂)] :
      List (Option ℝ × Mat3 ℝ)).map Prod.fst) = false := by
    have := (hasDuplicates_false [0, -a, a]).2 (by
      have h0 : |a| = a := abs_of_pos (by linarith)
      have h2 : |-a - a| = 2 * a := by
        rw [show -a - a = -(2 * a) by ring, abs_neg, abs_of_pos (by linarith)]
      simp only [List.pairwise_cons, List.mem_cons, List.not_mem_nil, or_false, TooClose]
      refine ⟨?_, ?_, by simp⟩
      · rintro x (rfl | rfl) <;> simp [h0] <;> norm_num <;> linarith
      · rintro x rfl
        rw [h2, h0]; norm_num; linarith)
    exact this
  have hsort : [((0 : ℝ), Y₀), (-a, Y₁), (a, Y₂)].insertionSort (fun a b => a.1 ≤ b.1)
      = [(-a, Y₁), (0, Y₀), (a, Y₂)] := by
    have g1 : -a ≤ a := by linarith
    have g2 : ¬ (0 : ℝ) ≤ -a := by linarith
    have g3 : (0 : ℝ) ≤ a := by linarith
    simp [List.insertionSort, List.orderedInsert, g1, g2, g3]
  have hw : dofWarnings [0, -a, a] = [] := by
    rw [dofWarnings_eq _ (by simp)]
    unfold warnSpec
    rw [if_neg, if_neg]
    · rfl
    · intro h
      have := h (-a) (by simp)
      norm_num at this; linarith
    · intro h
      have := h a (by simp)
      norm_num at this; linarith
  have hb : buildOne lookupSpline true 2 [(some 0, Y₀), (some (-a), Y₁), (some a, Y₂)]
      = (lookupSpline 2 [(-a, Y₁), (0, Y₀), (a, Y₂)], []) := by
    unfold buildOne
    rw [hd, if_neg (by simp), if_neg (by simp)]
    have hf : finitePts [(some 0, Y₀), (some (-a), Y₁), (some a, Y₂)]
        = some [(0, Y₀), (-a, Y₁), (a, Y₂)] := rfl
    rw [hf]
    dsimp only
    have hm : ([((0 : ℝ), Y₀), (-a, Y₁), (a, Y₂)].map Prod.fst) = [0, -a, a] :=
      rfl
    rw [hm, hw, hsort]
    rfl
  have n1 : -a ≠ 0 := by linarith
  have n2 : -a ≠ a := by linarith
  have n3 : (0 : ℝ) ≠ a := by linarith
  refine ⟨_, hb, ?_, ?_⟩
  · simp [show a ≠ 0 by linarith]
  · simp [n2, n3]

theorem mir_frac (s : RefStructure 1) (hL : s.lattice = 1) (u : (Fin 3 → ℝ))
    (hub : ∀ j, InHalfBox (u j)) : s.getFracDisplacement (one1 u) = .ok (one1 u) := by
  unfold RefStructure.getFracDisplacement npInv
  rw [hL, if_neg (by simp), inv_one]
  change Except.ok _ = Except.ok _
  congr 1
  funext a i
  have h : matMulPos (one1 u) (1 : Mat3 ℝ) a i = u i := by
    simp [matMulPos, Matrix.one_apply, one1]
  unfold applyPbcDisplacement
  rw [h]
  exact wrap1_of_inHalfBox (hub i)

theorem mir_scale (u : (Fin 3 → ℝ)) (hu : u 0 ^ 2 + u 1 ^ 2 + u 2 ^ 2 = (1 / 10) ^ 2)
    (hub : ∀ j, InHalfBox (u j)) : scaleDisplacement (one1 u) = some (one1 u) := by
  have hb : applyPbcDisplacement (one1 u) = one1 u := by
    funext a i
    exact wrap1_of_inHalfBox (hub i)
  unfold scaleDisplacement
  dsimp only
  rw [hb, norm_one1 u (1 / 10) (by norm_num) hu, if_neg (by norm_num)]
  congr 1
  funext a i
  norm_num

theorem toCart_one (p : Pos 1 ℝ) : toCart (1 : Mat3 ℝ) p = p := by
  funext a i
  simp [toCart, Matrix.one_apply]

theorem mir_normalize (s : RefStructure 1) (hL : s.lattice = 1) (u : (Fin 3 → ℝ))
    (hu : u 0 ^ 2 + u 1 ^ 2 + u 2 ^ 2 = (1 / 10) ^ 2) (hub : ∀ j, InHalfBox (u j)) :
    normalizePos (s.getCartDisplacement (one1 u)) = some (one1 fun i => 10 * u i) := by
  rw [getCart_of_box _ (one1 u) fun a i => hub i, hL, toCart_one]
  unfold normalizePos
  rw [norm_one1 u (1 / 10) (by norm_num) hu, if_neg (by norm_num)]
  congr 1
  funext a i
  simp only [one1]; ring

/-- The displacement of the first call, and its mirror image, at an angle of about 50°. -/
noncomputable def mirU : (Fin 3 → ℝ) := ![0, 3 / 50, 4 / 50]
noncomputable def mirU' : (Fin 3 → ℝ) := ![3 / 50, 0, 4 / 50]
/-- The displacement of the second call, and its mirror image, at an angle of 90°. -/
noncomputable def mirV : (Fin 3 → ℝ) := ![1 / 10, 0, 0]
noncomputable def mirV' : (Fin 3 → ℝ) := ![0, 1 / 10, 0]

theorem mir_box : (∀ j, InHalfBox (mirU j)) ∧ (∀ j, InHalfBox (mirU' j)) ∧
    (∀ j, InHalfBox (mirV j)) ∧ ∀ j, InHalfBox (mirV' j) := by
  refine ⟨?_, ?_, ?_, ?_⟩ <;> intro j <;> fin_cases j <;>
    norm_num [mirU, mirU', mirV, mirV', InHalfBox]

theorem mir_norms : mirU 0 ^ 2 + mirU 1 ^ 2 + mirU 2 ^ 2 = (1 / 10) ^ 2 ∧
    mirU' 0 ^ 2 + mirU' 1 ^ 2 + mirU' 2 ^ 2 = (1 / 10) ^ 2 ∧
    mirV 0 ^ 2 + mirV 1 ^ 2 + mirV 2 ^ 2 = (1 / 10) ^ 2 ∧
    mirV' 0 ^ 2 + mirV' 1 ^ 2 + mirV' 2 ^ 2 = (1 / 10) ^ 2 := by
  refine ⟨?_, ?_, ?_, ?_⟩ <;> norm_num [mirU, mirU', mirV, mirV', vec_two]

theorem mir_images : (∀ j, ∑ i, mirU i * mirRot i j = mirU' j) ∧
    ∀ j, ∑ i, mirV i * mirRot i j = mirV' j := by
  constructor <;> intro j <;> fin_cases j <;>
    simp [mirU, mirU', mirV, mirV', mirRot, Fin.sum_univ_three]

/-- The basis vectors. -/
noncomputable def mirB : (Fin 3 → ℝ) := fun i => 10 * mirU i
noncomputable def mirX : (Fin 3 → ℝ) := fun i => 10 * mirV i
noncomputable def mirY : (Fin 3 → ℝ) := fun i => 10 * mirV' i

theorem mir_parent (m : IModel 1) (hL : m.ref.lattice = 1) (u : (Fin 3 → ℝ))
    (hu : u 0 ^ 2 + u 1 ^ 2 + u 2 ^ 2 = (1 / 10) ^ 2) (hub : ∀ j, InHalfBox (u j)) :
    parentDisplacement m (some (one1 u)) = .ok (some (one1 u)) := by
  obtain ⟨p, c, hc, h1, h2, _, h4, _⟩ := (parent_facts m _ _ (mir_frac m.ref hL u hub)).2
    (fun h => one1_ne (vec_ne_zero hu) (by rw [h]; rfl))
  have hp : flat p = fun x => c * flat (one1 u) x := by funext x; exact h2 x.1 x.2
  rw [hp, norm2_smul, norm_one1 u (1 / 10) (by norm_num) hu, abs_of_pos hc] at h4
  have hc1 : c = 1 := by linarith
  rw [h1]
  congr 2
  funext a i
  rw [h2, hc1, one_mul]

/-- The first call. -/
theorem mir_add₁ (nums : Fin 1 → ℕ) (s : RefStructure 1)
    (hs : RefStructure.init mirSpglib nums 1 (fun _ _ => 0) = .ok s)
    (hops : s.ops = mirOps) (pol A B : Mat3 ℝ) : ∃ f : ℝ → Mat3 ℝ,
    (IModel.init s pol false).addDof lookupSpline true (one1 mirU)
      [-(1 / 10), 1 / 10] [A, B] 2 true
      = ⟨.ok (), [], { IModel.init s pol false with
          basis := [one1 mirB], interps := [f], mask := [false] }⟩ ∧
    f (1 / 10) = B - pol := by
  obtain ⟨hpos, hlat, _⟩ := init_facts hs
  obtain ⟨b1, b2, _, _⟩ := mir_box
  obtain ⟨n1, n2, _, _⟩ := mir_norms
  have hgr := (mir_groups nums s hs hops _ mirU mirU' (mir_scale mirU n1 b1) n1 n2 b1 b2
    mir_images.1).2
    (by rw [cosine_one1 _ _ (1 / 10) (by norm_num) n2 n1]; norm_num [mirU, mirU', vec_two])
    (by rw [cosine_one1 _ _ (1 / 10) (by norm_num) n2 n1]; norm_num [mirU, mirU', vec_two])
  have hne : one1 mirU ≠ 0 := fun h => one1_ne (vec_ne_zero n1) (by rw [h]; rfl)
  obtain ⟨f, hf, _, hf2⟩ := build_sym (1 / 10) (by norm_num) (by norm_num) 0
    ((1 : Mat3 ℝ)⁻¹ * (A - pol) * (1 : Mat3 ℝ)) ((1 : Mat3 ℝ)⁻¹ * (B - pol) * (1 : Mat3 ℝ))
  refine ⟨f, ?_, by rw [hf2]; simp⟩
  unfold IModel.addDof IModel.addDofNan
  rw [prepareDof_eq _ _ _ _ _ _ (mir_parent (IModel.init s pol false) hlat mirU n1 b1)
    (by simp [usedPols, IModel.init]), getDof_eq _ _ _ _ _ _ (by rfl) hgr]
  have hu : usedPols (IModel.init s pol false) [-(1 / 10), 1 / 10] [A, B] = [A, B] := rfl
  have hr : (IModel.init s pol false).ref = s := rfl
  have hrp : (IModel.init s pol false).refPol = pol := rfl
  have d1 := dofGroup_eq (IModel.init s pol false) [-(1 / 10), 1 / 10] [A, B] true
    ⟨[one1 mirU], [⟨1, 0⟩]⟩ (one1 mirU) [] rfl (by simp)
  simp only [List.zip_cons_cons, List.zip_nil_left, List.flatMap_cons, List.flatMap_nil,
    List.append_nil, multiplier_self _ hne, hr, hrp, mir_normalize s hlat mirU n1 b1,
    List.map_cons, List.map_nil, imagePoint, refPoint, Option.map_some, one_mul, if_true,
    List.singleton_append] at d1
  rw [hu, List.mapM_cons, d1]
  change constructAndAdd _ _ _ [_] _ = _
  unfold constructAndAdd
  rw [if_neg (by norm_num)]
  have h2 : (2 : ℤ).toNat = 2 := rfl
  simp only [buildAll, h2, one_mul, mul_one, inv_one] at hf ⊢
  simp only [hf]
  rfl

/-- The second call. -/
theorem mir_addV (nums : Fin 1 → ℕ) (s : RefStructure 1)
    (hs : RefStructure.init mirSpglib nums 1 (fun _ _ => 0) = .ok s)
    (hops : s.ops = mirOps) (C D : Mat3 ℝ) (m : IModel 1) (hr : m.ref = s) (hdum : m.dummy = false)
    (ho : orthCheck m (some (one1 mirV)) = -1) : ∃ g h : ℝ → Mat3 ℝ,
    m.addDof lookupSpline true (one1 mirV) [-(3 / 50), 3 / 50] [C, D] 2 true
      = ⟨.ok (), [], { m with
          basis := m.basis ++ [one1 mirX, one1 mirY], interps := m.interps ++ [g, h],
          mask := m.mask ++ [false, false] }⟩ ∧
    g 0 = 0 ∧ h (3 / 50) = mirRot * (D - m.refPol) * mirRot := by
  obtain ⟨hpos, hlat, _⟩ := init_facts hs
  obtain ⟨_, _, b1, b2⟩ := mir_box
  obtain ⟨nu, _, n1, n2⟩ := mir_norms
  have hgr := (mir_groups nums s hs hops _ mirV mirV' (mir_scale mirV n1 b1) n1 n2 b1 b2
    mir_images.2).1
    (by rw [cosine_one1 _ _ (1 / 10) (by norm_num) n2 n1]; norm_num [mirV, mirV', vec_two])
  have hne : one1 mirV ≠ 0 := fun h => one1_ne (vec_ne_zero n1) (by rw [h]; rfl)
  have hne1 : one1 mirV' ≠ 0 := fun h => one1_ne (vec_ne_zero n2) (by rw [h]; rfl)
  obtain ⟨g, hg, hg0, _⟩ := build_sym (3 / 50) (by norm_num) (by norm_num) 0
    ((1 : Mat3 ℝ)⁻¹ * (C - m.refPol) * (1 : Mat3 ℝ)) ((1 : Mat3 ℝ)⁻¹ * (D - m.refPol) * (1 : Mat3 ℝ))
  obtain ⟨h, hh, _, hh2⟩ := build_sym (3 / 50) (by norm_num) (by norm_num) 0
    (mirRot⁻¹ * (C - m.refPol) * mirRot) (mirRot⁻¹ * (D - m.refPol) * mirRot)
  refine ⟨g, h, ?_, hg0, by rw [hh2, mir_inv]⟩
  unfold IModel.addDof IModel.addDofNan
  have hu : usedPols m [-(3 / 50), 3 / 50] [C, D] = [C, D] := by unfold usedPols; rw [hdum]; rfl
  rw [prepareDof_eq _ _ _ _ _ _ (mir_parent m (by rw [hr]; exact hlat) mirV n1 b1)
    (by rw [hu]; rfl), getDof_eq _ _ _ _ _ _ ho (by rw [hr]; exact hgr)]
  have d1 := dofGroup_eq m [-(3 / 50), 3 / 50] [C, D] true
    ⟨[one1 mirV], [⟨1, 0⟩]⟩ (one1 mirV) [] rfl (by simp)
  have d2 := dofGroup_eq m [-(3 / 50), 3 / 50] [C, D] true
    ⟨[one1 mirV'], [⟨mirRot, 0⟩]⟩ (one1 mirV') [] rfl (by simpa using mir_det)
  simp only [List.zip_cons_cons, List.zip_nil_left, List.flatMap_cons, List.flatMap_nil,
    List.append_nil, multiplier_self _ hne, multiplier_self _ hne1, hr,
    mir_normalize s hlat mirV n1 b1, mir_normalize s hlat mirV' n2 b2,
    List.map_cons, List.map_nil, imagePoint, refPoint, Option.map_some, one_mul, if_true,
    List.singleton_append] at d1 d2
  rw [hu, List.mapM_cons, d1, List.mapM_cons, d2]
  change constructAndAdd _ _ _ [_, _] _ = _
  unfold constructAndAdd
  rw [if_neg (by norm_num)]
  have h2 : (2 : ℤ).toNat = 2 := rfl
  simp only [buildAll, h2, one_mul, mul_one, inv_one] at hg hh ⊢
  simp only [hg, hh, hdum]
  rfl

theorem mir_add₂ (nums : Fin 1 → ℕ) (s : RefStructure 1)
    (hs : RefStructure.init mirSpglib nums 1 (fun _ _ => 0) = .ok s)
    (hops : s.ops = mirOps) (pol C D : Mat3 ℝ) (f : ℝ → Mat3 ℝ) (m : IModel 1)
    (hm : m = { IModel.init s pol false with
          basis := [one1 mirB], interps := [f], mask := [false] }) : ∃ g h : ℝ → Mat3 ℝ,
    m.addDof lookupSpline true (one1 mirV) [-(3 / 50), 3 / 50] [C, D] 2 true
      = ⟨.ok (), [], { IModel.init s pol false with
          basis := [one1 mirB, one1 mirX, one1 mirY], interps := [f, g, h],
          mask := [false, false, false] }⟩ ∧
    g 0 = 0 ∧ h (3 / 50) = mirRot * (D - pol) * mirRot := by
  obtain ⟨hpos, hlat, _⟩ := init_facts hs
  obtain ⟨_, _, b1, b2⟩ := mir_box
  obtain ⟨nu, _, n1, n2⟩ := mir_norms
  have hr : m.ref = s := by rw [hm]; rfl
  have ho : orthCheck m (some (one1 mirV)) = -1 := by
    have e : m.basis = [one1 mirB] := by rw [hm]
    unfold orthCheck
    dsimp only
    rw [C08_all_orthogonal]
    intro x hx
    rw [e] at hx
    simp only [List.map_cons, List.map_nil, List.mem_singleton] at hx
    subst hx
    rw [hr, getCart_of_box _ (one1 mirV) fun a i => b1 i, hlat, toCart_one]
    refine ⟨one1_ne (vec_ne_zero n1), one1_ne ?_, ?_⟩
    · intro h0
      have := congrFun h0 1
      norm_num [mirB, mirU] at this
    · have hz : cosine (flat (one1 mirV)) (flat (one1 mirB)) = 0 := by
        unfold cosine
        rw [show ∑ i, flat (one1 mirV) i * flat (one1 mirB) i = 0 by
          simp [flat, one1, mirV, mirB, mirU, Fintype.sum_prod_type, Fin.sum_univ_three]]
        simp
      rw [hz]; norm_num [angTol]
  obtain ⟨g, h, h1, h2, h3⟩ := mir_addV nums s hs hops C D m hr (by rw [hm]; rfl) ho
  subst hm
  exact ⟨g, h, h1, h2, h3⟩

/-- C38, counterexample in a cubic cell: two `add_dof` calls on a fresh model succeed, the
second displacement being orthogonal to the first; afterwards the third basis vector (the
mirror image of the second displacement) is at cosine 3/5 to the first.  As a consequence the
second call changes the prediction for the very structure supplied with the first call, from
the supplied polarizability `B` to a different one whenever `D ≠ pol`. -/
theorem C38_cubic_counterexample (nums : Fin 1 → ℕ) (pol A B C D : Mat3 ℝ) :
    ∃ (s : RefStructure 1) (o₁ o₂ : Outcome 1) (b₁ b₂ b₃ : Pos 1 ℝ) (d₁ d₂ : Pos 1 ℝ)
      (R : Mat3 ℝ),
      RefStructure.init mirSpglib nums 1 (fun _ _ => 0) = .ok s ∧
      (∀ op ∈ s.ops, IsSymmetry s.positions op.rot op.trans (Equiv.refl _) ∧
        op.rot * op.rot.transpose = 1) ∧
      o₁ = (IModel.init s pol false).addDof lookupSpline true d₁
        [-(1 / 10), 1 / 10] [A, B] 2 true ∧ o₁.result = .ok () ∧
      o₂ = o₁.state.addDof lookupSpline true d₂ [-(3 / 50), 3 / 50] [C, D] 2 true ∧
      o₂.result = .ok () ∧ Reachable lookupSpline o₂.state ∧ inner3 d₁ d₂ = 0 ∧
      o₂.state.basis = [b₁, b₂, b₃] ∧ inner3 b₁ b₁ = 1 ∧ inner3 b₂ b₂ = 1 ∧ inner3 b₃ b₃ = 1 ∧
      inner3 b₁ b₃ = 3 / 5 ∧
      o₁.state.calcPolarizabilities [fun a i => s.positions a i + d₁ a i] = .ok [B] ∧
      o₂.state.calcPolarizabilities [fun a i => s.positions a i + d₁ a i]
        = .ok [B + R * (D - pol) * R] ∧
      (D ≠ pol → B + R * (D - pol) * R ≠ B) := by
  obtain ⟨s, hs, hops⟩ := mirInit nums
  obtain ⟨hpos, hlat, _⟩ := init_facts hs
  obtain ⟨f, h1, hf⟩ := mir_add₁ nums s hs hops pol A B
  obtain ⟨g, h, h2, hg, hh⟩ := mir_add₂ nums s hs hops pol C D f _ rfl
  have hn : calcDisplacement s.positions (fun a i => s.positions a i + one1 mirU a i)
      = one1 mirU := by
    refine (calcDisplacement_nearest _ _).unique fun a i => ⟨mir_box.1 i, ?_⟩
    exact ⟨0, by simp⟩
  have hr : (IModel.init s pol false).ref = s := rfl
  have hrp : (IModel.init s pol false).refPol = pol := rfl
  have i1 : inner3 (one1 mirB) (one1 mirU) = 1 / 10 := by
    simp [inner3, one1, mirB, mirU, Fin.sum_univ_three]; norm_num
  have i2 : inner3 (one1 mirX) (one1 mirU) = 0 := by
    simp [inner3, one1, mirX, mirV, mirU, Fin.sum_univ_three]
  have i3 : inner3 (one1 mirY) (one1 mirU) = 3 / 50 := by
    simp [inner3, one1, mirY, mirV', mirU, Fin.sum_univ_three]
  refine ⟨s, _, _, one1 mirB, one1 mirX, one1 mirY, one1 mirU, one1 mirV, mirRot, hs, ?_, rfl,
    by rw [h1], rfl, by rw [h1, h2], Reachable.addDof _ _ _ _ _ _
      (Reachable.addDof _ _ _ _ _ _ (Reachable.init _ _ _)), ?_, by rw [h1, h2], ?_, ?_, ?_, ?_,
    ?_, ?_, ?_⟩
  · intro op hop
    rw [hops] at hop
    refine ⟨by rw [hpos]; exact mir_sym op hop, ?_⟩
    simp only [mirOps, List.mem_cons, List.not_mem_nil, or_false] at hop
    rcases hop with rfl | rfl
    · simp
    · rw [mir_transpose, mir_sq]
  · simp [inner3, one1, mirU, mirV, Fin.sum_univ_three]
  · simp [inner3, one1, mirB, mirU, Fin.sum_univ_three]; norm_num
  · simp [inner3, one1, mirX, mirV, Fin.sum_univ_three]
  · simp [inner3, one1, mirY, mirV', Fin.sum_univ_three]
  · simp [inner3, one1, mirB, mirU, mirY, mirV', Fin.sum_univ_three]; norm_num
  · rw [h1, calc_ok _ rfl rfl]
    congr 2
    unfold valueAt
    dsimp only
    rw [hr, List.map_cons, List.map_nil, hn, hlat, hrp, toCart_one]
    congr 1
    unfold expansion
    simp only [List.zip_cons_cons, List.zip_nil_left, List.map_cons, List.map_nil, List.sum_cons,
      List.sum_nil, i1, hf]
    simp
  · rw [h1, h2, calc_ok _ rfl rfl]
    congr 2
    unfold valueAt
    dsimp only
    rw [hr, List.map_cons, List.map_nil, hn, hlat, hrp, toCart_one]
    congr 1
    unfold expansion
    simp only [List.zip_cons_cons, List.zip_nil_left, List.map_cons, List.map_nil, List.sum_cons,
      List.sum_nil, i1, i2, i3, hf, hg, hh]
    simp
    abel
  · intro hD hcon
    apply hD
    have hz : mirRot * (D - pol) * mirRot = 0 := by simpa using hcon
    have : mirRot * (mirRot * (D - pol) * mirRot) * mirRot = D - pol := by
      rw [show mirRot * (mirRot * (D - pol) * mirRot) * mirRot
        = (mirRot * mirRot) * (D - pol) * (mirRot * mirRot) by
          simp only [Matrix.mul_assoc], mir_sq]
      simp
    rw [hz] at this
    simp at this
    exact (sub_eq_zero.1 this.symm)

/-- The counterexample has data with `D ≠ pol`. -/
example : (1 : Mat3 ℝ) ≠ 0 := one_ne_zero

/-! ### When earlier basis vectors are closed under the symmetry operations -/

variable {N : ℕ}

theorem cosine_reindex (σ : Equiv.Perm (Fin N)) (u v : Pos N ℝ) :
    cosine (flatten u) (flatten v) = cosine (flatten fun a => u (σ a)) (flatten fun a => v (σ a)) := by
  have key : ∀ f : Fin N → Fin 3 → ℝ, ∑ x : Fin N × Fin 3, f x.1 x.2
      = ∑ x : Fin N × Fin 3, f (σ x.1) x.2 := fun f => by
    rw [Fintype.sum_prod_type, Fintype.sum_prod_type]
    exact (Equiv.sum_comp σ fun a => ∑ i, f a i).symm
  unfold cosine flatten
  rw [key fun a i => u a i * v a i, key fun a i => u a i ^ 2, key fun a i => v a i ^ 2]

theorem toCart_toCart (p : Pos N ℝ) (A B : Mat3 ℝ) : toCart B (toCart A p) = toCart (A * B) p := by
  funext a j
  unfold toCart
  simp only [Matrix.mul_apply, Finset.sum_mul, Finset.mul_sum]
  rw [Finset.sum_comm]
  refine Finset.sum_congr rfl fun i _ => Finset.sum_congr rfl fun k _ => by ring

/-- C38 (part, across calls): in a cubic-shaped cell with orthogonal rotation matrices, if the
basis vectors already present are mutually orthogonal and every one of them is, up to sign,
the image of a basis vector under each operation, then after a successful `add_dof` all
basis vectors, old and new, are mutually orthogonal.  Without the closedness hypothesis this is
false (`C38_cubic_counterexample`). -/
theorem C38_closed_partial (spglib : Mat3 ℝ → Pos N ℝ → (Fin N → ℕ) → Option SymDict)
    (nums : Fin N → ℕ) (lat : Mat3 ℝ) (p : Pos N ℝ) (s : RefStructure N)
    (hs : RefStructure.init spglib nums lat p = .ok s)
    (hsep : ∀ j k, j ≠ k → Apart (2 / 10 ^ 5) (p j) (p k))
    (hsym : ∀ op ∈ s.ops, ∃ σ, IsSymmetry p op.rot op.trans σ)
    (c : ℝ) (hc : 0 < c) (hL : lat * lat.transpose = c • 1)
    (hrot : ∀ op ∈ s.ops, op.rot * op.rot.transpose = 1)
    (spline : SplineFn) (we : Bool) (m : IModel N) (hm : m.ref = s)
    (hclosed : ∀ op ∈ s.ops, ∀ σ, IsSymmetry p op.rot op.trans σ → ∀ b ∈ m.basis,
      ∃ b' ∈ m.basis, ∃ ε : ℝ, |ε| = 1 ∧
        ∀ a, b (σ a) = fun j => ε * ∑ i, b' a i * (lat⁻¹ * op.rot * lat) i j)
    (hbasis : m.basis.Pairwise fun b b' => Orthogonal (flatten b) (flatten b'))
    (cart : Pos N ℝ) (amps : List ℝ) (pols : List (Mat3 ℝ)) (order : ℤ) (inc : Bool)
    (o : Outcome N) (ho : o = m.addDof spline we cart amps pols order inc)
    (hok : o.result = .ok ()) :
    o.state.basis.Pairwise fun b b' => Orthogonal (flatten b) (flatten b') := by
  obtain ⟨hpos, hlat, _⟩ := init_facts hs
  obtain ⟨bs, hbs, hnew⟩ := C38_mutually_orthogonal_partial spline we m cart amps pols order inc c hc
    (by rw [hm, hlat]; exact hL) o ho hok
  rw [hbs, List.pairwise_append]
  refine ⟨hbasis, hnew, ?_⟩
  obtain ⟨parent, recs, fs, h1, _, _, hcheck, h5, _, _, _, h9⟩ :=
    addDofNan_facts spline we m (some cart) amps pols order inc o ho hok
  have hbr : bs = recs.map Prod.fst := by
    have : m.basis ++ bs = m.basis ++ recs.map Prod.fst := by rw [← hbs, h5]
    exact List.append_cancel_left this
  rcases h9 with rfl | ⟨par, groups, hpar, hg, hF⟩
  · rw [hbr]; simp
  subst hpar
  cases hw : m.ref.getFracDisplacement cart with
  | error e =>
    unfold parentDisplacement at h1
    dsimp only at h1
    rw [hw] at h1; cases h1
  | ok w =>
  have hpf := parent_facts m _ w hw
  have hwne : w ≠ 0 := fun h0 => by
    rw [hpf.1 h0] at h1; cases h1
  obtain ⟨p', k, hk, g1, g2, _, g4, _⟩ := hpf.2 hwne
  rw [g1] at h1
  obtain rfl : p' = par := Option.some.inj (Except.ok.inj h1)
  have hpbox : ∀ a i, InHalfBox (p' a i) := box_of_norm (le_of_eq g4)
  have hpne : ∃ a i, ¬ SameImage (p' a i) 0 := by
    by_contra hcon
    push Not at hcon
    have : p' = 0 := by
      funext a i
      exact (hcon a i).eq_of_inHalfBox (hpbox a i) (by norm_num [InHalfBox])
    rw [this] at g4
    have : norm2 (flat (0 : Pos N ℝ)) = 0 := norm2_eq_zero.2 rfl
    rw [this] at g4; norm_num at g4
  obtain ⟨groups', e, q1, ⟨⟨c2, hc2, q2⟩, hen⟩, q3⟩ :=
    C13_end_to_end spglib nums lat p s hs hsep hsym p' hpne
  rw [hm, q1] at hg
  cases hg
  have hwrap : applyPbcDisplacement p' = p' := by
    funext a i; exact wrap1_of_inHalfBox (hpbox a i)
  rw [hwrap] at q2
  intro b hb b₂ hb₂
  rw [hbr] at hb₂
  obtain ⟨r, hr, rfl⟩ := List.mem_map.1 hb₂
  obtain ⟨n, hn, rfl⟩ := List.mem_iff_getElem.1 hr
  have hlen := hF.length_eq
  have hgf := (List.forall₂_iff_get.1 hF).2 n (by omega) hn
  simp only [List.get_eq_getElem] at hgf
  obtain ⟨child, rest, e1, e2⟩ := hgf.basis
  obtain ⟨op, imgs, _, _, e3, _⟩ := hgf.pts
  have hmem : (op, child) ∈ (groups[n]).transformations.zip (groups[n]).displacements := by
    rw [e1]
    cases ht : (groups[n]).transformations with
    | nil => rw [ht] at e3; cases e3
    | cons t ts => rw [ht] at e3; cases e3; simp
  obtain ⟨hop, σ, hσs, hσ⟩ := q3 _ (List.getElem_mem _) _ hmem
  dsimp only at hσ hop hσs
  have hR := hrot op hop
  have hR1 : op.rot * op.rot.transpose = (1 : ℝ) • 1 := by rw [hR, one_smul]
  -- the image is exactly the rotated displacement
  have hrbox : ∀ a j, InHalfBox (toCart op.rot e a j) := by
    apply box_of_norm
    unfold norm2
    have : dot (flat (toCart op.rot e)) (flat (toCart op.rot e)) = (1 / 10) ^ 2 := by
      have := inner_toCart hR1 e e
      rw [dot]
      refine this.trans ?_
      rw [one_mul, Fintype.sum_prod_type]
      rw [show (∑ x, ∑ y, flatten e (x, y) * flatten e (x, y)) = ∑ a, ∑ i, e a i ^ 2 from
        Finset.sum_congr rfl fun a _ => Finset.sum_congr rfl fun i _ => (sq (e a i)).symm, hen]
      norm_num
    rw [this, Real.sqrt_sq (by norm_num)]
  have hchild : ∀ a, child (σ a) = toCart op.rot e a := by
    intro a
    funext j
    obtain ⟨hb1, hs'⟩ := hσ a j
    exact (hs'.eq_of_inHalfBox (hrbox a j) hb1).symm
  have hchbox : ∀ a i, InHalfBox (child a i) := fun a i => by
    have := (hσ (σ.symm a) i).1
    rwa [Equiv.apply_symm_apply] at this
  have hdet : lat.det ≠ 0 := by
    have := (frac_ok _ _ _ hw).1
    rwa [hm, hlat] at this
  have hu : IsUnit lat.det := isUnit_iff_ne_zero.2 hdet
  obtain ⟨b', hb', ε, hε, hbb⟩ := hclosed op hop σ hσs b hb
  have hε0 : ε ≠ 0 := by
    rintro rfl
    simp at hε
  -- the check made by the code
  have hchk : Orthogonal (flatten (toCart lat p')) (flatten b') := by
    unfold orthCheck at hcheck
    dsimp only at hcheck
    rw [C08_all_orthogonal, hm, getCart_of_box _ _ hpbox, hlat] at hcheck
    exact hcheck _ (List.mem_map_of_mem hb')
  rw [hm, getCart_of_box _ _ hchbox, hlat] at e2
  obtain ⟨ne, _, sc, psc, hsc⟩ := normalizePos_some _ _ e2
  -- fractional versions of the basis vectors
  have hfrac : ∀ v : Pos N ℝ, toCart lat (toCart lat⁻¹ v) = v := fun v => by
    rw [toCart_toCart, Matrix.nonsing_inv_mul _ hu]
    funext a j
    simp [toCart, Matrix.one_apply]
  have hβ : ∀ a, toCart lat⁻¹ b (σ a) = fun j => ε * toCart op.rot (toCart lat⁻¹ b') a j := by
    intro a
    have h1 : toCart lat⁻¹ b (σ a) = fun j => ε * toCart lat⁻¹ (toCart (lat⁻¹ * op.rot * lat) b') a j := by
      funext j
      unfold toCart
      rw [hbb a, Finset.mul_sum]
      refine Finset.sum_congr rfl fun i _ => by ring
    rw [h1, toCart_toCart, toCart_toCart, Matrix.mul_assoc, Matrix.mul_nonsing_inv _ hu,
      Matrix.mul_one]
  have hb0 : flatten b' ≠ 0 := hchk.2.1
  have hbne : flatten b ≠ 0 := by
    intro h0
    have hz : ∀ a j, toCart lat⁻¹ b a j = 0 := fun a j => by
      unfold toCart
      exact Finset.sum_eq_zero fun i _ => by rw [show b a i = 0 from congrFun h0 (a, i), zero_mul]
    have hz2 : ∀ a j, toCart op.rot (toCart lat⁻¹ b') a j = 0 := fun a j => by
      have := congrFun (hβ a) j
      rw [hz] at this
      rcases mul_eq_zero.1 this.symm with h | h
      · exact absurd h hε0
      · exact h
    have hback : toCart lat (toCart op.rot.transpose (toCart op.rot (toCart lat⁻¹ b'))) = b' := by
      rw [toCart_toCart _ op.rot, hR]
      rw [show toCart (1 : Mat3 ℝ) (toCart lat⁻¹ b') = toCart lat⁻¹ b' by
        funext a j; simp [toCart, Matrix.one_apply], hfrac]
    apply hb0
    rw [← hback]
    funext x
    unfold flatten toCart
    refine Finset.sum_eq_zero fun i _ => ?_
    rw [Finset.sum_eq_zero fun j _ => ?_, zero_mul]
    exact mul_eq_zero_of_left (hz2 x.1 j) _
  have hcos : |cosine (flatten (toCart lat child)) (flatten b)|
      = |cosine (flatten (toCart lat p')) (flatten b')| := by
    conv_lhs => rw [← hfrac b]
    conv_rhs => rw [← hfrac b']
    rw [cosine_toCart hc hL, cosine_toCart hc hL, cosine_reindex σ]
    rw [show (fun a => child (σ a)) = toCart op.rot e from funext hchild,
      show (fun a => toCart lat⁻¹ b (σ a)) = fun a j => ε * toCart op.rot (toCart lat⁻¹ b') a j from
        funext hβ, cosine_comm]
    rw [show flatten (fun a j => ε * toCart op.rot (toCart lat⁻¹ b') a j)
      = fun x => ε * flatten (toCart op.rot (toCart lat⁻¹ b')) x from rfl, cosine_smul_left hε0,
      cosine_comm, cosine_toCart one_pos hR1]
    rw [show flatten e = fun x => c2 * flatten p' x from funext fun x => q2 x.1 x.2,
      cosine_smul_left hc2.ne']
  have horth : Orthogonal (flatten (toCart lat child)) (flatten b) :=
    ⟨flat_ne_zero ne, hbne, by rw [hcos]; exact hchk.2.2⟩
  have := orthogonal_smul (u' := flatten (recs[n]).1) (v' := flatten b) psc one_pos
    (fun x => hsc x.1 x.2) (fun x => (one_mul _).symm) horth
  refine ⟨this.2.1, this.1, ?_⟩
  rw [cosine_comm]
  exact this.2.2

/-- The hypotheses of `C38_closed_partial` on a non-empty basis: the unit vectors along x and y
are exchanged by the mirror plane, and adding a displacement along z to them succeeds the
orthogonality check. -/
example : ∀ op ∈ mirOps, ∀ b ∈ [one1 mirX, one1 mirY],
    ∃ b' ∈ [one1 mirX, one1 mirY], ∃ ε : ℝ, |ε| = 1 ∧
      ∀ a, b a = fun j => ε * ∑ i, b' a i * ((1 : Mat3 ℝ)⁻¹ * op.rot * 1) i j := by
  intro op hop b hb
  have key : ∀ (u v : Fin 3 → ℝ) (R : Mat3 ℝ), (∀ j, u j = ∑ i, v i * R i j) → ∃ ε : ℝ, |ε| = 1 ∧
      ∀ a, one1 u a = fun j => ε * ∑ i, one1 v a i * ((1 : Mat3 ℝ)⁻¹ * R * 1) i j := by
    intro u v R h
    refine ⟨1, by simp, fun a => ?_⟩
    funext j
    simp only [inv_one, one_mul, mul_one, one1]
    exact h j
  simp only [mirOps, List.mem_cons, List.not_mem_nil, or_false] at hop hb
  rcases hop with rfl | rfl <;> rcases hb with rfl | rfl
  · exact ⟨_, by simp, key mirX mirX _ fun j => by simp [Matrix.one_apply]⟩
  · exact ⟨_, List.mem_cons_of_mem _ (List.mem_singleton_self _),
      key mirY mirY _ fun j => by simp [Matrix.one_apply]⟩
  · exact ⟨_, List.mem_cons_of_mem _ (List.mem_singleton_self _), key mirX mirY _ fun j => by
      fin_cases j <;> simp [mirX, mirY, mirV, mirV', mirRot, Fin.sum_univ_three]⟩
  · exact ⟨_, List.mem_cons_self, key mirY mirX _ fun j => by
      fin_cases j <;> simp [mirX, mirY, mirV, mirV', mirRot, Fin.sum_univ_three]⟩

end Verif
