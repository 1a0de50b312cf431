import Verif.Proofs.AlmostOrthogonal
import Verif.Props.CrossCall

/-!
# Property C107: how many degrees of freedom a model can have
-/

namespace Verif

open Spec

variable {N : ℕ}

theorem card_dofs : (Fintype.card (Fin N × Fin 3) : ℝ) = 3 * N := by
  rw [Fintype.card_prod, Fintype.card_fin, Fintype.card_fin]
  push_cast; ring

theorem length_le_of_basis (bs : List (Pos N ℝ)) (hN : 3 * (N : ℝ) * angTol < 1)
    (hne : ∀ b ∈ bs, b ≠ 0)
    (h : bs.Pairwise fun b b' => Orthogonal (flatten b) (flatten b')) : bs.length ≤ 3 * N := by
  have := length_le_of_orthogonal (bs.map flatten)
    (fun v hv => by
      obtain ⟨b, hb, rfl⟩ := List.mem_map.1 hv
      exact flat_ne_zero (hne b hb))
    (by rw [List.pairwise_map]; exact h) (by rw [card_dofs]; exact hN)
  rw [List.length_map, Fintype.card_prod, Fintype.card_fin, Fintype.card_fin] at this
  omega

/-- C107 (part): in a cubic-shaped cell with orthogonal rotation matrices and at most 33 300
atoms, if the degrees of freedom already present are mutually orthogonal and closed under the
operations (up to sign), then after any `add_dof` call there are at most 3N degrees of freedom.
Without closedness this is false (`C107_counterexample`). -/
theorem C107_at_most_3N_partial (spglib : Mat3 ℝ → Pos N ℝ → (Fin N → ℕ) → Option SymDict)
    (nums : Fin N → ℕ) (lat : Mat3 ℝ) (p : Pos N ℝ) (s : RefStructure N)
    (hs : RefStructure.init spglib nums lat p = .ok s)
    (hsep : ∀ j k, j ≠ k → Apart (2 / 10 ^ 5) (p j) (p k))
    (hsym : ∀ op ∈ s.ops, ∃ σ, IsSymmetry p op.rot op.trans σ)
    (c : ℝ) (hc : 0 < c) (hL : lat * lat.transpose = c • 1)
    (hrot : ∀ op ∈ s.ops, op.rot * op.rot.transpose = 1) (hN : N ≤ 33300)
    (spline : SplineFn) (we : Bool) (m : IModel N) (hm : m.ref = s)
    (hclosed : ∀ op ∈ s.ops, ∀ σ, IsSymmetry p op.rot op.trans σ → ∀ b ∈ m.basis,
      ∃ b' ∈ m.basis, ∃ ε : ℝ, |ε| = 1 ∧
        ∀ a, b (σ a) = fun j => ε * ∑ i, b' a i * (lat⁻¹ * op.rot * lat) i j)
    (hunit : ∀ b ∈ m.basis, b ≠ 0)
    (hbasis : m.basis.Pairwise fun b b' => Orthogonal (flatten b) (flatten b'))
    (cart : Pos N ℝ) (amps : List ℝ) (pols : List (Mat3 ℝ)) (order : ℤ) (inc : Bool) :
    (m.addDof spline we cart amps pols order inc).state.basis.length ≤ 3 * N := by
  have hN' : 3 * (N : ℝ) * angTol < 1 := by
    have : (N : ℝ) ≤ 33300 := by exact_mod_cast hN
    unfold angTol
    linarith
  cases hr : (m.addDof spline we cart amps pols order inc).result with
  | error e =>
    have he : (m.addDof spline we cart amps pols order inc).state = m :=
      (addDofNan_atomic spline we m (some cart) amps pols order inc).1 e hr
    rw [he]
    exact length_le_of_basis _ hN' hunit hbasis
  | ok u =>
    refine length_le_of_basis _ hN' ?_ (C38_closed_partial spglib nums lat p s hs hsep hsym c hc hL
      hrot spline we m hm hclosed hbasis cart amps pols order inc _ rfl hr)
    obtain ⟨parent, recs, fs, _, _, _, _, h5, _, _, _, h9⟩ :=
      addDofNan_facts spline we m (some cart) amps pols order inc _ rfl hr
    change ∀ b ∈ (m.addDofNan spline we (some cart) amps pols order inc).state.basis, b ≠ 0
    rw [h5]
    intro b hb
    rcases List.mem_append.1 hb with hb | hb
    · exact hunit b hb
    · rcases h9 with rfl | ⟨p, groups, _, hg, hF⟩
      · simp at hb
      obtain ⟨r, hr, rfl⟩ := List.mem_map.1 hb
      obtain ⟨n, hn, rfl⟩ := List.mem_iff_getElem.1 hr
      have hlen := hF.length_eq
      have hgf := (List.forall₂_iff_get.1 hF).2 n (by omega) hn
      obtain ⟨child, rest, _, e2⟩ := hgf.basis
      obtain ⟨_, hnorm, _⟩ := normalizePos_some _ _ e2
      intro h0
      rw [show (recs.get ⟨n, hn⟩).1 = 0 from h0] at hnorm
      simp [inner3] at hnorm

/-- C107, complete models: in any cell, if 3N mutually orthogonal degrees of freedom are
specified (N at most 33 300), every further `add_dof` call with a nonzero displacement and
matching numbers of amplitudes and polarizabilities is refused with `InvalidDOFException` and
changes nothing. -/
theorem C107_complete_refuses (spline : SplineFn) (we : Bool) (m : IModel N) (cart w : Pos N ℝ)
    (hw : m.ref.getFracDisplacement cart = .ok w) (hw0 : w ≠ 0) (amps : List ℝ)
    (pols : List (Mat3 ℝ)) (order : ℤ) (inc : Bool) (hN : N ≤ 33300)
    (hlen : m.basis.length = 3 * N) (hunit : ∀ b ∈ m.basis, b ≠ 0)
    (hbasis : m.basis.Pairwise fun b b' => Orthogonal (flatten b) (flatten b'))
    (hp : m.dummy = false → pols.length = amps.length) :
    (m.addDof spline we cart amps pols order inc).result = .error .invalidDOF ∧
      (m.addDof spline we cart amps pols order inc).state = m := by
  refine (C37_orthogonal spline we m cart w hw hw0 amps pols order inc _ rfl).2 hp ?_
  by_contra hcon
  push Not at hcon
  have hN' : 3 * (N : ℝ) * angTol < 1 := by
    have : (N : ℝ) ≤ 33300 := by exact_mod_cast hN
    unfold angTol
    linarith
  have hw0' : toCart m.ref.lattice w ≠ 0 := by
    intro h0
    cases hb : m.basis with
    | nil =>
      rw [hb] at hlen
      have : N = 0 := by simpa using hlen.symm
      subst this
      exact hw0 (funext fun a => a.elim0)
    | cons b bs =>
      refine (hcon b (by rw [hb]; simp)).1 ?_
      rw [h0]; rfl
  have := length_le_of_basis (toCart m.ref.lattice w :: m.basis) hN'
    (by
      intro b hb
      rcases List.mem_cons.1 hb with rfl | hb
      · exact hw0'
      · exact hunit b hb)
    (List.pairwise_cons.2 ⟨fun b hb => hcon b hb, hbasis⟩)
  rw [List.length_cons] at this
  omega

/-- Hypotheses of `C107_complete_refuses` are met by the three unit vectors for one atom. -/
example : [one1 mirX, one1 mirY, one1 ![0, 0, 1]].Pairwise
    fun b b' => Orthogonal (flatten b) (flatten b') := by
  have n : mirX ≠ 0 ∧ mirY ≠ 0 ∧ (![0, 0, 1] : Fin 3 → ℝ) ≠ 0 := by
    refine ⟨fun h => ?_, fun h => ?_, fun h => ?_⟩
    · have := congrFun h 0; norm_num [mirX, mirV] at this
    · have := congrFun h 1; norm_num [mirY, mirV'] at this
    · have := congrFun h 2; simp at this
  have key : ∀ u v : Fin 3 → ℝ, u ≠ 0 → v ≠ 0 → u 0 * v 0 + u 1 * v 1 + u 2 * v 2 = 0 →
      Orthogonal (flatten (one1 u)) (flatten (one1 v)) := by
    intro u v hu hv h
    refine ⟨one1_ne hu, one1_ne hv, ?_⟩
    have : cosine (flatten (one1 u)) (flatten (one1 v)) = 0 := by
      unfold cosine
      rw [Fintype.sum_prod_type]
      simp only [flatten, one1, Fin.sum_univ_three, Finset.univ_unique, Finset.sum_singleton, h,
        zero_div]
    rw [this]; norm_num [angTol]
  simp only [List.pairwise_cons, List.mem_cons, List.not_mem_nil, or_false]
  refine ⟨?_, ?_, by simp⟩
  · rintro b (rfl | rfl)
    · exact key _ _ n.1 n.2.1 (by norm_num [mirX, mirY, mirV, mirV', vec_two])
    · exact key _ _ n.1 n.2.2 (by norm_num [mirX, mirV, vec_two])
  · rintro b rfl
    exact key _ _ n.2.1 n.2.2 (by norm_num [mirY, mirV', vec_two])

/-! ### Four degrees of freedom for one atom -/

/-- The threefold rotation about the cube diagonal: (a, b, c) ↦ (c, a, b). -/
def cycRot : Mat3 ℝ := !![0, 1, 0; 0, 0, 1; 1, 0, 0]
/-- Its square: (a, b, c) ↦ (b, c, a). -/
def cycRot2 : Mat3 ℝ := !![0, 0, 1; 1, 0, 0; 0, 1, 0]

def cycOps : List SymOp := [⟨1, 0⟩, ⟨cycRot, 0⟩, ⟨cycRot2, 0⟩]

/-- An (oracle for an) spglib answer: the three rotations about the cube diagonal. -/
def cycSpglib : Mat3 ℝ → Pos 1 ℝ → (Fin 1 → ℕ) → Option SymDict :=
  fun _ _ _ => some ⟨cycOps, [0]⟩

theorem cyc_mul : cycRot * cycRot2 = 1 ∧ cycRot2 * cycRot = 1 := by
  constructor <;> ext i j <;> fin_cases i <;> fin_cases j <;>
    simp [cycRot, cycRot2, Matrix.mul_apply, Fin.sum_univ_three]

theorem cyc_transpose : cycRot.transpose = cycRot2 ∧ cycRot2.transpose = cycRot := by
  constructor <;> ext i j <;> fin_cases i <;> fin_cases j <;> rfl

theorem cyc_det : cycRot.det ≠ 0 ∧ cycRot2.det ≠ 0 := by
  have := congrArg Matrix.det cyc_mul.1
  rw [Matrix.det_mul] at this
  constructor <;> intro h <;> rw [h] at this <;> simp at this

theorem cyc_integer : ∀ op ∈ cycOps, IntegerMatrix op.rot ∧ op.trans = 0 := by
  intro op hop
  simp only [cycOps, List.mem_cons, List.not_mem_nil, or_false] at hop
  rcases hop with rfl | rfl | rfl
  · exact ⟨(idOp_sym (fun (_ : Fin 1) _ => (0 : ℝ))).1, rfl⟩
  · refine ⟨⟨!![0, 1, 0; 0, 0, 1; 1, 0, 0], ?_⟩, rfl⟩
    intro i j
    fin_cases i <;> fin_cases j <;> simp [cycRot]
  · refine ⟨⟨!![0, 0, 1; 1, 0, 0; 0, 1, 0], ?_⟩, rfl⟩
    intro i j
    fin_cases i <;> fin_cases j <;> simp [cycRot2]

theorem cyc_sym (op : SymOp) (hop : op ∈ cycOps) :
    IsSymmetry (fun (_ : Fin 1) _ => (0 : ℝ)) op.rot op.trans (Equiv.refl _) := by
  obtain ⟨h1, h2⟩ := cyc_integer op hop
  refine ⟨h1, fun a j => ⟨0, ?_⟩⟩
  rw [h2]; simp

theorem cycInit (nums : Fin 1 → ℕ) : ∃ s,
    RefStructure.init cycSpglib nums 1 (fun _ _ => 0) = .ok s ∧ s.ops = cycOps := by
  have hz : ∀ (a : Fin 1) (i : Fin 3), InClosedCell ((fun _ _ => 0 : Pos 1 ℝ) a i) :=
    fun _ _ => by norm_num [InClosedCell]
  obtain ⟨P, hP, _⟩ := C12_entry (fun _ _ => 0 : Pos 1 ℝ) ⟨1, 0⟩
    (cyc_integer _ (by simp [cycOps])).1 hz
  obtain ⟨Q, hQ, _⟩ := C12_entry (fun _ _ => 0 : Pos 1 ℝ) ⟨cycRot, 0⟩
    (cyc_integer _ (by simp [cycOps])).1 hz
  obtain ⟨T, hT, _⟩ := C12_entry (fun _ _ => 0 : Pos 1 ℝ) ⟨cycRot2, 0⟩
    (cyc_integer _ (by simp [cycOps])).1 hz
  refine ⟨⟨nums, 1, fun _ _ => 0, cycOps, [P, Q, T], [0]⟩, ?_, rfl⟩
  unfold RefStructure.init cycSpglib computePermutationMatrices cycOps
  simp only [List.mapM_cons, hP, hQ, hT, List.mapM_nil]
  rfl

theorem cyc_candidate (P : PermMat 1) (op : SymOp) (hop : op ∈ cycOps)
    (hP : permMatrixOf (comShift fun (_ : Fin 1) _ => (0 : ℝ)) (fun _ _ => 0) op = .ok P)
    (u v : Fin 3 → ℝ) (hv : ∀ j, InHalfBox (v j)) (hk : ∀ j, ∑ i, u i * op.rot i j = v j) :
    candidate (fun _ _ => 0) (displacePositions (fun _ _ => 0) (one1 u)) op P
      = .ok (one1 v) := by
  obtain ⟨c, hc, hcc⟩ := C13_candidate (fun (_ : Fin 1) _ => (0 : ℝ)) (one1 u) op P
    (Equiv.refl _) (one_apart _) (cyc_sym op hop) hP
  rw [hc]
  congr 1
  funext a j
  have h := hcc a j
  rw [Equiv.refl_apply] at h
  unfold one1 at h
  rw [hk j] at h
  exact (h.2.eq_of_inHalfBox (hv j) h.1).symm

/-- Inserting an image that is orthogonal to all representatives starts a new group. -/
theorem insert_orth (st : EqState 1) (op : SymOp) (v : Fin 3 → ℝ)
    (hv : v 0 ^ 2 + v 1 ^ 2 + v 2 ^ 2 = (1 / 10) ^ 2)
    (h : ∀ x ∈ st.orth, flat x ≠ 0 ∧ cosine (flat (one1 v)) (flat x) = 0) :
    eqInsert st op (one1 v) = ⟨st.result ++ [⟨[one1 v], [op]⟩], st.orth ++ [one1 v]⟩ := by
  unfold eqInsert
  rw [if_pos]
  rw [C08_all_orthogonal]
  intro x hx
  obtain ⟨y, hy, rfl⟩ := List.mem_map.1 hx
  exact ⟨one1_ne (vec_ne_zero hv), (h y hy).1, by rw [(h y hy).2]; norm_num [angTol]⟩

/-- Inserting an image that is neither orthogonal nor collinear to anything is a no-op. -/
theorem insert_drop (st : EqState 1) (op : SymOp) (v : Fin 3 → ℝ) (hst : st.orth ≠ [])
    (h : ∀ x ∈ st.orth, 1 / 10 < cosine (flat (one1 v)) (flat x) ∧
      cosine (flat (one1 v)) (flat x) < 9 / 10) :
    eqInsert st op (one1 v) = st := by
  unfold eqInsert
  rw [if_neg]
  · dsimp only
    rw [if_neg]
    rw [not_not, (C09_neg_one _ _).2]
    intro x hx
    obtain ⟨y, hy, rfl⟩ := List.mem_map.1 hx
    obtain ⟨h1, h2⟩ := h y hy
    rintro ⟨_, _, h3⟩
    rw [abs_of_pos (by linarith)] at h3
    norm_num [angTol] at h3
    linarith
  · rw [C08_all_orthogonal]
    intro hall
    obtain ⟨y, hy⟩ := List.exists_mem_of_ne_nil _ hst
    obtain ⟨h1, h2⟩ := h y hy
    have := (hall _ (List.mem_map_of_mem hy)).2.2
    rw [abs_of_pos (by linarith)] at this
    norm_num [angTol] at this
    linarith

theorem cyc_groups (nums : Fin 1 → ℕ) (s : RefStructure 1)
    (hs : RefStructure.init cycSpglib nums 1 (fun _ _ => 0) = .ok s)
    (hops : s.ops = cycOps) (w : Pos 1 ℝ) (u v x : Fin 3 → ℝ)
    (hw : scaleDisplacement w = some (one1 u))
    (hu : u 0 ^ 2 + u 1 ^ 2 + u 2 ^ 2 = (1 / 10) ^ 2)
    (hub : ∀ j, InHalfBox (u j)) (hvb : ∀ j, InHalfBox (v j)) (hxb : ∀ j, InHalfBox (x j))
    (hv : v = ![u 2, u 0, u 1]) (hx : x = ![u 1, u 2, u 0]) :
    (u 0 * u 1 + u 1 * u 2 + u 2 * u 0 = 0 → s.getEquivalentDisplacements w
      = .ok (some [⟨[one1 u], [⟨1, 0⟩]⟩, ⟨[one1 v], [⟨cycRot, 0⟩]⟩,
          ⟨[one1 x], [⟨cycRot2, 0⟩]⟩])) ∧
    (1 / 1000 < u 0 * u 1 + u 1 * u 2 + u 2 * u 0 →
      u 0 * u 1 + u 1 * u 2 + u 2 * u 0 < 9 / 1000 → s.getEquivalentDisplacements w
      = .ok (some [⟨[one1 u], [⟨1, 0⟩]⟩])) := by
  have hvn : v 0 ^ 2 + v 1 ^ 2 + v 2 ^ 2 = (1 / 10) ^ 2 := by
    rw [← hu, hv]; simp [vec_two]; ring
  have hxn : x 0 ^ 2 + x 1 ^ 2 + x 2 ^ 2 = (1 / 10) ^ 2 := by
    rw [← hu, hx]; simp [vec_two]; ring
  have kvu : cosine (flat (one1 v)) (flat (one1 u)) = 100 * (u 0 * u 1 + u 1 * u 2 + u 2 * u 0) := by
    rw [cosine_one1 _ _ (1 / 10) (by norm_num) hvn hu, hv]; simp [vec_two]; ring
  have kxu : cosine (flat (one1 x)) (flat (one1 u)) = 100 * (u 0 * u 1 + u 1 * u 2 + u 2 * u 0) := by
    rw [cosine_one1 _ _ (1 / 10) (by norm_num) hxn hu, hx]; simp [vec_two]; ring
  have kxv : cosine (flat (one1 x)) (flat (one1 v)) = 100 * (u 0 * u 1 + u 1 * u 2 + u 2 * u 0) := by
    rw [cosine_one1 _ _ (1 / 10) (by norm_num) hxn hvn, hx, hv]; simp [vec_two]; ring
  obtain ⟨hpos, hlat, hperm⟩ := init_facts hs
  rw [hops] at hperm
  unfold cycOps at hperm
  obtain ⟨P, Ps, hP, hperm, e1⟩ := List.forall₂_cons_left_iff.1 hperm
  obtain ⟨Q, Qs, hQ, hperm, e2⟩ := List.forall₂_cons_left_iff.1 hperm
  obtain ⟨T, Ts, hT, hperm, e3⟩ := List.forall₂_cons_left_iff.1 hperm
  cases hperm
  subst e3; subst e2
  unfold RefStructure.getEquivalentDisplacements
  rw [hw]
  dsimp only
  rw [hops, e1, hpos]
  unfold cycOps
  have c0 := cyc_candidate P ⟨1, 0⟩ (by simp [cycOps]) hP u u hub (fun j => by
    simp [Matrix.one_apply])
  have c1 := cyc_candidate Q ⟨cycRot, 0⟩ (by simp [cycOps]) hQ u v hvb (fun j => by
    rw [hv]; fin_cases j <;> simp [cycRot, Fin.sum_univ_three, vec_two])
  have c2 := cyc_candidate T ⟨cycRot2, 0⟩ (by simp [cycOps]) hT u x hxb (fun j => by
    rw [hx]; fin_cases j <;> simp [cycRot2, Fin.sum_univ_three, vec_two])
  have hun := one1_ne (vec_ne_zero hu)
  have hvn' := one1_ne (vec_ne_zero hvn)
  have i0 := insert_orth ⟨[], []⟩ ⟨1, 0⟩ u hu (by simp)
  simp only [List.nil_append] at i0
  simp only [List.zip_cons_cons, List.zip_nil_left, eqLoop]
  rw [c0]
  refine ⟨fun hc => ?_, fun hc hc' => ?_⟩
  · have i1 := insert_orth ⟨[⟨[one1 u], [⟨1, 0⟩]⟩], [one1 u]⟩ ⟨cycRot, 0⟩ v hvn (by
      intro y hy
      simp only [List.mem_singleton] at hy
      subst hy
      exact ⟨hun, by rw [kvu, hc, mul_zero]⟩)
    have i2 := insert_orth ⟨[⟨[one1 u], [⟨1, 0⟩]⟩, ⟨[one1 v], [⟨cycRot, 0⟩]⟩], [one1 u, one1 v]⟩
      ⟨cycRot2, 0⟩ x hxn (by
      intro y hy
      simp only [List.mem_cons, List.not_mem_nil, or_false] at hy
      rcases hy with rfl | rfl
      · exact ⟨hun, by rw [kxu, hc, mul_zero]⟩
      · exact ⟨hvn', by rw [kxv, hc, mul_zero]⟩)
    simp only [List.cons_append, List.nil_append] at i1 i2
    change (do let c ← candidate _ _ _ _; _) >>= _ = _
    simp only [i0, c1]
    change (do let c ← candidate _ _ _ _; _) >>= _ = _
    simp only [i1, c2]
    change (pure _ >>= _ : Py _) = _
    rw [i2]
    rfl
  · have i1 := insert_drop ⟨[⟨[one1 u], [⟨1, 0⟩]⟩], [one1 u]⟩ ⟨cycRot, 0⟩ v (by simp) (by
      intro y hy
      simp only [List.mem_singleton] at hy
      subst hy
      rw [kvu]; constructor <;> linarith)
    have i2 := insert_drop ⟨[⟨[one1 u], [⟨1, 0⟩]⟩], [one1 u]⟩ ⟨cycRot2, 0⟩ x (by simp) (by
      intro y hy
      simp only [List.mem_singleton] at hy
      subst hy
      rw [kxu]; constructor <;> linarith)
    change (do let c ← candidate _ _ _ _; _) >>= _ = _
    simp only [i0, c1]
    change (do let c ← candidate _ _ _ _; _) >>= _ = _
    simp only [i1, c2]
    change (pure _ >>= _ : Py _) = _
    rw [i2]
    rfl

/-- The displacement of the first call. -/
noncomputable def cycU : Fin 3 → ℝ := ![3 / 50, 4 / 50, 0]
noncomputable def cycZ : Fin 3 → ℝ := ![0, 0, 1 / 10]

theorem cyc_facts : cycU 0 ^ 2 + cycU 1 ^ 2 + cycU 2 ^ 2 = (1 / 10) ^ 2 ∧
    cycZ 0 ^ 2 + cycZ 1 ^ 2 + cycZ 2 ^ 2 = (1 / 10) ^ 2 ∧ (∀ j, InHalfBox (cycU j)) ∧
    ∀ j, InHalfBox (cycZ j) := by
  refine ⟨by norm_num [cycU, vec_two], by norm_num [cycZ, vec_two], ?_, ?_⟩ <;> intro j <;>
    fin_cases j <;> norm_num [cycU, cycZ, InHalfBox]

theorem cyc_add₁ (nums : Fin 1 → ℕ) (s : RefStructure 1)
    (hs : RefStructure.init cycSpglib nums 1 (fun _ _ => 0) = .ok s)
    (hops : s.ops = cycOps) (pol A B : Mat3 ℝ) : ∃ f : ℝ → Mat3 ℝ,
    (IModel.init s pol false).addDof lookupSpline true (one1 cycU)
      [-(1 / 10), 1 / 10] [A, B] 2 true
      = ⟨.ok (), [], { IModel.init s pol false with
          basis := [one1 fun i => 10 * cycU i], interps := [f], mask := [false] }⟩ := by
  obtain ⟨hpos, hlat, _⟩ := init_facts hs
  obtain ⟨n1, _, b1, _⟩ := cyc_facts
  have hgr := (cyc_groups nums s hs hops _ cycU _ _ (mir_scale cycU n1 b1) n1 b1
    (fun j => by fin_cases j <;> norm_num [cycU, InHalfBox, vec_two])
    (fun j => by fin_cases j <;> norm_num [cycU, InHalfBox, vec_two]) rfl rfl).2
    (by norm_num [cycU, vec_two]) (by norm_num [cycU, vec_two])
  have hne : one1 cycU ≠ 0 := fun h => one1_ne (vec_ne_zero n1) (by rw [h]; rfl)
  obtain ⟨f, hf, _, hf2⟩ := build_sym (1 / 10) (by norm_num) (by norm_num) 0
    ((1 : Mat3 ℝ)⁻¹ * (A - pol) * (1 : Mat3 ℝ)) ((1 : Mat3 ℝ)⁻¹ * (B - pol) * (1 : Mat3 ℝ))
  refine ⟨f, ?_⟩
  unfold IModel.addDof IModel.addDofNan
  rw [prepareDof_eq _ _ _ _ _ _ (mir_parent (IModel.init s pol false) hlat cycU n1 b1)
    (by simp [usedPols, IModel.init]), getDof_eq _ _ _ _ _ _ (by rfl) hgr]
  have hu : usedPols (IModel.init s pol false) [-(1 / 10), 1 / 10] [A, B] = [A, B] := rfl
  have hr : (IModel.init s pol false).ref = s := rfl
  have hrp : (IModel.init s pol false).refPol = pol := rfl
  have d1 := dofGroup_eq (IModel.init s pol false) [-(1 / 10), 1 / 10] [A, B] true
    ⟨[one1 cycU], [⟨1, 0⟩]⟩ (one1 cycU) [] rfl (by simp)
  simp only [List.zip_cons_cons, List.zip_nil_left, List.flatMap_cons, List.flatMap_nil,
    List.append_nil, multiplier_self _ hne, hr, hrp, mir_normalize s hlat cycU n1 b1,
    List.map_cons, List.map_nil, imagePoint, refPoint, Option.map_some, one_mul, if_true,
    List.singleton_append] at d1
  rw [hu, List.mapM_cons, d1]
  change constructAndAdd _ _ _ [_] _ = _
  unfold constructAndAdd
  rw [if_neg (by norm_num)]
  have h2 : (2 : ℤ).toNat = 2 := rfl
  simp only [buildAll, h2, one_mul, mul_one, inv_one] at hf ⊢
  simp only [hf]
  rfl

theorem cyc_add₂ (nums : Fin 1 → ℕ) (s : RefStructure 1)
    (hs : RefStructure.init cycSpglib nums 1 (fun _ _ => 0) = .ok s)
    (hops : s.ops = cycOps) (pol C D : Mat3 ℝ) (f : ℝ → Mat3 ℝ) (m : IModel 1)
    (hm : m = { IModel.init s pol false with
          basis := [one1 fun i => 10 * cycU i], interps := [f], mask := [false] }) :
    (m.addDof lookupSpline true (one1 cycZ) [-(1 / 10), 1 / 10] [C, D] 2 true).result = .ok () ∧
    (m.addDof lookupSpline true (one1 cycZ) [-(1 / 10), 1 / 10] [C, D] 2 true).state.basis.length
      = 4 := by
  obtain ⟨hpos, hlat, _⟩ := init_facts hs
  obtain ⟨nu, n1, _, b1⟩ := cyc_facts
  have bX : ∀ j, InHalfBox ((![cycZ 2, cycZ 0, cycZ 1] : Fin 3 → ℝ) j) := fun j => by
    fin_cases j <;> norm_num [cycZ, InHalfBox, vec_two]
  have bY : ∀ j, InHalfBox ((![cycZ 1, cycZ 2, cycZ 0] : Fin 3 → ℝ) j) := fun j => by
    fin_cases j <;> norm_num [cycZ, InHalfBox, vec_two]
  have hgr := (cyc_groups nums s hs hops _ cycZ _ _ (mir_scale cycZ n1 b1) n1 b1 bX bY rfl rfl).1
    (by norm_num [cycZ, vec_two])
  set X : Fin 3 → ℝ := ![cycZ 2, cycZ 0, cycZ 1] with hX
  set Y : Fin 3 → ℝ := ![cycZ 1, cycZ 2, cycZ 0] with hY
  have n2 : X 0 ^ 2 + X 1 ^ 2 + X 2 ^ 2 = (1 / 10) ^ 2 := by norm_num [hX, cycZ, vec_two]
  have n3 : Y 0 ^ 2 + Y 1 ^ 2 + Y 2 ^ 2 = (1 / 10) ^ 2 := by norm_num [hY, cycZ, vec_two]
  have hne : one1 cycZ ≠ 0 := fun h => one1_ne (vec_ne_zero n1) (by rw [h]; rfl)
  have hneX : one1 X ≠ 0 := fun h => one1_ne (vec_ne_zero n2) (by rw [h]; rfl)
  have hneY : one1 Y ≠ 0 := fun h => one1_ne (vec_ne_zero n3) (by rw [h]; rfl)
  obtain ⟨g, hg, _, _⟩ := build_sym (1 / 10) (by norm_num) (by norm_num) 0
    ((1 : Mat3 ℝ)⁻¹ * (C - pol) * (1 : Mat3 ℝ)) ((1 : Mat3 ℝ)⁻¹ * (D - pol) * (1 : Mat3 ℝ))
  obtain ⟨h, hh, _, _⟩ := build_sym (1 / 10) (by norm_num) (by norm_num) 0
    (cycRot⁻¹ * (C - pol) * cycRot) (cycRot⁻¹ * (D - pol) * cycRot)
  obtain ⟨h', hh', _, _⟩ := build_sym (1 / 10) (by norm_num) (by norm_num) 0
    (cycRot2⁻¹ * (C - pol) * cycRot2) (cycRot2⁻¹ * (D - pol) * cycRot2)
  have hr : m.ref = s := by rw [hm]; rfl
  have hrp : m.refPol = pol := by rw [hm]; rfl
  have ho : orthCheck m (some (one1 cycZ)) = -1 := by
    have e : m.basis = [one1 fun i => 10 * cycU i] := by rw [hm]
    unfold orthCheck
    dsimp only
    rw [C08_all_orthogonal]
    intro x hx
    rw [e] at hx
    simp only [List.map_cons, List.map_nil, List.mem_singleton] at hx
    subst hx
    rw [hr, getCart_of_box _ (one1 cycZ) fun a i => b1 i, hlat, toCart_one]
    refine ⟨one1_ne (vec_ne_zero n1), one1_ne ?_, ?_⟩
    · intro h0
      have := congrFun h0 1
      norm_num [cycU] at this
    · have hz : cosine (flat (one1 cycZ)) (flat (one1 fun i => 10 * cycU i)) = 0 := by
        unfold cosine
        rw [show ∑ i, flat (one1 cycZ) i * flat (one1 fun i => 10 * cycU i) i = 0 by
          simp [flat, one1, cycZ, cycU, Fintype.sum_prod_type, Fin.sum_univ_three]]
        simp
      rw [hz]; norm_num [angTol]
  unfold IModel.addDof IModel.addDofNan
  have hu : usedPols m [-(1 / 10), 1 / 10] [C, D] = [C, D] := by rw [hm]; rfl
  rw [prepareDof_eq _ _ _ _ _ _ (mir_parent m (by rw [hr]; exact hlat) cycZ n1 b1)
    (by rw [hu]; rfl), getDof_eq _ _ _ _ _ _ ho (by rw [hr]; exact hgr)]
  have d1 := dofGroup_eq m [-(1 / 10), 1 / 10] [C, D] true
    ⟨[one1 cycZ], [⟨1, 0⟩]⟩ (one1 cycZ) [] rfl (by simp)
  have d2 := dofGroup_eq m [-(1 / 10), 1 / 10] [C, D] true
    ⟨[one1 X], [⟨cycRot, 0⟩]⟩ (one1 X) [] rfl (by simpa using cyc_det.1)
  have d3 := dofGroup_eq m [-(1 / 10), 1 / 10] [C, D] true
    ⟨[one1 Y], [⟨cycRot2, 0⟩]⟩ (one1 Y) [] rfl (by simpa using cyc_det.2)
  simp only [List.zip_cons_cons, List.zip_nil_left, List.flatMap_cons, List.flatMap_nil,
    List.append_nil, multiplier_self _ hne, multiplier_self _ hneX, multiplier_self _ hneY, hr, hrp,
    mir_normalize s hlat cycZ n1 b1, mir_normalize s hlat X n2 bX, mir_normalize s hlat Y n3 bY,
    List.map_cons, List.map_nil, imagePoint, refPoint, Option.map_some, one_mul, if_true,
    List.singleton_append] at d1 d2 d3
  rw [hu, List.mapM_cons, d1, List.mapM_cons, d2, List.mapM_cons, d3]
  have h2 : (2 : ℤ).toNat = 2 := rfl
  constructor
  · change (constructAndAdd _ _ _ [_, _, _] _).result = _
    unfold constructAndAdd
    rw [if_neg (by norm_num)]
    simp only [buildAll, h2, one_mul, mul_one, inv_one] at hg hh hh' ⊢
    simp only [hg, hh, hh']
    rfl
  · change (constructAndAdd _ _ _ [_, _, _] _).state.basis.length = _
    unfold constructAndAdd
    rw [if_neg (by norm_num)]
    simp only [buildAll, h2, one_mul, mul_one, inv_one] at hg hh hh' ⊢
    simp only [hg, hh, hh']
    rw [hm]
    rfl

/-- C107, counterexample: one atom in a cubic cell with a threefold axis; two successful
`add_dof` calls on a fresh model yield four degrees of freedom, although the atom has three. -/
theorem C107_counterexample (nums : Fin 1 → ℕ) (pol A B C D : Mat3 ℝ) :
    ∃ (s : RefStructure 1) (d₁ d₂ : Pos 1 ℝ) (o₁ o₂ : Outcome 1),
      RefStructure.init cycSpglib nums 1 (fun _ _ => 0) = .ok s ∧
      (∀ op ∈ s.ops, IsSymmetry s.positions op.rot op.trans (Equiv.refl _) ∧
        op.rot * op.rot.transpose = 1) ∧
      o₁ = (IModel.init s pol false).addDof lookupSpline true d₁
        [-(1 / 10), 1 / 10] [A, B] 2 true ∧ o₁.result = .ok () ∧
      o₂ = o₁.state.addDof lookupSpline true d₂ [-(1 / 10), 1 / 10] [C, D] 2 true ∧
      o₂.result = .ok () ∧ o₂.state.basis.length = 4 := by
  obtain ⟨s, hs, hops⟩ := cycInit nums
  obtain ⟨hpos, hlat, _⟩ := init_facts hs
  obtain ⟨f, h1⟩ := cyc_add₁ nums s hs hops pol A B
  obtain ⟨h2, h3⟩ := cyc_add₂ nums s hs hops pol C D f _ rfl
  refine ⟨s, one1 cycU, one1 cycZ, _, _, hs, ?_, rfl, by rw [h1], rfl, by rw [h1]; exact h2,
    by rw [h1]; exact h3⟩
  intro op hop
  rw [hops] at hop
  refine ⟨by rw [hpos]; exact cyc_sym op hop, ?_⟩
  simp only [cycOps, List.mem_cons, List.not_mem_nil, or_false] at hop
  rcases hop with rfl | rfl | rfl
  · simp
  · rw [cyc_transpose.1, cyc_mul.1]
  · rw [cyc_transpose.2, cyc_mul.2]

end Verif
