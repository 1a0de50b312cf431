import Verif.Spec.Equivariance
import Verif.Props.ArtLinear
import Verif.Props.InterpolationSym
import Verif.Props.CrossCall

/-!
# Property C120: predictions transform like tensors under the symmetry operations
-/

namespace Verif
open Spec

variable {N : ℕ}

/-! ### Displacements carried along -/

theorem carried_apply (σ : Equiv.Perm (Fin N)) (Q : Mat3 ℝ) (D : Pos N ℝ) (a : Fin N) (j : Fin 3) :
    carried σ Q D (σ a) j = ∑ i, D a i * Q i j := by
  simp [carried]

theorem carried_carried (σ τ : Equiv.Perm (Fin N)) (Q R : Mat3 ℝ) (D : Pos N ℝ) :
    carried τ R (carried σ Q D) = carried (σ.trans τ) (Q * R) D := by
  funext a j
  simp only [carried, Matrix.mul_apply, Equiv.symm_trans_apply, Finset.sum_mul, Finset.mul_sum]
  rw [Finset.sum_comm]
  exact Finset.sum_congr rfl fun i _ => Finset.sum_congr rfl fun k _ => by ring

theorem carried_smul (σ : Equiv.Perm (Fin N)) (Q : Mat3 ℝ) (D : Pos N ℝ) (c : ℝ) :
    carried σ Q (fun a i => c * D a i) = fun a j => c * carried σ Q D a j := by
  funext a j
  simp only [carried, Finset.mul_sum, mul_assoc]

theorem inner3_carried (σ : Equiv.Perm (Fin N)) {Q : Mat3 ℝ} (hQ : Q * Q.transpose = 1)
    (b D : Pos N ℝ) : inner3 (carried σ Q b) (carried σ Q D) = inner3 b D := by
  unfold inner3
  rw [← Equiv.sum_comp σ]
  refine Finset.sum_congr rfl fun a _ => ?_
  simp only [carried_apply]
  have h : ∀ i k, ∑ j, Q i j * Q k j = (1 : Mat3 ℝ) i k := fun i k => by
    rw [← hQ]; simp [Matrix.mul_apply]
  calc ∑ j, (∑ i, b a i * Q i j) * ∑ k, D a k * Q k j
      = ∑ i, ∑ k, b a i * D a k * ∑ j, Q i j * Q k j := by
        simp only [Fin.sum_univ_three]; ring
    _ = ∑ i, b a i * D a i := by
        simp [h, Matrix.one_apply]

theorem toCart_carried (L R Q : Mat3 ℝ) (h : R * L = L * Q) (σ : Equiv.Perm (Fin N)) (w : Pos N ℝ) :
    toCart L (carried σ R w) = carried σ Q (toCart L w) := by
  funext a j
  have hk : ∀ i, ∑ k, R i k * L k j = ∑ k, L i k * Q k j := fun i => by
    have := congrFun (congrFun h i) j
    simpa [Matrix.mul_apply] using this
  simp only [toCart, carried, Finset.sum_mul]
  rw [Finset.sum_comm]
  calc ∑ i, ∑ k, w (σ.symm a) i * R i k * L k j
      = ∑ i, w (σ.symm a) i * ∑ k, R i k * L k j := by
        simp only [Finset.mul_sum, mul_assoc]
    _ = ∑ i, w (σ.symm a) i * ∑ k, L i k * Q k j := by simp only [hk]
    _ = _ := by
        simp only [Finset.mul_sum]
        rw [Finset.sum_comm]
        exact Finset.sum_congr rfl fun i _ => Finset.sum_congr rfl fun k _ => by ring

theorem sameImage_mul_int {R : Mat3 ℝ} (hR : IntegerMatrix R) {u v : Fin 3 → ℝ}
    (h : ∀ i, SameImage (u i) (v i)) (j : Fin 3) :
    SameImage (∑ i, u i * R i j) (∑ i, v i * R i j) := by
  obtain ⟨M, hM⟩ := hR
  choose n hn using h
  refine ⟨∑ i, n i * M i j, ?_⟩
  push_cast
  rw [← Finset.sum_add_distrib]
  refine Finset.sum_congr rfl fun i _ => ?_
  rw [hM, hn]; ring

/-- The minimum-image displacement of a transformed configuration, if the rotated displacement
stays in the half cell. -/
theorem nearest_transformed {p q q' w : Pos N ℝ} {R : Mat3 ℝ} {t : Fin 3 → ℝ}
    {σ : Equiv.Perm (Fin N)} (hsym : IsSymmetry p R t σ) (hq : TransformedTo R t σ q q')
    (hw : NearestImage p q w) (hb : ∀ a j, InHalfBox (∑ i, w a i * R i j)) :
    NearestImage p q' (carried σ R w) := by
  intro a j
  obtain ⟨a, rfl⟩ := σ.surjective a
  rw [carried_apply]
  refine ⟨hb a j, ?_⟩
  have h1 := sameImage_mul_int hsym.1 (fun i => (hw a i).2) j
  obtain ⟨n1, e1⟩ := h1
  obtain ⟨n2, e2⟩ := hsym.2 a j
  obtain ⟨n3, e3⟩ := hq a j
  refine ⟨n1 + n2 - n3, ?_⟩
  push_cast
  have : ∑ i, (q a i - p a i) * R i j = ∑ i, q a i * R i j - ∑ i, p a i * R i j := by
    rw [← Finset.sum_sub_distrib]
    exact Finset.sum_congr rfl fun i _ => by ring
  rw [this] at e1
  linarith

theorem turned_add (Q A B : Mat3 ℝ) : turned Q (A + B) = turned Q A + turned Q B := by
  unfold turned; rw [Matrix.mul_add, Matrix.add_mul]

theorem turned_sub (Q A B : Mat3 ℝ) : turned Q (A - B) = turned Q A - turned Q B := by
  unfold turned; rw [Matrix.mul_sub, Matrix.sub_mul]

theorem turned_zero (Q : Mat3 ℝ) : turned Q 0 = 0 := by simp [turned]

theorem turned_turned (Q R A : Mat3 ℝ) : turned R (turned Q A) = turned (Q * R) A := by
  unfold turned; rw [Matrix.transpose_mul]; simp only [Matrix.mul_assoc]

theorem turned_sum {ι : Type} (Q : Mat3 ℝ) (s : Finset ι) (f : ι → Mat3 ℝ) :
    turned Q (∑ i ∈ s, f i) = ∑ i ∈ s, turned Q (f i) := by
  unfold turned; rw [Finset.mul_sum, Finset.sum_mul]

/-! ### C120 -/

theorem inner3_smul_left (b D : Pos N ℝ) (c : ℝ) :
    inner3 (fun a j => c * b a j) D = c * inner3 b D := by
  unfold inner3
  simp only [Finset.mul_sum, mul_assoc]

theorem sum_corresponds {σ : Equiv.Perm (Fin N)} {Q : Mat3 ℝ} (hQ : Q * Q.transpose = 1)
    {l l' : List (Pos N ℝ × ((ℝ → Mat3 ℝ) × Bool))} (h : List.Forall₂ (Corresponds σ Q) l l')
    (D : Pos N ℝ) :
    (l'.map fun x => if x.2.2 then 0 else x.2.1 (inner3 x.1 (carried σ Q D))).sum
      = turned Q (l.map fun x => if x.2.2 then 0 else x.2.1 (inner3 x.1 D)).sum := by
  induction h with
  | nil => simp [turned_zero]
  | @cons x y _ _ hxy _ ih =>
    rw [List.map_cons, List.sum_cons, List.map_cons, List.sum_cons, turned_add, ih]
    congr 1
    obtain ⟨ε, h1, h2, h3⟩ := hxy
    rw [h3]
    split_ifs
    · rw [turned_zero]
    · rw [← h2]
      congr 1
      have : y.1 = fun a j => ε * carried σ Q x.1 a j := by funext a j; exact h1 a j
      rw [this, inner3_smul_left, inner3_carried _ hQ]

/-- C120, criterion: let an operation map the reference structure onto itself and be a Cartesian
isometry `Q`.  If it leaves the reference polarizability unchanged and permutes the degrees of
freedom of a model — basis vectors up to a factor (a sign), interpolations turned accordingly, masks
unchanged — then predictions for transformed configurations are the turned predictions, as long as
the rotated displacement stays in the half cell. -/
theorem C120_criterion (m : IModel N) (hi : m.interps.length = m.basis.length)
    (hk : m.mask.length = m.basis.length) (R Q : Mat3 ℝ) (t : Fin 3 → ℝ) (σ : Equiv.Perm (Fin N))
    (hsym : IsSymmetry m.ref.positions R t σ) (hQ : R * m.ref.lattice = m.ref.lattice * Q)
    (hiso : Q * Q.transpose = 1) (hpol : turned Q m.refPol = m.refPol)
    (hperm : PermutedBy σ Q (m.basis.zip (m.interps.zip m.mask)))
    (q q' w : Pos N ℝ) (hq : TransformedTo R t σ q q') (hw : NearestImage m.ref.positions q w)
    (hbox : ∀ a j, InHalfBox (∑ i, w a i * R i j)) :
    ∃ A, evalOne m.calcPolarizabilities q = .ok A ∧
      evalOne m.calcPolarizabilities q' = .ok (turned Q A) := by
  refine ⟨_, evalOne_expansion m hi hk q w hw, ?_⟩
  rw [evalOne_expansion m hi hk q' _ (nearest_transformed hsym hq hw hbox)]
  congr 1
  obtain ⟨l', h1, h2⟩ := hperm
  unfold expansion
  rw [toCart_carried _ _ _ hQ, turned_add, hpol, ← sum_corresponds hiso h2]
  congr 1
  exact ((h1.map _).sum_eq).symm

/-! ### Images of a displacement -/

theorem carried_inv (σ : Equiv.Perm (Fin N)) {Q : Mat3 ℝ} (hQ : Q * Q.transpose = 1) {u v : Pos N ℝ}
    (h : carried σ Q u = carried σ Q v) : u = v := by
  have h1 : ∀ w : Pos N ℝ, carried σ.symm Q.transpose (carried σ Q w) = w := fun w => by
    rw [carried_carried, hQ]
    funext a j
    simp [carried, Matrix.one_apply]
  rw [← h1 u, h, h1]

theorem inner3_self_pos {u : Pos N ℝ} (h : u ≠ 0) : 0 < inner3 u u := by
  have := norm2_pos (flat_ne_zero h)
  have h2 := norm2_sq (flat u)
  have h3 : dot (flat u) (flat u) = inner3 u u := by
    unfold dot inner3 flat
    rw [Fintype.sum_prod_type]
  rw [← h3, ← h2]; positivity

theorem dot_flat (u v : Pos N ℝ) : dot (flat u) (flat v) = inner3 u v := by
  unfold dot inner3 flat
  rw [Fintype.sum_prod_type]

theorem orthogonal_of_inner {u v : Pos N ℝ} (hu : u ≠ 0) (hv : v ≠ 0) (h : inner3 u v = 0) :
    Orthogonal (flat u) (flat v) := by
  refine ⟨flat_ne_zero hu, flat_ne_zero hv, ?_⟩
  rw [cosine_eq, dot_flat, h]
  norm_num [angTol]

theorem not_collinear_of_inner {u v : Pos N ℝ} (h : inner3 u v = 0) :
    ¬ Collinear (flat u) (flat v) := by
  rintro ⟨_, _, h1⟩
  rw [cosine_eq, dot_flat, h] at h1
  norm_num [angTol] at h1

theorem collinear_smul {u v : Pos N ℝ} (hv : v ≠ 0) {κ : ℝ} (hκ : κ ≠ 0)
    (h : u = fun a i => κ * v a i) : |cosine (flat u) (flat v)| = 1 := by
  have : flat u = fun x => κ * flat v x := by rw [h]; rfl
  rw [this, cosine_smul_left hκ, cosine_eq]
  have := norm2_pos (flat_ne_zero hv)
  rw [← norm2_sq, sq, div_self (by positivity), abs_one]

theorem ne_zero_of_norm {e : Pos N ℝ} (he : inner3 e e = 1 / 100) : e ≠ 0 := by
  rintro rfl
  simp [inner3] at he

/-- What `get_equivalent_displacements` works with in a crystal whose operations are orthogonal
matrices: every operation contributes exactly the carried-along rescaled displacement. -/
theorem images_of_displacement {spglib : Mat3 ℝ → Pos N ℝ → (Fin N → ℕ) → Option SymDict}
    {nums : Fin N → ℕ} {lat : Mat3 ℝ} {p : Pos N ℝ} {s : RefStructure N}
    (hs : RefStructure.init spglib nums lat p = .ok s)
    (hsep : ∀ j k, j ≠ k → Apart (2 / 10 ^ 5) (p j) (p k))
    (hsym : ∀ op ∈ s.ops, ∃ σ, IsSymmetry p op.rot op.trans σ)
    (hiso : ∀ op ∈ s.ops, op.rot * op.rot.transpose = 1)
    (w : Pos N ℝ) (hbox : ∀ a i, InHalfBox (w a i)) (hw : w ≠ 0) :
    ∃ (e : Pos N ℝ) (c : ℝ) (groups : List (EqGroup N)) (orth : List (Pos N ℝ))
      (new : List (SymOp × Pos N ℝ)),
      0 < c ∧ (e = fun a i => c * w a i) ∧ inner3 e e = 1 / 100 ∧
      s.getEquivalentDisplacements w = .ok (some groups) ∧ EqInv new ⟨groups, orth⟩ ∧
      (∀ op ∈ s.ops, ∃ d, (op, d) ∈ new) ∧
      ∀ x ∈ new, x.1 ∈ s.ops ∧
        ∀ σ, IsSymmetry p x.1.rot x.1.trans σ → x.2 = carried σ x.1.rot e := by
  obtain ⟨hpos, _, hF⟩ := init_facts hs
  have hd : ∃ a i, ¬ SameImage (w a i) 0 := by
    by_contra hcon
    push Not at hcon
    refine hw ?_
    funext a i
    exact (hcon a i).eq_of_inHalfBox (hbox a i) (by norm_num [InHalfBox])
  obtain ⟨e, new, st, ⟨⟨c, hc, h1⟩, h2⟩, _, _, h3, h4, h5⟩ := getEquivalentDisplacements_spec s w hd
  have hw' : applyPbcDisplacement w = w := by
    funext a i; exact wrap1_of_inHalfBox (hbox a i)
  rw [hw'] at h1
  have he : inner3 e e = 1 / 100 := by
    rw [← h2]; unfold inner3; simp only [sq]
  refine ⟨e, c, st.result, st.orth, new, hc, by funext a i; exact h1 a i, he, h3, h4, ?_, ?_⟩
  · intro op hop
    obtain ⟨k, hk, rfl⟩ := List.mem_iff_getElem.1 hop
    have hl := h5.length_eq
    have hl2 := hF.length_eq
    have hk2 : k < new.length := by rw [← hl, List.length_zip]; omega
    have := (List.forall₂_iff_get.1 h5).2 k (by rw [List.length_zip]; omega) hk2
    simp only [List.get_eq_getElem, List.getElem_zip] at this
    refine ⟨new[k].2, ?_⟩
    rw [this.1]
    exact List.getElem_mem hk2
  · intro x hx
    obtain ⟨k, hk, rfl⟩ := List.mem_iff_getElem.1 hx
    have hl := h5.length_eq
    rw [List.length_zip] at hl
    have := (List.forall₂_iff_get.1 h5).2 k (by rw [List.length_zip]; omega) hk
    simp only [List.get_eq_getElem, List.getElem_zip] at this
    have hP := (List.forall₂_iff_get.1 hF).2 k (by omega) (by omega)
    simp only [List.get_eq_getElem] at hP
    have hop : new[k].1 ∈ s.ops := by rw [← this.1]; exact List.getElem_mem _
    refine ⟨hop, fun σ hσ => ?_⟩
    rw [this.1] at hP
    obtain ⟨d, g1, g2⟩ := C13_candidate p e new[k].1 _ σ hsep hσ hP
    have g3 := this.2
    rw [this.1, hpos, g1] at g3
    cases g3
    funext a j
    obtain ⟨a, rfl⟩ := σ.surjective a
    obtain ⟨g4, g5⟩ := g2 a j
    rw [carried_apply]
    refine (g5.eq_of_inHalfBox ?_ g4).symm
    have hn : norm2 (flat (carried σ new[k].1.rot e)) ≤ 1 / 10 := by
      unfold norm2
      rw [dot_flat, inner3_carried _ (hiso _ hop), he]
      rw [show (1 / 100 : ℝ) = (1 / 10) ^ 2 by norm_num, Real.sqrt_sq (by norm_num)]
    have := box_of_norm hn (σ a) j
    rwa [carried_apply] at this

/-- A displacement of norm 1/10 does not coincide with its opposite (up to 10⁸ atoms). -/
theorem not_coincide_neg (hN : N ≤ 10 ^ 8) {c : Pos N ℝ} (hc : inner3 c c = 1 / 100) :
    ¬ Coincide (fun a i => -1 * c a i) c := by
  intro h
  have h1 : ∀ a i, c a i * c a i ≤ 252 / 10 ^ 13 := by
    intro a i
    have := h a i
    rw [show -1 * c a i - c a i = -(2 * c a i) by ring, abs_neg, abs_mul, abs_two] at this
    have h2 : |c a i| ≤ 501 / 10 ^ 8 := by
      have := abs_nonneg (c a i)
      nlinarith
    have h3 := abs_le.1 h2
    nlinarith [h3.1, h3.2]
  have h2 : inner3 c c ≤ ∑ _a : Fin N, ∑ _i : Fin 3, (252 / 10 ^ 13 : ℝ) :=
    Finset.sum_le_sum fun a _ => Finset.sum_le_sum fun i _ => h1 a i
  rw [hc] at h2
  simp only [Finset.sum_const, Finset.card_univ, Fintype.card_fin, nsmul_eq_mul] at h2
  have h3 : (N : ℝ) ≤ 100000000 := by exact_mod_cast (by simpa using hN : N ≤ 100000000)
  norm_num at h2
  linarith

/-- The images of a displacement are pairwise equal, opposite or orthogonal, all of norm 1/10. -/
structure CleanList (new : List (SymOp × Pos N ℝ)) : Prop where
  norm : ∀ x ∈ new, inner3 x.2 x.2 = 1 / 100
  tri : ∀ x ∈ new, ∀ y ∈ new, (∃ κ : ℝ, (κ = 1 ∨ κ = -1) ∧ x.2 = fun a i => κ * y.2 a i) ∨
    inner3 x.2 y.2 = 0

section groups
variable {new : List (SymOp × Pos N ℝ)} {groups : List (EqGroup N)} {orth : List (Pos N ℝ)}

theorem pair_mem (hI : EqInv new ⟨groups, orth⟩) {g : EqGroup N} (hg : g ∈ groups)
    {y : SymOp × Pos N ℝ} (hy : y ∈ g.pairs) : y ∈ new :=
  hI.prov.subset (List.mem_flatMap.2 ⟨g, hg, hy⟩)

theorem disp_mem (hI : EqInv new ⟨groups, orth⟩) {g : EqGroup N} (hg : g ∈ groups)
    {d : Pos N ℝ} (hd : d ∈ g.displacements) : ∃ op, (op, d) ∈ g.pairs := by
  have hl := hI.len g hg
  obtain ⟨k, hk, rfl⟩ := List.mem_iff_getElem.1 hd
  refine ⟨g.transformations[k]'(by omega), ?_⟩
  unfold EqGroup.pairs
  rw [List.mem_iff_getElem]
  exact ⟨k, by rw [List.length_zip]; omega, by simp⟩

theorem group_head (hI : EqInv new ⟨groups, orth⟩) {g : EqGroup N} (hg : g ∈ groups) :
    ∃ h rest, g.displacements = h :: rest := by
  cases hd : g.displacements with
  | cons h rest => exact ⟨h, rest, rfl⟩
  | nil =>
    have : (none : Option (Pos N ℝ)) ∈ groups.map fun g => g.displacements.head? :=
      List.mem_map.2 ⟨g, hg, by rw [hd]; rfl⟩
    rw [hI.heads] at this; simp at this

theorem disp_sign (hI : EqInv new ⟨groups, orth⟩) (hC : CleanList new) {g : EqGroup N}
    (hg : g ∈ groups) {h : Pos N ℝ} {rest : List (Pos N ℝ)} (hh : g.displacements = h :: rest)
    {d : Pos N ℝ} (hd : d ∈ g.displacements) :
    ∃ κ : ℝ, (κ = 1 ∨ κ = -1) ∧ d = fun a i => κ * h a i := by
  obtain ⟨o1, h1⟩ := disp_mem hI hg hd
  obtain ⟨o2, h2⟩ := disp_mem hI hg (d := h) (by rw [hh]; simp)
  rcases hC.tri _ (pair_mem hI hg h1) _ (pair_mem hI hg h2) with h3 | h3
  · exact h3
  · rw [hh] at hd
    rcases List.mem_cons.1 hd with rfl | hd
    · exact ⟨1, Or.inl rfl, by funext a i; ring⟩
    · exact absurd (hI.coll g hg h (by rw [hh]; rfl) d (by rw [hh]; exact hd))
        (not_collinear_of_inner h3)

theorem head_mem (hI : EqInv new ⟨groups, orth⟩) {g : EqGroup N} (hg : g ∈ groups) {h : Pos N ℝ}
    {rest : List (Pos N ℝ)} (hh : g.displacements = h :: rest) : ∃ op, (op, h) ∈ new := by
  obtain ⟨op, h2⟩ := disp_mem hI hg (d := h) (by rw [hh]; simp)
  exact ⟨op, pair_mem hI hg h2⟩

theorem head_unique (hI : EqInv new ⟨groups, orth⟩) {i j : ℕ} (hi : i < groups.length)
    (hj : j < groups.length) {h h' : Pos N ℝ} {r r' : List (Pos N ℝ)}
    (h1 : groups[i].displacements = h :: r) (h2 : groups[j].displacements = h' :: r')
    {κ : ℝ} (hκ : κ ≠ 0) (hh : h ≠ 0) (he : h' = fun a k => κ * h a k) : i = j := by
  have hl : groups.length = orth.length := by
    have := congrArg List.length hI.heads
    simpa using this
  have ho : ∀ k (hk : k < groups.length), (groups[k]).displacements.head?
      = some (orth[k]'(by omega)) := by
    intro k hk
    have := congrArg (fun l => l[k]?) hI.heads
    simp only [List.getElem?_map] at this
    rw [List.getElem?_eq_getElem hk, List.getElem?_eq_getElem (by omega)] at this
    simpa using this
  have hc := collinear_smul hh hκ he
  have a1 := ho i hi
  have a2 := ho j hj
  rw [h1] at a1; rw [h2] at a2
  simp only [List.head?_cons, Option.some.injEq] at a1 a2
  have hp := List.pairwise_iff_getElem.1 hI.orth
  have hcon : ∀ {u v : Pos N ℝ}, Orthogonal (flat u) (flat v) → |cosine (flat u) (flat v)| ≠ 1 := by
    intro u v ⟨_, _, h⟩ h'
    rw [h'] at h
    norm_num [angTol] at h
  rcases lt_trichotomy i j with hij | hij | hij
  · have := hp i j (by simpa using (by omega : i < orth.length)) (by simpa using (by omega : j < orth.length)) hij
    rw [← a1, ← a2] at this
    exact absurd (by rw [cosine_comm]; exact hc) (hcon this)
  · exact hij
  · have := hp j i (by simpa using (by omega : j < orth.length)) (by simpa using (by omega : i < orth.length)) hij
    rw [← a1, ← a2] at this
    exact absurd hc (hcon this)

/-- Every image is recorded, up to sign, as the first displacement of a group; the group contains
the image itself. -/
theorem image_covered (hN : N ≤ 10 ^ 8) (hI : EqInv new ⟨groups, orth⟩) (hC : CleanList new)
    {x : SymOp × Pos N ℝ} (hx : x ∈ new) :
    ∃ g ∈ groups, ∃ h rest, g.displacements = h :: rest ∧
      (∃ κ : ℝ, (κ = 1 ∨ κ = -1) ∧ x.2 = fun a i => κ * h a i) ∧ ∃ y ∈ g.pairs, y.2 = x.2 := by
  rcases hI.cover x hx with ⟨g, hg, hxg⟩ | ⟨g, hg, ⟨h, hh, hc⟩, d, hd, hco⟩ | ⟨hs, hpre, ⟨h, hh, hno⟩, hnc⟩
  · obtain ⟨h, rest, hh⟩ := group_head hI hg
    exact ⟨g, hg, h, rest, hh, disp_sign hI hC hg hh (List.of_mem_zip hxg).2, x, hxg, rfl⟩
  · obtain ⟨h', rest, hh'⟩ := group_head hI hg
    rw [hh'] at hh
    cases hh
    obtain ⟨op, hop⟩ := disp_mem hI hg hd
    obtain ⟨oh, hoh⟩ := head_mem hI hg hh'
    have hmem := pair_mem hI hg hop
    obtain ⟨κ, hκ, hxd⟩ : ∃ κ : ℝ, (κ = 1 ∨ κ = -1) ∧ x.2 = fun a i => κ * h a i := by
      rcases hC.tri x hx _ hoh with h1 | h1
      · exact h1
      · exact absurd hc (not_collinear_of_inner h1)
    obtain ⟨μ, hμ, hdh⟩ := disp_sign hI hC hg hh' hd
    refine ⟨g, hg, h, rest, hh', ⟨κ, hκ, hxd⟩, _, hop, ?_⟩
    dsimp only
    by_cases hκμ : κ = μ
    · rw [hxd, hdh, hκμ]
    · exfalso
      have : x.2 = fun a i => -1 * d a i := by
        rw [hxd, hdh]
        funext a i
        rcases hκ with rfl | rfl <;> rcases hμ with rfl | rfl <;> first | exact absurd rfl hκμ | ring
      rw [this] at hco
      exact not_coincide_neg hN (hC.norm _ hmem) hco
  · exfalso
    have hh2 : some h ∈ groups.map fun g => g.displacements.head? := by
      rw [hI.heads]; exact List.mem_map_of_mem (hpre.subset hh)
    obtain ⟨g, hg, hgh⟩ := List.mem_map.1 hh2
    obtain ⟨h', rest, hh'⟩ := group_head hI hg
    rw [hh'] at hgh
    cases hgh
    obtain ⟨oh, hoh⟩ := head_mem hI hg hh'
    have n1 := ne_zero_of_norm (hC.norm _ hx)
    have n2 := ne_zero_of_norm (hC.norm _ hoh)
    rcases hC.tri x hx _ hoh with ⟨κ, hκ, h1⟩ | h1
    · refine hnc _ hh ⟨flat_ne_zero n1, flat_ne_zero n2, ?_⟩
      rw [collinear_smul n2 (by rcases hκ with rfl | rfl <;> norm_num) h1]
      norm_num [angTol]
    · exact hno (orthogonal_of_inner n1 n2 h1)

end groups

theorem inv_of_orthogonal {R : Mat3 ℝ} (h : R * R.transpose = 1) : R⁻¹ = R.transpose :=
  Matrix.inv_eq_right_inv h

/-- The interpolation points of a group, as a set. -/
theorem mem_points {m : IModel N} {new : List (SymOp × Pos N ℝ)} {groups : List (EqGroup N)}
    {orth : List (Pos N ℝ)} (hI : EqInv new ⟨groups, orth⟩) (hC : CleanList new)
    (hops : ∀ x ∈ new, x.1.rot * x.1.rot.transpose = 1) {g : EqGroup N} (hg : g ∈ groups)
    {inc : Bool} {data : List (ℝ × Mat3 ℝ)} {b : Pos N ℝ} {pts : List (ℝ × Mat3 ℝ)}
    (hG : GroupFacts m inc data g b pts) {h : Pos N ℝ} {rest : List (Pos N ℝ)}
    (hh : g.displacements = h :: rest) (z : ℝ × Mat3 ℝ) :
    z ∈ pts ↔ (inc = true ∧ z = (0, 0)) ∨ ∃ y ∈ g.pairs, ∃ κ : ℝ, (κ = 1 ∨ κ = -1) ∧
      (y.2 = fun a i => κ * h a i) ∧ ∃ d ∈ data, z = (κ * d.1, turned y.1.rot (d.2 - m.refPol)) := by
  obtain ⟨h', rest', op, ops, h1, h2, h3⟩ := hG.mults
  rw [hh] at h1
  cases h1
  have hne : h ≠ 0 := by
    obtain ⟨oh, hoh⟩ := head_mem hI hg hh
    exact ne_zero_of_norm (hC.norm _ hoh)
  have hpairs : g.pairs = (op, h) :: ops.zip rest := by
    unfold EqGroup.pairs; rw [hh, h2]; rfl
  have hinv : ∀ y ∈ g.pairs, y.1.rot⁻¹ = y.1.rot.transpose := fun y hy =>
    inv_of_orthogonal (hops _ (pair_mem hI hg hy))
  have hmult : ∀ κ : ℝ, (κ = 1 ∨ κ = -1) → ∀ d : Pos N ℝ, (d = fun a i => κ * h a i) →
      (multiplier h d).getD 0 = κ := by
    intro κ hκ d hd
    rw [hd, multiplier_smul h hne κ (by rcases hκ with rfl | rfl <;> norm_num)]
    rcases hκ with rfl | rfl <;> norm_num
  have hself : ∀ κ : ℝ, (h = fun a i => κ * h a i) → κ = 1 := by
    intro κ hk
    by_contra hcon
    refine hne ?_
    funext a i
    have := congrFun (congrFun hk a) i
    have h5 : (κ - 1) * h a i = 0 := by linarith
    exact (mul_eq_zero.1 h5).resolve_left (sub_ne_zero.2 hcon)
  rw [h3]
  unfold dofPoints
  rw [List.mem_append, List.flatMap_cons, List.mem_append]
  constructor
  · rintro (hz | hz | hz)
    · left; cases inc <;> simp at hz ⊢; exact hz
    · right
      obtain ⟨d, hd, rfl⟩ := List.mem_map.1 hz
      have hm : (op, h) ∈ g.pairs := by rw [hpairs]; simp
      refine ⟨_, hm, 1, Or.inl rfl, by funext a i; simp, d, hd, ?_⟩
      rw [hinv _ hm]; rfl
    · right
      obtain ⟨x, hx, hz⟩ := List.mem_flatMap.1 hz
      obtain ⟨d, hd, rfl⟩ := List.mem_map.1 hz
      obtain ⟨y, hy, rfl⟩ := List.mem_map.1 hx
      have hm : (y.2, y.1) ∈ g.pairs := by
        rw [hpairs, ← List.zip_swap]
        exact List.mem_cons_of_mem _ (List.mem_map.2 ⟨y, hy, rfl⟩)
      obtain ⟨κ, hκ, hyk⟩ := disp_sign hI hC hg hh (List.of_mem_zip hm).2
      refine ⟨_, hm, κ, hκ, hyk, d, hd, ?_⟩
      dsimp only
      rw [hmult κ hκ _ hyk, hinv _ hm]; rfl
  · rintro (⟨rfl, rfl⟩ | ⟨y, hy, κ, hκ, hyk, d, hd, rfl⟩)
    · left; simp
    · right
      have hi := hinv y hy
      rw [hpairs] at hy
      rcases List.mem_cons.1 hy with rfl | hy
      · left
        refine List.mem_map.2 ⟨d, hd, ?_⟩
        rw [hself κ hyk, hi]; rfl
      · right
        refine List.mem_flatMap.2 ⟨((multiplier h y.2).getD 0, y.1), List.mem_map.2 ⟨(y.2, y.1), ?_, rfl⟩,
          List.mem_map.2 ⟨d, hd, ?_⟩⟩
        · rw [← List.zip_swap] at hy
          obtain ⟨u, hu, rfl⟩ := List.mem_map.1 hy
          exact hu
        · dsimp only
          rw [hmult κ hκ _ hyk, hi]; rfl

theorem eq_of_strict {l₁ l₂ : List (ℝ × Mat3 ℝ)} (h₁ : l₁.Pairwise fun a b => a.1 < b.1)
    (h₂ : l₂.Pairwise fun a b => a.1 < b.1) (h : ∀ z, z ∈ l₁ ↔ z ∈ l₂) : l₁ = l₂ := by
  have nd : ∀ {l : List (ℝ × Mat3 ℝ)}, (l.Pairwise fun a b => a.1 < b.1) → l.Nodup :=
    fun hl => hl.imp fun {a b} hab e => by rw [e] at hab; exact lt_irrefl _ hab
  have hp := (List.perm_ext_iff_of_nodup (nd h₁) (nd h₂)).2 h
  refine hp.eq_of_pairwise ?_ h₁ h₂
  intro a b _ _ hab hba
  exact absurd hab hba.asymm

theorem turned_inj {Q : Mat3 ℝ} (hQ : Q * Q.transpose = 1) {A B : Mat3 ℝ}
    (h : turned Q A = turned Q B) : A = B := by
  have h1 : ∀ C : Mat3 ℝ, turned Q.transpose (turned Q C) = C := fun C => by
    rw [turned_turned, hQ]; simp [turned]
  rw [← h1 A, h, h1]

theorem strict_of_ready {k : ℕ} {l : List (ℝ × Mat3 ℝ)} (h : SplineReady k l) :
    l.Pairwise fun a b => a.1 < b.1 := h.2.2.imp fun h => h.1

/-- If one set of interpolation points is the image of another, the interpolations correspond. -/
theorem spline_image {spline : SplineFn} (hsp : SplineEquivariant spline) {Q : Mat3 ℝ}
    (hQ : Q * Q.transpose = 1) {k : ℕ} {S S' : List (ℝ × Mat3 ℝ)} {f f' : ℝ → Mat3 ℝ}
    (hr : SplineReady k (S.insertionSort fun a b => a.1 ≤ b.1))
    (hf : spline k (S.insertionSort fun a b => a.1 ≤ b.1) = .ok f)
    (hr' : SplineReady k (S'.insertionSort fun a b => a.1 ≤ b.1))
    (hf' : spline k (S'.insertionSort fun a b => a.1 ≤ b.1) = .ok f') {ε : ℝ}
    (hε : ε = 1 ∨ ε = -1) (h1 : ∀ u ∈ S, (ε * u.1, turned Q u.2) ∈ S')
    (h2 : ∀ z ∈ S', ∃ u ∈ S, z = (ε * u.1, turned Q u.2)) (t : ℝ) :
    f' (ε * t) = turned Q (f t) := by
  have hQ' : Q.transpose * Q = 1 := mul_eq_one_comm.1 hQ
  have e1 := (hsp k _ _ hr hf).1 Q hQ'
  have hm : ∀ (L : List (ℝ × Mat3 ℝ)) z, z ∈ L.insertionSort (fun a b => a.1 ≤ b.1) ↔ z ∈ L :=
    fun L z => List.mem_insertionSort _
  have hst := strict_of_ready hr
  have hst' := strict_of_ready hr'
  rcases hε with rfl | rfl
  · have : (S'.insertionSort fun a b => a.1 ≤ b.1)
        = (S.insertionSort fun a b => a.1 ≤ b.1).map fun x => (x.1, turned Q x.2) := by
      refine eq_of_strict hst' ?_ fun z => ?_
      · rw [List.pairwise_map]; exact hst
      · rw [hm, List.mem_map]
        constructor
        · intro hz
          obtain ⟨u, hu, rfl⟩ := h2 z hz
          exact ⟨u, (hm _ _).2 hu, by simp⟩
        · rintro ⟨u, hu, rfl⟩
          have := h1 u ((hm _ _).1 hu)
          simpa using this
    rw [this, e1] at hf'
    cases hf'
    simp
  · have hr2 : SplineReady k ((S.insertionSort fun a b => a.1 ≤ b.1).map
        fun x => (x.1, turned Q x.2)) := by
      refine ⟨hr.1, by simpa using hr.2.1, ?_⟩
      rw [List.pairwise_map]; exact hr.2.2
    have e2 := (hsp k _ _ hr2 e1).2
    have : (S'.insertionSort fun a b => a.1 ≤ b.1)
        = ((S.insertionSort fun a b => a.1 ≤ b.1).map fun x => (x.1, turned Q x.2)).reverse.map
          fun x => (-x.1, x.2) := by
      refine eq_of_strict hst' ?_ fun z => ?_
      · rw [List.pairwise_map, List.pairwise_reverse, List.pairwise_map]
        exact hst.imp fun h => by simpa using h
      · rw [hm, List.mem_map]
        simp only [List.mem_reverse, List.mem_map]
        constructor
        · intro hz
          obtain ⟨u, hu, rfl⟩ := h2 z hz
          exact ⟨_, ⟨u, (hm _ _).2 hu, rfl⟩, by simp⟩
        · rintro ⟨_, ⟨u, hu, rfl⟩, rfl⟩
          have := h1 u ((hm _ _).1 hu)
          simpa using this
    rw [this, e2] at hf'
    cases hf'
    simp

/-- The basis vector of a carried-along displacement. -/
theorem basis_carried {s : RefStructure N} {R : Mat3 ℝ} (hc : R * s.lattice = s.lattice * R)
    (hR : R * R.transpose = 1) {σ : Equiv.Perm (Fin N)} {h h' b b' : Pos N ℝ} {ε : ℝ}
    (hε : ε = 1 ∨ ε = -1) (hh : inner3 h h = 1 / 100) (hh' : inner3 h' h' = 1 / 100)
    (he : h' = fun a j => ε * carried σ R h a j)
    (hb : normalizePos (s.getCartDisplacement h) = some b)
    (hb' : normalizePos (s.getCartDisplacement h') = some b') :
    ∀ a j, b' a j = ε * carried σ R b a j := by
  have hbx : ∀ {v : Pos N ℝ}, inner3 v v = 1 / 100 → ∀ a i, InHalfBox (v a i) := by
    intro v hv
    refine box_of_norm ?_
    unfold norm2
    rw [dot_flat, hv, show (1 / 100 : ℝ) = (1 / 10) ^ 2 by norm_num, Real.sqrt_sq (by norm_num)]
  rw [getCart_of_box _ _ (hbx hh)] at hb
  rw [getCart_of_box _ _ (hbx hh')] at hb'
  have hv : toCart s.lattice h' = fun a j => ε * carried σ R (toCart s.lattice h) a j := by
    rw [← toCart_carried _ _ _ hc, he]
    funext a j
    simp only [toCart, Finset.mul_sum, mul_assoc]
  have hn : norm2 (flat (toCart s.lattice h')) = norm2 (flat (toCart s.lattice h)) := by
    rw [hv]
    have : flat (fun a j => ε * carried σ R (toCart s.lattice h) a j)
        = fun x => ε * flat (carried σ R (toCart s.lattice h)) x := rfl
    rw [this, norm2_smul]
    have h1 : |ε| = 1 := by rcases hε with rfl | rfl <;> norm_num
    rw [h1, one_mul]
    unfold norm2
    rw [dot_flat, dot_flat, inner3_carried _ hR]
  unfold normalizePos at hb hb'
  rw [hn] at hb'
  split_ifs at hb with h0
  rw [if_neg h0] at hb'
  cases hb
  cases hb'
  intro a j
  rw [hv]
  simp only [carried, div_mul_eq_mul_div]
  rw [← Finset.sum_div, mul_div_assoc]

/-- The degrees of freedom added by one call are permuted by every operation. -/
theorem records_permuted {spglib : Mat3 ℝ → Pos N ℝ → (Fin N → ℕ) → Option SymDict}
    {nums : Fin N → ℕ} {lat : Mat3 ℝ} {p : Pos N ℝ} {s : RefStructure N}
    (hs : RefStructure.init spglib nums lat p = .ok s) (hN : N ≤ 10 ^ 8)
    (hsep : ∀ j k, j ≠ k → Apart (2 / 10 ^ 5) (p j) (p k))
    (hsym : ∀ op ∈ s.ops, ∃ σ, IsSymmetry p op.rot op.trans σ)
    (hiso : ∀ op ∈ s.ops, op.rot * op.rot.transpose = 1)
    (hlat : ∀ op ∈ s.ops, op.rot * lat = lat * op.rot)
    (hmul : ∀ x ∈ s.ops, ∀ y ∈ s.ops, ∃ z ∈ s.ops,
      Composite x.rot x.trans y.rot y.trans z.rot z.trans)
    (hdiv : ∀ z ∈ s.ops, ∀ y ∈ s.ops, ∃ x ∈ s.ops,
      Composite x.rot x.trans y.rot y.trans z.rot z.trans)
    (w : Pos N ℝ) (hbox : ∀ a i, InHalfBox (w a i)) (hw : w ≠ 0)
    (hclean : ∀ x ∈ s.ops, ∀ y ∈ s.ops, ∀ σ τ, IsSymmetry p x.rot x.trans σ →
      IsSymmetry p y.rot y.trans τ →
      (∃ κ : ℝ, (κ = 1 ∨ κ = -1) ∧ carried σ x.rot w = fun a i => κ * carried τ y.rot w a i) ∨
      inner3 (carried σ x.rot w) (carried τ y.rot w) = 0)
    (m : IModel N) (hm : m.ref = s) (hpol : ∀ op ∈ s.ops, turned op.rot m.refPol = m.refPol)
    (inc : Bool) (data : List (ℝ × Mat3 ℝ))
    (hdata : ∀ x ∈ s.ops, ∀ y ∈ s.ops, ∀ σ τ, IsSymmetry p x.rot x.trans σ →
      IsSymmetry p y.rot y.trans τ → carried σ x.rot w = carried τ y.rot w →
      ∀ d ∈ data, turned x.rot d.2 = turned y.rot d.2)
    (spline : SplineFn) (hsp : SplineEquivariant spline) (k : ℕ) (groups : List (EqGroup N))
    (hgr : s.getEquivalentDisplacements w = .ok (some groups))
    (recs : List (Pos N ℝ × List (ℝ × Mat3 ℝ))) (fs : List (ℝ → Mat3 ℝ))
    (hF : List.Forall₂ (fun g r => GroupFacts m inc data g r.1 r.2) groups recs)
    (hS : List.Forall₂ (fun r f =>
        SplineReady k (r.2.insertionSort fun a b => a.1 ≤ b.1) ∧
        spline k (r.2.insertionSort fun a b => a.1 ≤ b.1) = .ok f) recs fs)
    (op : SymOp) (hop : op ∈ s.ops) (σ : Equiv.Perm (Fin N))
    (hσ : IsSymmetry p op.rot op.trans σ) :
    PermutedBy σ op.rot ((recs.map Prod.fst).zip (fs.zip (List.replicate recs.length false))) := by
  obtain ⟨_, hsl, _⟩ := init_facts hs
  obtain ⟨e, c, groups', orth, new, hc, hec, hen, hgr', hI, hnew, hnew'⟩ :=
    images_of_displacement hs hsep hsym hiso w hbox hw
  rw [hgr] at hgr'
  cases hgr'
  -- facts about images
  have hsc : ∀ (τ : Equiv.Perm (Fin N)) (Q : Mat3 ℝ), carried τ Q e = fun a j => c * carried τ Q w a j :=
    fun τ Q => by rw [hec, carried_smul]
  have hinner : ∀ u v : Pos N ℝ, inner3 (fun a j => c * u a j) (fun a j => c * v a j)
      = c ^ 2 * inner3 u v := by
    intro u v
    unfold inner3
    simp only [Finset.mul_sum]
    exact Finset.sum_congr rfl fun a _ => Finset.sum_congr rfl fun j _ => by ring
  have hC : CleanList new := by
    refine ⟨fun x hx => ?_, fun x hx y hy => ?_⟩
    · obtain ⟨h1, h2⟩ := hnew' x hx
      obtain ⟨τ, hτ⟩ := hsym _ h1
      rw [h2 τ hτ, inner3_carried _ (hiso _ h1), hen]
    · obtain ⟨h1, h2⟩ := hnew' x hx
      obtain ⟨h3, h4⟩ := hnew' y hy
      obtain ⟨τ, hτ⟩ := hsym _ h1
      obtain ⟨ρ, hρ⟩ := hsym _ h3
      rw [h2 τ hτ, h4 ρ hρ, hsc, hsc]
      rcases hclean _ h1 _ h3 τ ρ hτ hρ with ⟨κ, hκ, h⟩ | h
      · left
        refine ⟨κ, hκ, ?_⟩
        funext a i
        rw [h]; ring
      · right
        rw [hinner, h, mul_zero]
  have hrot : ∀ x ∈ new, x.1.rot * x.1.rot.transpose = 1 := fun x hx => hiso _ (hnew' x hx).1
  have hcomp : ∀ x y z : SymOp, ∀ τ ρ, IsSymmetry p x.rot x.trans τ → IsSymmetry p y.rot y.trans ρ →
      IntegerMatrix z.rot → Composite x.rot x.trans y.rot y.trans z.rot z.trans →
      IsSymmetry p z.rot z.trans (τ.trans ρ) := by
    intro x y z τ ρ hτ hρ hz ⟨h1, h2⟩
    refine ⟨hz, fun a j => ?_⟩
    obtain ⟨n1, e1⟩ := sameImage_mul_int hρ.1 (fun i => hτ.2 a i) j
    obtain ⟨n2, e2⟩ := hρ.2 (τ a) j
    obtain ⟨n3, e3⟩ := h2 j
    refine ⟨n1 + n2 + -n3, ?_⟩
    have h5 : ∑ i, p a i * z.rot i j = ∑ i, (∑ k, p a k * x.rot k i) * y.rot i j := by
      rw [h1]
      simp only [Matrix.mul_apply, Fin.sum_univ_three]; ring
    have h6 : ∑ i, (∑ k, p a k * x.rot k i + x.trans i) * y.rot i j
        = ∑ i, (∑ k, p a k * x.rot k i) * y.rot i j + ∑ i, x.trans i * y.rot i j := by
      rw [← Finset.sum_add_distrib]
      exact Finset.sum_congr rfl fun i _ => by ring
    push_cast
    rw [h6] at e1
    rw [h5]
    simp only [Equiv.trans_apply]
    linarith
  have hint : ∀ x ∈ s.ops, IntegerMatrix x.rot := fun x hx => (hsym x hx).choose_spec.1
  -- image under `op` of the image under `x`
  have hstep : ∀ x ∈ new, ∀ z ∈ s.ops, Composite x.1.rot x.1.trans op.rot op.trans z.rot z.trans →
      ∀ d, (z, d) ∈ new → d = carried σ op.rot x.2 := by
    intro x hx z hz hcz d hd
    obtain ⟨h1, h2⟩ := hnew' x hx
    obtain ⟨τ, hτ⟩ := hsym _ h1
    have h3 := (hnew' _ hd).2 _ (hcomp _ _ _ τ σ hτ hσ (hint z hz) hcz)
    dsimp only at h3
    rw [h3, h2 τ hτ, carried_carried, hcz.1]
  -- points, canonically
  have hlen : groups.length = recs.length := hF.length_eq
  have hlenf : recs.length = fs.length := hS.length_eq
  have hG : ∀ (n : ℕ) (h : n < groups.length), GroupFacts m inc data groups[n] (recs[n]'(by omega)).1
      (recs[n]'(by omega)).2 := fun n h => by
    have := (List.forall₂_iff_get.1 hF).2 n h (by omega)
    simpa using this
  have hdat : ∀ x ∈ new, ∀ y ∈ new, x.2 = y.2 → ∀ d ∈ data,
      turned x.1.rot (d.2 - m.refPol) = turned y.1.rot (d.2 - m.refPol) := by
    intro x hx y hy hxy d hd
    obtain ⟨h1, h2⟩ := hnew' x hx
    obtain ⟨h3, h4⟩ := hnew' y hy
    obtain ⟨τ, hτ⟩ := hsym _ h1
    obtain ⟨ρ, hρ⟩ := hsym _ h3
    rw [turned_sub, turned_sub, hpol _ h1, hpol _ h3]
    congr 1
    refine hdata _ h1 _ h3 τ ρ hτ hρ ?_ d hd
    rw [h2 τ hτ, h4 ρ hρ, hsc, hsc] at hxy
    funext a j
    have := congrFun (congrFun hxy a) j
    exact mul_left_cancel₀ hc.ne' this
  have hpts : ∀ (n : ℕ) (hn : n < groups.length) (h : Pos N ℝ) (rest : List (Pos N ℝ)),
      groups[n].displacements = h :: rest → ∀ z, z ∈ (recs[n]'(by omega)).2 ↔
        (inc = true ∧ z = (0, 0)) ∨ ∃ y ∈ new, ∃ κ : ℝ, (κ = 1 ∨ κ = -1) ∧
          (y.2 = fun a i => κ * h a i) ∧
          ∃ d ∈ data, z = (κ * d.1, turned y.1.rot (d.2 - m.refPol)) := by
    intro n hn h rest hh z
    have hg := List.getElem_mem hn
    rw [mem_points hI hC hrot hg (hG n hn) hh]
    refine or_congr Iff.rfl ⟨?_, ?_⟩
    · rintro ⟨y, hy, κ, hκ, hyk, d, hd, rfl⟩
      exact ⟨y, pair_mem hI hg hy, κ, hκ, hyk, d, hd, rfl⟩
    · rintro ⟨y, hy, κ, hκ, hyk, d, hd, rfl⟩
      obtain ⟨g', hg', h', rest', hh', ⟨μ, hμ, hym⟩, y', hy', hyy⟩ := image_covered hN hI hC hy
      obtain ⟨n', hn', rfl⟩ := List.mem_iff_getElem.1 hg'
      obtain ⟨oh, hoh⟩ := head_mem hI hg hh
      have hμ2 : μ * μ = 1 := by rcases hμ with rfl | rfl <;> norm_num
      have hκ0 : κ ≠ 0 := by rcases hκ with rfl | rfl <;> norm_num
      have hμ0 : μ ≠ 0 := by rcases hμ with rfl | rfl <;> norm_num
      have := head_unique hI hn hn' hh hh' (κ := μ * κ) (mul_ne_zero hμ0 hκ0)
        (ne_zero_of_norm (hC.norm _ hoh)) (by
          funext a i
          have h7 := congrFun (congrFun (hyk.symm.trans hym) a) i
          rw [mul_assoc, h7, ← mul_assoc, hμ2, one_mul])
      subst this
      refine ⟨y', hy', κ, hκ, by rw [hyy, hyk], d, hd, ?_⟩
      rw [hdat y hy y' (pair_mem hI hg hy') hyy.symm d hd]
  -- the operation maps heads to heads
  have hhead : ∀ n : Fin groups.length, ∃ h rest, groups[n].displacements = h :: rest := fun n =>
    group_head hI (List.getElem_mem n.2)
  choose H rest hH using hhead
  have hHn : ∀ n, inner3 (H n) (H n) = 1 / 100 := fun n => by
    obtain ⟨oh, hoh⟩ := head_mem hI (List.getElem_mem n.2) (hH n)
    exact hC.norm _ hoh
  have hφ : ∀ n : Fin groups.length, ∃ n' : Fin groups.length, ∃ ε : ℝ, (ε = 1 ∨ ε = -1) ∧
      H n' = fun a j => ε * carried σ op.rot (H n) a j := by
    intro n
    obtain ⟨oh, hoh⟩ := head_mem hI (List.getElem_mem n.2) (hH n)
    obtain ⟨z, hz, hcz⟩ := hmul _ (hnew' _ hoh).1 _ hop
    obtain ⟨d, hd⟩ := hnew z hz
    have h1 := hstep _ hoh z hz hcz d hd
    obtain ⟨g', hg', h', rest', hh', ⟨μ, hμ, hym⟩, _⟩ := image_covered hN hI hC hd
    obtain ⟨n', hn', rfl⟩ := List.mem_iff_getElem.1 hg'
    have h2 : h' = H ⟨n', hn'⟩ := by
      have := hH ⟨n', hn'⟩
      simp only [Fin.getElem_fin] at this
      rw [hh'] at this
      cases this; rfl
    refine ⟨⟨n', hn'⟩, μ, hμ, ?_⟩
    have hμ2 : μ * μ = 1 := by rcases hμ with rfl | rfl <;> norm_num
    funext a j
    have h3 := congrFun (congrFun (h1.symm.trans hym) a) j
    dsimp only at h3
    rw [h3, ← mul_assoc, hμ2, one_mul, h2]
  choose φ ε hε hφe using hφ
  have hinj : Function.Injective φ := by
    intro n n' hnn
    have h1 := hφe n
    rw [hnn, hφe n'] at h1
    have hε2 : ∀ n, ε n * ε n = 1 := fun n => by rcases hε n with h | h <;> rw [h] <;> norm_num
    have hε0 : ∀ n, ε n ≠ 0 := fun n => by rcases hε n with h | h <;> rw [h] <;> norm_num
    have h2 : carried σ op.rot (H n') = carried σ op.rot fun a j => (ε n' * ε n) * H n a j := by
      rw [carried_smul]
      funext a j
      have := congrFun (congrFun h1 a) j
      rw [mul_assoc, ← this, ← mul_assoc, hε2, one_mul]
    have h3 := carried_inv _ (hiso _ hop) h2
    exact Fin.ext (head_unique hI n.2 n'.2 (hH n) (hH n') (mul_ne_zero (hε0 _) (hε0 _))
      (ne_zero_of_norm (hHn n)) h3)
  have hbij : Function.Bijective φ := Finite.injective_iff_bijective.1 hinj
  -- assemble
  let T : Fin groups.length → Pos N ℝ × ((ℝ → Mat3 ℝ) × Bool) := fun n =>
    ((recs[n]'(by omega)).1, (fs[n]'(by omega)), false)
  have hT : (recs.map Prod.fst).zip (fs.zip (List.replicate recs.length false)) = List.ofFn T := by
    apply List.ext_getElem
    · simp [hlen, hlenf]
    · intro n h1 h2
      simp [T]
  rw [hT]
  refine ⟨List.ofFn (T ∘ φ), Equiv.Perm.ofFn_comp_perm (Equiv.ofBijective φ hbij) T, ?_⟩
  rw [List.forall₂_iff_get]
  refine ⟨by simp, fun n h1 h2 => ?_⟩
  simp only [List.get_eq_getElem, List.getElem_ofFn, Function.comp_apply]
  have hn : n < groups.length := by simpa using h1
  generalize hnf : (⟨n, _⟩ : Fin groups.length) = f
  have hrot1 := hiso _ hop
  refine ⟨ε f, ?_, ?_, rfl⟩
  · obtain ⟨c1, r1, d1, b1⟩ := (hG f f.2).basis
    obtain ⟨c2, r2, d2, b2⟩ := (hG (φ f) (φ f).2).basis
    have g1 := hH f
    have g2 := hH (φ f)
    simp only [Fin.getElem_fin] at g1 g2
    rw [g1] at d1; rw [g2] at d2
    cases d1; cases d2
    rw [hm] at b1 b2
    exact basis_carried (by rw [hsl]; exact hlat _ hop) hrot1 (hε f) (hHn f) (hHn (φ f)) (hφe f) b1 b2
  · intro t
    have s1 := (List.forall₂_iff_get.1 hS).2 f (by have := f.2; omega) (by have := f.2; omega)
    have s2 := (List.forall₂_iff_get.1 hS).2 (φ f) (by have := (φ f).2; omega)
      (by have := (φ f).2; omega)
    simp only [List.get_eq_getElem] at s1 s2
    have hεε : ε f * ε f = 1 := by rcases hε f with h | h <;> rw [h] <;> norm_num
    refine spline_image hsp hrot1 s1.1 s1.2 s2.1 s2.2 (hε f) ?_ ?_ t
    · intro u hu
      rw [hpts f f.2 (H f) (rest f) (hH f)] at hu
      rw [hpts (φ f) (φ f).2 (H (φ f)) (rest (φ f)) (hH (φ f))]
      rcases hu with ⟨hi, rfl⟩ | ⟨y, hy, κ, hκ, hyk, d, hd, rfl⟩
      · left; exact ⟨hi, by simp [turned_zero]⟩
      · right
        obtain ⟨z, hz, hcz⟩ := hmul _ (hnew' _ hy).1 _ hop
        obtain ⟨v, hv⟩ := hnew z hz
        have h3 := hstep _ hy z hz hcz v hv
        refine ⟨_, hv, ε f * κ, ?_, ?_, d, hd, ?_⟩
        · rcases hε f with h | h <;> rcases hκ with rfl | rfl <;> rw [h] <;> norm_num
        · dsimp only
          rw [h3, hyk, carried_smul, hφe f]
          funext a j
          linear_combination (-κ * carried σ op.rot (H f) a j) * hεε
        · dsimp only
          rw [hcz.1, ← turned_turned, mul_assoc]
    · intro z hz
      rw [hpts (φ f) (φ f).2 (H (φ f)) (rest (φ f)) (hH (φ f))] at hz
      rcases hz with ⟨hi, rfl⟩ | ⟨y, hy, κ, hκ, hyk, d, hd, rfl⟩
      · refine ⟨(0, 0), ?_, by simp [turned_zero]⟩
        rw [hpts f f.2 (H f) (rest f) (hH f)]
        exact Or.inl ⟨hi, rfl⟩
      · obtain ⟨x, hx, hcx⟩ := hdiv _ (hnew' _ hy).1 _ hop
        obtain ⟨v, hv⟩ := hnew x hx
        have h3 := hstep (x, v) hv y.1 (hnew' _ hy).1 hcx y.2 hy
        have h4 : v = fun a j => (ε f * κ) * H f a j := by
          refine carried_inv σ hrot1 ?_
          rw [carried_smul]
          dsimp only at h3
          rw [← h3, hyk, hφe f]
          funext a j
          ring
        refine ⟨((ε f * κ) * d.1, turned x.rot (d.2 - m.refPol)), ?_, ?_⟩
        · rw [hpts f f.2 (H f) (rest f) (hH f)]
          refine Or.inr ⟨_, hv, ε f * κ, ?_, h4, d, hd, rfl⟩
          rcases hε f with h | h <;> rcases hκ with rfl | rfl <;> rw [h] <;> norm_num
        · rw [turned_turned, ← hcx.1]
          congr 1
          linear_combination (-κ * d.1) * hεε

theorem permutedBy_append {σ : Equiv.Perm (Fin N)} {Q : Mat3 ℝ}
    {l₁ l₂ : List (Pos N ℝ × ((ℝ → Mat3 ℝ) × Bool))} (h₁ : PermutedBy σ Q l₁)
    (h₂ : PermutedBy σ Q l₂) : PermutedBy σ Q (l₁ ++ l₂) := by
  obtain ⟨a, p1, f1⟩ := h₁
  obtain ⟨b, p2, f2⟩ := h₂
  exact ⟨a ++ b, p1.append p2, List.rel_append f1 f2⟩

/-- C120, one `add_dof` call: in a crystal whose operations form a group of orthogonal matrices that
commute with the lattice (simple cubic axes, for instance), take a displacement whose symmetry images
are pairwise equal, opposite or orthogonal, data that do not depend on which operation yields an
image, and a spline routine that turns and reflects with its points.  If a model's degrees of freedom
are permuted by an operation, they still are after `add_dof`. -/
theorem C120_add_dof (spglib : Mat3 ℝ → Pos N ℝ → (Fin N → ℕ) → Option SymDict)
    (nums : Fin N → ℕ) (lat : Mat3 ℝ) (p : Pos N ℝ) (s : RefStructure N)
    (hs : RefStructure.init spglib nums lat p = .ok s) (hN : N ≤ 10 ^ 8)
    (hsep : ∀ j k, j ≠ k → Apart (2 / 10 ^ 5) (p j) (p k))
    (hsym : ∀ op ∈ s.ops, ∃ σ, IsSymmetry p op.rot op.trans σ)
    (hiso : ∀ op ∈ s.ops, op.rot * op.rot.transpose = 1)
    (hlat : ∀ op ∈ s.ops, op.rot * lat = lat * op.rot)
    (hmul : ∀ x ∈ s.ops, ∀ y ∈ s.ops, ∃ z ∈ s.ops,
      Composite x.rot x.trans y.rot y.trans z.rot z.trans)
    (hdiv : ∀ z ∈ s.ops, ∀ y ∈ s.ops, ∃ x ∈ s.ops,
      Composite x.rot x.trans y.rot y.trans z.rot z.trans)
    (spline : SplineFn) (hsp : SplineEquivariant spline) (we : Bool) (m : IModel N)
    (hm : m.ref = s) (hdum : m.dummy = false) (hi : m.interps.length = m.basis.length)
    (hk : m.mask.length = m.basis.length)
    (hpol : ∀ op ∈ s.ops, turned op.rot m.refPol = m.refPol)
    (cart w : Pos N ℝ) (hw : s.getFracDisplacement cart = .ok w) (hw0 : w ≠ 0)
    (hclean : ∀ x ∈ s.ops, ∀ y ∈ s.ops, ∀ σ τ, IsSymmetry p x.rot x.trans σ →
      IsSymmetry p y.rot y.trans τ →
      (∃ κ : ℝ, (κ = 1 ∨ κ = -1) ∧ carried σ x.rot w = fun a i => κ * carried τ y.rot w a i) ∨
      inner3 (carried σ x.rot w) (carried τ y.rot w) = 0)
    (amps : List ℝ) (pols : List (Mat3 ℝ)) (order : ℤ) (inc : Bool)
    (hdata : ∀ x ∈ s.ops, ∀ y ∈ s.ops, ∀ σ τ, IsSymmetry p x.rot x.trans σ →
      IsSymmetry p y.rot y.trans τ → carried σ x.rot w = carried τ y.rot w →
      ∀ A ∈ pols, turned x.rot A = turned y.rot A) 
    (o : Outcome N) (ho : o = m.addDof spline we cart amps pols order inc) (hok : o.result = .ok ())
    (op : SymOp) (hop : op ∈ s.ops) (σ : Equiv.Perm (Fin N)) (hσ : IsSymmetry p op.rot op.trans σ)
    (hold : PermutedBy σ op.rot (m.basis.zip (m.interps.zip m.mask))) :
    o.state.ref = s ∧ o.state.refPol = m.refPol ∧ o.state.dummy = false ∧
    o.state.interps.length = o.state.basis.length ∧ o.state.mask.length = o.state.basis.length ∧
    PermutedBy σ op.rot (o.state.basis.zip (o.state.interps.zip o.state.mask)) := by
  obtain ⟨parent, recs, fs, h1, h2, h3, h4, h5, _, _, h6, h7⟩ :=
    addDofNan_facts spline we m (some cart) amps pols order inc o ho hok
  have hl := h6.length_eq
  rw [hdum] at h5
  rw [h5]
  refine ⟨hm, rfl, rfl, ?_, ?_, ?_⟩
  · simp [hi, hl]
  · simp [hk]
  · dsimp only
    simp only [Bool.false_eq_true, if_false]
    rw [List.zip_append (by omega), List.zip_append (by simp; omega)]
    refine permutedBy_append hold ?_
    rcases h7 with rfl | ⟨q, groups, rfl, h8, h9⟩
    · cases h6
      exact ⟨[], by simp, by simp⟩
    · rw [← hm] at hw
      obtain ⟨q', c, _, g1, _, g2, _⟩ := (parent_facts m cart w hw).2 hw0
      rw [h1] at g1
      cases g1
      rw [g2, hm] at h8
      have hu : usedPols m amps pols = pols := by unfold usedPols; rw [hdum]; rfl
      rw [hu] at h9
      refine records_permuted hs hN hsep hsym hiso hlat hmul hdiv w (frac_ok _ _ _ hw).2.1 hw0 hclean
        m hm hpol inc (amps.zip pols) ?_ spline hsp order.toNat groups h8 recs fs h9 h6 op hop σ hσ
      intro x hx y hy τ ρ hτ hρ he d hd
      exact hdata x hx y hy τ ρ hτ hρ he d.2 (List.of_mem_zip hd).2

/-- C120: a model built by one `add_dof` call in such a crystal predicts, for a configuration
transformed by any of the operations, the turned polarizability. -/
theorem C120_equivariant (spglib : Mat3 ℝ → Pos N ℝ → (Fin N → ℕ) → Option SymDict)
    (nums : Fin N → ℕ) (lat : Mat3 ℝ) (p : Pos N ℝ) (s : RefStructure N)
    (hs : RefStructure.init spglib nums lat p = .ok s) (hN : N ≤ 10 ^ 8)
    (hsep : ∀ j k, j ≠ k → Apart (2 / 10 ^ 5) (p j) (p k))
    (hsym : ∀ op ∈ s.ops, ∃ σ, IsSymmetry p op.rot op.trans σ)
    (hiso : ∀ op ∈ s.ops, op.rot * op.rot.transpose = 1)
    (hlat : ∀ op ∈ s.ops, op.rot * lat = lat * op.rot)
    (hmul : ∀ x ∈ s.ops, ∀ y ∈ s.ops, ∃ z ∈ s.ops,
      Composite x.rot x.trans y.rot y.trans z.rot z.trans)
    (hdiv : ∀ z ∈ s.ops, ∀ y ∈ s.ops, ∃ x ∈ s.ops,
      Composite x.rot x.trans y.rot y.trans z.rot z.trans)
    (spline : SplineFn) (hsp : SplineEquivariant spline) (we : Bool) (pol : Mat3 ℝ)
    (hpol : ∀ op ∈ s.ops, turned op.rot pol = pol)
    (cart w : Pos N ℝ) (hw : s.getFracDisplacement cart = .ok w) (hw0 : w ≠ 0)
    (hclean : ∀ x ∈ s.ops, ∀ y ∈ s.ops, ∀ σ τ, IsSymmetry p x.rot x.trans σ →
      IsSymmetry p y.rot y.trans τ →
      (∃ κ : ℝ, (κ = 1 ∨ κ = -1) ∧ carried σ x.rot w = fun a i => κ * carried τ y.rot w a i) ∨
      inner3 (carried σ x.rot w) (carried τ y.rot w) = 0)
    (amps : List ℝ) (pols : List (Mat3 ℝ)) (order : ℤ) (inc : Bool)
    (hdata : ∀ x ∈ s.ops, ∀ y ∈ s.ops, ∀ σ τ, IsSymmetry p x.rot x.trans σ →
      IsSymmetry p y.rot y.trans τ → carried σ x.rot w = carried τ y.rot w →
      ∀ A ∈ pols, turned x.rot A = turned y.rot A) 
    (o : Outcome N) (ho : o = (IModel.init s pol false).addDof spline we cart amps pols order inc)
    (hok : o.result = .ok ())
    (op : SymOp) (hop : op ∈ s.ops) (σ : Equiv.Perm (Fin N)) (hσ : IsSymmetry p op.rot op.trans σ)
    (q q' v : Pos N ℝ) (hq : TransformedTo op.rot op.trans σ q q') (hv : NearestImage p q v)
    (hbox : ∀ a j, InHalfBox (∑ i, v a i * op.rot i j)) :
    ∃ A, evalOne o.state.calcPolarizabilities q = .ok A ∧
      evalOne o.state.calcPolarizabilities q' = .ok (turned op.rot A) := by
  obtain ⟨g1, g2, _, g4, g5, g6⟩ := C120_add_dof spglib nums lat p s hs hN hsep hsym hiso hlat hmul
    hdiv spline hsp we (IModel.init s pol false) rfl rfl rfl rfl hpol cart w hw hw0 hclean amps pols
    order inc hdata o ho hok op hop σ hσ ⟨[], by simp [IModel.init], by simp [IModel.init]⟩
  obtain ⟨hp, hL, _⟩ := init_facts hs
  refine C120_criterion o.state g4 g5 op.rot op.rot op.trans σ ?_ ?_ (hiso _ hop) ?_ g6 q q' v hq ?_
    hbox
  · rw [g1, hp]; exact hσ
  · rw [g1, hL]; exact hlat _ hop
  · rw [g2]; exact hpol _ hop
  · rw [g1, hp]; exact hv

/-! ### A concrete case -/

theorem lookup_none {pts : List (ℝ × Mat3 ℝ)} {x : ℝ} (h : ∀ p ∈ pts, p.1 ≠ x) :
    pts.find? (fun p => decide (p.1 = x)) = none := by
  rw [List.find?_eq_none]
  intro p hp
  simpa using h p hp

theorem lookupSpline_equivariant : SplineEquivariant lookupSpline := by
  intro k pts f hr hf
  have hst := strict_of_ready hr
  unfold lookupSpline at hf ⊢
  cases hf
  constructor
  · intro Q _
    congr 1
    funext x
    dsimp only
    rw [List.find?_map]
    rw [show ((fun p : ℝ × Mat3 ℝ => decide (p.1 = x)) ∘ fun x => (x.1, turned Q x.2))
      = fun p : ℝ × Mat3 ℝ => decide (p.1 = x) from rfl]
    cases pts.find? (fun p => decide (p.1 = x)) with
    | none => simp [turned_zero]
    | some p => simp
  · congr 1
    funext x
    dsimp only
    have hst2 : (pts.reverse.map fun x => (-x.1, x.2)).Pairwise fun a b => a.1 < b.1 := by
      rw [List.pairwise_map, List.pairwise_reverse]
      exact hst.imp fun h => by simpa using h
    by_cases h : ∃ p ∈ pts, p.1 = -x
    · obtain ⟨p, hp, hpx⟩ := h
      rw [← hpx, find_of_mem pts hst p hp]
      have hm : (-p.1, p.2) ∈ pts.reverse.map fun x => (-x.1, x.2) :=
        List.mem_map.2 ⟨p, by simpa using hp, rfl⟩
      have := find_of_mem _ hst2 _ hm
      dsimp only at this
      rw [show x = -p.1 by rw [hpx, neg_neg], this]
      rfl
    · push Not at h
      rw [lookup_none h, lookup_none]
      intro p hp
      obtain ⟨u, hu, rfl⟩ := List.mem_map.1 hp
      have := h u (by simpa using hu)
      intro hcon
      exact this (by rw [← hcon]; simp)

theorem mir_turned_one : turned mirRot (1 : Mat3 ℝ) = 1 := by
  unfold turned; rw [mir_transpose, Matrix.mul_one, mir_sq]

theorem carried_one1 (σ : Equiv.Perm (Fin 1)) (R : Mat3 ℝ) (u : Fin 3 → ℝ) :
    carried σ R (one1 u) = one1 fun j => ∑ i, u i * R i j := rfl

/-- C120, concrete: one atom in a simple cubic cell with the mirror plane `x ↔ y`; displacement
along `x`, arbitrary polarizabilities `C`, `D` at amplitudes ∓0.06.  The call adds the two degrees of
freedom `x` and `y`, and predictions for mirrored configurations are the mirrored predictions. -/
example (nums : Fin 1 → ℕ) (C D : Mat3 ℝ) : ∃ s o,
    RefStructure.init mirSpglib nums 1 (fun _ _ => 0) = .ok s ∧
    o = (IModel.init s 1 false).addDof lookupSpline true (one1 mirV) [-(3 / 50), 3 / 50] [C, D] 2 true ∧
    o.result = .ok () ∧ o.state.basis.length = 2 ∧
    ∃ A, evalOne o.state.calcPolarizabilities (one1 ![3 / 50, 1 / 25, 1 / 7]) = .ok A ∧
      evalOne o.state.calcPolarizabilities (one1 ![1 / 25, 3 / 50, 1 / 7]) = .ok (turned mirRot A) := by
  obtain ⟨s, hs, hops⟩ := mirInit nums
  obtain ⟨hpos, hlat, _⟩ := init_facts hs
  obtain ⟨_, _, b1, b2⟩ := mir_box
  obtain ⟨_, _, n1, n2⟩ := mir_norms
  have ho : orthCheck (IModel.init s 1 false) (some (one1 mirV)) = -1 := by
    unfold orthCheck
    dsimp only
    rw [C08_all_orthogonal]
    intro x hx
    simp [IModel.init] at hx
  obtain ⟨g, h, hgh, _⟩ := mir_addV nums s hs hops C D (IModel.init s 1 false) rfl rfl ho
  have hor : ∀ op ∈ s.ops, op = ⟨1, 0⟩ ∨ op = ⟨mirRot, 0⟩ := by
    intro op hop
    rw [hops] at hop
    simpa [mirOps] using hop
  have hin1 : (⟨1, 0⟩ : SymOp) ∈ s.ops := by rw [hops]; simp [mirOps]
  have hin2 : (⟨mirRot, 0⟩ : SymOp) ∈ s.ops := by rw [hops]; simp [mirOps]
  have hcomp : ∀ A B : Mat3 ℝ, Composite A 0 B 0 (A * B) 0 := fun A B =>
    ⟨rfl, fun j => ⟨0, by simp⟩⟩
  have i1 : ∀ σ : Equiv.Perm (Fin 1), carried σ 1 (one1 mirV) = one1 mirV := fun σ => by
    rw [carried_one1]
    congr 1
    funext j
    simp [Matrix.one_apply]
  have i2 : ∀ σ : Equiv.Perm (Fin 1), carried σ mirRot (one1 mirV) = one1 mirV' := fun σ => by
    rw [carried_one1]
    congr 1
    funext j
    exact mir_images.2 j
  have hz : inner3 (one1 mirV) (one1 mirV') = 0 ∧ inner3 (one1 mirV') (one1 mirV) = 0 := by
    constructor <;> simp [inner3, one1, mirV, mirV', Fin.sum_univ_three]
  have hne : one1 mirV ≠ one1 mirV' := by
    intro hcon
    have := congrFun (congrFun hcon 0) 0
    norm_num [one1, mirV, mirV'] at this
  refine ⟨s, _, hs, rfl, by rw [hgh], by rw [hgh]; rfl, ?_⟩
  have hself : ∀ v : Pos 1 ℝ, ∃ κ : ℝ, (κ = 1 ∨ κ = -1) ∧ v = fun a i => κ * v a i :=
    fun v => ⟨1, Or.inl rfl, by funext a i; ring⟩
  refine C120_equivariant mirSpglib nums 1 (fun _ _ => 0) s hs (by norm_num) (one_apart _)
    (fun op hop => ⟨_, mir_sym op (hops ▸ hop)⟩) ?_ (fun op _ => by simp) ?_ ?_ lookupSpline
    lookupSpline_equivariant true 1 ?_ (one1 mirV) (one1 mirV) (mir_frac s hlat mirV b1)
    (fun h => one1_ne (vec_ne_zero n1) (by rw [h]; rfl)) ?_ _ _ 2 true ?_ _ rfl (by rw [hgh])
    ⟨mirRot, 0⟩ hin2 (Equiv.refl _) (mir_sym _ (hops ▸ hin2)) _ _ (one1 ![3 / 50, 1 / 25, 1 / 7])
    ?_ ?_ ?_
  · intro op hop
    rcases hor op hop with rfl | rfl
    · simp
    · dsimp only; rw [mir_transpose, mir_sq]
  · intro x hx y hy
    rcases hor x hx with rfl | rfl <;> rcases hor y hy with rfl | rfl
    · exact ⟨_, hin1, by simpa using hcomp 1 1⟩
    · exact ⟨_, hin2, by simpa using hcomp 1 mirRot⟩
    · exact ⟨_, hin2, by simpa using hcomp mirRot 1⟩
    · exact ⟨_, hin1, by simpa [mir_sq] using hcomp mirRot mirRot⟩
  · intro x hx y hy
    rcases hor x hx with rfl | rfl <;> rcases hor y hy with rfl | rfl
    · exact ⟨_, hin1, by simpa using hcomp 1 1⟩
    · exact ⟨_, hin2, by simpa [mir_sq] using hcomp mirRot mirRot⟩
    · exact ⟨_, hin2, by simpa using hcomp mirRot 1⟩
    · exact ⟨_, hin1, by simpa using hcomp 1 mirRot⟩
  · intro op hop
    rcases hor op hop with rfl | rfl
    · simp [turned]
    · exact mir_turned_one
  · intro x hx y hy σ τ _ _
    rcases hor x hx with rfl | rfl <;> rcases hor y hy with rfl | rfl <;> dsimp only <;>
      simp only [i1, i2]
    · exact Or.inl (hself _)
    · exact Or.inr hz.1
    · exact Or.inr hz.2
    · exact Or.inl (hself _)
  · intro x hx y hy σ τ _ _ he
    rcases hor x hx with rfl | rfl <;> rcases hor y hy with rfl | rfl <;> dsimp only at he ⊢ <;>
      simp only [i1, i2] at he
    · exact fun _ _ => rfl
    · exact absurd he hne
    · exact absurd he.symm hne
    · exact fun _ _ => rfl
  · intro a j
    refine ⟨0, ?_⟩
    fin_cases j <;> simp [one1, mirRot, Fin.sum_univ_three]
  · intro a j
    refine ⟨?_, 0, ?_⟩
    · fin_cases j <;> norm_num [one1, InHalfBox]
    · simp
  · intro a j
    have : ∑ i, one1 ![3 / 50, 1 / 25, 1 / 7] a i * mirRot i j = ![1 / 25, 3 / 50, 1 / 7] j := by
      fin_cases j <;> simp [one1, mirRot, Fin.sum_univ_three]
    dsimp only
    rw [this]
    fin_cases j <;> norm_num [InHalfBox]

/-- A successful call adds exactly one degree of freedom per group of images. -/
theorem addDof_count (spline : SplineFn) (we : Bool) (m : IModel N) (cart : Pos N ℝ)
    (amps : List ℝ) (pols : List (Mat3 ℝ)) (order : ℤ) (inc : Bool) (q : Pos N ℝ)
    (groups : List (EqGroup N)) (hp : parentDisplacement m (some cart) = .ok (some q))
    (hg : m.ref.getEquivalentDisplacements q = .ok (some groups))
    (hok : (m.addDof spline we cart amps pols order inc).result = .ok ()) :
    (m.addDof spline we cart amps pols order inc).state.basis.length
      = m.basis.length + groups.length := by
  unfold IModel.addDof IModel.addDofNan at hok ⊢
  cases h : prepareDof m (some cart) amps pols inc with
  | error e => rw [h] at hok; cases hok
  | ok gs =>
    rw [h] at hok
    dsimp only at hok ⊢
    obtain ⟨parent, h1, h2, h3⟩ := prepareDof_ok _ _ _ _ _ _ h
    rw [hp] at h1
    cases h1
    have h4 : orthCheck m (some q) = -1 := by
      by_contra hcon
      unfold getDof at h3
      rw [if_pos hcon] at h3
      cases h3
    rw [getDof_eq _ _ _ _ _ _ h4 hg] at h3
    obtain ⟨fs, ws, b, _, _, h5, _, h6⟩ := constructAndAdd_ok spline we m gs order hok
    rw [h6]
    dsimp only
    rw [List.length_append, ← (finiteBasis_ok _ _ h5).length_eq,
      ← ((mapM_except_ok _ _ _).1 h3).length_eq]

/-- C120, without clean images the conclusion fails: one atom, mirror plane `x ↔ y`, displacement
along `(0, 0.6, 0.8)`.  Its mirror image `(0.6, 0, 0.8)` is neither parallel nor orthogonal and is
dropped.  Whatever (interpolating) spline routine is used, the model returns the measured `B` at one
configuration and the reference value at its mirror image. -/
theorem C120_not_equivariant (nums : Fin 1 → ℕ) (pol A B : Mat3 ℝ) (spline : SplineFn)
    (hsp : Interpolates spline) (we : Bool) (s : RefStructure 1)
    (hs : RefStructure.init mirSpglib nums 1 (fun _ _ => 0) = .ok s) (hops : s.ops = mirOps)
    (o : Outcome 1) (ho : o = (IModel.init s pol false).addDof spline we (one1 mirU)
      [-(1 / 10), 1 / 10] [A, B] 2 true) (hok : o.result = .ok ()) :
    TransformedTo mirRot 0 (Equiv.refl (Fin 1)) (one1 ![0, 1 / 6, 0]) (one1 ![1 / 6, 0, 0]) ∧
    evalOne o.state.calcPolarizabilities (one1 ![0, 1 / 6, 0]) = .ok B ∧
    evalOne o.state.calcPolarizabilities (one1 ![1 / 6, 0, 0]) = .ok pol := by
  obtain ⟨hpos, hlat, _⟩ := init_facts hs
  obtain ⟨b1, b2, _, _⟩ := mir_box
  obtain ⟨n1, n2, _, _⟩ := mir_norms
  have hgr := (mir_groups nums s hs hops _ mirU mirU' (mir_scale mirU n1 b1) n1 n2 b1 b2
    mir_images.1).2
    (by rw [cosine_one1 _ _ (1 / 10) (by norm_num) n2 n1]; norm_num [mirU, mirU', vec_two])
    (by rw [cosine_one1 _ _ (1 / 10) (by norm_num) n2 n1]; norm_num [mirU, mirU', vec_two])
  have hpar := mir_parent (IModel.init s pol false) hlat mirU n1 b1
  have hcount := addDof_count spline we (IModel.init s pol false) _ _ _ 2 true _ _ hpar hgr
    (by rw [← ho]; exact hok)
  obtain ⟨parent, recs, fs, h1, h2, h3, h4, h5, _, _, h6, h7⟩ :=
    addDofNan_facts spline we (IModel.init s pol false) (some (one1 mirU)) _ _ 2 true o ho hok
  rw [hpar] at h1
  cases h1
  rw [← ho, h5] at hcount
  rcases h7 with rfl | ⟨q, groups, e1, e2, h8⟩
  · simp [IModel.init] at hcount
  cases e1
  change s.getEquivalentDisplacements _ = _ at e2
  rw [hgr] at e2
  cases e2
  cases h8 with
  | @cons g r _ rs hG hnil =>
  cases hnil
  cases h6 with
  | @cons _ f _ _ hS hnil2 =>
  cases hnil2
  obtain ⟨c1, r1, d1, hb⟩ := hG.basis
  cases d1
  rw [show (IModel.init s pol false).ref = s from rfl, mir_normalize s hlat mirU n1 b1] at hb
  obtain ⟨c2, r2, op, ops, d2, t2, hpts⟩ := hG.mults
  cases d2
  cases t2
  have hint : ∀ z ∈ r.2, f z.1 = z.2 := fun z hz =>
    hsp _ _ f hS.1 hS.2 z ((List.mem_insertionSort _).2 hz)
  have f0 : f 0 = 0 := hint (0, 0) (by rw [hpts]; simp [dofPoints])
  have f1 : f (1 / 10) = B - pol := by
    refine hint (1 / 10, B - pol) ?_
    rw [hpts]
    simp [dofPoints, usedPols, IModel.init]
  have hbas : r.1 = one1 fun i => 10 * mirU i := (Option.some.inj hb).symm
  have hE : ∀ v : Fin 3 → ℝ, (∀ j, InHalfBox (v j)) →
      evalOne o.state.calcPolarizabilities (one1 v)
        = .ok (pol + f (6 / 10 * v 1 + 8 / 10 * v 2)) := by
    intro v hv
    rw [h5]
    rw [evalOne_expansion _ (by simp [IModel.init]) (by simp [IModel.init]) (one1 v) (one1 v)]
    · congr 1
      simp only [IModel.init, expansion, hlat, toCart_one]
      simp only [List.nil_append, List.map_cons, List.map_nil, List.length_cons, List.length_nil,
        Bool.false_eq_true, if_false, List.replicate, List.zip_cons_cons, List.zip_nil_left,
        List.sum_cons, List.sum_nil, add_zero, hbas]
      congr 2
      simp [inner3, one1, mirU, Fin.sum_univ_three]
      ring
    · intro a j
      refine ⟨hv j, 0, ?_⟩
      simp [IModel.init, hpos, one1]
  refine ⟨fun a j => ⟨0, ?_⟩, ?_, ?_⟩
  · fin_cases j <;> simp [one1, mirRot, Fin.sum_univ_three]
  · rw [hE _ fun j => by fin_cases j <;> norm_num [InHalfBox]]
    congr 1
    have : (6 / 10 * (![0, 1 / 6, 0] : Fin 3 → ℝ) 1 + 8 / 10 * (![0, 1 / 6, 0] : Fin 3 → ℝ) 2)
        = 1 / 10 := by norm_num [vec_two]
    rw [this, f1]; abel
  · rw [hE _ fun j => by fin_cases j <;> norm_num [InHalfBox]]
    congr 1
    have : (6 / 10 * (![1 / 6, 0, 0] : Fin 3 → ℝ) 1 + 8 / 10 * (![1 / 6, 0, 0] : Fin 3 → ℝ) 2)
        = 0 := by norm_num [vec_two]
    rw [this, f0, add_zero]

/-- C120, concrete: such a call succeeds. -/
example (nums : Fin 1 → ℕ) (pol A B : Mat3 ℝ) : ∃ s o,
    RefStructure.init mirSpglib nums 1 (fun _ _ => 0) = .ok s ∧ s.ops = mirOps ∧
    o = (IModel.init s pol false).addDof lookupSpline true (one1 mirU)
      [-(1 / 10), 1 / 10] [A, B] 2 true ∧ o.result = .ok () ∧ Interpolates lookupSpline := by
  obtain ⟨s, hs, hops⟩ := mirInit nums
  obtain ⟨f, hf, _⟩ := mir_add₁ nums s hs hops pol A B
  exact ⟨s, _, hs, hops, rfl, by rw [hf], lookupSpline_interpolates⟩

end Verif
