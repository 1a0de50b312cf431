import Verif.Spec.Line
import Verif.Props.Art
import Verif.Props.Dynamics
import Verif.Props.Workflow

/-!
# Properties C118 and C119: Raman tensors and reference values of interpolation models
-/

namespace Verif
open Spec

variable {N : ℕ}

/-! ## C118 -/

theorem evalOne_expansion (m : IModel N) (hi : m.interps.length = m.basis.length)
    (hk : m.mask.length = m.basis.length) (q w : Pos N ℝ) (hw : NearestImage m.ref.positions q w) :
    evalOne m.calcPolarizabilities q
      = .ok (expansion m.refPol m.basis m.interps m.mask (toCart m.ref.lattice w)) := by
  obtain ⟨r, hr, hf⟩ := C28_expansion m hi hk [q]
  cases hf with
  | @cons _ α _ l h hl =>
    cases hl
    unfold evalOne
    rw [hr, ← h w hw]
    rfl

theorem nearest_of_small (ref d : Pos N ℝ) (t : ℝ) (h : ∀ a i, |t * d a i| < 1 / 2) :
    NearestImage ref (fun a i => ref a i + t * d a i) (fun a i => t * d a i) := by
  intro a i
  refine ⟨?_, ⟨0, by simp⟩⟩
  have := abs_lt.1 (h a i)
  unfold InHalfBox
  constructor <;> linarith

theorem inner3_smul (b D : Pos N ℝ) (t : ℝ) :
    inner3 b (fun a j => t * D a j) = t * inner3 b D := by
  unfold inner3
  simp only [Finset.mul_sum]
  exact Finset.sum_congr rfl fun a _ => Finset.sum_congr rfl fun j _ => by ring

/-- C118: for displacements small enough not to cross the cell, the Raman tensor computed from
an interpolation model is the sum, over unmasked degrees of freedom, of the difference quotients
(step `ε = 0.001`, divided by `ε` instead of `2 ε`) of the interpolations along the projection of the
Cartesian displacement on the basis vector. -/
theorem C118_tensor (m : IModel N) (hi : m.interps.length = m.basis.length)
    (hk : m.mask.length = m.basis.length) (d : Pos N ℝ) (hd : ∀ a i, |d a i| < 500) :
    ramanTensor m.calcPolarizabilities m.ref.positions d
      = .ok ((m.basis.zip (m.interps.zip m.mask)).map fun x =>
          if x.2.2 then 0 else
            (1000 : ℝ) • (x.2.1 (1 / 1000 * inner3 x.1 (toCart m.ref.lattice d))
              - x.2.1 (-(1 / 1000) * inner3 x.1 (toCart m.ref.lattice d)))).sum := by
  have hs : ∀ t : ℝ, |t| = 1 / 1000 → ∀ a i, |t * d a i| < 1 / 2 := by
    intro t ht a i
    rw [abs_mul, ht]
    have := hd a i
    linarith
  have h1 : evalOne m.calcPolarizabilities
      (fun a i => m.ref.positions a i + d a i * centralDifference) = _ :=
    evalOne_expansion m hi hk _ (fun a i => (1 / 1000) * d a i) (by
      have := nearest_of_small m.ref.positions d (1 / 1000) (hs _ (by norm_num))
      convert this using 4
      unfold centralDifference; ring)
  have h2 : evalOne m.calcPolarizabilities
      (fun a i => m.ref.positions a i - d a i * centralDifference) = _ :=
    evalOne_expansion m hi hk _ (fun a i => (-(1 / 1000)) * d a i) (by
      have := nearest_of_small m.ref.positions d (-(1 / 1000)) (hs _ (by norm_num))
      convert this using 3
      unfold centralDifference; ring)
  rw [ramanTensor_of_ok h1 h2]
  congr 1
  unfold expansion
  rw [toCart_scaled, toCart_scaled, add_sub_add_left_eq_sub]
  generalize m.basis.zip (m.interps.zip m.mask) = l
  simp only [inner3_smul]
  induction l with
  | nil => simp
  | cons x l ih =>
    simp only [List.map_cons, List.sum_cons]
    rw [← ih, add_sub_add_comm, smul_add]
    congr 1
    unfold centralDifference
    split_ifs
    · simp
    · norm_num

/-- C118: if every interpolation is a polynomial of degree at most two (the splines of order one
through two points and of order two through three points are), the Raman tensor of a phonon is
exactly twice the sum of amplitude times slope at zero; the second order and the value at zero
have no influence. -/
theorem C118_quadratic (m : IModel N) (hi : m.interps.length = m.basis.length)
    (hk : m.mask.length = m.basis.length) (cs ss qs : List (Mat3 ℝ))
    (hlen : cs.length = m.interps.length ∧ ss.length = m.interps.length ∧
      qs.length = m.interps.length)
    (hf : ∀ (n : ℕ) f c s q, m.interps[n]? = some f → cs[n]? = some c → ss[n]? = some s →
      qs[n]? = some q → ∀ x : ℝ, f x = c + x • s + x ^ 2 • q)
    (d : Pos N ℝ) (hd : ∀ a i, |d a i| < 500) :
    ramanTensor m.calcPolarizabilities m.ref.positions d
      = .ok (2 • response (m.basis.map fun b => inner3 b (toCart m.ref.lattice d)) ss m.mask) := by
  rw [C118_tensor m hi hk d hd]
  congr 1
  unfold response
  generalize toCart m.ref.lattice d = D
  generalize m.basis = bs at hi hk
  generalize m.interps = fs at *
  generalize m.mask = ks at *
  induction bs generalizing fs ks cs ss qs with
  | nil => simp
  | cons b bs ih =>
    obtain ⟨l1, l2, l3⟩ := hlen
    cases fs with
    | nil => cases hi
    | cons f fs =>
    cases ks with
    | nil => cases hk
    | cons k ks =>
    cases cs with
    | nil => cases l1
    | cons c cs =>
    cases ss with
    | nil => cases l2
    | cons s ss =>
    cases qs with
    | nil => cases l3
    | cons q qs =>
    simp only [List.length_cons, add_left_inj] at hi hk l1 l2 l3
    have := ih (fs := fs) (ks := ks) (cs := cs) (ss := ss) (qs := qs) (hi := hi) (hk := hk)
      (hlen := ⟨l1, l2, l3⟩) (hf := fun n f' c' s' q' e1 e2 e3 e4 => hf (n + 1) f' c' s' q' e1 e2 e3 e4)
    simp only [List.map_cons, List.zip_cons_cons, List.sum_cons]
    rw [this, smul_add]
    congr 1
    have h0 := hf 0 f c s q rfl rfl rfl rfl
    rw [h0, h0]
    split_ifs
    · simp
    · ext i j
      simp only [Matrix.smul_apply, Matrix.sub_apply, Matrix.add_apply, smul_eq_mul]
      simp only [nsmul_eq_mul, Nat.cast_ofNat]
      ring

/-- C118: an even interpolation (as symmetry produces when a degree of freedom and its reverse are
equivalent) contributes nothing: with only even interpolations the Raman tensor vanishes. -/
theorem C118_even (m : IModel N) (hi : m.interps.length = m.basis.length)
    (hk : m.mask.length = m.basis.length) (he : ∀ f ∈ m.interps, ∀ x, f (-x) = f x)
    (d : Pos N ℝ) (hd : ∀ a i, |d a i| < 500) :
    ramanTensor m.calcPolarizabilities m.ref.positions d = .ok 0 := by
  rw [C118_tensor m hi hk d hd]
  congr 1
  apply List.sum_eq_zero
  intro A hA
  obtain ⟨x, hx, rfl⟩ := List.mem_map.1 hA
  have hmem : x.2.1 ∈ m.interps := (List.of_mem_zip (List.of_mem_zip hx).2).1
  split_ifs
  · rfl
  · rw [neg_mul, he _ hmem, sub_self, smul_zero]

theorem sorted_pair {l : List (ℝ × Mat3 ℝ)} (hl : l.length = 2)
    (h : SplineReady 1 (l.insertionSort fun a b => a.1 ≤ b.1)) :
    ∃ x₀ A x₁ B, x₀ < x₁ ∧ l.Perm [(x₀, A), (x₁, B)] ∧
      l.insertionSort (fun a b => a.1 ≤ b.1) = [(x₀, A), (x₁, B)] := by
  have hp := List.perm_insertionSort (fun a b : ℝ × Mat3 ℝ => a.1 ≤ b.1) l
  have h2 : (l.insertionSort fun a b => a.1 ≤ b.1).length = 2 := by rw [hp.length_eq, hl]
  obtain ⟨y, z, e⟩ := List.length_eq_two.1 h2
  rw [e] at h hp
  have := List.pairwise_pair.1 h.2.2
  exact ⟨y.1, y.2, z.1, z.2, this.1, hp.symm, e⟩

/-- C118 for `add_art`: every new interpolation made of two points is the straight line through
them. -/
theorem C118_straight_line (spline : SplineFn) (hsp : StraightLines spline) (we : Bool)
    (m : IModel N) (hd : m.dummy = false) (i : ℤ) (dir : Vec3) (amps : List ℝ)
    (pols : List (Mat3 ℝ)) (o : Outcome N) (ho : o = m.addArt spline we i dir amps pols)
    (hok : o.result = .ok ()) :
    ∃ (pairs : List (List (ℝ × Mat3 ℝ))) (fs : List (ℝ → Mat3 ℝ)),
      o.state.interps = m.interps ++ fs ∧
      List.Forall₂ (fun l f => l.length = 2 → ∃ x₀ A x₁ B, x₀ < x₁ ∧
        l.Perm [(x₀, A), (x₁, B)] ∧ f = chord x₀ x₁ A B) pairs fs ∧
      ∀ l ∈ pairs, ∃ (op : SymOp) (imgs : List (ℝ × SymOp)), op ∈ m.ref.ops ∧
        (∀ x ∈ imgs, x.2 ∈ m.ref.ops) ∧
        l = (amps.zip pols).map (fun y => (y.1, op.rot⁻¹ * (y.2 - m.refPol) * op.rot)) ++
          imgs.flatMap (fun x => (amps.zip pols).map fun y =>
            (x.1 * y.1, x.2.rot⁻¹ * (y.2 - m.refPol) * x.2.rot)) := by
  subst ho
  obtain ⟨k, dir', _, _, _, he⟩ := addArt_ok _ _ _ _ _ _ _ hok
  rw [he] at hok ⊢
  obtain ⟨parent, recs, fs, _, _, _, _, h5, _, _, h8, h9⟩ :=
    addDofNan_facts spline we m _ amps pols 1 false _ rfl hok
  refine ⟨recs.map Prod.snd, fs, by rw [h5, hd]; rfl, ?_, ?_⟩
  · rw [List.forall₂_map_left_iff]
    refine h8.imp fun r f hrf hl => ?_
    obtain ⟨x₀, A, x₁, B, h1, h2, h3⟩ := sorted_pair hl hrf.1
    refine ⟨x₀, A, x₁, B, h1, h2, ?_⟩
    have := hrf.2
    rw [h3] at this
    exact Except.ok.inj (this.symm.trans (hsp x₀ x₁ A B h1))
  · intro l hl
    obtain ⟨r, hr, rfl⟩ := List.mem_map.1 hl
    obtain ⟨p', groups, _, _, hF⟩ := h9.resolve_left (List.ne_nil_of_mem hr)
    obtain ⟨n, hn, rfl⟩ := List.mem_iff_getElem.1 hr
    have hg := (List.forall₂_iff_get.1 hF).2 n (by rw [hF.length_eq]; exact hn) hn
    simp only [List.get_eq_getElem] at hg
    obtain ⟨op, imgs, q1, q2, _, _, q3⟩ := hg.pts
    refine ⟨op, imgs, q2, q1, ?_⟩
    rw [q3]
    unfold dofPoints usedPols
    rw [List.flatMap_cons, hd]
    simp

/-- C118, concrete: one atom in the unit cube, mode 0 has slope one along `x`, mode 1 (along `y`) is
masked: the displacement `(3, 4, 0)` has Raman tensor `2·3`. -/
example : ramanTensor twoDof.calcPolarizabilities twoDof.ref.positions (fun _ => ![3, 4, 0])
    = .ok ((6 : ℝ) • (1 : Mat3 ℝ)) := by
  rw [C118_quadratic twoDof rfl rfl [0, 0] [1, 0] [0, 1] ⟨rfl, rfl, rfl⟩]
  · congr 1
    have hT : toCart twoDof.ref.lattice (fun _ : Fin 1 => ![3, 4, 0]) = fun _ => ![3, 4, 0] := by
      funext a j
      simp [toCart, twoDof, cube, Matrix.one_apply]
    rw [hT]
    have h3 : inner3 (fun _ : Fin 1 => ![1, 0, 0]) (fun _ => ![3, 4, 0]) = 3 := by
      simp [inner3, Fin.sum_univ_three]
    simp only [twoDof, List.map_cons, List.map_nil, h3, response, List.zip_cons_cons,
      List.zip_nil_right, List.sum_cons, List.sum_nil]
    ext i j
    simp [Matrix.one_apply]
    split_ifs <;> norm_num
  · intro n f c s q e1 e2 e3 e4 x
    match n with
    | 0 =>
      simp only [twoDof, List.getElem?_cons_zero, Option.some.injEq] at e1 e2 e3 e4
      subst e1 e2 e3 e4; simp
    | 1 =>
      simp only [twoDof, List.getElem?_cons_succ, List.getElem?_cons_zero, Option.some.injEq] at e1 e2 e3 e4
      subst e1 e2 e3 e4; simp
    | n + 2 => simp [twoDof] at e1
  · intro a i
    fin_cases i <;> norm_num

/-- A spline routine that draws straight lines. -/
noncomputable def lineSpline : SplineFn := fun _ pts =>
  match pts with
  | [x, y] => .ok (chord x.1 y.1 x.2 y.2)
  | _ => .error .valueError

theorem lineSpline_straight : StraightLines lineSpline := fun _ _ _ _ _ => rfl

/-- C118, concrete: `add_art` with two amplitudes on CsCl gives one straight line. -/
example (A B pol : Mat3 ℝ) : ∃ (s : RefStructure 2) (f : ℝ → Mat3 ℝ),
    ((IModel.init s pol false).addArt lineSpline true (-1) ![1 / 4, 0, 0]
      [-1 / 10, 1 / 10] [A, B]).state.interps = [f] ∧
    ∃ pairs fs, [f] = [] ++ fs ∧
      List.Forall₂ (fun (l : List (ℝ × Mat3 ℝ)) f => l.length = 2 → ∃ x₀ A x₁ B, x₀ < x₁ ∧
        l.Perm [(x₀, A), (x₁, B)] ∧ f = chord x₀ x₁ A B) pairs fs := by
  obtain ⟨s, hs, hops⟩ := pairInit
  obtain ⟨b, f, h⟩ := pair_addArt_with lineSpline A B pol s hs hops ⟨_, rfl⟩
  obtain ⟨pairs, fs, h1, h2, _⟩ := C118_straight_line lineSpline lineSpline_straight true
    (IModel.init s pol false) rfl (-1) ![1 / 4, 0, 0] [-1 / 10, 1 / 10] [A, B] _ rfl (by rw [h])
  rw [h] at h1
  exact ⟨s, f, by rw [h], pairs, fs, h1, h2⟩

/-! ## C119 -/

theorem nearest_self (p : Pos N ℝ) : NearestImage p p 0 :=
  fun a i => ⟨by norm_num [InHalfBox], ⟨0, by simp⟩⟩

theorem toCart_zero (L : Mat3 ℝ) : toCart L (0 : Pos N ℝ) = 0 := by
  funext a j; simp [toCart]

theorem inner3_zero (b : Pos N ℝ) : inner3 b 0 = 0 := by simp [inner3]

/-- C119: at the reference structure the prediction is the reference polarizability plus the values
of the unmasked interpolations at zero amplitude. -/
theorem C119_reference_value (m : IModel N) (hi : m.interps.length = m.basis.length)
    (hk : m.mask.length = m.basis.length) :
    evalOne m.calcPolarizabilities m.ref.positions
      = .ok (m.refPol + ((m.interps.zip m.mask).map fun x => if x.2 then 0 else x.1 0).sum) := by
  rw [evalOne_expansion m hi hk _ 0 (nearest_self _), toCart_zero]
  congr 1
  unfold expansion
  congr 1
  simp only [inner3_zero]
  generalize m.basis = bs at hi hk
  generalize m.interps = fs at *
  generalize m.mask = ks at *
  induction bs generalizing fs ks with
  | nil =>
    rw [List.length_eq_zero_iff.1 hi]; rfl
  | cons b bs ih =>
    cases fs with
    | nil => cases hi
    | cons f fs =>
    cases ks with
    | nil => cases hk
    | cons k ks =>
      simp only [List.length_cons, add_left_inj] at hi hk
      simp only [List.zip_cons_cons, List.map_cons, List.sum_cons]
      rw [ih (hi := hi) (hk := hk)]

/-- C119 for `add_dof` with the reference polarizability included: every degree of freedom vanishes
at zero amplitude, so a model built by such calls returns the reference polarizability at the
reference structure. -/
theorem C119_add_dof (spline : SplineFn) (hsp : Interpolates spline) (we : Bool) (m : IModel N)
    (hd : m.dummy = false) (hi : m.interps.length = m.basis.length)
    (hk : m.mask.length = m.basis.length) (h0 : ∀ f ∈ m.interps, f 0 = 0)
    (cart : Pos N ℝ) (amps : List ℝ) (pols : List (Mat3 ℝ)) (order : ℤ) (o : Outcome N)
    (ho : o = m.addDof spline we cart amps pols order true) (hok : o.result = .ok ()) :
    (∀ f ∈ o.state.interps, f 0 = 0) ∧
    evalOne o.state.calcPolarizabilities m.ref.positions = .ok m.refPol := by
  obtain ⟨parent, recs, fs, _, _, _, _, h5, _, _, h8, h9⟩ :=
    addDofNan_facts spline we m (some cart) amps pols order true o ho hok
  have hz : ∀ f ∈ o.state.interps, f 0 = 0 := by
    intro f hf
    rw [h5, hd] at hf
    rcases List.mem_append.1 hf with hf | hf
    · exact h0 f hf
    · change f ∈ fs at hf
      obtain ⟨n, hn, rfl⟩ := List.mem_iff_getElem.1 hf
      have hn' : n < recs.length := by rw [h8.length_eq]; exact hn
      have hr := (List.forall₂_iff_get.1 h8).2 n hn' hn
      simp only [List.get_eq_getElem] at hr
      obtain ⟨p', groups, _, _, hF⟩ := h9.resolve_left
        (List.ne_nil_of_mem (List.getElem_mem hn'))
      have hg := (List.forall₂_iff_get.1 hF).2 n (by rw [hF.length_eq]; exact hn') hn'
      simp only [List.get_eq_getElem] at hg
      obtain ⟨op, imgs, _, _, _, _, q3⟩ := hg.pts
      refine hsp _ _ _ hr.1 hr.2 (0, 0) ?_
      rw [(List.perm_insertionSort _ _).mem_iff, q3]
      simp [dofPoints]
  refine ⟨hz, ?_⟩
  have hlen := h8.length_eq
  have e1 : o.state.interps.length = o.state.basis.length := by
    rw [h5, hd]
    simp [hi, hlen]
  have e2 : o.state.mask.length = o.state.basis.length := by
    rw [h5]; simp [hk]
  have hr : o.state.ref = m.ref := by rw [h5]
  have hp : o.state.refPol = m.refPol := by rw [h5]
  rw [← hr, C119_reference_value _ e1 e2, hp]
  congr 1
  rw [List.sum_eq_zero, add_zero]
  intro A hA
  obtain ⟨x, hx, rfl⟩ := List.mem_map.1 hA
  split_ifs
  · rfl
  · exact hz _ (List.of_mem_zip hx).1

theorem chord_sub (x₀ x₁ : ℝ) (A B P : Mat3 ℝ) (x : ℝ) :
    P + chord x₀ x₁ (A - P) (B - P) x = chord x₀ x₁ A B x := by
  unfold chord
  rw [sub_sub_sub_cancel_right, ← add_assoc, add_sub_cancel]

/-- C119 for ART models: in a crystal without symmetry, a model with one atomic Raman tensor built
from two amplitudes predicts the straight line through the two *given polarizabilities*.  The
reference polarizability of the model has no influence on any prediction. -/
theorem C119_single_art (spglib : Mat3 ℝ → Pos N ℝ → (Fin N → ℕ) → Option SymDict)
    (nums : Fin N → ℕ) (lat : Mat3 ℝ) (p : Pos N ℝ) (s : RefStructure N)
    (hs : RefStructure.init spglib nums lat p = .ok s)
    (hsep : ∀ j k, j ≠ k → Apart (2 / 10 ^ 5) (p j) (p k)) (hid : s.ops = [⟨1, 0⟩])
    (spline : SplineFn) (hsp : StraightLines spline) (we : Bool) (pol : Mat3 ℝ) (i : ℤ) (dir : Vec3)
    (x₀ x₁ : ℝ) (hx : x₀ < x₁) (A B : Mat3 ℝ) (amps : List ℝ) (pols : List (Mat3 ℝ))
    (hdata : amps = [x₀, x₁] ∧ pols = [A, B] ∨ amps = [x₁, x₀] ∧ pols = [B, A]) (o : Outcome N)
    (ho : o = (IModel.init s pol false).addArt spline we i dir amps pols)
    (hok : o.result = .ok ()) (hb : o.state.basis ≠ []) :
    ∃ b, o.state.basis = [b] ∧ ∀ q w, NearestImage p q w →
      evalOne o.state.calcPolarizabilities q = .ok (chord x₀ x₁ A B (inner3 b (toCart lat w))) := by
  subst ho
  obtain ⟨k, dir', _, _, _, he⟩ := addArt_ok _ _ _ _ _ _ _ hok
  rw [he] at hok hb ⊢
  obtain ⟨parent, recs, fs, _, _, _, _, h5, _, _, h8, h9⟩ :=
    addDofNan_facts spline we (IModel.init s pol false) _ amps pols 1 false _ rfl hok
  have hne : recs ≠ [] := fun h => hb (by rw [h5, h]; rfl)
  obtain ⟨par, groups, hpar, hg, hF⟩ := h9.resolve_left hne
  -- a crystal without symmetry has one group with one member
  obtain ⟨done, orth, hI, _, hlen⟩ := getEq_some _ _ _ hg
  have hsub := hI.prov.length_le
  have hops1 : s.ops.length = 1 := by rw [hid]; rfl
  change done.length ≤ s.ops.length at hlen
  obtain ⟨r, recs, rfl⟩ := List.exists_cons_of_ne_nil hne
  have hF' := hF
  cases hF with
  | @cons g _ groups _ hgr hF =>
  have hmem : ∀ g' ∈ g :: groups, 1 ≤ g'.displacements.length := by
    intro g' hg'
    obtain ⟨n, hn, rfl⟩ := List.mem_iff_getElem.1 hg'
    have := (List.forall₂_iff_get.1 hF').2 n hn (by rw [← hF'.length_eq]; exact hn)
    simp only [List.get_eq_getElem] at this
    obtain ⟨c, rest, e, _⟩ := this.basis
    rw [e]; simp
  have hpl : ∀ g' ∈ g :: groups, g'.pairs.length = g'.displacements.length := by
    intro g' hg'
    have := hI.len g' hg'
    unfold EqGroup.pairs; rw [List.length_zip]; omega
  have hgs : groups = [] := by
    by_contra hc
    obtain ⟨g', groups', rfl⟩ := List.exists_cons_of_ne_nil hc
    simp only [List.flatMap_cons, List.length_append] at hsub
    have a1 := hpl g (by simp)
    have a2 := hpl g' (by simp)
    have a3 := hmem g (by simp)
    have a4 := hmem g' (by simp)
    omega
  subst hgs
  cases hF
  have htr : g.transformations.length = 1 := by
    simp only [List.flatMap_cons, List.length_append] at hsub
    have a1 := hpl g (by simp)
    have a3 := hmem g (by simp)
    have a5 := hI.len g (by simp)
    omega
  obtain ⟨op, imgs, _, q2, _, q4, q5⟩ := hgr.pts
  have himgs : imgs = [] := List.length_eq_zero_iff.1 (by omega)
  subst himgs
  have hop : op = ⟨1, 0⟩ := by
    change op ∈ s.ops at q2
    rw [hid] at q2; simpa using q2
  subst hop
  cases h8 with
  | @cons _ f _ fs hf h8 =>
  cases h8
  have hpts : r.2 = (amps.zip pols).map fun y => (y.1, y.2 - pol) := by
    rw [q5]
    simp [dofPoints, usedPols, IModel.init]
  have hsort : r.2.insertionSort (fun a b => a.1 ≤ b.1) = [(x₀, A - pol), (x₁, B - pol)] := by
    rw [hpts]
    rcases hdata with ⟨rfl, rfl⟩ | ⟨rfl, rfl⟩
    · simp [List.insertionSort, hx.le]
    · simp [List.insertionSort, List.orderedInsert, not_le.2 hx]
  have hfc : f = chord x₀ x₁ (A - pol) (B - pol) := by
    have := hf.2
    rw [hsort] at this
    exact Except.ok.inj (this.symm.trans (hsp x₀ x₁ _ _ hx))
  refine ⟨r.1, by rw [h5]; rfl, fun q w hw => ?_⟩
  obtain ⟨hpos, hlat, _⟩ := init_facts hs
  rw [h5, evalOne_expansion _ rfl rfl q w (by change NearestImage s.positions q w; rwa [hpos])]
  congr 1
  change expansion pol ([] ++ [r.1]) ([] ++ [f]) ([] ++ [false]) (toCart s.lattice w) = _
  rw [hlat, hfc]
  simp [expansion, chord_sub]

/-- C119, counterexample: an ART model need not return its reference polarizability at its reference
structure.  For CsCl with reference polarizability `pol` and one ART made of the polarizabilities
`A` and `B` at amplitudes `-0.1` and `0.1`, it returns `(A + B) / 2`. -/
theorem C119_art_reference (A B pol : Mat3 ℝ) : ∃ (s : RefStructure 2) (o : Outcome 2),
    RefStructure.init pairSpglib ![55, 17] 1 csCl = .ok s ∧
    o = (IModel.init s pol false).addArt lineSpline true (-1) ![1 / 4, 0, 0]
      [-1 / 10, 1 / 10] [A, B] ∧ o.result = .ok () ∧ o.warnings = [] ∧ o.state.refPol = pol ∧
    evalOne o.state.calcPolarizabilities o.state.ref.positions
      = .ok ((1 / 2 : ℝ) • (A + B)) := by
  obtain ⟨s, hs, hops⟩ := pairInit
  obtain ⟨b, f, h⟩ := pair_addArt_with lineSpline A B pol s hs hops ⟨_, rfl⟩
  refine ⟨s, _, hs, rfl, by rw [h], by rw [h], by rw [h]; rfl, ?_⟩
  obtain ⟨b', _, hb⟩ := C119_single_art pairSpglib _ _ _ s hs csCl_apart hops lineSpline
    lineSpline_straight true pol (-1) ![1 / 4, 0, 0] (-1 / 10) (1 / 10) (by norm_num) A B _ _
    (Or.inl ⟨rfl, rfl⟩) _ rfl (by rw [h]) (by rw [h]; simp)
  have hp : ((IModel.init s pol false).addArt lineSpline true (-1) ![1 / 4, 0, 0]
      [-1 / 10, 1 / 10] [A, B]).state.ref.positions = csCl := by
    rw [h]; exact (init_facts hs).1
  rw [hp, hb csCl 0 (nearest_self _), toCart_zero, inner3_zero]
  congr 1
  unfold chord
  ext i j
  simp only [Matrix.add_apply, Matrix.smul_apply, Matrix.sub_apply, smul_eq_mul]
  ring

/-- C119: in particular the reference polarizability itself is not returned. -/
theorem C119_not_reference : ∃ (s : RefStructure 2) (o : Outcome 2),
    RefStructure.init pairSpglib ![55, 17] 1 csCl = .ok s ∧
    o = (IModel.init s 0 false).addArt lineSpline true (-1) ![1 / 4, 0, 0]
      [-1 / 10, 1 / 10] [1, 1] ∧ o.result = .ok () ∧
    evalOne o.state.calcPolarizabilities o.state.ref.positions ≠ .ok o.state.refPol := by
  obtain ⟨s, o, h1, h2, h3, _, h5, h6⟩ := C119_art_reference 1 1 0
  refine ⟨s, o, h1, h2, h3, fun h => ?_⟩
  rw [h6, h5] at h
  have := congrFun (congrFun (Except.ok.inj h) 0) 0
  simp only [Matrix.smul_apply, Matrix.add_apply, Matrix.one_apply_eq, Matrix.zero_apply,
    smul_eq_mul] at this
  norm_num at this

/-- C119: one ART returns the reference polarizability at the reference structure exactly if the
reference point lies on the line through the two given points. -/
theorem C119_iff (x₀ x₁ : ℝ) (hx : x₀ < x₁) (A B pol : Mat3 ℝ) :
    chord x₀ x₁ A B 0 = pol ↔ x₁ • (A - pol) = x₀ • (B - pol) := by
  have h : x₁ - x₀ ≠ 0 := (sub_pos.2 hx).ne'
  constructor
  · rintro rfl
    unfold chord
    ext i j
    simp only [Matrix.add_apply, Matrix.smul_apply, Matrix.sub_apply, smul_eq_mul]
    field_simp
    ring
  · intro he
    ext i j
    have := congrFun (congrFun he i) j
    simp only [chord, Matrix.add_apply, Matrix.smul_apply, Matrix.sub_apply, smul_eq_mul] at this ⊢
    field_simp
    linarith

end Verif
