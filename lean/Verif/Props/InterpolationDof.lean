import Verif.Proofs.InterpAdd
import Verif.Props.Interpolation

/-!
# Properties C32-C37, C39: degrees of freedom of interpolation models
(`pmodel/_interpolation.py`)
-/

namespace Verif
open Spec

variable {N : ℕ}

/-! ## C32 -/

theorem sum_zero_of {α : Type} (l : List α) (f : α → Mat3 ℝ) (h : ∀ x ∈ l, f x = 0) :
    (l.map f).sum = 0 :=
  List.sum_eq_zero fun y hy => by
    obtain ⟨x, hx, rfl⟩ := List.mem_map.1 hy
    exact h x hx

/-- C32 (general): in a consistent model, let `b` be an unmasked basis vector of unit length,
let the other basis vectors be orthogonal to it and the other interpolations vanish at zero.
At a structure displaced from the reference by `a · b` (Cartesian, minimum image), the model
predicts the reference polarizability plus the interpolation of `b` at `a`. -/
theorem C32_on_axis (m : IModel N) (B₁ B₂ : List (Pos N ℝ)) (b : Pos N ℝ)
    (F₁ F₂ : List (ℝ → Mat3 ℝ)) (f : ℝ → Mat3 ℝ) (K₁ K₂ : List Bool)
    (hB : m.basis = B₁ ++ b :: B₂) (hF : m.interps = F₁ ++ f :: F₂)
    (hK : m.mask = K₁ ++ false :: K₂)
    (hl : F₁.length = B₁.length ∧ F₂.length = B₂.length ∧ K₁.length = B₁.length ∧
      K₂.length = B₂.length)
    (hunit : inner3 b b = 1) (horth : ∀ x ∈ B₁ ++ B₂, inner3 x b = 0)
    (hzero : ∀ g ∈ F₁ ++ F₂, g 0 = 0) (q w : Pos N ℝ) (a : ℝ)
    (hw : NearestImage m.ref.positions q w)
    (hD : toCart m.ref.lattice w = fun i j => a * b i j) :
    m.calcPolarizabilities [q] = .ok [m.refPol + f a] := by
  obtain ⟨r, h1, h2⟩ := C28_expansion m (by simp [hB, hF, hl.1, hl.2.1])
    (by simp [hB, hK, hl.2.2.1, hl.2.2.2]) [q]
  rw [h1]
  cases h2 with
  | cons hα ht =>
  cases ht
  rw [hα w hw, hD]
  have hin : ∀ x : Pos N ℝ, inner3 x (fun i j => a * b i j) = a * inner3 x b := fun x => by
    unfold inner3
    rw [Finset.mul_sum]
    refine Finset.sum_congr rfl fun i _ => ?_
    rw [Finset.mul_sum]
    exact Finset.sum_congr rfl fun j _ => by ring
  unfold expansion
  rw [hB, hF, hK, List.zip_append (by simp [hl.1, hl.2.2.1]), List.zip_append (by
    rw [List.length_zip, hl.1, hl.2.2.1]; simp), List.map_append, List.sum_append]
  have z1 : ∀ (Bs : List (Pos N ℝ)) (Fs : List (ℝ → Mat3 ℝ)) (Ks : List Bool),
      (∀ x ∈ Bs, inner3 x b = 0) → (∀ g ∈ Fs, g 0 = 0) →
      ((Bs.zip (Fs.zip Ks)).map fun x => if x.2.2 then 0 else
        x.2.1 (inner3 x.1 fun i j => a * b i j)).sum = 0 := by
    intro Bs Fs Ks g1 g2
    refine sum_zero_of _ _ fun x hx => ?_
    have e1 := (List.of_mem_zip hx).1
    have e2 := (List.of_mem_zip (List.of_mem_zip hx).2).1
    split_ifs
    · rfl
    · rw [hin, g1 _ e1, mul_zero]; exact g2 _ e2
  rw [z1 B₁ F₁ K₁ (fun x hx => horth x (by simp [hx])) (fun g hg => hzero g (by simp [hg]))]
  rw [List.zip_cons_cons, List.zip_cons_cons, List.map_cons, List.sum_cons]
  rw [z1 B₂ F₂ K₂ (fun x hx => horth x (by simp [hx])) (fun g hg => hzero g (by simp [hg]))]
  simp [hin, hunit]

theorem init_facts {spglib : Mat3 ℝ → Pos N ℝ → (Fin N → ℕ) → Option SymDict}
    {nums : Fin N → ℕ} {lat : Mat3 ℝ} {p : Pos N ℝ} {s : RefStructure N}
    (hs : RefStructure.init spglib nums lat p = .ok s) :
    s.positions = p ∧ s.lattice = lat ∧
      List.Forall₂ (fun op P => permMatrixOf (comShift p) p op = .ok P) s.ops s.perms := by
  unfold RefStructure.init at hs
  split at hs
  · cases hs
  · rename_i sym _
    cases hperm : computePermutationMatrices sym.ops p with
    | error er => rw [hperm] at hs; cases hs
    | ok Ps =>
      rw [hperm] at hs; cases hs
      exact ⟨rfl, rfl, (mapM_except_ok _ _ _).1 hperm⟩

/-- C32 (end to end): a fresh model on a structure whose first symmetry operation is the
identity, with a spline routine that interpolates.  If `add_dof` (reference polarizability
included) succeeds and adds degrees of freedom that are orthogonal to the first one, then
the first basis vector points along the given displacement, the model returns every
supplied polarizability at the structure displaced by the corresponding amplitude, and
the reference polarizability at the reference structure. -/
theorem C32_reproduces_data (spglib : Mat3 ℝ → Pos N ℝ → (Fin N → ℕ) → Option SymDict)
    (nums : Fin N → ℕ) (lat : Mat3 ℝ) (p : Pos N ℝ) (s : RefStructure N)
    (hs : RefStructure.init spglib nums lat p = .ok s)
    (hsep : ∀ j k, j ≠ k → Apart (2 / 10 ^ 5) (p j) (p k))
    (rest : List SymOp) (hid : s.ops = ⟨1, 0⟩ :: rest)
    (spline : SplineFn) (hspline : Interpolates spline) (we : Bool) (pol : Mat3 ℝ)
    (cart : Pos N ℝ) (amps : List ℝ) (pols : List (Mat3 ℝ)) (order : ℤ)
    (w : Pos N ℝ) (hw : s.getFracDisplacement cart = .ok w) (hw0 : w ≠ 0)
    (o : Outcome N)
    (ho : o = (IModel.init s pol false).addDof spline we cart amps pols order true)
    (hok : o.result = .ok ())
    (b : Pos N ℝ) (B : List (Pos N ℝ)) (hB : o.state.basis = b :: B)
    (horth : ∀ x ∈ B, inner3 x b = 0) :
    (∃ c > 0, ∀ a i, b a i = c * toCart lat w a i) ∧ inner3 b b = 1 ∧
    (∀ x ∈ amps.zip pols, ∀ q v, NearestImage p q v → toCart lat v = (fun i j => x.1 * b i j) →
      o.state.calcPolarizabilities [q] = .ok [x.2]) ∧
    o.state.calcPolarizabilities [p] = .ok [pol] := by
  obtain ⟨hpos, hlat, _⟩ := init_facts hs
  obtain ⟨parent, recs, fs, h1, h2, h3, _, h5, _, _, h8, h9⟩ :=
    addDofNan_facts spline we _ _ _ _ _ _ o ho hok
  have hbasis : recs.map Prod.fst = b :: B := by
    rw [← hB, h5]; rfl
  have hne : recs ≠ [] := fun h => by rw [h] at hbasis; simp at hbasis
  obtain ⟨p', groups, hp', hg, hF⟩ := h9.resolve_left hne
  obtain ⟨par, c, hc, g1, g2, g3, _, _⟩ := (parent_facts (IModel.init s pol false) cart w hw).2 hw0
  rw [g1] at h1
  cases h1
  cases hp'
  rw [g3] at hg
  have hd : ∃ a i, ¬ SameImage (w a i) 0 := by
    by_contra hcon
    push Not at hcon
    apply hw0
    funext a i
    exact (hcon a i).eq_of_inHalfBox ((frac_ok _ _ _ hw).2.1 a i) (by norm_num [InHalfBox])
  obtain ⟨g, gs, e, k1, k2, k3, k4⟩ := C16_first_is_input spglib nums lat p s hs hsep rest hid w hd
  have hgr : groups = g :: gs := by
    have : Except.ok (some groups) = (Except.ok (some (g :: gs)) : Py _) := hg.symm.trans k1
    cases this; rfl
  subst hgr
  cases recs with
  | nil => exact absurd rfl hne
  | cons r rs =>
  obtain ⟨hr, hrs⟩ := List.forall₂_cons.1 hF
  simp only [List.map_cons, List.cons.injEq] at hbasis
  obtain ⟨hb, hBs⟩ := hbasis
  -- the first basis vector
  obtain ⟨child, rst, e1, e2⟩ := hr.basis
  rw [e1] at k2
  simp only [List.head?_cons, Option.some.injEq] at k2
  subst k2
  obtain ⟨_, hunit, c2, hc2, hbc⟩ := normalizePos_some _ _ e2
  obtain ⟨⟨c3, hc3, hscale⟩, hnorm⟩ := k4
  have hwrap : applyPbcDisplacement w = w := by
    funext a i; exact wrap1_of_inHalfBox ((frac_ok _ _ _ hw).2.1 a i)
  have hchild : ∀ a i, InHalfBox (child a i) := by
    refine box_of_norm (le_of_eq ?_)
    unfold norm2
    have : dot (flat child) (flat child) = (1 / 10) ^ 2 := by
      rw [dot, Fintype.sum_prod_type]
      calc _ = ∑ a, ∑ i, child a i ^ 2 := Finset.sum_congr rfl fun a _ =>
            Finset.sum_congr rfl fun i _ => by simp [flat, sq]
        _ = _ := by rw [hnorm]; norm_num
    rw [this, Real.sqrt_sq (by norm_num)]
  rw [hb] at hunit hbc
  have hcart : s.getCartDisplacement child = fun a i => c3 * toCart lat w a i := by
    rw [getCart_of_box _ _ hchild, hlat]
    funext a j
    unfold toCart
    rw [Finset.mul_sum]
    refine Finset.sum_congr rfl fun i _ => ?_
    rw [hscale, hwrap]; ring
  refine ⟨⟨c2 * c3, by positivity, fun a i => ?_⟩, hunit, ?_⟩
  · rw [hbc]
    change c2 * s.getCartDisplacement child a i = _
    rw [hcart]; ring
  -- interpolations
  cases h8 with
  | @cons _ f _ fs' hf hfs =>
  have hstate : o.state.interps = f :: fs' := by rw [h5]; rfl
  have hmask : o.state.mask = false :: List.replicate rs.length false := by rw [h5]; rfl
  have href : o.state.ref = s := by rw [h5]; rfl
  have hrp : o.state.refPol = pol := by rw [h5]; rfl
  have hmemr : ∀ x ∈ r.2, f x.1 = x.2 := fun x hx =>
    hspline _ _ _ hf.1 hf.2 x ((List.perm_insertionSort _ _).mem_iff.2 hx)
  have hzero : ∀ g ∈ fs', g 0 = 0 := by
    intro g' hg'
    obtain ⟨k, hk, rfl⟩ := List.mem_iff_getElem.1 hg'
    have hk1 : k < rs.length := by rw [hfs.length_eq]; exact hk
    have hk2 : k < gs.length := by rw [hrs.length_eq]; exact hk1
    have q1 := (List.forall₂_iff_get.1 hfs).2 k hk1 hk
    have q2 := (List.forall₂_iff_get.1 hrs).2 k hk2 hk1
    simp only [List.get_eq_getElem] at q1 q2
    obtain ⟨op, imgs, _, _, _, _, q3⟩ := q2.pts
    have : ((0 : ℝ), (0 : Mat3 ℝ)) ∈ rs[k].2 := by
      rw [q3]; unfold dofPoints; simp
    exact hspline _ _ _ q1.1 q1.2 _ ((List.perm_insertionSort _ _).mem_iff.2 this)
  have hax : ∀ q v a, NearestImage p q v → toCart lat v = (fun i j => a * b i j) →
      o.state.calcPolarizabilities [q] = .ok [pol + f a] := by
    intro q v a hq hv
    rw [← hrp]
    refine C32_on_axis o.state [] B b [] fs' f [] (List.replicate rs.length false) ?_ ?_ ?_ ?_
      hunit (by simpa using horth) (by simpa using hzero) q v a ?_ ?_
    · simpa using hB
    · simpa using hstate
    · simpa using hmask
    · refine ⟨rfl, ?_, rfl, ?_⟩
      · rw [← hfs.length_eq, ← hBs, List.length_map]
      · rw [List.length_replicate, ← hBs, List.length_map]
    · rw [href, hpos]; exact hq
    · rw [href, hlat]; exact hv
  obtain ⟨op, imgs, _, _, p3, _, p4⟩ := hr.pts
  rw [k3] at p3
  cases p3
  constructor
  · intro x hx q v hq hv
    rw [hax q v x.1 hq hv]
    have : (x.1, x.2 - pol) ∈ r.2 := by
      rw [p4]
      unfold dofPoints
      refine List.mem_append_right _ (List.mem_flatMap.2 ⟨(1, ⟨1, 0⟩), by simp, ?_⟩)
      refine List.mem_map.2 ⟨x, hx, ?_⟩
      simp [IModel.init]
    rw [hmemr _ this]
    simp
  · have h0 : ((0 : ℝ), (0 : Mat3 ℝ)) ∈ r.2 := by
      rw [p4]; unfold dofPoints; simp
    rw [hax p 0 0 ?_ ?_, hmemr _ h0, add_zero]
    · intro a i
      refine ⟨by norm_num [InHalfBox], ?_⟩
      simpa using SameImage.refl (0 : ℝ)
    · funext i j
      simp [toCart]

/-! ### A structure without symmetry -/

theorem getEq_single (spglib : Mat3 ℝ → Pos N ℝ → (Fin N → ℕ) → Option SymDict)
    (nums : Fin N → ℕ) (lat : Mat3 ℝ) (p : Pos N ℝ) (s : RefStructure N)
    (hs : RefStructure.init spglib nums lat p = .ok s)
    (hsep : ∀ j k, j ≠ k → Apart (2 / 10 ^ 5) (p j) (p k)) (hid : s.ops = [⟨1, 0⟩])
    (d : Pos N ℝ) (hd : ∃ a i, ¬ SameImage (d a i) 0) :
    ∃ e, s.getEquivalentDisplacements d = .ok (some [⟨[e], [⟨1, 0⟩]⟩]) ∧
      Rescaled (applyPbcDisplacement d) e := by
  obtain ⟨g, gs, e, h1, h2, h3, h4⟩ := C16_first_is_input spglib nums lat p s hs hsep [] hid d hd
  refine ⟨e, ?_, h4⟩
  obtain ⟨done, orth, hI, _, hlen⟩ := getEq_some _ _ _ h1
  have hsub := hI.prov.length_le
  rw [hid] at hlen
  rw [List.flatMap_cons, List.length_append] at hsub
  simp only [List.length_singleton] at hlen
  have hl := hI.len g (by simp)
  have hgp : g.pairs.length = g.displacements.length := by
    unfold EqGroup.pairs; rw [List.length_zip]; omega
  have hd1 : g.displacements.length = 1 := by
    have : g.displacements.length ≠ 0 := fun h0 => by
      rw [List.length_eq_zero_iff.1 h0] at h2; cases h2
    omega
  have hgs : gs = [] := by
    by_contra hne
    obtain ⟨g', hg'⟩ := List.exists_mem_of_ne_nil _ hne
    have hh : (g'.displacements.head?) ∈ (g :: gs).map fun g => g.displacements.head? :=
      List.mem_map_of_mem (List.mem_cons_of_mem _ hg')
    rw [hI.heads] at hh
    obtain ⟨x, _, hx⟩ := List.mem_map.1 hh
    have hl' := hI.len g' (by simp [hg'])
    have hpos : 0 < g'.displacements.length := by
      rcases Nat.eq_zero_or_pos g'.displacements.length with h0 | h0
      · rw [List.length_eq_zero_iff.1 h0] at hx; cases hx
      · exact h0
    have hp' : 0 < g'.pairs.length := by
      unfold EqGroup.pairs; rw [List.length_zip]; omega
    have : 0 < (gs.flatMap EqGroup.pairs).length := by
      obtain ⟨y, hy⟩ := List.exists_mem_of_length_pos hp'
      exact List.length_pos_of_mem (List.mem_flatMap.2 ⟨g', hg', hy⟩)
    omega
  subst hgs
  obtain ⟨ds, ts⟩ := g
  dsimp only at h2 h3 hd1 hl
  obtain ⟨d0, rfl⟩ := List.length_eq_one_iff.1 hd1
  rw [hd1] at hl
  obtain ⟨t0, rfl⟩ := List.length_eq_one_iff.1 hl.symm
  cases h2; cases h3
  exact h1

/-- `add_dof` on a fresh model over a structure without symmetry. -/
theorem addDof_single (spglib : Mat3 ℝ → Pos N ℝ → (Fin N → ℕ) → Option SymDict)
    (nums : Fin N → ℕ) (lat : Mat3 ℝ) (p : Pos N ℝ) (s : RefStructure N)
    (hs : RefStructure.init spglib nums lat p = .ok s)
    (hsep : ∀ j k, j ≠ k → Apart (2 / 10 ^ 5) (p j) (p k)) (hid : s.ops = [⟨1, 0⟩])
    (spline : SplineFn) (we : Bool) (pol : Mat3 ℝ) (cart w : Pos N ℝ)
    (hw : s.getFracDisplacement cart = .ok w) (hw0 : w ≠ 0) (amps : List ℝ)
    (pols : List (Mat3 ℝ)) (hlen : pols.length = amps.length) (order : ℤ) (ho : 1 ≤ order)
    (inc : Bool) :
    ∃ b, prepareDof (IModel.init s pol false) (some cart) amps pols inc
      = .ok [⟨some b, (dofPoints pol inc [(1, ⟨1, 0⟩)] (amps.zip pols)).map
          fun x => (some x.1, x.2)⟩] ∧
      ∀ f ws, buildOne spline we order.toNat ((dofPoints pol inc [(1, ⟨1, 0⟩)] (amps.zip pols)).map
          fun x => (some x.1, x.2)) = (.ok f, ws) →
      (IModel.init s pol false).addDof spline we cart amps pols order inc
        = ⟨.ok (), ws, { IModel.init s pol false with
            basis := [b], interps := [f], mask := [false] }⟩ := by
  have hd : ∃ a i, ¬ SameImage (w a i) 0 := by
    by_contra hcon
    push Not at hcon
    apply hw0
    funext a i
    exact (hcon a i).eq_of_inHalfBox ((frac_ok _ _ _ hw).2.1 a i) (by norm_num [InHalfBox])
  obtain ⟨e, he, hresc⟩ := getEq_single spglib nums lat p s hs hsep hid w hd
  obtain ⟨par, c, hc, g1, g2, g3, _, _⟩ := (parent_facts (IModel.init s pol false) cart w hw).2 hw0
  obtain ⟨⟨c3, hc3, hscale⟩, hnorm⟩ := hresc
  have he0 : e ≠ 0 := by
    rintro rfl
    simp at hnorm
  have hwrap : applyPbcDisplacement w = w := by
    funext a i; exact wrap1_of_inHalfBox ((frac_ok _ _ _ hw).2.1 a i)
  have hbox : ∀ a i, InHalfBox (e a i) := by
    refine box_of_norm (le_of_eq ?_)
    unfold norm2
    have : dot (flat e) (flat e) = (1 / 10) ^ 2 := by
      rw [dot, Fintype.sum_prod_type]
      calc _ = ∑ a, ∑ i, e a i ^ 2 := Finset.sum_congr rfl fun a _ =>
            Finset.sum_congr rfl fun i _ => by simp [flat, sq]
        _ = _ := by rw [hnorm]; norm_num
    rw [this, Real.sqrt_sq (by norm_num)]
  have hdet := (frac_ok _ _ _ hw).1
  have hcart : s.getCartDisplacement e ≠ 0 := by
    rw [getCart_of_box _ _ hbox]
    intro h0
    apply he0
    have h1 : matMulPos (matMulPos e s.lattice) s.lattice⁻¹ = e := matMulPos_inv_right hdet e
    have h2 : matMulPos e s.lattice = 0 := h0
    rw [h2] at h1
    rw [← h1]
    funext a i
    simp [matMulPos]
  obtain ⟨b, hb⟩ : ∃ b, normalizePos (s.getCartDisplacement e) = some b := by
    unfold normalizePos
    rw [if_neg fun h => hcart ?_]
    · exact ⟨_, rfl⟩
    · by_contra hne; exact flat_ne_zero hne (norm2_eq_zero.1 h)
  have hprep : prepareDof (IModel.init s pol false) (some cart) amps pols inc
      = .ok [⟨some b, (dofPoints pol inc [(1, ⟨1, 0⟩)] (amps.zip pols)).map
          fun x => (some x.1, x.2)⟩] := by
    rw [prepareDof_eq _ _ _ _ _ _ g1 hlen, getDof_eq _ _ _ _ _ [⟨[e], [⟨1, 0⟩]⟩] ?_ (by
      rw [g3]; exact he)]
    · have := dofGroup_eq (IModel.init s pol false) amps pols inc ⟨[e], [⟨1, 0⟩]⟩ e [] rfl (by simp)
      have hu : usedPols (IModel.init s pol false) amps pols = pols := rfl
      rw [hu, List.mapM_cons, this]
      change Except.ok _ = _
      have hb' : normalizePos ((IModel.init s pol false).ref.getCartDisplacement e) = some b := hb
      rw [hb']
      congr 3
      simp only [List.zip_cons_cons, List.zip_nil_left, List.flatMap_cons, List.flatMap_nil,
        List.append_nil, multiplier_self e he0, dofPoints, List.map_append, List.map_map]
      congr 1
      unfold refPoint; cases inc <;> rfl
    · rfl
  refine ⟨b, hprep, fun f ws hf => ?_⟩
  unfold IModel.addDof IModel.addDofNan
  rw [hprep]
  dsimp only
  unfold constructAndAdd
  rw [if_neg (by omega)]
  simp only [buildAll, hf, List.append_nil]
  have hfb : ∀ l, finiteBasis [(⟨some b, l⟩ : DofGroup N)] = .ok [b] := fun l => rfl
  rw [hfb]
  rfl

/-- An (oracle for an) spglib answer reporting no symmetry but the identity. -/
def trivialSpglib : Mat3 ℝ → Pos 1 ℝ → (Fin 1 → ℕ) → Option SymDict :=
  fun _ _ _ => some ⟨[idOp], [0]⟩

theorem trivialInit : ∃ s, RefStructure.init trivialSpglib (fun _ => 1) 1 (fun _ _ => 0) = .ok s ∧
    s.ops = [⟨1, 0⟩] := by
  obtain ⟨P, hP, _⟩ := C12_entry (fun (_ : Fin 1) _ => (0 : ℝ)) idOp
    (idOp_sym (fun (_ : Fin 1) _ => (0 : ℝ))).1
    (fun _ _ => by norm_num [InClosedCell])
  refine ⟨⟨fun _ => 1, 1, fun _ _ => 0, [idOp], [P], [0]⟩, ?_, rfl⟩
  unfold RefStructure.init trivialSpglib computePermutationMatrices
  simp only [List.mapM_cons, hP, List.mapM_nil]
  rfl

theorem one_apart (p : Pos 1 ℝ) : ∀ j k : Fin 1, j ≠ k → Apart (2 / 10 ^ 5) (p j) (p k) :=
  fun j k h => absurd (Subsingleton.elim j k) h

/-- A spline routine that passes through its points (and is zero elsewhere). -/
noncomputable def lookupSpline : SplineFn := fun _ pts =>
  .ok fun x => ((pts.find? fun p => decide (p.1 = x)).map Prod.snd).getD 0

theorem find_of_mem (pts : List (ℝ × Mat3 ℝ)) (h : pts.Pairwise fun a b => a.1 < b.1)
    (p : ℝ × Mat3 ℝ) (hp : p ∈ pts) : pts.find? (fun q => decide (q.1 = p.1)) = some p := by
  induction pts with
  | nil => simp at hp
  | cons q pts ih =>
    rw [List.pairwise_cons] at h
    rcases List.mem_cons.1 hp with rfl | hp
    · simp
    · rw [List.find?_cons_of_neg (by simpa using (h.1 p hp).ne)]
      exact ih h.2 hp

theorem lookupSpline_interpolates : Interpolates lookupSpline := by
  intro k pts f hr hf p hp
  cases hf
  dsimp only
  rw [find_of_mem pts (hr.2.2.imp And.left) p hp]
  rfl

theorem trivialFrac (s : RefStructure 1) (hL : s.lattice = 1) :
    s.getFracDisplacement (fun _ => ![1 / 4, 0, 0]) = .ok fun _ => ![1 / 4, 0, 0] := by
  unfold RefStructure.getFracDisplacement npInv
  rw [hL, if_neg (by simp), inv_one]
  change Except.ok _ = Except.ok _
  congr 1
  funext a i
  have h : matMulPos (fun (_ : Fin 1) => ![(1 : ℝ) / 4, 0, 0]) (1 : Mat3 ℝ) a i
      = ![(1 : ℝ) / 4, 0, 0] i := by
    simp [matMulPos, Matrix.one_apply]
  unfold applyPbcDisplacement
  rw [h]
  apply wrap1_of_inHalfBox
  fin_cases i <;> norm_num [InHalfBox]

/-- C32, concrete: all hypotheses of `C32_reproduces_data` hold for one atom in a cubic cell
displaced along x with amplitudes ∓1/10 and arbitrary polarizabilities; the model returns the
supplied polarizability. -/
theorem C32_concrete (A B pol : Mat3 ℝ) (s : RefStructure 1)
    (hs : RefStructure.init trivialSpglib (fun _ => 1) 1 (fun _ _ => 0) = .ok s)
    (hops : s.ops = [⟨1, 0⟩]) : ∃ (o : Outcome 1) (b : Pos 1 ℝ),
    o = (IModel.init s pol false).addDof lookupSpline true (fun _ => ![1 / 4, 0, 0])
      [-1 / 10, 1 / 10] [A, B] 2 true ∧ o.result = .ok () ∧ o.state.basis = [b] ∧
    o.state.calcPolarizabilities [fun _ => ![0, 0, 0]] = .ok [pol] ∧
    o.state.calcPolarizabilities [fun _ => ![1 / 10, 0, 0]] = .ok [B] := by
  obtain ⟨hpos, hlat, _⟩ := init_facts hs
  have hw := trivialFrac s hlat
  have hw0 : (fun _ => ![1 / 4, 0, 0] : Pos 1 ℝ) ≠ 0 := fun h => by
    have := congrFun (congrFun h 0) 0
    norm_num at this
  obtain ⟨b, hprep, hb⟩ := addDof_single trivialSpglib _ _ _ s hs (one_apart _) hops lookupSpline
    true pol _ _ hw hw0 [-1 / 10, 1 / 10] [A, B] rfl 2 (by norm_num) true
  obtain ⟨f, hf⟩ : ∃ f, buildOne lookupSpline true (2 : ℤ).toNat ((dofPoints pol true [(1, ⟨1, 0⟩)]
      ([-1 / 10, 1 / 10].zip [A, B])).map fun x => (some x.1, x.2)) = (.ok f, []) := by
    have hd : hasDuplicates ((((dofPoints pol true [(1, ⟨1, 0⟩)]
        ([-1 / 10, 1 / 10].zip [A, B])).map fun x => (some x.1, x.2))).map Prod.fst) = false := by
      rw [List.map_map]
      have e : (Prod.fst ∘ fun x : ℝ × Mat3 ℝ => (some x.1, x.2)) = some ∘ Prod.fst := rfl
      rw [e, ← List.map_map, hasDuplicates_false]
      simp [dofPoints, TooClose]
      norm_num [abs_of_pos, abs_of_neg]
    unfold buildOne
    rw [hd]
    have hl : ¬ ((dofPoints pol true [(1, ⟨1, 0⟩)]
        ([-1 / 10, 1 / 10].zip [A, B])).map fun x => ((some x.1 : Option ℝ), x.2)).length
          ≤ (2 : ℤ).toNat := by
      simp [dofPoints]
    rw [if_neg (by simp), if_neg hl, (finitePts_some _ _).2 rfl]
    dsimp only
    have hws : dofWarnings ((dofPoints pol true [(1, ⟨1, 0⟩)]
        ([-1 / 10, 1 / 10].zip [A, B])).map Prod.fst) = [] := by
      rw [dofWarnings_eq _ (by simp [dofPoints])]
      unfold warnSpec
      rw [if_neg, if_neg]
      · rfl
      · intro h
        have := h (-1 / 10) (by simp [dofPoints])
        norm_num at this
      · intro h
        have := h (1 / 10) (by simp [dofPoints])
        norm_num at this
    rw [hws]
    exact ⟨_, rfl⟩
  have hres := hb f [] hf
  refine ⟨_, b, rfl, by rw [hres], by rw [hres], ?_⟩
  obtain ⟨⟨c, hc, hbc⟩, hunit, h3, h4⟩ := C32_reproduces_data trivialSpglib _ _ _ s hs (one_apart _)
    [] hops lookupSpline lookupSpline_interpolates true pol _ [-1 / 10, 1 / 10] [A, B] 2 _ hw hw0
    _ rfl (by rw [hres]) b [] (by rw [hres]) (by simp)
  have hb0 : b = fun _ => ![1, 0, 0] := by
    have hval : ∀ i, b 0 i = c * ![(1 : ℝ) / 4, 0, 0] i := fun i => by
      rw [hbc]; congr 1
      simp [toCart, Matrix.one_apply]
    have h0 := hval 0; have h1 := hval 1; have h2 := hval 2
    simp at h0 h1 h2
    unfold inner3 at hunit
    simp only [Finset.univ_unique, Finset.sum_singleton, Fin.sum_univ_three, Fin.default_eq_zero,
      h0, h1, h2] at hunit
    have hc4 : c * 4⁻¹ = 1 := by nlinarith
    funext a i
    fin_cases a
    fin_cases i
    · simp [h0, hc4]
    · simp [h1]
    · simp [h2]
  refine ⟨?_, ?_⟩
  · convert h4 using 3
    funext a i
    fin_cases i <;> rfl
  · refine h3 (1 / 10, B) (by simp) _ (fun _ => ![1 / 10, 0, 0]) ?_ ?_
    · intro a i
      refine ⟨?_, 0, by simp⟩
      fin_cases i <;> norm_num [InHalfBox]
    · funext a i
      rw [hb0]
      simp only [toCart, Matrix.one_apply]
      fin_cases i <;> simp

/-! ## C33 -/

theorem buildOne_congr (s₁ s₂ : SplineFn) (h : ∀ k pts, SplineReady k pts → s₁ k pts = s₂ k pts)
    (we : Bool) (k : ℕ) (hk : 1 ≤ k) (pts : List (Option ℝ × Mat3 ℝ)) :
    buildOne s₁ we k pts = buildOne s₂ we k pts := by
  unfold buildOne
  split_ifs with h1 h2
  · rfl
  · rfl
  · cases h3 : finitePts pts with
    | none => rfl
    | some fin =>
      dsimp only
      have h4 := (finitePts_some _ _).1 h3
      have hlen : pts.length = fin.length := by rw [h4, List.length_map]
      have h5 : hasDuplicates ((fin.map Prod.fst).map some) = false := by
        rw [Bool.not_eq_true, h4] at h1
        rw [← h1, List.map_map, List.map_map]; rfl
      rw [h _ _ (splineReady_sort k fin hk (by omega) h5)]

theorem buildAll_congr (s₁ s₂ : SplineFn) (h : ∀ k pts, SplineReady k pts → s₁ k pts = s₂ k pts)
    (we : Bool) (k : ℕ) (hk : 1 ≤ k) (gs : List (DofGroup N)) :
    buildAll s₁ we k gs = buildAll s₂ we k gs := by
  induction gs with
  | nil => rfl
  | cons g gs ih => unfold buildAll; rw [buildOne_congr s₁ s₂ h we k hk, ih]

theorem constructAndAdd_congr (s₁ s₂ : SplineFn)
    (h : ∀ k pts, SplineReady k pts → s₁ k pts = s₂ k pts) (we : Bool) (m : IModel N)
    (gs : List (DofGroup N)) (order : ℤ) :
    constructAndAdd s₁ we m gs order = constructAndAdd s₂ we m gs order := by
  unfold constructAndAdd
  split_ifs with h1
  · rfl
  · rw [buildAll_congr s₁ s₂ h we _ (by omega)]

theorem addDofNan_congr (s₁ s₂ : SplineFn)
    (h : ∀ k pts, SplineReady k pts → s₁ k pts = s₂ k pts) (we : Bool) (m : IModel N)
    (cart : Option (Pos N ℝ)) (amps : List ℝ) (pols : List (Mat3 ℝ)) (order : ℤ) (inc : Bool) :
    m.addDofNan s₁ we cart amps pols order inc = m.addDofNan s₂ we cart amps pols order inc := by
  unfold IModel.addDofNan
  split
  · rfl
  · exact constructAndAdd_congr s₁ s₂ h _ _ _ _

/-- C33: the spline routine is only ever called with an order of at least one, more points
than the order, and strictly increasing abscissae that differ by more than the closeness
tolerance: two routines that agree on such inputs give the same outcome in every call. -/
theorem C33_valid_calls (s₁ s₂ : SplineFn)
    (h : ∀ k pts, SplineReady k pts → s₁ k pts = s₂ k pts) (we : Bool) (m : IModel N) :
    (∀ cart amps pols order inc,
      m.addDof s₁ we cart amps pols order inc = m.addDof s₂ we cart amps pols order inc) ∧
    (∀ files order, m.addDofFromFiles s₁ we files order = m.addDofFromFiles s₂ we files order) ∧
    (∀ i d amps pols, m.addArt s₁ we i d amps pols = m.addArt s₂ we i d amps pols) ∧
    (∀ files, m.addArtFromFiles s₁ we files = m.addArtFromFiles s₂ we files) ∧
    (∀ present ss pols order, m.addDofFromPymatgen present s₁ we ss pols order =
      m.addDofFromPymatgen present s₂ we ss pols order) ∧
    (∀ present ss pols, m.addArtFromPymatgen present s₁ we ss pols =
      m.addArtFromPymatgen present s₂ we ss pols) := by
  refine ⟨fun _ _ _ _ _ => addDofNan_congr s₁ s₂ h _ _ _ _ _ _ _, fun files order => ?_,
    fun i d amps pols => ?_, fun files => ?_, fun present ss pols order => ?_,
    fun present ss pols => ?_⟩
  · unfold IModel.addDofFromFiles IModel.addDof
    split
    · rfl
    · rfl
    · exact addDofNan_congr s₁ s₂ h _ _ _ _ _ _ _
  · unfold IModel.addArt
    split
    · rfl
    · exact addDofNan_congr s₁ s₂ h _ _ _ _ _ _ _
  · unfold IModel.addArtFromFiles
    split
    · rfl
    · rfl
    · split_ifs
      · rfl
      · split
        · rfl
        · rfl
        · split_ifs
          · rfl
          · exact constructAndAdd_congr s₁ s₂ h _ _ _ _
  · unfold IModel.addDofFromPymatgen IModel.addDof
    split_ifs
    · rfl
    · split
      · rfl
      · rfl
      · exact addDofNan_congr s₁ s₂ h _ _ _ _ _ _ _
  · unfold IModel.addArtFromPymatgen
    split
    · rfl
    · rfl
    · split_ifs
      · rfl
      · split
        · rfl
        · rfl
        · split_ifs
          · rfl
          · exact constructAndAdd_congr s₁ s₂ h _ _ _ _

/-- C33: after a successful `add_dof` every new interpolation is the spline through a sorted
rearrangement of the degree of freedom's (amplitude, polarizability change) pairs.  These
pairs are: the origin (if the reference is included); the supplied data, rotated by one
symmetry operation; and images of the supplied data with rescaled amplitudes, rotated by
further symmetry operations. -/
theorem C33_knots (spline : SplineFn) (we : Bool) (m : IModel N) (cart : Pos N ℝ)
    (amps : List ℝ) (pols : List (Mat3 ℝ)) (order : ℤ) (inc : Bool) (o : Outcome N)
    (ho : o = m.addDof spline we cart amps pols order inc) (hok : o.result = .ok ())
    (hd : m.dummy = false) :
    ∃ (pairs : List (List (ℝ × Mat3 ℝ))) (fs : List (ℝ → Mat3 ℝ)),
      o.state.interps = m.interps ++ fs ∧
      List.Forall₂ (fun l f => ∃ sorted, sorted.Perm l ∧ SplineReady order.toNat sorted ∧
        spline order.toNat sorted = .ok f) pairs fs ∧
      ∀ l ∈ pairs, ∃ (op : SymOp) (imgs : List (ℝ × SymOp)), op ∈ m.ref.ops ∧
        (∀ x ∈ imgs, x.2 ∈ m.ref.ops) ∧
        l = (if inc then [(0, 0)] else []) ++
          (amps.zip pols).map (fun y => (y.1, op.rot⁻¹ * (y.2 - m.refPol) * op.rot)) ++
          imgs.flatMap (fun x => (amps.zip pols).map fun y =>
            (x.1 * y.1, x.2.rot⁻¹ * (y.2 - m.refPol) * x.2.rot)) := by
  obtain ⟨parent, recs, fs, _, _, _, _, h5, _, _, h8, h9⟩ :=
    addDofNan_facts spline we m (some cart) amps pols order inc o ho hok
  refine ⟨recs.map Prod.snd, fs, by rw [h5, hd]; rfl, ?_, ?_⟩
  · rw [List.forall₂_map_left_iff]
    exact h8.imp fun r f hrf => ⟨_, List.perm_insertionSort _ _, hrf.1, hrf.2⟩
  · intro l hl
    obtain ⟨r, hr, rfl⟩ := List.mem_map.1 hl
    have hne : recs ≠ [] := List.ne_nil_of_mem hr
    obtain ⟨p', groups, _, _, hF⟩ := h9.resolve_left hne
    obtain ⟨k, hk, rfl⟩ := List.mem_iff_getElem.1 hr
    have hg := (List.forall₂_iff_get.1 hF).2 k (by rw [hF.length_eq]; exact hk) hk
    simp only [List.get_eq_getElem] at hg
    obtain ⟨op, imgs, q1, q2, _, _, q3⟩ := hg.pts
    refine ⟨op, imgs, q2, q1, ?_⟩
    rw [q3]
    unfold dofPoints usedPols
    rw [List.flatMap_cons, ← List.append_assoc, hd]
    simp

/-! ## C34 -/

theorem hasDuplicates_prefix (xs : List ℝ) (l : List (Option ℝ))
    (h : ¬ xs.Pairwise fun a b => ¬ TooClose a b) : hasDuplicates (xs.map some ++ l) = true := by
  induction xs with
  | nil => simp at h
  | cons x xs ih =>
    rw [List.map_cons, List.cons_append, hasDuplicates, Bool.or_eq_true]
    by_cases h1 : xs.Pairwise fun a b => ¬ TooClose a b
    · left
      rw [List.pairwise_cons] at h
      push Not at h
      have : ∃ b ∈ xs, TooClose x b := by
        by_contra hcon
        push Not at hcon
        exact h hcon h1
      obtain ⟨b, hb, hc⟩ := this
      rw [List.any_append, Bool.or_eq_true]
      left
      rw [List.any_eq_true]
      exact ⟨some b, List.mem_map_of_mem hb, (closeOpt_some x b).2 hc⟩
    · exact Or.inr (ih h1)

theorem groupPoints_det {refPol : Mat3 ℝ} {amps : List ℝ} {pols : List (Mat3 ℝ)}
    {mu : Option ℝ} {op : SymOp} {l : List (Option ℝ × Mat3 ℝ)}
    (h : groupPoints refPol amps pols mu op = .ok l) (hne : amps.zip pols ≠ []) :
    op.rot.det ≠ 0 := by
  intro h0
  unfold groupPoints npInv at h
  rw [if_pos h0] at h
  cases hz : amps.zip pols with
  | nil => exact hne hz
  | cons a as => rw [hz, List.mapM_cons] at h; cases h

/-- If some data for a displacement is accepted, preparation succeeds for all data. -/
theorem prepare_other (spline : SplineFn) (we : Bool) (m : IModel N) (cart : Pos N ℝ)
    (amps' : List ℝ) (pols' : List (Mat3 ℝ)) (order' : ℤ) (inc' : Bool) (o' : Outcome N)
    (ho' : o' = m.addDof spline we cart amps' pols' order' inc') (hok : o'.result = .ok ())
    (hnew : m.basis.length < o'.state.basis.length)
    (amps : List ℝ) (pols : List (Mat3 ℝ)) (inc : Bool)
    (hl : (usedPols m amps pols).length = amps.length) :
    ∃ (G : DofGroup N) (Gs : List (DofGroup N)) (op : SymOp) (more : List (Option ℝ × Mat3 ℝ)),
      prepareDof m (some cart) amps pols inc = .ok (G :: Gs) ∧
      G.pts = refPoint inc ++ ((amps.zip (usedPols m amps pols)).map
        (imagePoint m.refPol (some 1) op) ++ more) ∧
      G.pts.length ≤ (if inc then 1 else 0) + amps.length * m.ref.ops.length ∧
      ∃ p g gs child rest ops, parentDisplacement m (some cart) = .ok (some p) ∧
        m.ref.getEquivalentDisplacements p = .ok (some (g :: gs)) ∧
        g.displacements = child :: rest ∧ child ≠ 0 ∧ rest.length = ops.length ∧
        more = (rest.zip ops).flatMap fun x => (amps.zip (usedPols m amps pols)).map
          (imagePoint m.refPol (multiplier child x.1) x.2) := by
  obtain ⟨parent, recs, fs, h1, h2, h3, h4, h5, _, _, h8, h9⟩ :=
    addDofNan_facts spline we m (some cart) amps' pols' order' inc' o' ho' hok
  have hne : recs ≠ [] := fun h => by
    rw [h5, h] at hnew; simp at hnew
  obtain ⟨p', groups, rfl, hg, hF⟩ := h9.resolve_left hne
  rw [prepareDof_eq m _ _ amps pols inc h1 hl, getDof_eq m p' _ _ _ groups h4 hg]
  obtain ⟨done, orth, hI, hops, hdl⟩ := getEq_some _ _ _ hg
  -- rotations of all groups are invertible: some data was processed
  have hdata : amps'.zip (usedPols m amps' pols') ≠ [] := by
    intro h0
    cases recs with
    | nil => exact hne rfl
    | cons r rs =>
      cases h8 with
      | cons hr _ =>
        cases groups with
        | nil => cases hF
        | cons g gs =>
          obtain ⟨hgr, _⟩ := List.forall₂_cons.1 hF
          obtain ⟨op, imgs, _, _, _, _, q3⟩ := hgr.pts
          have hlen := hr.1.2.1
          have hz : ∀ (l : List (ℝ × SymOp)), (l.flatMap fun _ => ([] : List (ℝ × Mat3 ℝ))) = [] :=
            fun l => by induction l <;> simp
          rw [List.length_insertionSort, q3, h0] at hlen
          unfold dofPoints at hlen
          simp only [List.map_nil, hz, List.append_nil] at hlen
          have hk := hr.1.1
          cases inc' <;> simp at hlen <;> omega
  have hdet : ∀ g ∈ groups, ∀ op ∈ g.transformations, op.rot.det ≠ 0 := by
    intro g hgm op hop
    -- read off from the successful call
    have hprep : ∃ gs', prepareDof m (some cart) amps' pols' inc' = .ok gs' := by
      rw [ho'] at hok
      unfold IModel.addDof IModel.addDofNan at hok
      cases hp : prepareDof m (some cart) amps' pols' inc' with
      | error e => rw [hp] at hok; cases hok
      | ok gs' => exact ⟨gs', rfl⟩
    obtain ⟨gs', hgs'⟩ := hprep
    rw [prepareDof_eq m _ _ amps' pols' inc' h1 h2, getDof_eq m p' _ _ _ groups h4 hg,
      mapM_except_ok] at hgs'
    obtain ⟨k, hk, rfl⟩ := List.mem_iff_getElem.1 hgm
    have hG := (List.forall₂_iff_get.1 hgs').2 k hk (by rw [← hgs'.length_eq]; exact hk)
    simp only [List.get_eq_getElem] at hG
    unfold dofGroup at hG
    have hlen := hI.len _ hgm
    obtain ⟨j, hj, rfl⟩ := List.mem_iff_getElem.1 hop
    cases hgd : groups[k].displacements with
    | nil => rw [hgd] at hlen; simp at hlen; omega
    | cons child rest =>
      rw [hgd] at hG
      dsimp only at hG
      cases hmm : ((child :: rest).zip groups[k].transformations).mapM (fun x =>
          groupPoints m.refPol amps' (usedPols m amps' pols') (multiplier child x.1) x.2) with
      | error e => rw [hmm] at hG; cases hG
      | ok pts =>
        rw [mapM_except_ok] at hmm
        have hjz : j < ((child :: rest).zip groups[k].transformations).length := by
          rw [List.length_zip, ← hgd]; omega
        have hx := (List.forall₂_iff_get.1 hmm).2 j hjz (by rw [← hmm.length_eq]; exact hjz)
        simp only [List.get_eq_getElem, List.getElem_zip] at hx
        intro h0
        exact groupPoints_det hx hdata h0
  have hcne : ∀ g ∈ groups, ∃ child rest, g.displacements = child :: rest ∧ child ≠ 0 := by
    intro g hgm
    obtain ⟨k, hk, rfl⟩ := List.mem_iff_getElem.1 hgm
    have hgf := (List.forall₂_iff_get.1 hF).2 k hk (by rw [← hF.length_eq]; exact hk)
    simp only [List.get_eq_getElem] at hgf
    obtain ⟨child, rest, e1, e2⟩ := hgf.basis
    exact ⟨child, rest, e1, fun h0 => (normalizePos_some _ _ e2).1 (by rw [h0, getCart_zero])⟩
  cases groups with
  | nil => cases hF; exact absurd rfl hne
  | cons g gs =>
    obtain ⟨child, rest, e1, hc⟩ := hcne g (by simp)
    have hall : ∃ Gs, gs.mapM (dofGroup m amps (usedPols m amps pols) inc) = .ok Gs := by
      refine ⟨gs.map fun g' => ⟨normalizePos (m.ref.getCartDisplacement
        (g'.displacements.headD 0)), refPoint inc ++
          (g'.displacements.zip g'.transformations).flatMap fun x =>
            (amps.zip (usedPols m amps pols)).map
              (imagePoint m.refPol (multiplier (g'.displacements.headD 0) x.1) x.2)⟩, ?_⟩
      rw [mapM_except_ok, List.forall₂_map_right_iff, List.forall₂_same]
      intro g' hg'
      obtain ⟨child', rest', e', _⟩ := hcne g' (by simp [hg'])
      rw [dofGroup_eq m amps (usedPols m amps pols) inc g' child' rest' e' (hdet g' (by simp [hg']))]
      simp only [e', List.headD_cons]
    obtain ⟨Gs, hGs⟩ := hall
    cases ht : g.transformations with
    | nil =>
      have := hI.len g (by simp)
      rw [e1, ht] at this; simp at this
    | cons op ops =>
      refine ⟨⟨normalizePos (m.ref.getCartDisplacement child),
          refPoint inc ++ (g.displacements.zip g.transformations).flatMap fun x =>
            (amps.zip (usedPols m amps pols)).map
              (imagePoint m.refPol (multiplier child x.1) x.2)⟩, Gs, op, (rest.zip ops).flatMap fun x =>
        (amps.zip (usedPols m amps pols)).map (imagePoint m.refPol (multiplier child x.1) x.2),
        ?_, ?_, ?_, p', g, gs, child, rest, ops, h1, hg, e1, hc, ?_, rfl⟩
      · rw [List.mapM_cons, dofGroup_eq m amps _ inc g child rest e1 (hdet g (by simp)), hGs]
        rfl
      · dsimp only
        rw [e1, ht, List.zip_cons_cons, List.flatMap_cons, multiplier_self child hc]
      · dsimp only
        have hlen := hI.len g (by simp)
        have hsub := hI.prov.length_le
        rw [List.flatMap_cons, List.length_append] at hsub
        have hgp : g.pairs.length = g.transformations.length := by
          unfold EqGroup.pairs; rw [List.length_zip]; omega
        have hzl : (amps.zip (usedPols m amps pols)).length = amps.length := by
          rw [List.length_zip, hl]; omega
        have hfl : ∀ l : List (Pos N ℝ × SymOp), (l.flatMap fun x =>
            (amps.zip (usedPols m amps pols)).map
              (imagePoint m.refPol (multiplier child x.1) x.2)).length = amps.length * l.length := by
          intro l
          induction l with
          | nil => simp
          | cons a l ih =>
            rw [List.flatMap_cons, List.length_append, ih, List.length_map, hzl, List.length_cons]
            ring
        rw [List.length_append, hfl, List.length_zip]
        have e3 : (refPoint inc).length = if inc then 1 else 0 := by cases inc <;> rfl
        rw [e3]
        have : min g.displacements.length g.transformations.length ≤ m.ref.ops.length := by omega
        have := Nat.mul_le_mul_left amps.length this
        omega
      · have := hI.len g (by simp)
        rw [e1, ht] at this
        simpa using this

/-- C34: a displacement is accepted with some data.  Then with any other data of matching
length: an order below one gives `ValueError`; for an order of at least one, two coinciding
amplitudes (or an amplitude coinciding with zero, if the reference is included) give
`InvalidDOFException`, and so does an order that is not below the largest possible number of
points (reference plus one image of every amplitude per symmetry operation). -/
theorem C34_invalid_requests (spline : SplineFn) (we : Bool) (m : IModel N) (cart : Pos N ℝ)
    (amps' : List ℝ) (pols' : List (Mat3 ℝ)) (order' : ℤ) (inc' : Bool) (o' : Outcome N)
    (ho' : o' = m.addDof spline we cart amps' pols' order' inc') (hok : o'.result = .ok ())
    (hnew : m.basis.length < o'.state.basis.length)
    (amps : List ℝ) (pols : List (Mat3 ℝ)) (order : ℤ) (inc : Bool)
    (hl : m.dummy = false → pols.length = amps.length) :
    (order < 1 → (m.addDof spline we cart amps pols order inc).result = .error .valueError) ∧
    (1 ≤ order → ¬ ((if inc then [0] else []) ++ amps).Pairwise (fun a b => ¬ TooClose a b) →
      (m.addDof spline we cart amps pols order inc).result = .error .invalidDOF) ∧
    (1 ≤ order → ((if inc then 1 else 0) + amps.length * m.ref.ops.length : ℕ) ≤ order →
      (m.addDof spline we cart amps pols order inc).result = .error .invalidDOF) := by
  have hul : (usedPols m amps pols).length = amps.length := by
    unfold usedPols
    cases hd : m.dummy
    · simpa using hl hd
    · simp
  obtain ⟨G, Gs, op, more, hp, hpts, hcount, -⟩ := prepare_other spline we m cart amps' pols' order'
    inc' o' ho' hok hnew amps pols inc hul
  have hres : ∀ k : ℤ, (m.addDof spline we cart amps pols k inc)
      = constructAndAdd spline we m (G :: Gs) k := by
    intro k
    unfold IModel.addDof IModel.addDofNan
    rw [hp]
  refine ⟨fun h => ?_, fun h hdup => ?_, fun h hlen => ?_⟩
  · rw [hres]; unfold constructAndAdd; rw [if_pos h]
  · rw [hres]
    have hb : buildOne spline we order.toNat G.pts = (.error .invalidDOF, []) := by
      unfold buildOne
      have hx : G.pts.map Prod.fst
          = ((if inc then [0] else []) ++ amps).map some ++ more.map Prod.fst := by
        rw [hpts, List.map_append, List.map_append, List.map_append, ← List.append_assoc]
        congr 2
        · cases inc <;> rfl
        · rw [List.map_map]
          have : (Prod.fst ∘ imagePoint m.refPol (some 1) op) = some ∘ Prod.fst := by
            funext x; simp [imagePoint]
          rw [this, ← List.map_map, List.map_fst_zip (by omega)]
      rw [hx, hasDuplicates_prefix _ _ hdup, if_pos rfl]
    unfold constructAndAdd
    rw [if_neg (by omega)]
    unfold buildAll
    rw [hb]
  · rw [hres]
    have hb : buildOne spline we order.toNat G.pts = (.error .invalidDOF, []) := by
      unfold buildOne
      split_ifs with h1 h2
      · rfl
      · rfl
      · omega
    unfold constructAndAdd
    rw [if_neg (by omega)]
    unfold buildAll
    rw [hb]

end Verif
