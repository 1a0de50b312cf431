import Verif.Props.ScriptSymmetry

/-!
# C151 for every way to add degrees of freedom

`add_art_from_files` and `add_art_from_pymatgen` count the points of the first group of images only
(_art.py L243, L295), and which group is first depends on the order of the operations.  In a group of
operations all groups of images are equally large, so the verdict does not depend on the order.
-/

namespace Verif
open Spec Matrix

variable {N : ℕ}

/-- The displacement is reversed by some operation of the crystal. -/
def Spec.Reversible (p : Pos N ℝ) (s : RefStructure N) (w : Pos N ℝ) : Prop :=
  ∃ z ∈ s.ops, ∃ σ, IsSymmetry p z.rot z.trans σ ∧ carried σ z.rot w = fun a i => -1 * w a i

theorem composite_sym {p : Pos N ℝ} {x y z : SymOp} {τ ρ : Equiv.Perm (Fin N)}
    (hτ : IsSymmetry p x.rot x.trans τ) (hρ : IsSymmetry p y.rot y.trans ρ)
    (hz : IntegerMatrix z.rot) (h : Composite x.rot x.trans y.rot y.trans z.rot z.trans) :
    IsSymmetry p z.rot z.trans (τ.trans ρ) := by
  obtain ⟨h1, h2⟩ := h
  refine ⟨hz, fun a j => ?_⟩
  obtain ⟨n1, e1⟩ := sameImage_mul_int hρ.1 (fun i => hτ.2 a i) j
  obtain ⟨n2, e2⟩ := hρ.2 (τ a) j
  obtain ⟨n3, e3⟩ := h2 j
  refine ⟨n1 + n2 + -n3, ?_⟩
  have h5 : ∑ i, p a i * z.rot i j = ∑ i, (∑ k, p a k * x.rot k i) * y.rot i j := by
    rw [h1]
    simp only [Matrix.mul_apply, Fin.sum_univ_three]; ring
  have h6 : ∑ i, (∑ k, p a k * x.rot k i + x.trans i) * y.rot i j
      = ∑ i, (∑ k, p a k * x.rot k i) * y.rot i j + ∑ i, x.trans i * y.rot i j := by
    rw [← Finset.sum_add_distrib]
    exact Finset.sum_congr rfl fun i _ => by ring
  push_cast
  rw [h6] at e1
  rw [h5]
  simp only [Equiv.trans_apply]
  linarith

/-- In a group of operations, every group of images of a clean displacement holds two displacements if
the displacement can be reversed, else one. -/
theorem group_sides {spglib : Mat3 ℝ → Pos N ℝ → (Fin N → ℕ) → Option SymDict}
    {nums : Fin N → ℕ} {lat : Mat3 ℝ} {p : Pos N ℝ} {s : RefStructure N}
    (hs : RefStructure.init spglib nums lat p = .ok s) (hN : N ≤ 10 ^ 8)
    (hsep : ∀ j k, j ≠ k → Apart (2 / 10 ^ 5) (p j) (p k))
    (hsym : ∀ op ∈ s.ops, ∃ σ, IsSymmetry p op.rot op.trans σ)
    (hiso : ∀ op ∈ s.ops, op.rot * op.rot.transpose = 1)
    (hmul : ∀ x ∈ s.ops, ∀ y ∈ s.ops, ∃ z ∈ s.ops,
      Composite x.rot x.trans y.rot y.trans z.rot z.trans)
    (hdiv : ∀ z ∈ s.ops, ∀ y ∈ s.ops, ∃ x ∈ s.ops,
      Composite x.rot x.trans y.rot y.trans z.rot z.trans)
    (w : Pos N ℝ) (hbox : ∀ a i, InHalfBox (w a i)) (hw : w ≠ 0)
    (hclean : ∀ x ∈ s.ops, ∀ y ∈ s.ops, ∀ σ τ, IsSymmetry p x.rot x.trans σ →
      IsSymmetry p y.rot y.trans τ →
      (∃ κ : ℝ, (κ = 1 ∨ κ = -1) ∧ carried σ x.rot w = fun a i => κ * carried τ y.rot w a i) ∨
      inner3 (carried σ x.rot w) (carried τ y.rot w) = 0)
    (groups : List (EqGroup N)) (hgr : s.getEquivalentDisplacements w = .ok (some groups))
    (g : EqGroup N) (hg : g ∈ groups) :
    g.transformations.length = g.displacements.length ∧
    (g.displacements.length = 1 ∨ g.displacements.length = 2) ∧
    (g.displacements.length = 2 ↔ Reversible p s w) := by
  obtain ⟨e, c, groups', orth, new, hc, hec, hen, g1, hI, hnew, hnew'⟩ :=
    images_of_displacement hs hsep hsym hiso w hbox hw
  rw [hgr] at g1
  cases g1
  have hC : CleanList new := clean_of_images hsym hiso hclean hec hen hnew'
  have hint : ∀ x ∈ s.ops, IntegerMatrix x.rot := fun x hx => (hsym x hx).choose_spec.1
  obtain ⟨h, rest, hh⟩ := group_head hI hg
  have hsh := group_shape hI hC hg hh
  refine ⟨(hI.len g hg).symm, ?_, ?_⟩
  · rcases hsh with rfl | rfl <;> rw [hh] <;> simp
  have h2 : g.displacements.length = 2 ↔ rest ≠ [] := by
    rcases hsh with rfl | rfl <;> rw [hh] <;> simp
  rw [h2, group_second hN hI hC hg hh]
  obtain ⟨x, hx⟩ := head_mem hI hg hh
  obtain ⟨hx1, hx2⟩ := hnew' _ hx
  dsimp only at hx1 hx2
  obtain ⟨τ, hτ⟩ := hsym x hx1
  have hhe := hx2 τ hτ
  have hneg : ∀ (σ : Equiv.Perm (Fin N)) (Q : Mat3 ℝ),
      (carried σ Q w = fun a i => -1 * w a i) ↔ carried σ Q e = fun a i => -1 * e a i := by
    intro σ Q
    rw [hec, carried_smul]
    constructor
    · intro h
      funext a i
      rw [h]
      ring
    · intro h
      funext a i
      have := congrFun (congrFun h a) i
      have h' : c * carried σ Q w a i = c * (-1 * w a i) := by rw [this]; ring
      exact mul_left_cancel₀ hc.ne' h'
  constructor
  · rintro ⟨y, hy, hyh⟩
    obtain ⟨hy1, hy2⟩ := hnew' y hy
    obtain ⟨q, hq, hqc⟩ := hdiv y.1 hy1 x hx1
    obtain ⟨σ, hσ⟩ := hsym q hq
    refine ⟨q, hq, σ, hσ, (hneg σ q.rot).2 ?_⟩
    have h3 := hy2 _ (composite_sym hσ hτ (hint _ hy1) hqc)
    rw [hqc.1, ← carried_carried] at h3
    refine carried_inv τ (hiso x hx1) ?_
    rw [← h3, hyh, carried_smul, ← hhe]
  · rintro ⟨q, hq, σ, hσ, hqw⟩
    obtain ⟨z, hz, hzc⟩ := hmul q hq x hx1
    obtain ⟨d, hd⟩ := hnew z hz
    refine ⟨_, hd, ?_⟩
    have h3 := (hnew' _ hd).2 _ (composite_sym hσ hτ (hint _ hz) hzc)
    dsimp only at h3 ⊢
    rw [h3, hzc.1, ← carried_carried, (hneg σ q.rot).1 hqw, carried_smul, ← hhe]

theorem dofGroup_points {m : IModel N} {amps : List ℝ} {pols : List (Mat3 ℝ)} {inc : Bool}
    {g : EqGroup N} {G : DofGroup N} (hl : g.transformations.length = g.displacements.length)
    (hne : g.displacements ≠ []) (hdet : ∀ op ∈ g.transformations, op.rot.det ≠ 0)
    (h : dofGroup m amps pols inc g = .ok G) :
    G.pts.length = (refPoint inc).length + g.displacements.length * (amps.zip pols).length := by
  obtain ⟨c, r, hd⟩ := List.exists_cons_of_ne_nil hne
  rw [dofGroup_eq m amps pols inc g c r hd hdet] at h
  cases h
  dsimp only
  rw [List.length_append, List.length_flatMap]
  congr 1
  simp only [List.length_map]
  rw [List.map_const', List.sum_replicate, List.length_zip, hl, Nat.min_self, smul_eq_mul]

/-- What scaling does to the hypothesis on images. -/
theorem cleanCall_smul {p : Pos N ℝ} {s : RefStructure N} {pol : Mat3 ℝ} {w : Pos N ℝ}
    {pols : List (Mat3 ℝ)} (h : CleanCall p s pol w pols) {κ : ℝ} (hκ : κ ≠ 0) :
    CleanCall p s pol (fun a i => κ * w a i) pols := by
  intro x hx y hy σ τ hσ hτ
  obtain ⟨h1, h2⟩ := h x hx y hy σ τ hσ hτ
  rw [carried_smul, carried_smul]
  refine ⟨?_, fun he => h2 ?_⟩
  · rcases h1 with ⟨μ, hμ, h⟩ | h
    · refine Or.inl ⟨μ, hμ, ?_⟩
      rw [h]
      funext a i
      ring
    · right
      rw [inner3_smul_left, inner3_smul, h]
      ring
  · funext a i
    exact mul_left_cancel₀ hκ (congrFun (congrFun he a) i)

/-- A displacement in nearest-image form survives the way to Cartesian coordinates and back, if the call
succeeds. -/
theorem back_frac {spline : SplineFn} {we : Bool} {m : IModel N} {d : Pos N ℝ} {amps : List ℝ}
    {pols : List (Mat3 ℝ)} {order : ℤ} {inc : Bool} (hb : ∀ a i, InHalfBox (d a i))
    (hr : (m.addDofNan spline we (some (m.ref.getCartDisplacement d)) amps pols order inc).result
      = .ok ()) :
    m.ref.getFracDisplacement (m.ref.getCartDisplacement d) = .ok d := by
  obtain ⟨parent, recs, fs, h1, _⟩ :=
    addDofNan_facts spline we m (some _) amps pols order inc _ rfl hr
  unfold parentDisplacement at h1
  dsimp only at h1
  cases hf : m.ref.getFracDisplacement (m.ref.getCartDisplacement d) with
  | error e => rw [hf] at h1; cases h1
  | ok r =>
    rw [C18_frac_cart_frac m.ref (frac_ok _ _ _ hf).1] at hf
    rw [← hf]
    congr 1
    funext a i
    exact wrap1_of_inHalfBox (hb a i)

/-- What two runs of a call have in common: both succeed, with the same warnings up to their order, and
the models hold the same degrees of freedom. -/
def BothRun (s s' : RefStructure N) (o o' : Outcome N) : Prop :=
  o'.result = .ok () ∧ o'.warnings.Perm o.warnings ∧ Twins s s' o.state o'.state

/-- Groups of images of `w` turned into degrees of freedom, for two orders of the operations. -/
theorem construct_twins (spglib spglib' : Mat3 ℝ → Pos N ℝ → (Fin N → ℕ) → Option SymDict)
    (nums : Fin N → ℕ) (lat : Mat3 ℝ) (p : Pos N ℝ) (s s' : RefStructure N)
    (hs : RefStructure.init spglib nums lat p = .ok s)
    (hs' : RefStructure.init spglib' nums lat p = .ok s')
    (hops : ∀ op, op ∈ s.ops ↔ op ∈ s'.ops) (hN : N ≤ 10 ^ 8)
    (hsep : ∀ j k, j ≠ k → Apart (2 / 10 ^ 5) (p j) (p k))
    (hsym : ∀ op ∈ s.ops, ∃ σ, IsSymmetry p op.rot op.trans σ)
    (hiso : ∀ op ∈ s.ops, op.rot * op.rot.transpose = 1)
    (spline : SplineFn) (hsp : SplineEquivariant spline) (we : Bool) (m m' : IModel N)
    (ht : Twins s s' m m') (w : Pos N ℝ) (hbox : ∀ a i, InHalfBox (w a i))
    (hw0 : w ≠ 0) (amps : List ℝ) (pols : List (Mat3 ℝ)) (order : ℤ) (inc : Bool)
    (hcl : CleanCall p s m.refPol w pols) (gs : List (DofGroup N))
    (hg : getDof m (some w) amps pols inc = .ok gs)
    (hok : (constructAndAdd spline we m gs order).result = .ok ()) :
    ∃ groups groups' gs', s.getEquivalentDisplacements w = .ok (some groups) ∧
      s'.getEquivalentDisplacements w = .ok (some groups') ∧
      List.Forall₂ (fun g G => dofGroup m amps pols inc g = .ok G) groups gs ∧
      List.Forall₂ (fun g G => dofGroup m' amps pols inc g = .ok G) groups' gs' ∧
      gs'.length = gs.length ∧
      getDof m' (some w) amps pols inc = .ok gs' ∧
      BothRun s s' (constructAndAdd spline we m gs order)
        (constructAndAdd spline we m' gs' order) := by
  obtain ⟨_, hsl, _⟩ := init_facts hs
  obtain ⟨_, hsl', _⟩ := init_facts hs'
  have hL : m'.ref.lattice = m.ref.lattice := by rw [ht.ref, ht.ref', hsl, hsl']
  obtain ⟨_, _, groups, _, _, _, _, _, hgr, _⟩ :=
    images_of_displacement hs hsep hsym hiso w hbox hw0
  obtain ⟨_, _, groups', _, _, _, _, _, hgr', _⟩ :=
    images_of_displacement hs' hsep (fun op h => hsym op ((hops op).2 h))
      (fun op h => hiso op ((hops op).2 h)) w hbox hw0
  -- the first run
  obtain ⟨fs, ws, bs, k1, k2, k3, k4, k5⟩ := constructAndAdd_ok spline we m gs order hok
  obtain ⟨ho, _⟩ := getDof_ok m _ amps pols inc gs hg bs k3
  have hg0 := hg
  rw [getDof_eq m _ amps pols inc groups ho (by rw [ht.ref]; exact hgr)] at hg
  have hgs := (mapM_except_ok _ _ _).1 hg
  obtain ⟨xs, x1, rfl, rfl⟩ := buildAll_iff.1 k2
  obtain ⟨new, new', hcom, hnew⟩ := common hs hs' hops hsep hsym hiso w hbox hw0 m amps pols hcl
    groups groups' hgr hgr'
  obtain ⟨gs', bs', xs', f1, f2, f3, f4⟩ := groups_build hN hsp (by omega) hL ht.pol hcom
    (by rw [ht.ref]; exact hnew)
    (fun x hx => by rw [ht.ref']; exact (hops _).1 (hnew x ((hcom.same x).2 hx))) hgs k3 x1
  -- the second run
  have ho' := orthCheck_same hL ht.interps ht.mask ht.dofs ht.interps' ht.mask' _ ho
  have hg' : getDof m' (some w) amps pols inc = .ok gs' := by
    rw [getDof_eq m' _ amps pols inc groups' ho' (by rw [ht.ref']; exact hgr')]
    exact (mapM_except_ok _ _ _).2 f1
  have hb' := buildAll_iff.2 ⟨xs', f3, rfl, rfl⟩
  have hres : (constructAndAdd spline we m' gs' order).result = .ok () ∧
      (constructAndAdd spline we m' gs' order).warnings = xs'.flatMap Prod.snd := by
    unfold constructAndAdd
    rw [if_neg (by omega), hb']
    dsimp only
    rw [f2]
    exact ⟨rfl, rfl⟩
  have hlen : gs'.length = gs.length := by
    have h1 := f3.length_eq
    have h2 := x1.length_eq
    have h3 := f4.length_eq
    rw [List.length_map, List.length_map] at h3
    omega
  refine ⟨groups, groups', gs', hgr, hgr', hgs, f1, hlen, hg', hres.1, ?_, ?_⟩
  · rw [hres.2, k4, List.flatMap_def, List.flatMap_def]
    exact f4.flatten
  -- the degrees of freedom
  obtain ⟨recs, fs, _, _, e1, _, _, hS, h7⟩ :=
    construct_facts spline we m (some w) amps pols inc gs order hg0 hok
  obtain ⟨recs', fs', _, _, e1', _, _, hS', h7'⟩ :=
    construct_facts spline we m' (some w) amps pols inc gs' order hg' hres.1
  have hcount : recs.length = gs.length := by
    have h1 := congrArg (fun x : IModel N => x.basis.length) (e1.symm.trans k5)
    simp only [List.length_append, List.length_map] at h1
    have h2 := finiteBasis_length gs bs k3
    omega
  have hcount' : recs'.length = gs'.length := by
    obtain ⟨_, _, bs2, _, _, q3, _, q5⟩ := constructAndAdd_ok spline we m' gs' order hres.1
    have h1 := congrArg (fun x : IModel N => x.basis.length) (e1'.symm.trans q5)
    simp only [List.length_append, List.length_map] at h1
    have h2 := finiteBasis_length gs' bs2 q3
    omega
  have hF : List.Forall₂ (fun g r => GroupFacts m inc (amps.zip pols) g r.1 r.2) groups recs := by
    rcases h7 with rfl | ⟨q, gr, hq, h8, h9⟩
    · have := hgs.length_eq
      have : groups = [] := List.length_eq_zero_iff.1 (by simp at hcount; omega)
      subst this
      exact .nil
    · cases hq
      rw [ht.ref, hgr] at h8
      cases h8
      exact h9
  have hF' : List.Forall₂ (fun g r => GroupFacts m' inc (amps.zip pols) g r.1 r.2) groups' recs' := by
    rcases h7' with rfl | ⟨q, gr, hq, h8, h9⟩
    · have := f1.length_eq
      have : groups' = [] := List.length_eq_zero_iff.1 (by simp at hcount'; omega)
      subst this
      exact .nil
    · cases hq
      rw [ht.ref', hgr'] at h8
      cases h8
      exact h9
  rw [ht.real] at e1
  rw [ht.real'] at e1'
  have l1 := hS.length_eq
  have l2 := hS'.length_eq
  have := ht.interps
  have := ht.mask
  have := ht.interps'
  have := ht.mask'
  rw [e1, e1']
  refine ⟨ht.ref, ht.ref', ht.pol, rfl, rfl, ?_, ?_, ?_, ?_, ?_⟩
  · simp; omega
  · simp; omega
  · simp; omega
  · simp; omega
  · simp only [Bool.false_eq_true, if_false]
    rw [List.zip_append (by omega), List.zip_append (by simp; omega), List.zip_append (by omega),
      List.zip_append (by simp; omega)]
    refine SameDofs.append ht.dofs ?_
    refine records_same hs hs' hops hN hsep hsym hiso w hbox hw0
      (fun x hx y hy σ τ hσ hτ => (hcl x hx y hy σ τ hσ hτ).1) m m' ht.ref ht.ref' ht.pol inc
      (amps.zip pols) ?_ spline hsp order.toNat groups groups' hgr hgr' recs recs' fs fs' hF hF' hS hS'
    intro x hx y hy σ τ hσ hτ he d hd
    exact (hcl x hx y hy σ τ hσ hτ).2 he d.2 (List.of_mem_zip hd).2

theorem readDof_twins {m m' : IModel N} (hp : m'.ref.positions = m.ref.positions)
    (hL : m'.ref.lattice = m.ref.lattice) (hd : m'.dummy = m.dummy) (fs : List (DofFile N)) :
    readDof m' fs = readDof m fs := by
  have h1 : readDofFiles m' fs = readDofFiles m fs := by
    induction fs with
    | nil => rfl
    | cons f fs ih =>
      rw [readDofFiles, readDofFiles, ih, hp, hd]
  unfold readDof RefStructure.getCartDisplacement
  rw [h1, hL]

theorem pmg_twins {m m' : IModel N} (hp : m'.ref.positions = m.ref.positions)
    (hL : m'.ref.lattice = m.ref.lattice) (ss : List PmgArg) :
    pmgDisplacementAmplitudes true m' ss = pmgDisplacementAmplitudes true m ss := by
  have h1 : pmgDisplacements m' ss = pmgDisplacements m ss := by
    induction ss with
    | nil => rfl
    | cons f fs ih =>
      rw [pmgDisplacements, pmgDisplacements, ih, hp]
  unfold pmgDisplacementAmplitudes RefStructure.getCartDisplacement
  rw [h1, hL]

theorem prepareArt_twins {m m' : IModel N} (hL : m'.ref.lattice = m.ref.lattice)
    (hd : m'.dummy = m.dummy) (atom : ℤ) (dir : Vec3) (amps : List ℝ) (pols : List (Mat3 ℝ)) :
    prepareArt m' atom dir amps pols = prepareArt m atom dir amps pols := by
  have h1 : m'.ref.getCartDisplacement = m.ref.getCartDisplacement := by
    funext d
    unfold RefStructure.getCartDisplacement
    rw [hL]
  unfold prepareArt RefStructure.getFracDirection
  rw [h1, hL, hd]

/-- C151, one call: whichever of the six entry points is used, a call that succeeds for one order of the
operations succeeds for every other order, with the same warnings up to their order, and leaves models
that hold the same degrees of freedom. -/
theorem C151_call (spglib spglib' : Mat3 ℝ → Pos N ℝ → (Fin N → ℕ) → Option SymDict)
    (nums : Fin N → ℕ) (lat : Mat3 ℝ) (p : Pos N ℝ) (s s' : RefStructure N)
    (hs : RefStructure.init spglib nums lat p = .ok s)
    (hs' : RefStructure.init spglib' nums lat p = .ok s')
    (hops : ∀ op, op ∈ s.ops ↔ op ∈ s'.ops) (hN : N ≤ 10 ^ 8)
    (hsep : ∀ j k, j ≠ k → Apart (2 / 10 ^ 5) (p j) (p k))
    (hsym : ∀ op ∈ s.ops, ∃ σ, IsSymmetry p op.rot op.trans σ)
    (hiso : ∀ op ∈ s.ops, op.rot * op.rot.transpose = 1)
    (hmul : ∀ x ∈ s.ops, ∀ y ∈ s.ops, ∃ z ∈ s.ops,
      Composite x.rot x.trans y.rot y.trans z.rot z.trans)
    (hdiv : ∀ z ∈ s.ops, ∀ y ∈ s.ops, ∃ x ∈ s.ops,
      Composite x.rot x.trans y.rot y.trans z.rot z.trans)
    (spline : SplineFn) (hsp : SplineEquivariant spline) (we : Bool) (m m' : IModel N)
    (ht : Twins s s' m m') (c : AddCall N) (w : Pos N ℝ) (pols : List (Mat3 ℝ))
    (hc : c.Measures s w pols) (hw0 : w ≠ 0) (hcl : CleanCall p s m.refPol w pols)
    (hok : (c.run spline we m).result = .ok ()) :
    (c.run spline we m').result = .ok () ∧
    (c.run spline we m').warnings.Perm (c.run spline we m).warnings ∧
    Twins s s' (c.run spline we m).state (c.run spline we m').state := by
  obtain ⟨hsp1, hsl, _⟩ := init_facts hs
  obtain ⟨hsp1', hsl', _⟩ := init_facts hs'
  have hL : m'.ref.lattice = m.ref.lattice := by rw [ht.ref, ht.ref', hsl, hsl']
  have hP : m'.ref.positions = m.ref.positions := by rw [ht.ref, ht.ref', hsp1, hsp1']
  have hD : m'.dummy = m.dummy := by rw [ht.real, ht.real']
  have hC : m'.ref.getCartDisplacement = m.ref.getCartDisplacement := by
    funext d
    unfold RefStructure.getCartDisplacement
    rw [hL]
  have hsm : s = m.ref := ht.ref.symm
  -- calls that end in `add_dof`
  have key : ∀ cart κ amps pols order inc, 0 < κ →
      s.getFracDisplacement cart = .ok (fun a i => κ * w a i) → CleanCall p s m.refPol w pols →
      (m.addDofNan spline we (some cart) amps pols order inc).result = .ok () →
      BothRun s s' (m.addDofNan spline we (some cart) amps pols order inc)
        (m'.addDofNan spline we (some cart) amps pols order inc) := by
    intro cart κ amps pols order inc hκ hf hcl hr
    have hne : (fun a i => κ * w a i) ≠ (0 : Pos N ℝ) := by
      intro h
      apply hw0
      funext a i
      have := congrFun (congrFun h a) i
      exact (mul_eq_zero.1 this).resolve_left hκ.ne'
    exact C151_success spglib spglib' nums lat p s s' hs hs' hops hN hsep hsym hiso spline hsp we m m'
      ht cart _ hf hne amps pols order inc (cleanCall_smul hcl hκ.ne') hr
  have key1 : ∀ amps pols order inc, (∀ a i, InHalfBox (w a i)) → CleanCall p s m.refPol w pols →
      (m.addDofNan spline we (some (m.ref.getCartDisplacement w)) amps pols order inc).result = .ok () →
      BothRun s s' (m.addDofNan spline we (some (m.ref.getCartDisplacement w)) amps pols order inc)
        (m'.addDofNan spline we (some (m'.ref.getCartDisplacement w)) amps pols order inc) := by
    intro amps pols order inc hb hcl hr
    rw [hC]
    refine key _ 1 amps pols order inc one_pos ?_ hcl hr
    rw [hsm, back_frac hb hr]
    congr 1
    funext a i
    rw [one_mul]
  -- calls that count the points of the first group
  have tail : ∀ amps pols, (∀ a i, InHalfBox (w a i)) → CleanCall p s m.refPol w pols →
      ∀ o o' : Outcome N,
      (o = if multipleAtomsDisplaced w then ⟨.error .invalidDOF, [], m⟩
        else match getDof m (some w) amps pols false with
          | .error e => ⟨.error e, [], m⟩
          | .ok [] => ⟨.error .indexError, [], m⟩
          | .ok (g :: gs) =>
            if g.pts.length ≠ 2 then ⟨.error .invalidDOF, [], m⟩
            else constructAndAdd spline we m (g :: gs) 1) →
      (o' = if multipleAtomsDisplaced w then ⟨.error .invalidDOF, [], m'⟩
        else match getDof m' (some w) amps pols false with
          | .error e => ⟨.error e, [], m'⟩
          | .ok [] => ⟨.error .indexError, [], m'⟩
          | .ok (g :: gs) =>
            if g.pts.length ≠ 2 then ⟨.error .invalidDOF, [], m'⟩
            else constructAndAdd spline we m' (g :: gs) 1) → o.result = .ok () →
      BothRun s s' o o' := by
    intro amps pols hb hcl o o' ho ho' hr
    by_cases hm : multipleAtomsDisplaced w = true
    · rw [if_pos hm] at ho
      rw [ho] at hr
      cases hr
    rw [if_neg hm] at ho ho'
    cases hg : getDof m (some w) amps pols false with
    | error e => rw [hg] at ho; rw [ho] at hr; cases hr
    | ok gs =>
      rw [hg] at ho
      cases gs with
      | nil => rw [ho] at hr; cases hr
      | cons g gs =>
        dsimp only at ho
        by_cases hl : g.pts.length = 2
        swap
        · rw [if_pos hl] at ho; rw [ho] at hr; cases hr
        rw [if_neg (not_not.2 hl)] at ho
        subst ho
        obtain ⟨groups, groups', gs', hgr, hgr', q1, q2, q3, q4, q5⟩ :=
          construct_twins spglib spglib' nums lat p s s' hs hs' hops hN hsep hsym hiso spline hsp we
            m m' ht w hb hw0 amps pols 1 false hcl (g :: gs) hg hr
        rw [q4] at ho'
        cases gs' with
        | nil => simp at q3
        | cons g' gs' =>
          dsimp only at ho'
          have hcl1 := fun x hx y hy σ τ hσ hτ => (hcl x hx y hy σ τ hσ hτ).1
          have hdet : ∀ {s : RefStructure N}, (∀ op ∈ s.ops, op.rot * op.rot.transpose = 1) →
              ∀ {m : IModel N}, m.ref = s → ∀ {groups : List (EqGroup N)} {new orth},
              EqInv new ⟨groups, orth⟩ → (∀ x ∈ new, x.1 ∈ s.ops) → ∀ g ∈ groups,
              ∀ op ∈ g.transformations, op.rot.det ≠ 0 := by
            intro s hiso m _ groups new orth hI hnew g hg op hop h0
            have hlen := hI.len g hg
            obtain ⟨j, hj, rfl⟩ := List.mem_iff_getElem.1 hop
            have hmem : (g.transformations[j], g.displacements[j]'(by omega)) ∈ new := by
              refine pair_mem hI hg ?_
              unfold EqGroup.pairs
              rw [List.mem_iff_getElem]
              exact ⟨j, by rw [List.length_zip]; omega, by simp⟩
            have := congrArg Matrix.det (hiso _ (hnew _ hmem))
            rw [Matrix.det_mul, h0, zero_mul, Matrix.det_one] at this
            exact zero_ne_one this
          have hiso' : ∀ op ∈ s'.ops, op.rot * op.rot.transpose = 1 :=
            fun op h => hiso op ((hops op).2 h)
          have hsym' : ∀ op ∈ s'.ops, ∃ σ, IsSymmetry p op.rot op.trans σ :=
            fun op h => hsym op ((hops op).2 h)
          obtain ⟨_, _, gr1, orth, new, _, _, _, z1, hI, _, hn⟩ :=
            images_of_displacement hs hsep hsym hiso w hb hw0
          rw [hgr] at z1
          cases z1
          obtain ⟨_, _, gr1', orth', new', _, _, _, z1', hI', _, hn'⟩ :=
            images_of_displacement hs' hsep hsym' hiso' w hb hw0
          rw [hgr'] at z1'
          cases z1'
          obtain ⟨a, as, p1, _, rfl⟩ := List.forall₂_cons_right_iff.1 q1
          obtain ⟨a', as', p2, _, rfl⟩ := List.forall₂_cons_right_iff.1 q2
          obtain ⟨r1, r2, r3⟩ := group_sides hs hN hsep hsym hiso hmul hdiv w hb hw0 hcl1 _ hgr a
            List.mem_cons_self
          obtain ⟨r1', r2', r3'⟩ := group_sides hs' hN hsep hsym' hiso'
            (fun x hx y hy => by
              obtain ⟨z, hz, h⟩ := hmul x ((hops x).2 hx) y ((hops y).2 hy)
              exact ⟨z, (hops z).1 hz, h⟩)
            (fun x hx y hy => by
              obtain ⟨z, hz, h⟩ := hdiv x ((hops x).2 hx) y ((hops y).2 hy)
              exact ⟨z, (hops z).1 hz, h⟩) w hb hw0
            (fun x hx y hy => hcl1 x ((hops x).2 hx) y ((hops y).2 hy)) _ hgr' a' List.mem_cons_self
          have hrev : Reversible p s w ↔ Reversible p s' w := by
            unfold Reversible
            exact exists_congr fun z => and_congr_left fun _ => hops z
          have hside : a'.displacements.length = a.displacements.length := by
            by_cases h : Reversible p s w
            · rw [r3.2 h, r3'.2 (hrev.1 h)]
            · have h1 := fun h' => h (r3.1 h')
              have h2 := fun h' => h (hrev.2 (r3'.1 h'))
              rw [r2.resolve_right h1, r2'.resolve_right h2]
          have c1 := dofGroup_points r1 (fun h => by rw [h] at r2; simp at r2)
            (hdet hiso ht.ref hI (fun x hx => (hn x hx).1) a List.mem_cons_self) p1
          have c2 := dofGroup_points r1' (fun h => by rw [h] at r2'; simp at r2')
            (hdet hiso' ht.ref' hI' (fun x hx => (hn' x hx).1) a' List.mem_cons_self) p2
          have hl' : g'.pts.length = 2 := by rw [c2, hside, ← c1, hl]
          rw [if_neg (not_not.2 hl')] at ho'
          rw [ho']
          exact q5
  cases c with
  | dof cart amps As order =>
    obtain ⟨h1, rfl⟩ := hc
    exact key cart 1 amps As order true one_pos (by simpa using h1) hcl hok
  | files fs order =>
    obtain ⟨q, A, data, rfl, h1, rfl⟩ := hc
    unfold AddCall.run IModel.addDofFromFiles at hok ⊢
    dsimp only at hok ⊢
    rw [readDof_twins hP hL hD]
    rcases hr : readDof m (((q, A) :: data).map (fun x => .ok (some x.1, x.2)))
      with e | ⟨ds, amps, pols⟩
    · rw [hr] at hok; cases hok
    · obtain ⟨rest, rfl, rfl⟩ := readDof_first ht.real hr
      rw [hr] at hok ⊢
      dsimp only at hok ⊢
      rw [hsm] at h1
      rw [(calcDisplacement_nearest _ _).unique h1] at hok ⊢
      exact key1 amps _ order true (fun a i => (h1 a i).1) hcl hok
  | pymatgen ss As order =>
    obtain ⟨st, rest, rfl, ⟨hl, h1⟩, rfl⟩ := hc
    unfold AddCall.run IModel.addDofFromPymatgen at hok ⊢
    dsimp only at hok ⊢
    rw [if_neg (by simp)] at hok
    rw [if_neg (by simp), if_neg (by simp), pmg_twins hP hL]
    rcases hr : pmgDisplacementAmplitudes true m (some st :: rest) with e | ⟨ds, amps⟩
    · rw [hr] at hok; cases hok
    · obtain ⟨ds', rfl⟩ := pmg_first hl hr
      rw [hr] at hok
      dsimp only at hok ⊢
      rw [hsm] at h1
      rw [(calcDisplacement_nearest _ _).unique h1] at hok ⊢
      exact key1 amps _ order true (fun a i => (h1 a i).1) hcl hok
  | art atom dir amps As =>
    obtain ⟨k, hk, h1, rfl⟩ := hc
    unfold AddCall.run IModel.addArt at hok ⊢
    dsimp only at hok ⊢
    rw [prepareArt_twins hL hD]
    cases hp : prepareArt m atom dir amps As with
    | error e => rw [hp] at hok; cases hok
    | ok cart =>
      rw [hp] at hok
      dsimp only at hok ⊢
      rw [hsm] at h1
      obtain ⟨κ, hκ, hb, rfl⟩ := prepareArt_first hk h1 hw0 hp
      exact key _ κ amps As 1 false hκ (by rw [hsm]; exact back_frac hb hok) hcl hok
  | artFiles fs =>
    obtain ⟨q, A, data, rfl, h1, rfl⟩ := hc
    unfold AddCall.run IModel.addArtFromFiles at hok ⊢
    dsimp only at hok ⊢
    rw [readDof_twins hP hL hD]
    rcases hr : readDof m (((q, A) :: data).map (fun x => .ok (some x.1, x.2)))
      with e | ⟨ds, amps, pols⟩
    · rw [hr] at hok; cases hok
    · obtain ⟨rest, rfl, rfl⟩ := readDof_first ht.real hr
      rw [hr] at hok ⊢
      dsimp only at hok ⊢
      rw [hsm] at h1
      rw [(calcDisplacement_nearest _ _).unique h1] at hok ⊢
      exact tail _ _ (fun a i => (h1 a i).1) hcl _ _ rfl rfl hok
  | artPymatgen ss As =>
    obtain ⟨st, rest, rfl, ⟨hl, h1⟩, rfl⟩ := hc
    unfold AddCall.run IModel.addArtFromPymatgen at hok ⊢
    dsimp only at hok ⊢
    rw [pmg_twins hP hL]
    rcases hr : pmgDisplacementAmplitudes true m (some st :: rest) with e | ⟨ds, amps⟩
    · rw [hr] at hok; cases hok
    · obtain ⟨ds', rfl⟩ := pmg_first hl hr
      rw [hr] at hok
      dsimp only at hok ⊢
      rw [hsm] at h1
      rw [(calcDisplacement_nearest _ _).unique h1] at hok ⊢
      exact tail _ _ (fun a i => (h1 a i).1) hcl _ _ rfl rfl hok

/-- C151: a script of calls of any of the six entry points with clean images and consistent data that
runs through for one order of the symmetry operations runs through for every other order, with the same
warnings up to their order, and the two models predict the same for every batch of configurations. -/
theorem C151_any_script_partial
    (spglib spglib' : Mat3 ℝ → Pos N ℝ → (Fin N → ℕ) → Option SymDict)
    (nums : Fin N → ℕ) (lat : Mat3 ℝ) (p : Pos N ℝ) (s s' : RefStructure N)
    (hs : RefStructure.init spglib nums lat p = .ok s)
    (hs' : RefStructure.init spglib' nums lat p = .ok s')
    (hops : ∀ op, op ∈ s.ops ↔ op ∈ s'.ops) (hN : N ≤ 10 ^ 8)
    (hsep : ∀ j k, j ≠ k → Apart (2 / 10 ^ 5) (p j) (p k))
    (hsym : ∀ op ∈ s.ops, ∃ σ, IsSymmetry p op.rot op.trans σ)
    (hiso : ∀ op ∈ s.ops, op.rot * op.rot.transpose = 1)
    (hmul : ∀ x ∈ s.ops, ∀ y ∈ s.ops, ∃ z ∈ s.ops,
      Composite x.rot x.trans y.rot y.trans z.rot z.trans)
    (hdiv : ∀ z ∈ s.ops, ∀ y ∈ s.ops, ∃ x ∈ s.ops,
      Composite x.rot x.trans y.rot y.trans z.rot z.trans)
    (spline : SplineFn) (hsp : SplineEquivariant spline) (we : Bool) (pol : Mat3 ℝ)
    (calls : List (AddCall N))
    (hcalls : ∀ c ∈ calls, ∃ w pols, c.Measures s w pols ∧ w ≠ 0 ∧ CleanCall p s pol w pols)
    (ws : List DofWarning) (m : IModel N)
    (hrun : runScript spline we (IModel.init s pol false) calls = .ok (ws, m)) :
    ∃ ws' m', runScript spline we (IModel.init s' pol false) calls = .ok (ws', m') ∧
      ws'.Perm ws ∧ ∀ batch, m'.calcPolarizabilities batch = m.calcPolarizabilities batch := by
  obtain ⟨hp, hsl, _⟩ := init_facts hs
  obtain ⟨hp', hsl', _⟩ := init_facts hs'
  have key : ∀ (calls : List (AddCall N)) (m₀ m₀' : IModel N)
      (ws : List DofWarning) (m : IModel N), Twins s s' m₀ m₀' → m₀.refPol = pol →
      (∀ c ∈ calls, ∃ w pols, c.Measures s w pols ∧ w ≠ 0 ∧ CleanCall p s pol w pols) →
      runScript spline we m₀ calls = .ok (ws, m) →
      ∃ ws' m', runScript spline we m₀' calls = .ok (ws', m') ∧ ws'.Perm ws ∧ Twins s s' m m' := by
    intro calls
    induction calls with
    | nil =>
      intro m₀ m₀' ws m ht _ _ h1
      cases h1
      exact ⟨[], _, rfl, .refl _, ht⟩
    | cons c cs ih =>
      intro m₀ m₀' ws m ht hpol hc h1
      rw [runScript] at h1
      obtain ⟨w, pols, g1, g2, g3⟩ := hc c List.mem_cons_self
      cases r1 : (c.run spline we m₀).result with
      | error e => rw [r1] at h1; cases h1
      | ok u =>
        rw [r1] at h1
        dsimp only at h1
        obtain ⟨r2, hwarn, ht2⟩ := C151_call spglib spglib' nums lat p s s' hs hs' hops hN hsep
          hsym hiso hmul hdiv spline hsp we m₀ m₀' ht c w pols g1 g2 (by rw [hpol]; exact g3) r1
        have hpol2 : (c.run spline we m₀).state.refPol = pol := by
          obtain ⟨_, _, _, _, _, _, _, _, _, _, h5, _⟩ := c.facts spline we m₀ ht.real w pols
            (by rw [ht.ref]; exact g1) g2 r1
          rw [h5]
          exact hpol
        cases r3 : runScript spline we (c.run spline we m₀).state cs with
        | error e => rw [r3] at h1; cases h1
        | ok x =>
          obtain ⟨ws1, m1⟩ := x
          rw [r3] at h1
          cases h1
          obtain ⟨ws', m', e2, hperm, ht3⟩ := ih _ _ _ _ ht2 hpol2
            (fun c hc' => hc c (List.mem_cons_of_mem _ hc')) r3
          rw [runScript, r2]
          dsimp only
          rw [e2]
          exact ⟨_, m', rfl, List.Perm.append hwarn hperm, ht3⟩
  have h0 : Twins s s' (IModel.init s pol false) (IModel.init s' pol false) :=
    ⟨rfl, rfl, rfl, rfl, rfl, rfl, rfl, rfl, rfl, ⟨[], by simp [IModel.init], by simp [IModel.init]⟩⟩
  obtain ⟨ws', m', e, hperm, ht⟩ := key calls _ _ _ _ h0 rfl hcalls hrun
  exact ⟨ws', m', e, hperm, fun batch => predictions_same m m' ht.interps ht.mask ht.interps' ht.mask'
    (by rw [ht.ref, ht.ref', hsl, hsl']) (by rw [ht.ref, ht.ref', hp, hp']) ht.pol ht.dofs batch⟩

/-- C151: whether such a script runs through or raises does not depend on the order of the
operations. -/
theorem C151_any_accepted_iff
    (spglib spglib' : Mat3 ℝ → Pos N ℝ → (Fin N → ℕ) → Option SymDict)
    (nums : Fin N → ℕ) (lat : Mat3 ℝ) (p : Pos N ℝ) (s s' : RefStructure N)
    (hs : RefStructure.init spglib nums lat p = .ok s)
    (hs' : RefStructure.init spglib' nums lat p = .ok s')
    (hops : ∀ op, op ∈ s.ops ↔ op ∈ s'.ops) (hN : N ≤ 10 ^ 8)
    (hsep : ∀ j k, j ≠ k → Apart (2 / 10 ^ 5) (p j) (p k))
    (hsym : ∀ op ∈ s.ops, ∃ σ, IsSymmetry p op.rot op.trans σ)
    (hiso : ∀ op ∈ s.ops, op.rot * op.rot.transpose = 1)
    (hmul : ∀ x ∈ s.ops, ∀ y ∈ s.ops, ∃ z ∈ s.ops,
      Composite x.rot x.trans y.rot y.trans z.rot z.trans)
    (hdiv : ∀ z ∈ s.ops, ∀ y ∈ s.ops, ∃ x ∈ s.ops,
      Composite x.rot x.trans y.rot y.trans z.rot z.trans)
    (spline : SplineFn) (hsp : SplineEquivariant spline) (we : Bool) (pol : Mat3 ℝ)
    (calls : List (AddCall N))
    (hcalls : ∀ c ∈ calls, ∃ w pols, c.Measures s w pols ∧ w ≠ 0 ∧ CleanCall p s pol w pols) :
    (∃ r, runScript spline we (IModel.init s pol false) calls = .ok r) ↔
    ∃ r, runScript spline we (IModel.init s' pol false) calls = .ok r := by
  obtain ⟨hp, hsl, _⟩ := init_facts hs
  obtain ⟨hp', hsl', _⟩ := init_facts hs'
  have hfrac : s'.getFracDisplacement = s.getFracDisplacement := by
    funext d
    unfold RefStructure.getFracDisplacement
    rw [hsl, hsl']
  have hmeas : ∀ (c : AddCall N) w pols, c.Measures s w pols → c.Measures s' w pols := by
    intro c w pols h
    have hpp : s'.positions = s.positions := by rw [hp, hp']
    cases c <;> simp only [AddCall.Measures, hfrac, hpp] at h ⊢ <;> exact h
  constructor
  · rintro ⟨⟨ws, m⟩, hr⟩
    obtain ⟨ws', m', h, _⟩ := C151_any_script_partial spglib spglib' nums lat p s s' hs hs' hops hN
      hsep hsym hiso hmul hdiv spline hsp we pol calls hcalls ws m hr
    exact ⟨_, h⟩
  · rintro ⟨⟨ws, m⟩, hr⟩
    obtain ⟨ws', m', h, _⟩ := C151_any_script_partial spglib' spglib nums lat p s' s hs' hs
      (fun op => (hops op).symm) hN hsep (fun op h => hsym op ((hops op).2 h))
      (fun op h => hiso op ((hops op).2 h))
      (fun x hx y hy => by
        obtain ⟨z, hz, h⟩ := hmul x ((hops x).2 hx) y ((hops y).2 hy)
        exact ⟨z, (hops z).1 hz, h⟩)
      (fun x hx y hy => by
        obtain ⟨z, hz, h⟩ := hdiv x ((hops x).2 hx) y ((hops y).2 hy)
        exact ⟨z, (hops z).1 hz, h⟩) spline hsp we pol calls (by
        intro c hc
        obtain ⟨w, pols, h1, h2, h3⟩ := hcalls c hc
        exact ⟨w, pols, hmeas c w pols h1, h2,
          fun x hx y hy => h3 x ((hops x).2 hx) y ((hops y).2 hy)⟩) ws m hr
    exact ⟨_, h⟩

/-! ### Concrete: an ART of CsCl, with the identity listed once or twice -/

/-- A symmetry library that repeats the only operation. -/
def twiceSpglib : Mat3 ℝ → Pos 2 ℝ → (Fin 2 → ℕ) → Option SymDict :=
  fun _ _ _ => some ⟨[idOp, idOp], [0, 1]⟩

theorem twiceInit : ∃ s, RefStructure.init twiceSpglib ![55, 17] 1 csCl = .ok s ∧
    s.ops = [⟨1, 0⟩, ⟨1, 0⟩] := by
  obtain ⟨P, hP, _⟩ := C12_entry csCl idOp (idOp_sym csCl).1 csCl_closed
  refine ⟨⟨![55, 17], 1, csCl, [idOp, idOp], [P, P], [0, 1]⟩, ?_, rfl⟩
  unfold RefStructure.init twiceSpglib computePermutationMatrices
  simp only [List.mapM_cons, hP, List.mapM_nil]
  rfl

/-- C151, concrete: `add_art` on the chlorine atom; arbitrary data. -/
example (A B pol : Mat3 ℝ) : ∃ s s' m m',
    RefStructure.init pairSpglib ![55, 17] 1 csCl = .ok s ∧
    RefStructure.init twiceSpglib ![55, 17] 1 csCl = .ok s' ∧ s.ops ≠ s'.ops ∧
    runScript lookupSpline true (IModel.init s pol false)
      [.art (-1) ![1 / 4, 0, 0] [-1 / 10, 1 / 10] [A, B]] = .ok ([], m) ∧
    runScript lookupSpline true (IModel.init s' pol false)
      [.art (-1) ![1 / 4, 0, 0] [-1 / 10, 1 / 10] [A, B]] = .ok ([], m') ∧
    m.basis.length = 1 ∧
    ∀ batch, m'.calcPolarizabilities batch = m.calcPolarizabilities batch := by
  obtain ⟨s, hs, hops⟩ := pairInit
  obtain ⟨s', hs', hops'⟩ := twiceInit
  obtain ⟨hpos, hlat, _⟩ := init_facts hs
  obtain ⟨b, f, hart⟩ := pair_addArt A B pol s hs hops
  have hrun : runScript lookupSpline true (IModel.init s pol false)
      [.art (-1) ![1 / 4, 0, 0] [-1 / 10, 1 / 10] [A, B]] = .ok ([],
        { IModel.init s pol false with basis := [b], interps := [f], mask := [false] }) := by
    rw [runScript, AddCall.run, hart]
    rfl
  have hmem : ∀ op, op ∈ s.ops ↔ op = ⟨1, 0⟩ := fun op => by rw [hops, List.mem_singleton]
  have hself : ∀ x ∈ s.ops, ∀ y ∈ s.ops, ∃ z ∈ s.ops,
      Composite x.rot x.trans y.rot y.trans z.rot z.trans := by
    intro x hx y hy
    rw [hmem] at hx hy
    subst hx hy
    exact ⟨⟨1, 0⟩, (hmem _).2 rfl, by simp, fun j => ⟨0, by simp⟩⟩
  have hbox : ∀ (a : Fin 2) (i : Fin 3), InHalfBox (if a = 1 then (![1 / 4, 0, 0] : Vec3) i else 0) := by
    intro a i
    fin_cases a <;> fin_cases i <;> norm_num [InHalfBox]
  have hfrac : s.getFracDisplacement (fun a i => if a = 1 then (![1 / 4, 0, 0] : Vec3) i else 0)
      = .ok fun a i => if a = 1 then (![1 / 4, 0, 0] : Vec3) i else 0 := by
    unfold RefStructure.getFracDisplacement npInv
    rw [hlat, if_neg (by simp), inv_one]
    change Except.ok _ = Except.ok _
    congr 1
    funext a j
    unfold applyPbcDisplacement matMulPos
    rw [show (∑ i, (if a = 1 then (![1 / 4, 0, 0] : Vec3) i else 0) * (1 : Mat3 ℝ) i j)
      = if a = 1 then (![1 / 4, 0, 0] : Vec3) j else 0 by simp [Matrix.one_apply]]
    exact wrap1_of_inHalfBox (hbox a j)
  obtain ⟨ws', m', h1, h2, h3⟩ := C151_any_script_partial pairSpglib twiceSpglib _ 1 csCl s s' hs hs'
    (fun op => by rw [hops, hops']; simp) (by norm_num) csCl_apart (by
      intro op hop
      rw [hmem] at hop
      subst hop
      exact ⟨_, idOp_sym csCl⟩) (by
      intro op hop
      rw [hmem] at hop
      subst hop
      simp) hself (fun z hz y hy => by
      rw [hmem] at hz hy
      subst hz hy
      exact ⟨⟨1, 0⟩, (hmem _).2 rfl, by simp, fun j => ⟨0, by simp⟩⟩) lookupSpline lookupSpline_equivariant true pol _ (by
      intro c hc
      rw [List.mem_singleton] at hc
      subst hc
      refine ⟨_, [A, B], ⟨1, rfl, hfrac, rfl⟩, ?_, ?_⟩
      · intro h
        have := congrFun (congrFun h 1) 0
        norm_num at this
      · intro x hx y hy σ τ hσ hτ
        rw [hmem] at hx hy
        subst hx hy
        have hst : σ = τ := by
          have h0 : ∀ ρ : Equiv.Perm (Fin 2), IsSymmetry csCl (1 : Mat3 ℝ) 0 ρ → ρ = Equiv.refl _ := by
            intro ρ hρ
            have : ρ 0 = 0 := by
              by_contra hne
              have h1 : ρ 0 = 1 := by omega
              obtain ⟨n, hn⟩ := hρ.2 0 0
              rw [h1] at hn
              simp [csCl, Matrix.one_apply] at hn
              have hi : (2 * n : ℝ) = 1 := by rw [← hn]; norm_num
              have : (2 * n : ℤ) = 1 := by exact_mod_cast hi
              omega
            ext a
            fin_cases a
            · simp [this]
            · have h2 : ρ 1 ≠ 0 := fun h => by
                rw [← this] at h
                exact absurd (ρ.injective h) (by decide)
              have : ρ 1 = 1 := by omega
              simp [this]
          rw [h0 σ hσ, h0 τ hτ]
        subst hst
        exact ⟨Or.inl ⟨1, Or.inl rfl, by funext a i; rw [one_mul]⟩, fun _ _ _ => rfl⟩) _ _ hrun
  rw [List.perm_nil] at h2
  subst h2
  exact ⟨s, s', _, m', hs, hs', by rw [hops, hops']; simp, hrun, h1, rfl, h3⟩

end Verif
