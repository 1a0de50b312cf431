import Verif.Proofs.Art
import Verif.Props.InterpolationDof
import Verif.Props.Symmetry

/-!
# Properties of `ARTModel` (C41-C45)
-/

namespace Verif
open Spec

variable {N : ℕ}

/-! ## C41 -/

/-- C41: the inherited methods that add degrees of freedom raise `UserError` whatever the
arguments, and leave the model as it is. -/
theorem C41_disabled (m : IModel N) (o : Outcome N)
    (ho : (∃ cart amps pols order inc, o = m.artAddDof cart amps pols order inc) ∨
      (∃ files order, o = m.artAddDofFromFiles files order) ∨
      (∃ structures pols order, o = m.artAddDofFromPymatgen structures pols order)) :
    o.result = .error .userError ∧ o.state = m ∧ o.warnings = [] := by
  rcases ho with ⟨_, _, _, _, _, rfl⟩ | ⟨_, _, rfl⟩ | ⟨_, _, _, rfl⟩ <;> exact ⟨rfl, rfl, rfl⟩

/-- C41, concrete: even arguments that `InterpolationModel.add_dof` accepts are refused. -/
example : (twoDof.artAddDof (fun _ => ![0, 0, 1]) [1, -1] [1, 1] 2 true).result
    = .error .userError :=
  (C41_disabled twoDof _ (Or.inl ⟨_, _, _, _, _, rfl⟩)).1

/-! ## C42 -/

/-- ARTModels over the structure `s` obtainable by API calls (successful or failing), adding
degrees of freedom with `add_art` only. -/
inductive ArtReachable (spline : SplineFn) (s : RefStructure N) : IModel N → Prop
  | init (pol : Mat3 ℝ) (dummy : Bool) : ArtReachable spline s (IModel.init s pol dummy)
  | addArt {m : IModel N} (we : Bool) (i : ℤ) (d : Vec3) (amps : List ℝ) (pols : List (Mat3 ℝ)) :
      ArtReachable spline s m → ArtReachable spline s (m.addArt spline we i d amps pols).state
  | setMask {m : IModel N} (value : List Bool) :
      ArtReachable spline s m → ArtReachable spline s (m.setMask value).state
  | masked {m m' : IModel N} (idx : List ℤ) :
      ArtReachable spline s m → m.getMaskedModel idx = .ok m' → ArtReachable spline s m'
  | unmask {m : IModel N} : ArtReachable spline s m → ArtReachable spline s m.unmask

theorem addArt_one_atom (spglib : Mat3 ℝ → Pos N ℝ → (Fin N → ℕ) → Option SymDict)
    (nums : Fin N → ℕ) (lat : Mat3 ℝ) (p : Pos N ℝ) (s : RefStructure N)
    (hs : RefStructure.init spglib nums lat p = .ok s)
    (hsep : ∀ j k, j ≠ k → Apart (2 / 10 ^ 5) (p j) (p k))
    (hsym : ∀ op ∈ s.ops, ∃ σ, IsSymmetry p op.rot op.trans σ)
    (spline : SplineFn) (we : Bool) (m : IModel N) (hm : m.ref = s) (i : ℤ) (d : Vec3)
    (amps : List ℝ) (pols : List (Mat3 ℝ))
    (hok : (m.addArt spline we i d amps pols).result = .ok ()) :
    ∃ bs, (m.addArt spline we i d amps pols).state.basis = m.basis ++ bs ∧
      ∀ b ∈ bs, ∃! a, b a ≠ 0 := by
  obtain ⟨k, dir, _, _, _, he⟩ := addArt_ok _ _ _ _ _ _ _ hok
  rw [he] at hok ⊢
  obtain ⟨parent, recs, fs, h1, _, _, _, h5, _, _, _, h9⟩ :=
    addDofNan_facts spline we m _ amps pols 1 false _ rfl hok
  refine ⟨recs.map Prod.fst, by rw [h5], ?_⟩
  rcases h9 with rfl | ⟨par, groups, hpar, hg, hF⟩
  · simp
  subst hpar
  -- the parent displacement vanishes on all atoms but `k`
  cases hart : artDisplacement k dir with
  | none =>
    rw [hart] at h1
    unfold parentDisplacement at h1
    dsimp only [Option.map_none] at h1
    cases hi : npInv m.ref.lattice with
    | error e => rw [hi] at h1; cases h1
    | ok v =>
      rw [hi] at h1
      change Except.ok _ = Except.ok _ at h1
      cases h1
  | some w0 =>
  rw [hart] at h1
  dsimp only [Option.map_some] at h1
  have hrow := artDisplacement_zero hart
  cases hw : m.ref.getFracDisplacement (m.ref.getCartDisplacement w0) with
  | error e =>
    unfold parentDisplacement at h1
    dsimp only at h1
    rw [hw] at h1; cases h1
  | ok w =>
  have hw0 : ∀ a, a ≠ k → ∀ j, w a j = 0 := by
    intro a ha j
    obtain ⟨_, hb, hi⟩ := frac_ok _ _ _ hw
    have : (∑ i, m.ref.getCartDisplacement w0 a i * m.ref.lattice⁻¹ i j) = 0 := by
      refine Finset.sum_eq_zero fun i _ => ?_
      have : m.ref.getCartDisplacement w0 a i = 0 := by
        unfold RefStructure.getCartDisplacement matMulPos applyPbcDisplacement
        refine Finset.sum_eq_zero fun x _ => ?_
        rw [hrow a ha, wrap1_zero, zero_mul]
      rw [this, zero_mul]
    have h2 := hi a j
    rw [this] at h2
    exact (h2.eq_of_inHalfBox (by norm_num [InHalfBox]) (hb a j)).symm
  have hpf := parent_facts m _ w hw
  have hwne : w ≠ 0 := fun h0 => by
    rw [hpf.1 h0] at h1; cases h1
  obtain ⟨p', c, hc, g1, g2, _, g4, _⟩ := hpf.2 hwne
  rw [g1] at h1
  obtain rfl : p' = par := Option.some.inj (Except.ok.inj h1)
  have hpbox : ∀ a i, InHalfBox (p' a i) := box_of_norm (le_of_eq g4)
  have hpne : ∃ a i, ¬ SameImage (p' a i) 0 := by
    by_contra hcon
    push Not at hcon
    have : p' = 0 := by
      funext a i
      exact (hcon a i).eq_of_inHalfBox (hpbox a i) (by norm_num [InHalfBox])
    rw [this] at g4
    have : norm2 (flat (0 : Pos N ℝ)) = 0 := norm2_eq_zero.2 rfl
    rw [this] at g4; norm_num at g4
  obtain ⟨groups', e, q1, ⟨⟨c2, hc2, q2⟩, _⟩, q3⟩ :=
    C13_end_to_end spglib nums lat p s hs hsep hsym p' hpne
  rw [hm, q1] at hg
  cases hg
  obtain ⟨done, orth, hI, _, _⟩ := getEq_some _ _ _ q1
  intro b hb
  obtain ⟨r, hr, rfl⟩ := List.mem_map.1 hb
  obtain ⟨n, hn, rfl⟩ := List.mem_iff_getElem.1 hr
  have hlen := hF.length_eq
  have hgf := (List.forall₂_iff_get.1 hF).2 n (by omega) hn
  simp only [List.get_eq_getElem] at hgf
  obtain ⟨child, rest, e1, e2⟩ := hgf.basis
  obtain ⟨op, imgs, _, _, e3, _⟩ := hgf.pts
  have hmem : (op, child) ∈ (groups[n]).transformations.zip (groups[n]).displacements := by
    rw [e1]
    cases ht : (groups[n]).transformations with
    | nil => rw [ht] at e3; cases e3
    | cons t ts => rw [ht] at e3; cases e3; simp
  obtain ⟨_, σ, _, hσ⟩ := q3 _ (List.getElem_mem _) _ hmem
  dsimp only at hσ
  have hchild : ∀ a, a ≠ k → ∀ j, child (σ a) j = 0 := by
    intro a ha j
    obtain ⟨hb, hs'⟩ := hσ a j
    have : (∑ i, e a i * op.rot i j) = 0 := by
      refine Finset.sum_eq_zero fun i _ => ?_
      have : applyPbcDisplacement p' a i = 0 := by
        unfold applyPbcDisplacement
        rw [g2, hw0 a ha, mul_zero, wrap1_zero]
      rw [q2, this, mul_zero, zero_mul]
    rw [this] at hs'
    exact (hs'.eq_of_inHalfBox (by norm_num [InHalfBox]) hb).symm
  obtain ⟨_, hnorm, c3, _, hb3⟩ := normalizePos_some _ _ e2
  refine unique_of_zero (fun h0 => ?_) (σ k) fun a ha => ?_
  · rw [h0] at hnorm
    simp [inner3] at hnorm
  · funext j
    rw [hb3]
    have : m.ref.getCartDisplacement child a j = 0 := by
      unfold RefStructure.getCartDisplacement matMulPos applyPbcDisplacement
      refine Finset.sum_eq_zero fun x _ => ?_
      have ha' : σ.symm a ≠ k := fun h => ha (by rw [← h]; simp)
      have := hchild _ ha' x
      rw [Equiv.apply_symm_apply] at this
      rw [this, wrap1_zero, zero_mul]
    rw [this, mul_zero]; rfl

theorem artReachable_ref {spline : SplineFn} {s : RefStructure N} {m : IModel N}
    (h : ArtReachable spline s m) : m.ref = s := by
  induction h with
  | init pol dummy => rfl
  | addArt we i d amps pols _ ih => exact (addArt_atomic _ _ _ _ _ _ _).same.2.2.trans ih
  | setMask value _ ih =>
    unfold IModel.setMask
    split_ifs <;> exact ih
  | masked idx _ hm ih =>
    unfold IModel.getMaskedModel at hm
    split at hm
    · cases hm
    · cases hm; exact ih
  | unmask _ ih => exact ih

/-- C42: in every ARTModel obtained through the API (degrees of freedom added with `add_art`)
over a structure with separated atoms and genuine symmetry operations, each basis vector is
nonzero on exactly one atom. -/
theorem C42_one_atom (spglib : Mat3 ℝ → Pos N ℝ → (Fin N → ℕ) → Option SymDict)
    (nums : Fin N → ℕ) (lat : Mat3 ℝ) (p : Pos N ℝ) (s : RefStructure N)
    (hs : RefStructure.init spglib nums lat p = .ok s)
    (hsep : ∀ j k, j ≠ k → Apart (2 / 10 ^ 5) (p j) (p k))
    (hsym : ∀ op ∈ s.ops, ∃ σ, IsSymmetry p op.rot op.trans σ)
    (spline : SplineFn) (m : IModel N) (h : ArtReachable spline s m) :
    ∀ b ∈ m.basis, ∃! a, b a ≠ 0 := by
  induction h with
  | init pol dummy => intro b hb; simp [IModel.init] at hb
  | @addArt m₀ we i d amps pols h0 ih =>
    cases hr : (m₀.addArt spline we i d amps pols).result with
    | error e => rw [(addArt_atomic spline we m₀ i d amps pols).1 e hr]; exact ih
    | ok u =>
      obtain ⟨bs, h1, h2⟩ := addArt_one_atom spglib nums lat p s hs hsep hsym spline we m₀
        (artReachable_ref h0) i d amps pols hr
      rw [h1]
      intro b hb
      rcases List.mem_append.1 hb with hb | hb
      · exact ih b hb
      · exact h2 b hb
  | setMask value _ ih =>
    unfold IModel.setMask
    split_ifs <;> exact ih
  | masked idx _ hm ih =>
    unfold IModel.getMaskedModel at hm
    split at hm
    · cases hm
    · cases hm; exact ih
  | unmask _ ih => exact ih

/-- An (oracle for an) spglib answer reporting no symmetry of a two-atom crystal. -/
def pairSpglib : Mat3 ℝ → Pos 2 ℝ → (Fin 2 → ℕ) → Option SymDict :=
  fun _ _ _ => some ⟨[idOp], [0, 1]⟩

theorem pairInit : ∃ s, RefStructure.init pairSpglib ![55, 17] 1 csCl = .ok s ∧
    s.ops = [⟨1, 0⟩] := by
  obtain ⟨P, hP, _⟩ := C12_entry csCl idOp (idOp_sym csCl).1 csCl_closed
  refine ⟨⟨![55, 17], 1, csCl, [idOp], [P], [0, 1]⟩, ?_, rfl⟩
  unfold RefStructure.init pairSpglib computePermutationMatrices
  simp only [List.mapM_cons, hP, List.mapM_nil]
  rfl

/-- `add_art` on atom 1 (given as `-1`) of a two-atom crystal succeeds. -/
theorem pair_addArt_with (spline : SplineFn) (A B pol : Mat3 ℝ) (s : RefStructure 2)
    (hs : RefStructure.init pairSpglib ![55, 17] 1 csCl = .ok s) (hops : s.ops = [⟨1, 0⟩])
    (hsp : ∃ f, spline 1 [(-1 / 10, A - pol), (1 / 10, B - pol)] = .ok f) :
    ∃ b f, (IModel.init s pol false).addArt spline true (-1) ![1 / 4, 0, 0]
        [-1 / 10, 1 / 10] [A, B]
      = ⟨.ok (), [], { IModel.init s pol false with
          basis := [b], interps := [f], mask := [false] }⟩ := by
  obtain ⟨_, hlat, _⟩ := init_facts hs
  have hdir : s.getFracDirection ![1 / 4, 0, 0] = .ok ![1 / 4, 0, 0] := by
    unfold RefStructure.getFracDirection npInv
    rw [hlat, if_neg (by simp), inv_one]
    change Except.ok _ = Except.ok _
    congr 1
    funext j
    have : (∑ i, (![1 / 4, 0, 0] : Fin 3 → ℝ) i * (1 : Mat3 ℝ) i j) = ![1 / 4, 0, 0] j := by
      simp [Matrix.one_apply]
    rw [this]
    apply wrap1_of_inHalfBox
    fin_cases j <;> norm_num [InHalfBox]
  have hnorm : norm2 (fun i => (![1 / 4, 0, 0] : Fin 3 → ℝ) i * 10) = 5 / 2 := by
    unfold norm2 dot
    rw [Fin.sum_univ_three]
    have : (![1 / 4, 0, 0] : Fin 3 → ℝ) 0 * 10 * ((![1 / 4, 0, 0] : Fin 3 → ℝ) 0 * 10) +
        (![1 / 4, 0, 0] : Fin 3 → ℝ) 1 * 10 * ((![1 / 4, 0, 0] : Fin 3 → ℝ) 1 * 10) +
        (![1 / 4, 0, 0] : Fin 3 → ℝ) 2 * 10 * ((![1 / 4, 0, 0] : Fin 3 → ℝ) 2 * 10)
        = (5 / 2) ^ 2 := by
      have h2 : (![1 / 4, 0, 0] : Fin 3 → ℝ) 2 = 0 := rfl
      rw [h2]; norm_num
    rw [this, Real.sqrt_sq (by norm_num)]
  have hart : artDisplacement (1 : Fin 2) ![1 / 4, 0, 0]
      = some fun a => if a = 1 then fun i => (![1 / 4, 0, 0] : Fin 3 → ℝ) i / (5 / 2) else fun _ => 0 := by
    unfold artDisplacement
    rw [hnorm]
    dsimp only
    rw [if_neg (by norm_num)]
  have hbox : ∀ (a : Fin 2) (i : Fin 3), InHalfBox ((if a = 1 then fun i =>
      (![1 / 4, 0, 0] : Fin 3 → ℝ) i / (5 / 2) else fun _ => 0) i) := by
    intro a i
    fin_cases a <;> fin_cases i <;> norm_num [InHalfBox]
  obtain ⟨w, hwdef⟩ : ∃ w : Pos 2 ℝ, w = fun a => if a = 1 then fun i =>
      (![1 / 4, 0, 0] : Fin 3 → ℝ) i / (5 / 2) else fun _ => 0 := ⟨_, rfl⟩
  rw [← hwdef] at hart
  have hbox' : ∀ a i, InHalfBox (w a i) := by rw [hwdef]; exact hbox
  have hcart : s.getCartDisplacement w = w := by
    rw [getCart_of_box _ _ hbox', hlat]
    funext a j
    simp [toCart, Matrix.one_apply]
  have hfrac : s.getFracDisplacement w = .ok w := by
    unfold RefStructure.getFracDisplacement npInv
    rw [hlat, if_neg (by simp), inv_one]
    change Except.ok _ = Except.ok _
    congr 1
    funext a i
    have h : matMulPos w (1 : Mat3 ℝ) a i = w a i := by simp [matMulPos, Matrix.one_apply]
    unfold applyPbcDisplacement
    rw [h]
    exact wrap1_of_inHalfBox (hbox' a i)
  have hw0 : w ≠ 0 := fun h => by
    have := congrFun (congrFun h 1) 0
    rw [hwdef] at this
    norm_num at this
  obtain ⟨b, hprep, hb⟩ := addDof_single pairSpglib _ _ _ s hs csCl_apart hops spline
    true pol w w hfrac hw0 [-1 / 10, 1 / 10] [A, B] rfl 1 (by norm_num) false
  obtain ⟨f, hf⟩ : ∃ f, buildOne spline true (1 : ℤ).toNat ((dofPoints pol false
      [(1, ⟨1, 0⟩)] ([-1 / 10, 1 / 10].zip [A, B])).map fun x => (some x.1, x.2)) = (.ok f, []) := by
    have hd : hasDuplicates ((((dofPoints pol false [(1, ⟨1, 0⟩)]
        ([-1 / 10, 1 / 10].zip [A, B])).map fun x => (some x.1, x.2))).map Prod.fst) = false := by
      rw [List.map_map]
      have e : (Prod.fst ∘ fun x : ℝ × Mat3 ℝ => (some x.1, x.2)) = some ∘ Prod.fst := rfl
      rw [e, ← List.map_map, hasDuplicates_false]
      simp [dofPoints, TooClose]
      norm_num [abs_of_pos, abs_of_neg]
    unfold buildOne
    rw [hd]
    have hl : ¬ ((dofPoints pol false [(1, ⟨1, 0⟩)]
        ([-1 / 10, 1 / 10].zip [A, B])).map fun x => ((some x.1 : Option ℝ), x.2)).length
          ≤ (1 : ℤ).toNat := by
      simp [dofPoints]
    rw [if_neg (by simp), if_neg hl, (finitePts_some _ _).2 rfl]
    dsimp only
    have hws : dofWarnings ((dofPoints pol false [(1, ⟨1, 0⟩)]
        ([-1 / 10, 1 / 10].zip [A, B])).map Prod.fst) = [] := by
      rw [dofWarnings_eq _ (by simp [dofPoints])]
      unfold warnSpec
      rw [if_neg, if_neg]
      · rfl
      · intro h
        have := h (-1 / 10) (by simp [dofPoints])
        norm_num at this
      · intro h
        have := h (1 / 10) (by simp [dofPoints])
        norm_num at this
    rw [hws]
    have hsort : (dofPoints pol false [(1, ⟨1, 0⟩)]
        ([-1 / 10, 1 / 10].zip [A, B])).insertionSort (fun a b => a.1 ≤ b.1)
        = [(-1 / 10, A - pol), (1 / 10, B - pol)] := by
      simp [dofPoints, List.insertionSort]
      norm_num
    obtain ⟨f, hf⟩ := hsp
    refine ⟨f, ?_⟩
    simp only [hsort]
    exact Prod.ext hf rfl
  refine ⟨b, f, ?_⟩
  rw [← hb f _ hf]
  unfold IModel.addArt IModel.addDof
  have hp : prepareArt (IModel.init s pol false) (-1) ![1 / 4, 0, 0] [-1 / 10, 1 / 10] [A, B]
      = .ok (some w) := by
    unfold prepareArt
    have hr : (IModel.init s pol false).ref = s := rfl
    rw [hr, hdir]
    change Except.ok ((artDisplacement (1 : Fin 2) ![1 / 4, 0, 0]).map s.getCartDisplacement) = _
    rw [hart, Option.map_some, hcart]
  rw [hp]

theorem pair_addArt (A B pol : Mat3 ℝ) (s : RefStructure 2)
    (hs : RefStructure.init pairSpglib ![55, 17] 1 csCl = .ok s) (hops : s.ops = [⟨1, 0⟩]) :
    ∃ b f, (IModel.init s pol false).addArt lookupSpline true (-1) ![1 / 4, 0, 0]
        [-1 / 10, 1 / 10] [A, B]
      = ⟨.ok (), [], { IModel.init s pol false with
          basis := [b], interps := [f], mask := [false] }⟩ :=
  pair_addArt_with lookupSpline A B pol s hs hops ⟨_, rfl⟩

/-- C42, concrete: all hypotheses hold for an ARTModel of CsCl to which one ART was added. -/
theorem C42_concrete (A B pol : Mat3 ℝ) : ∃ (s : RefStructure 2) (m : IModel 2) (b : Pos 2 ℝ),
    RefStructure.init pairSpglib ![55, 17] 1 csCl = .ok s ∧ ArtReachable lookupSpline s m ∧
      m.basis = [b] ∧ ∃! a, b a ≠ 0 := by
  obtain ⟨s, hs, hops⟩ := pairInit
  obtain ⟨b, f, h⟩ := pair_addArt A B pol s hs hops
  have hr : ArtReachable lookupSpline s ((IModel.init s pol false).addArt lookupSpline true (-1)
      ![1 / 4, 0, 0] [-1 / 10, 1 / 10] [A, B]).state := .addArt _ _ _ _ _ (.init _ _)
  have hb : ((IModel.init s pol false).addArt lookupSpline true (-1)
      ![1 / 4, 0, 0] [-1 / 10, 1 / 10] [A, B]).state.basis = [b] := by rw [h]
  refine ⟨s, _, b, hs, hr, hb, ?_⟩
  refine C42_one_atom pairSpglib _ _ _ s hs csCl_apart (fun op hop => ?_) lookupSpline _ hr b
    (by rw [hb]; simp)
  rw [hops, List.mem_singleton] at hop
  subst hop
  exact ⟨_, idOp_sym csCl⟩

/-! ## C43 -/

/-- Atom `a` is meant by one element of the request: it is addressed by the index, or its
element has the symbol. -/
def Asks (nums : Fin N → ℕ) : AtomReq → Fin N → Prop
  | .index i, a => Addresses N i a
  | .symbol w, a => dictGet atomicNumbers w = some (nums a)

/-- The basis vector moves atom `a` by more than 1e-5 along some axis. -/
def Touches (b : Pos N ℝ) (a : Fin N) : Prop := ∃ c, 1 / 10 ^ 5 < |b a c|

theorem requestedAtoms_mem (m : IModel N) (reqs : List AtomReq) (is : List ℤ)
    (h : requestedAtoms m reqs = .ok is) (a : Fin N) :
    (∃ i ∈ is, Addresses N i a) ↔ ∃ r ∈ reqs, Asks m.ref.atomicNumbers r a := by
  induction reqs generalizing is with
  | nil => cases h; simp
  | cons r rs ih =>
    cases hr : requestedAtoms m rs with
    | error e =>
      cases r with
      | index i => unfold requestedAtoms at h; rw [hr] at h; cases h
      | symbol w =>
        unfold requestedAtoms at h
        rw [hr] at h
        cases hg : m.ref.getAtomIndexes (.one w) with
        | error e => rw [hg] at h; cases h
        | ok l => rw [hg] at h; cases h
    | ok is' =>
      have ih' := ih is' hr
      cases r with
      | index i =>
        unfold requestedAtoms at h
        rw [hr] at h
        change Except.ok _ = Except.ok _ at h
        cases h
        simp only [List.mem_cons, exists_eq_or_imp, ih', Asks]
      | symbol w =>
        unfold requestedAtoms at h
        rw [hr] at h
        cases hg : m.ref.getAtomIndexes (.one w) with
        | error e => rw [hg] at h; cases h
        | ok l =>
          rw [hg] at h
          change Except.ok _ = Except.ok _ at h
          cases h
          have hl := requestedAtoms_symbol m.ref w l hg
          rw [show (∃ r ∈ AtomReq.symbol w :: rs, Asks m.ref.atomicNumbers r a) ↔
            (Asks m.ref.atomicNumbers (.symbol w) a ∨ ∃ r ∈ rs, Asks m.ref.atomicNumbers r a) by simp,
            ← ih']
          have h2 : (∃ i ∈ l.map (fun a : Fin N => ((a : ℕ) : ℤ)), Addresses N i a) ↔
              Asks m.ref.atomicNumbers (.symbol w) a := by
            unfold Asks
            dsimp only
            rw [C90_tables_inverse, ← hl a]
            constructor
            · rintro ⟨i, hi, ha⟩
              obtain ⟨b, hb, rfl⟩ := List.mem_map.1 hi
              have : b = a := by
                apply Fin.ext
                have := b.2; have := a.2
                unfold Addresses at ha; omega
              rwa [← this]
            · intro ha
              exact ⟨_, List.mem_map_of_mem ha, Or.inl rfl⟩
          rw [← h2]
          constructor
          · rintro ⟨i, hi, ha⟩
            rcases List.mem_append.1 hi with hi | hi
            · exact Or.inl ⟨i, hi, ha⟩
            · exact Or.inr ⟨i, hi, ha⟩
          · rintro (⟨i, hi, ha⟩ | ⟨i, hi, ha⟩)
            · exact ⟨i, List.mem_append_left _ hi, ha⟩
            · exact ⟨i, List.mem_append_right _ hi, ha⟩

theorem getDofIndexes_ok (m : IModel N) (reqs : List AtomReq) (l : List ℕ)
    (h : m.getDofIndexes reqs = .ok l) :
    ∃ is lists, requestedAtoms m reqs = .ok is ∧
      List.Forall₂ (fun i x => dofsOfAtom i 0 m.basis = .ok x) is.dedup lists ∧
      l = lists.flatten := by
  unfold IModel.getDofIndexes at h
  cases hr : requestedAtoms m reqs with
  | error e => rw [hr] at h; cases h
  | ok is =>
    rw [hr] at h
    change (do
      let lists ← is.dedup.mapM fun i => dofsOfAtom i 0 m.basis
      return lists.flatten) = Except.ok l at h
    cases hm : is.dedup.mapM fun i => dofsOfAtom i 0 m.basis with
    | error e => rw [hm] at h; cases h
    | ok lists =>
      rw [hm] at h
      change Except.ok _ = Except.ok _ at h
      cases h
      exact ⟨is, lists, rfl, (mapM_except_ok _ _ _).1 hm, rfl⟩

/-- C43: for every request, a degree of freedom is returned iff it moves a requested atom by
more than 1e-5 along some axis. -/
theorem C43_membership (m : IModel N) (reqs : List AtomReq) (l : List ℕ)
    (h : m.getDofIndexes reqs = .ok l) (j : ℕ) :
    j ∈ l ↔ ∃ b, m.basis[j]? = some b ∧ ∃ r ∈ reqs, ∃ a,
      Asks m.ref.atomicNumbers r a ∧ Touches b a := by
  obtain ⟨is, lists, h1, h2, rfl⟩ := getDofIndexes_ok m reqs l h
  have hreq := requestedAtoms_mem m reqs is h1
  have key : j ∈ lists.flatten ↔ ∃ i ∈ is, ∃ (k : ℕ) (hk : k < m.basis.length), j = 0 + k ∧
      ∃ a, Addresses N i a ∧ ∃ c, 1 / 10 ^ 5 < |m.basis[k] a c| := by
    rw [List.mem_flatten]
    constructor
    · rintro ⟨x, hx, hj⟩
      obtain ⟨n, hn, rfl⟩ := List.mem_iff_getElem.1 hx
      have hl := h2.length_eq
      have h3 := (List.forall₂_iff_get.1 h2).2 n (by omega) hn
      simp only [List.get_eq_getElem] at h3
      exact ⟨_, List.mem_dedup.1 (List.getElem_mem (by omega)), ((dofsOfAtom_ok _ _ _ _ h3).2 j).1 hj⟩
    · rintro ⟨i, hi, hk⟩
      obtain ⟨n, hn, rfl⟩ := List.mem_iff_getElem.1 (List.mem_dedup.2 hi)
      have hl := h2.length_eq
      have h3 := (List.forall₂_iff_get.1 h2).2 n hn (by omega)
      simp only [List.get_eq_getElem] at h3
      exact ⟨_, List.getElem_mem (by omega), ((dofsOfAtom_ok _ _ _ _ h3).2 j).2 hk⟩
  rw [key]
  constructor
  · rintro ⟨i, hi, k, hk, rfl, a, ha, hc⟩
    obtain ⟨r, hr, hra⟩ := (hreq a).1 ⟨i, hi, ha⟩
    exact ⟨m.basis[k], by simp, r, hr, a, hra, hc⟩
  · rintro ⟨b, hb, r, hr, a, hra, hc⟩
    obtain ⟨hk, rfl⟩ := List.getElem?_eq_some_iff.1 hb
    obtain ⟨i, hi, ha⟩ := (hreq a).2 ⟨r, hr, hra⟩
    exact ⟨i, hi, j, hk, by omega, a, ha, hc⟩

/-- C43: a request whose indexes are in range succeeds if all atomic numbers are known. -/
theorem C43_total (m : IModel N) (reqs : List AtomReq)
    (hi : ∀ i, AtomReq.index i ∈ reqs → -(N : ℤ) ≤ i ∧ i < N)
    (hn : ∀ a, 1 ≤ m.ref.atomicNumbers a ∧ m.ref.atomicNumbers a ≤ 118) :
    ∃ l, m.getDofIndexes reqs = .ok l := by
  have h1 : ∃ is, requestedAtoms m reqs = .ok is ∧ ∀ i ∈ is, -(N : ℤ) ≤ i ∧ i < N := by
    induction reqs with
    | nil => exact ⟨[], rfl, by simp⟩
    | cons r rs ih =>
      obtain ⟨is, h1, h2⟩ := ih fun i h => hi i (by simp [h])
      cases r with
      | index i =>
        refine ⟨i :: is, by unfold requestedAtoms; rw [h1]; rfl, ?_⟩
        intro x hx
        rcases List.mem_cons.1 hx with rfl | hx
        · exact hi _ (by simp)
        · exact h2 x hx
      | symbol w =>
        obtain ⟨l, hl, _⟩ := (C20_get_atom_indexes m.ref [w]).1 hn
        refine ⟨l.map (fun a : Fin N => ((a : ℕ) : ℤ)) ++ is, ?_, ?_⟩
        · unfold requestedAtoms
          rw [(C20_get_atom_indexes m.ref [w]).2.2 w, hl, h1]
          rfl
        · intro x hx
          rcases List.mem_append.1 hx with hx | hx
          · obtain ⟨a, _, rfl⟩ := List.mem_map.1 hx
            have := a.2; omega
          · exact h2 x hx
  obtain ⟨is, h1, h2⟩ := h1
  choose! f hf using fun i (h : -(N : ℤ) ≤ i ∧ i < N) => dofsOfAtom_total i h 0 m.basis
  refine ⟨((is.dedup).map f).flatten, ?_⟩
  unfold IModel.getDofIndexes
  have hm : is.dedup.mapM (fun i => dofsOfAtom i 0 m.basis) = .ok (is.dedup.map f) := by
    rw [mapM_except_ok, List.forall₂_map_right_iff, List.forall₂_same]
    intro i hi
    exact hf i (h2 i (List.mem_dedup.1 hi))
  rw [h1]
  change (do
      let lists ← is.dedup.mapM fun i => dofsOfAtom i 0 m.basis
      return lists.flatten) = _
  rw [hm]; rfl

/-- C43: if each basis vector moves one atom only (`C42_one_atom`) and no negative index is
requested, no degree of freedom is returned twice. -/
theorem C43_no_repetition_partial (m : IModel N) (reqs : List AtomReq) (l : List ℕ)
    (hone : ∀ b ∈ m.basis, ∃! a, b a ≠ 0)
    (hi : ∀ i, AtomReq.index i ∈ reqs → 0 ≤ i)
    (h : m.getDofIndexes reqs = .ok l) : l.Nodup := by
  obtain ⟨is, lists, h1, h2, rfl⟩ := getDofIndexes_ok m reqs l h
  have hnn : ∀ i ∈ is, 0 ≤ i := by
    clear h h2
    induction reqs generalizing is with
    | nil => cases h1; simp
    | cons r rs ih =>
      have hi' : ∀ i, AtomReq.index i ∈ rs → 0 ≤ i := fun i h => hi i (by simp [h])
      cases hr : requestedAtoms m rs with
      | error e =>
        cases r with
        | index i => unfold requestedAtoms at h1; rw [hr] at h1; cases h1
        | symbol w =>
          unfold requestedAtoms at h1
          rw [hr] at h1
          cases hg : m.ref.getAtomIndexes (.one w) with
          | error e => rw [hg] at h1; cases h1
          | ok l => rw [hg] at h1; cases h1
      | ok is' =>
        cases r with
        | index i =>
          unfold requestedAtoms at h1
          rw [hr] at h1
          change Except.ok _ = Except.ok _ at h1
          cases h1
          intro x hx
          rcases List.mem_cons.1 hx with rfl | hx
          · exact hi _ (by simp)
          · exact ih hi' is' hr x hx
        | symbol w =>
          unfold requestedAtoms at h1
          rw [hr] at h1
          cases hg : m.ref.getAtomIndexes (.one w) with
          | error e => rw [hg] at h1; cases h1
          | ok l =>
            rw [hg] at h1
            change Except.ok _ = Except.ok _ at h1
            cases h1
            intro x hx
            rcases List.mem_append.1 hx with hx | hx
            · obtain ⟨a, _, rfl⟩ := List.mem_map.1 hx; omega
            · exact ih hi' is' hr x hx
  rw [List.nodup_flatten]
  have hl := h2.length_eq
  have hget : ∀ n (hn : n < lists.length), dofsOfAtom (is.dedup[n]'(by omega)) 0 m.basis
      = .ok lists[n] := fun n hn => by
    have := (List.forall₂_iff_get.1 h2).2 n (by omega) hn
    simpa using this
  constructor
  · intro x hx
    obtain ⟨n, hn, rfl⟩ := List.mem_iff_getElem.1 hx
    exact (dofsOfAtom_ok _ _ _ _ (hget n hn)).1
  · rw [List.pairwise_iff_getElem]
    intro n n' hn hn' hlt x hx hx'
    obtain ⟨k, hk, rfl, a, ha, c, hc⟩ := ((dofsOfAtom_ok _ _ _ _ (hget n hn)).2 x).1 hx
    obtain ⟨k', hk', hkk, a', ha', c', hc'⟩ := ((dofsOfAtom_ok _ _ _ _ (hget n' hn')).2 _).1 hx'
    have : k' = k := by omega
    subst this
    obtain ⟨a0, _, hu⟩ := hone _ (List.getElem_mem hk)
    have hz : ∀ a c, 1 / 10 ^ 5 < |m.basis[k'] a c| → a = a0 := fun a c h => hu a fun h0 => by
      rw [h0] at h
      have : (1 : ℝ) / 10 ^ 5 < 0 := by simpa using h
      norm_num at this
    have haa : a = a' := (hz a c hc).trans (hz a' c' hc').symm
    subst haa
    have e1 := hnn _ (List.mem_dedup.1 (List.getElem_mem (show n < is.dedup.length by omega)))
    have e2 := hnn _ (List.mem_dedup.1 (List.getElem_mem (show n' < is.dedup.length by omega)))
    have hne := (List.pairwise_iff_getElem.1 (List.nodup_dedup is)) n n' (by omega) (by omega) hlt
    apply hne
    have := a.2
    unfold Addresses at ha ha'
    omega

/-- C43, limit: requesting the same atom by a nonnegative and by a negative index returns its
degrees of freedom twice. -/
theorem C43_repetition_counterexample : ∃ m : IModel 1, (∀ b ∈ m.basis, ∃! a, b a ≠ 0) ∧
    m.getDofIndexes [.index 0, .index (-1)] = .ok [0, 0] := by
  obtain ⟨m, hb⟩ : ∃ m : IModel 1, m.basis = [fun _ => ![1, 0, 0]] :=
    ⟨⟨⟨fun _ => 1, 1, fun _ _ => 0, [], [], []⟩, 0, true, [fun _ => ![1, 0, 0]], [], [false]⟩, rfl⟩
  refine ⟨m, fun b h => ?_, ?_⟩
  · rw [hb, List.mem_singleton] at h
    subst h
    refine ⟨0, fun h0 => ?_, fun a _ => Subsingleton.elim _ _⟩
    have := congrFun h0 0
    simp at this
  · have h1 : ∀ i : ℤ, pyIndex 1 i = some 0 →
        dofsOfAtom i 0 [(fun _ => ![1, 0, 0] : Pos 1 ℝ)] = .ok [0] := by
      intro i hi
      unfold dofsOfAtom
      rw [hi]
      have : ¬ ∀ c : Fin 3, |(![1, 0, 0] : Fin 3 → ℝ) c| ≤ 1 / 10 ^ 5 := fun h => by
        have := h 0
        norm_num at this
      dsimp only
      rw [decide_eq_false this]
      rfl
    unfold IModel.getDofIndexes
    have hr : requestedAtoms m [.index 0, .index (-1)] = .ok [0, -1] := rfl
    rw [hr, hb]
    have hd : ([0, -1] : List ℤ).dedup = [0, -1] := by decide
    change (do
      let lists ← ([0, -1] : List ℤ).dedup.mapM fun i =>
        dofsOfAtom i 0 [(fun _ => ![1, 0, 0] : Pos 1 ℝ)]
      return lists.flatten) = _
    rw [hd, List.mapM_cons, List.mapM_cons, h1 0 rfl, h1 (-1) rfl]
    rfl

/-- C43, limit: an out-of-range index is an error only if the model has degrees of freedom. -/
theorem C43_out_of_range (m : IModel N) (i : ℤ) (hi : i < -(N : ℤ) ∨ (N : ℤ) ≤ i) :
    m.getDofIndexes [.index i] = if m.basis = [] then .ok [] else .error .indexError := by
  unfold IModel.getDofIndexes
  have hr : requestedAtoms m [.index i] = .ok [i] := rfl
  rw [hr]
  change (do
      let lists ← [i].dedup.mapM fun i => dofsOfAtom i 0 m.basis
      return lists.flatten) = _
  have hd : [i].dedup = [i] := List.Nodup.dedup (by simp)
  rw [hd, List.mapM_cons]
  cases hb : m.basis with
  | nil => rfl
  | cons b bs => rw [dofsOfAtom_err i hi, if_neg (by simp)]; rfl

/-- C43, concrete: in a two-mode model over Cs and Cl, "Cl" finds the mode moving atom 1. -/
example : ∃ (m : IModel 2) (l : List ℕ), m.getDofIndexes [.symbol ['C', 'l']] = .ok l ∧
    1 ∈ l ∧ 0 ∉ l ∧ l.Nodup := by
  obtain ⟨m, hb, hn⟩ : ∃ m : IModel 2, m.basis = [fun a => if a = 0 then ![1, 0, 0] else 0,
      fun a => if a = 1 then ![0, 1, 0] else 0] ∧ m.ref.atomicNumbers = ![55, 17] :=
    ⟨⟨⟨![55, 17], 1, csCl, [], [], []⟩, 0, true, _, [], []⟩, rfl, rfl⟩
  obtain ⟨l, hl⟩ := C43_total m [.symbol ['C', 'l']] (by simp) (by
    intro a; rw [hn]; fin_cases a <;> decide)
  have hCl : dictGet atomicNumbers ['C', 'l'] = some 17 := by decide
  refine ⟨m, l, hl, ?_, ?_, ?_⟩
  · rw [C43_membership m _ l hl]
    refine ⟨fun a => if a = 1 then ![0, 1, 0] else 0, by rw [hb]; rfl, .symbol ['C', 'l'],
      by simp, 1, ?_, 1, ?_⟩
    · change dictGet atomicNumbers ['C', 'l'] = _
      rw [hn, hCl]; rfl
    · norm_num
  · rw [C43_membership m _ l hl]
    rintro ⟨b, h1, r, h2, a, h3, c, h4⟩
    rw [List.mem_singleton] at h2
    subst h2
    rw [hb] at h1
    simp only [List.getElem?_cons_zero, Option.some.injEq] at h1
    subst h1
    change dictGet atomicNumbers ['C', 'l'] = _ at h3
    rw [hn, hCl] at h3
    fin_cases a
    · cases h3
    · have : (1 : ℝ) / 10 ^ 5 < 0 := by simpa using h4
      norm_num at this
  · refine C43_no_repetition_partial m _ l (fun b h => ?_) (by simp) hl
    rw [hb] at h
    simp only [List.mem_cons, List.not_mem_nil, or_false] at h
    rcases h with rfl | rfl
    · refine ⟨0, fun h0 => ?_, fun a ha => ?_⟩
      · have := congrFun h0 0; simp at this
      · by_contra hne; simp [hne] at ha
    · refine ⟨1, fun h0 => ?_, fun a ha => ?_⟩
      · have := congrFun h0 1; simp at this
      · by_contra hne; simp [hne] at ha

/-! ## C44 -/

/-- C44: `add_art` raises `ValueError` and changes nothing if there are not one or two
amplitudes, or (real models) if the number of polarizabilities differs from the number of
amplitudes. -/
theorem C44_shapes (spline : SplineFn) (we : Bool) (m : IModel N) (hdet : m.ref.lattice.det ≠ 0)
    (i : ℤ) (d : Vec3) (amps : List ℝ) (pols : List (Mat3 ℝ)) (o : Outcome N)
    (ho : o = m.addArt spline we i d amps pols)
    (hbad : (amps.length ≠ 1 ∧ amps.length ≠ 2) ∨
      (m.dummy = false ∧ pols.length ≠ amps.length)) :
    o.result = .error .valueError ∧ o.state = m := by
  subst ho
  obtain ⟨dir, hd⟩ : ∃ dir, m.ref.getFracDirection d = .ok dir := by
    unfold RefStructure.getFracDirection npInv
    rw [if_neg hdet]; exact ⟨_, rfl⟩
  have : prepareArt m i d amps pols = .error .valueError := by
    unfold prepareArt
    rw [hd]
    change (if ¬ (amps.length = 1 ∨ amps.length = 2) then Except.error PyErr.valueError
        else _) = _
    by_cases hl : amps.length = 1 ∨ amps.length = 2
    · rw [if_neg (not_not.2 hl)]
      rcases hbad with hb | ⟨hb1, hb2⟩
      · omega
      · rw [hb1]; exact if_pos hb2
    · rw [if_pos hl]
  unfold IModel.addArt
  rw [this]
  exact ⟨rfl, rfl⟩

/-- C44: whenever `add_art` succeeds on a real model, every new interpolation is the linear
spline through at least two points with distinct amplitudes. -/
theorem C44_amplitudes (spline : SplineFn) (we : Bool) (m : IModel N) (hm : m.dummy = false)
    (i : ℤ) (d : Vec3) (amps : List ℝ) (pols : List (Mat3 ℝ)) (o : Outcome N)
    (ho : o = m.addArt spline we i d amps pols) (hok : o.result = .ok ()) :
    (amps.length = 1 ∨ amps.length = 2) ∧ pols.length = amps.length ∧
    ∃ fs, o.state.interps = m.interps ++ fs ∧ ∀ f ∈ fs, ∃ pts, spline 1 pts = .ok f ∧
      2 ≤ pts.length ∧ pts.Pairwise (fun a b => a.1 < b.1) := by
  subst ho
  obtain ⟨k, dir, _, _, hl, he⟩ := addArt_ok _ _ _ _ _ _ _ hok
  rw [he] at hok ⊢
  obtain ⟨parent, recs, fs, _, h2, _, _, h5, _, _, h8, _⟩ :=
    addDofNan_facts spline we m _ amps pols 1 false _ rfl hok
  refine ⟨hl, by simpa [usedPols, hm] using h2, fs, by rw [h5, hm]; rfl, fun f hf => ?_⟩
  obtain ⟨n, hn, rfl⟩ := List.mem_iff_getElem.1 hf
  have := (List.forall₂_iff_get.1 h8).2 n (by rw [h8.length_eq]; exact hn) hn
  obtain ⟨hr, hs⟩ := this
  exact ⟨_, hs, hr.2.1, hr.2.2.imp And.left⟩

/-- C44, concrete: with two amplitudes `add_art` succeeds on CsCl, with three it raises
`ValueError`. -/
example (A B pol : Mat3 ℝ) : ∃ s : RefStructure 2,
    ((IModel.init s pol false).addArt lookupSpline true (-1) ![1 / 4, 0, 0]
      [-1 / 10, 1 / 10] [A, B]).result = .ok () ∧
    ((IModel.init s pol false).addArt lookupSpline true (-1) ![1 / 4, 0, 0]
      [-1 / 10, 1 / 10, 2 / 10] [A, B, A]).result = .error .valueError := by
  obtain ⟨s, hs, hops⟩ := pairInit
  obtain ⟨b, f, h⟩ := pair_addArt A B pol s hs hops
  refine ⟨s, by rw [h], (C44_shapes lookupSpline true _ ?_ _ _ _ _ _ rfl (Or.inl (by simp))).1⟩
  change s.lattice.det ≠ 0
  rw [(init_facts hs).2.1]; simp

/-! ## C45 -/

theorem multipleAtoms_iff {d : Pos N ℝ} {a b : Fin N} (hab : a ≠ b) {i j : Fin 3}
    (ha : 1 / 10 ^ 6 < |d a i|) (hb : 1 / 10 ^ 6 < |d b j|) : multipleAtomsDisplaced d = true := by
  unfold multipleAtomsDisplaced
  cases hl : List.finRange N with
  | nil =>
    have := List.mem_finRange a
    rw [hl] at this; simp at this
  | cons x xs =>
    dsimp only
    rw [Bool.not_eq_true', decide_eq_false_iff_not]
    intro h
    by_cases hk : a = argmaxFrom (rowSq d) x xs
    · have := h b j
      rw [if_neg (fun h' => hab (hk.trans h'.symm))] at this
      linarith
    · have := h a i
      rw [if_neg hk] at this
      linarith

/-- Everything `_read_dof` needs: readable files of the right shape with collinear nonzero
displacements. -/
theorem readDof_ok (m : IModel N) (hdet : m.ref.lattice.det ≠ 0) (p0 : Pos N ℝ) (pol0 : Mat3 ℝ)
    (rest : List (Pos N ℝ × Mat3 ℝ)) (w : Pos N ℝ → Pos N ℝ)
    (hw : ∀ p, NearestImage m.ref.positions p (w p))
    (hc : ∀ x ∈ (p0, pol0) :: rest, Collinear (flatten (w p0)) (flatten (w x.1))) :
    ∃ amps pols, amps.length = rest.length + 1 ∧ pols.length = rest.length + 1 ∧
      readDof m (((p0, pol0) :: rest).map fun x => .ok (some x.1, x.2))
        = .ok (w p0 :: rest.map (fun x => w x.1), amps, pols) := by
  have hcalc : ∀ p, calcDisplacement m.ref.positions p = w p := fun p =>
    (calcDisplacement_nearest _ _).unique (hw p)
  have hfiles : ∀ l : List (Pos N ℝ × Mat3 ℝ),
      readDofFiles m (l.map fun x => .ok (some x.1, x.2))
        = .ok (l.map fun x => (w x.1, if m.dummy then 0 else x.2)) := by
    intro l
    induction l with
    | nil => rfl
    | cons x l ih =>
      rw [List.map_cons]
      unfold readDofFiles
      change (do
        let rest ← readDofFiles m (l.map fun x : Pos N ℝ × Mat3 ℝ => .ok (some x.1, x.2))
        return (calcDisplacement m.ref.positions x.1, if m.dummy then 0 else x.2) :: rest) = _
      rw [ih, hcalc]
      rfl
  have hbox : ∀ a i, InHalfBox (w p0 a i) := fun a i => (hw p0 a i).1
  have hw0 : w p0 ≠ 0 := fun h => (hc (p0, pol0) (by simp)).1 (by rw [h]; rfl)
  have hcart : m.ref.getCartDisplacement (w p0) ≠ 0 := by
    rw [getCart_of_box _ _ hbox]
    intro h0
    apply hw0
    have h1 : matMulPos (matMulPos (w p0) m.ref.lattice) m.ref.lattice⁻¹ = w p0 :=
      matMulPos_inv_right hdet (w p0)
    have h2 : matMulPos (w p0) m.ref.lattice = 0 := h0
    rw [h2] at h1
    rw [← h1]
    funext a i
    simp [matMulPos]
  obtain ⟨b, hb⟩ : ∃ b, normalizePos (m.ref.getCartDisplacement (w p0)) = some b := by
    unfold normalizePos
    rw [if_neg fun h => hcart ?_]
    · exact ⟨_, rfl⟩
    · by_contra hne; exact flat_ne_zero hne (norm2_eq_zero.1 h)
  have hcol : isCollinearWithAll (flat (w p0)) ((w p0 :: rest.map (fun x => w x.1)).map flat) = -1 := by
    rw [(C09_neg_one _ _).1]
    intro v hv
    simp only [List.mem_map, List.mem_cons] at hv
    obtain ⟨d, rfl | ⟨x, hx, rfl⟩, rfl⟩ := hv
    · exact hc (p0, pol0) (by simp)
    · exact hc x (by simp [hx])
  refine ⟨(w p0 :: rest.map (fun x => w x.1)).map fun d => getAmplitude b (m.ref.getCartDisplacement d),
    ((p0, pol0) :: rest).map (fun x => if m.dummy then 0 else x.2), by simp, by simp, ?_⟩
  unfold readDof
  rw [hfiles]
  change (if isCollinearWithAll (flat (w p0)) (((w p0, if m.dummy then 0 else pol0) ::
    rest.map fun x => (w x.1, if m.dummy then 0 else x.2)).map Prod.fst |>.map flat) ≠ -1 then _ else _) = _
  have e : ((w p0, if m.dummy then 0 else pol0) ::
    rest.map fun x => (w x.1, if m.dummy then 0 else x.2)).map Prod.fst = w p0 :: rest.map (fun x => w x.1) := by
    simp
  rw [e, if_neg (not_not.2 hcol)]
  rw [hb]
  dsimp only
  have e2 : (((p0, pol0) :: rest).map fun x => (w x.1, if m.dummy then 0 else x.2)).map Prod.fst
      = w p0 :: rest.map (fun x => w x.1) := by simp
  have e3 : (((p0, pol0) :: rest).map fun x => (w x.1, if m.dummy then 0 else x.2)).map Prod.snd
      = ((p0, pol0) :: rest).map (fun x => if m.dummy then 0 else x.2) := by simp
  rw [e2, e3]
  rfl

/-- C45: if the first file displaces two atoms by more than 1e-6 (fractional), the call raises
`InvalidDOFException` and leaves the model unchanged. -/
theorem C45_multiple_atoms (spline : SplineFn) (we : Bool) (m : IModel N)
    (hdet : m.ref.lattice.det ≠ 0) (p0 : Pos N ℝ) (pol0 : Mat3 ℝ)
    (rest : List (Pos N ℝ × Mat3 ℝ)) (w : Pos N ℝ → Pos N ℝ)
    (hw : ∀ p, NearestImage m.ref.positions p (w p))
    (hc : ∀ x ∈ (p0, pol0) :: rest, Collinear (flatten (w p0)) (flatten (w x.1)))
    (a b : Fin N) (hab : a ≠ b) (i j : Fin 3)
    (ha : 1 / 10 ^ 6 < |w p0 a i|) (hb : 1 / 10 ^ 6 < |w p0 b j|) (o : Outcome N)
    (ho : o = m.addArtFromFiles spline we (((p0, pol0) :: rest).map fun x => .ok (some x.1, x.2))) :
    o.result = .error .invalidDOF ∧ o.state = m := by
  obtain ⟨amps, pols, _, _, hr⟩ := readDof_ok m hdet p0 pol0 rest w hw hc
  subst ho
  unfold IModel.addArtFromFiles
  rw [hr]
  dsimp only
  rw [multipleAtoms_iff hab ha hb]
  exact ⟨rfl, rfl⟩

/-- C45: if the number of files times the number of collinear symmetry images of the first
displacement is not two, the call raises `InvalidDOFException` and leaves the model
unchanged. -/
theorem C45_amplitude_count (spline : SplineFn) (we : Bool) (m : IModel N)
    (hdet : m.ref.lattice.det ≠ 0) (hops : ∀ op ∈ m.ref.ops, op.rot.det ≠ 0)
    (p0 : Pos N ℝ) (pol0 : Mat3 ℝ)
    (rest : List (Pos N ℝ × Mat3 ℝ)) (w : Pos N ℝ → Pos N ℝ)
    (hw : ∀ p, NearestImage m.ref.positions p (w p))
    (hc : ∀ x ∈ (p0, pol0) :: rest, Collinear (flatten (w p0)) (flatten (w x.1)))
    (g : EqGroup N) (gs : List (EqGroup N))
    (hg : m.ref.getEquivalentDisplacements (w p0) = .ok (some (g :: gs)))
    (hcount : (rest.length + 1) * g.displacements.length ≠ 2) (o : Outcome N)
    (ho : o = m.addArtFromFiles spline we (((p0, pol0) :: rest).map fun x => .ok (some x.1, x.2))) :
    o.result = .error .invalidDOF ∧ o.state = m := by
  obtain ⟨amps, pols, ha, hp, hr⟩ := readDof_ok m hdet p0 pol0 rest w hw hc
  subst ho
  unfold IModel.addArtFromFiles
  rw [hr]
  dsimp only
  by_cases hm : multipleAtomsDisplaced (w p0) = true
  · rw [if_pos hm]; exact ⟨rfl, rfl⟩
  rw [if_neg hm]
  by_cases horth : orthCheck m (some (w p0)) = -1
  swap
  · have : getDof m (some (w p0)) amps pols false = .error .invalidDOF := by
      unfold getDof; rw [if_pos horth]
    rw [this]; exact ⟨rfl, rfl⟩
  obtain ⟨done, orth, hI, hdone, _⟩ := getEq_some _ _ _ hg
  have hmem : ∀ g' ∈ g :: gs, ∀ op ∈ g'.transformations, op ∈ m.ref.ops := by
    intro g' hg' op hop
    obtain ⟨n, hn, rfl⟩ := List.mem_iff_getElem.1 hop
    have hl := hI.len g' hg'
    have hz : (g'.transformations[n], g'.displacements[n]'(by omega)) ∈ g'.pairs := by
      unfold EqGroup.pairs
      rw [List.mem_iff_getElem]
      exact ⟨n, by rw [List.length_zip]; omega, by simp⟩
    exact hdone _ (hI.prov.subset (List.mem_flatMap.2 ⟨g', hg', hz⟩))
  have hhead : ∀ g' ∈ g :: gs, ∃ c r, g'.displacements = c :: r := by
    intro g' hg'
    have hh : g'.displacements.head? ∈ (g :: gs).map fun g => g.displacements.head? :=
      List.mem_map_of_mem hg'
    rw [hI.heads] at hh
    obtain ⟨x, _, hx⟩ := List.mem_map.1 hh
    cases hd : g'.displacements with
    | nil => rw [hd] at hx; cases hx
    | cons c r => exact ⟨c, r, rfl⟩
  have hall : ∀ g' ∈ g :: gs, ∃ G, dofGroup m amps pols false g' = .ok G := by
    intro g' hg'
    obtain ⟨c, r, hd⟩ := hhead g' hg'
    exact ⟨_, dofGroup_eq m amps pols false g' c r hd fun op hop => hops _ (hmem g' hg' op hop)⟩
  have : Inhabited (DofGroup N) := ⟨⟨none, []⟩⟩
  choose! F hF using hall
  have hdof : getDof m (some (w p0)) amps pols false = .ok ((g :: gs).map F) := by
    rw [getDof_eq m _ _ _ _ _ horth hg, mapM_except_ok, List.forall₂_map_right_iff,
      List.forall₂_same]
    exact hF
  rw [hdof]
  have hlen : (F g).pts.length ≠ 2 := by
    obtain ⟨c, r, hd⟩ := hhead g (by simp)
    have := hF g (by simp)
    rw [dofGroup_eq m amps pols false g c r hd fun op hop => hops _ (hmem g (by simp) op hop)] at this
    rw [← Except.ok.inj this]
    have hl := hI.len g (by simp)
    have hz : (amps.zip pols).length = rest.length + 1 := by rw [List.length_zip]; omega
    simp only [refPoint, Bool.false_eq_true, if_false, List.nil_append, List.length_flatMap,
      List.length_map, hz]
    rw [List.map_const', List.sum_replicate, List.length_zip, ← hl, min_self]
    simpa [mul_comm] using hcount
  change (if (F g).pts.length ≠ 2 then _ else _ : Outcome N).result = _ ∧
    (if (F g).pts.length ≠ 2 then _ else _ : Outcome N).state = _
  rw [if_pos hlen]
  exact ⟨rfl, rfl⟩

/-- C45, concrete: a file in which both atoms of CsCl are displaced is refused. -/
example (A pol : Mat3 ℝ) : ∃ (s : RefStructure 2) (p : Pos 2 ℝ),
    ((IModel.init s pol false).addArtFromFiles lookupSpline true [.ok (some p, A)]).result
      = .error .invalidDOF := by
  obtain ⟨s, hs, hops⟩ := pairInit
  obtain ⟨hpos, hlat, _⟩ := init_facts hs
  have hw : NearestImage csCl (fun a i => csCl a i + 1 / 10) (fun _ _ => 1 / 10) :=
    fun a i => ⟨by norm_num [InHalfBox], ⟨0, by simp⟩⟩
  have hcalc : calcDisplacement csCl (fun a i => csCl a i + 1 / 10) = fun _ _ => 1 / 10 :=
    (calcDisplacement_nearest _ _).unique hw
  refine ⟨s, fun a i => csCl a i + 1 / 10, (C45_multiple_atoms lookupSpline true
    (IModel.init s pol false) ?_ (fun a i => csCl a i + 1 / 10) A []
    (calcDisplacement csCl) ?_ ?_ 0 1 (by decide) 0 0 ?_ ?_ _ rfl).1⟩
  · change s.lattice.det ≠ 0
    rw [hlat]; simp
  · intro p
    change NearestImage s.positions p _
    rw [hpos]
    exact calcDisplacement_nearest _ _
  · intro x hx
    rw [List.mem_singleton] at hx
    subst hx
    dsimp only
    have hne : flatten (calcDisplacement csCl fun a i => csCl a i + 1 / 10) ≠ 0 := fun h => by
      have := congrFun h ((0 : Fin 2), (0 : Fin 3))
      rw [hcalc] at this
      norm_num [flatten] at this
    refine ⟨hne, hne, ?_⟩
    rw [cosine_eq, ← norm2_sq, ← sq, div_self (pow_ne_zero _ (norm2_pos hne).ne')]
    norm_num [angTol]
  · rw [hcalc]; norm_num [abs_of_pos]
  · rw [hcalc]; norm_num [abs_of_pos]

end Verif
