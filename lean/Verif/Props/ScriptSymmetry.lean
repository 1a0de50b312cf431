import Verif.Props.SelectionRules
import Verif.Props.OperationOrderRuns

/-!
# Property C168: models built by any sequence of calls have the symmetry of the crystal
-/

namespace Verif
open Spec Matrix

variable {N : ℕ}

/-- What the claim asks of the crystal: well separated atoms, operations that are symmetries, form a
group and are the same matrices in fractional and Cartesian coordinates. -/
structure CubicCrystal (spglib : Mat3 ℝ → Pos N ℝ → (Fin N → ℕ) → Option SymDict)
    (nums : Fin N → ℕ) (lat : Mat3 ℝ) (p : Pos N ℝ) (s : RefStructure N) : Prop where
  built : RefStructure.init spglib nums lat p = .ok s
  size : N ≤ 10 ^ 8
  separated : ∀ j k, j ≠ k → Apart (2 / 10 ^ 5) (p j) (p k)
  symmetric : ∀ op ∈ s.ops, ∃ σ, IsSymmetry p op.rot op.trans σ
  isometric : ∀ op ∈ s.ops, op.rot * op.rot.transpose = 1
  commutes : ∀ op ∈ s.ops, op.rot * lat = lat * op.rot
  product : ∀ x ∈ s.ops, ∀ y ∈ s.ops, ∃ z ∈ s.ops,
    Composite x.rot x.trans y.rot y.trans z.rot z.trans
  quotient : ∀ z ∈ s.ops, ∀ y ∈ s.ops, ∃ x ∈ s.ops,
    Composite x.rot x.trans y.rot y.trans z.rot z.trans

/-- The call measures the polarizabilities `pols` along the fractional displacement `w`: the given
displacement, the given direction of one atom, or the first of the given structures. -/
def AddCall.Measures (s : RefStructure N) (w : Pos N ℝ) (pols : List (Mat3 ℝ)) : AddCall N → Prop
  | .dof cart _ As _ => s.getFracDisplacement cart = .ok w ∧ As = pols
  | .files fs _ => ∃ q A data, fs = ((q, A) :: data).map (fun x => .ok (some x.1, x.2)) ∧
      NearestImage s.positions q w ∧ A :: data.map Prod.snd = pols
  | .pymatgen ss As _ => ∃ st rest, ss = some st :: rest ∧
      (∃ h : st.fracCoords.length = N, NearestImage s.positions (fun a => st.fracCoords[a]) w) ∧
      As = pols
  | .art atom dir _ As => ∃ k, pyIndex N atom = some k ∧
      s.getFracDisplacement (fun a i => if a = k then dir i else 0) = .ok w ∧ As = pols
  | .artFiles fs => ∃ q A data, fs = ((q, A) :: data).map (fun x => .ok (some x.1, x.2)) ∧
      NearestImage s.positions q w ∧ A :: data.map Prod.snd = pols
  | .artPymatgen ss As => ∃ st rest, ss = some st :: rest ∧
      (∃ h : st.fracCoords.length = N, NearestImage s.positions (fun a => st.fracCoords[a]) w) ∧
      As = pols

/-- The displacement has images that are pairwise equal, opposite or orthogonal, and operations that
lead to the same image turn the measured polarizabilities alike. -/
def CleanAlong (p : Pos N ℝ) (s : RefStructure N) (w : Pos N ℝ) (pols : List (Mat3 ℝ)) : Prop :=
  ∀ x ∈ s.ops, ∀ y ∈ s.ops, ∀ σ τ, IsSymmetry p x.rot x.trans σ → IsSymmetry p y.rot y.trans τ →
    ((∃ κ : ℝ, (κ = 1 ∨ κ = -1) ∧ carried σ x.rot w = fun a i => κ * carried τ y.rot w a i) ∨
      inner3 (carried σ x.rot w) (carried τ y.rot w) = 0) ∧
    (carried σ x.rot w = carried τ y.rot w → ∀ A ∈ pols, turned x.rot A = turned y.rot A)

/-- What a model has to satisfy for the claims about its predictions. -/
structure HasSymmetry (s : RefStructure N) (pol : Mat3 ℝ) (p : Pos N ℝ) (m : IModel N) : Prop where
  ref : m.ref = s
  refPol : m.refPol = pol
  real : m.dummy = false
  interps : m.interps.length = m.basis.length
  mask : m.mask.length = m.basis.length
  permuted : ∀ op ∈ s.ops, ∀ σ, IsSymmetry p op.rot op.trans σ →
    PermutedBy σ op.rot (m.basis.zip (m.interps.zip m.mask))

theorem readDof_first {m : IModel N} (hdum : m.dummy = false) {q : Pos N ℝ} {A : Mat3 ℝ}
    {data : List (Pos N ℝ × Mat3 ℝ)} {ds : List (Pos N ℝ)} {amps : List ℝ} {pols : List (Mat3 ℝ)}
    (h : readDof m (((q, A) :: data).map (fun x => .ok (some x.1, x.2))) = .ok (ds, amps, pols)) :
    ∃ rest, ds = calcDisplacement m.ref.positions q :: rest ∧ pols = A :: data.map Prod.snd := by
  unfold readDof at h
  rw [readDofFiles_ok] at h
  dsimp only [bind, Except.bind] at h
  simp only [List.map_cons, hdum, Bool.false_eq_true, if_false, List.map_map] at h
  split_ifs at h
  split at h
  · cases h
  · cases h
    exact ⟨_, rfl, rfl⟩

theorem pmg_first {m : IModel N} {st : PmgStructure} {rest : List PmgArg}
    (hl : st.fracCoords.length = N) {ds : List (Pos N ℝ)} {amps : List ℝ}
    (h : pmgDisplacementAmplitudes true m (some st :: rest) = .ok (ds, amps)) :
    ∃ ds', ds = calcDisplacement m.ref.positions (fun a => st.fracCoords[a]) :: ds' := by
  unfold pmgDisplacementAmplitudes at h
  rw [if_neg (by simp), pmgDisplacements] at h
  have hco : coordsFor N st.fracCoords = .ok (some fun a => st.fracCoords[a]) := by
    unfold coordsFor
    rw [dif_pos hl]
  unfold pmgPositions at h
  dsimp only [bind, Except.bind] at h
  rw [hco] at h
  dsimp only at h
  cases hd : pmgDisplacements m rest with
  | error e => rw [hd] at h; cases h
  | ok r =>
    rw [hd] at h
    dsimp only [pure, Except.pure] at h
    split_ifs at h
    split at h
    · cases h
    · cases h
      exact ⟨_, rfl⟩

theorem prepareArt_first {m : IModel N} {atom : ℤ} {dir : Vec3} {amps : List ℝ}
    {As : List (Mat3 ℝ)} {k : Fin N} {w : Pos N ℝ} {cart : Option (Pos N ℝ)}
    (hk : pyIndex N atom = some k)
    (h1 : m.ref.getFracDisplacement (fun a i => if a = k then dir i else 0) = .ok w) (hw0 : w ≠ 0)
    (hp : prepareArt m atom dir amps As = .ok cart) :
    ∃ κ, 0 < κ ∧ (∀ a i, InHalfBox (κ * w a i)) ∧
      cart = some (m.ref.getCartDisplacement fun a i => κ * w a i) := by
  have hdet := (frac_ok _ _ _ h1).1
  have hinv : npInv m.ref.lattice = .ok m.ref.lattice⁻¹ := by
    unfold npInv; rw [if_neg hdet]
  unfold RefStructure.getFracDisplacement at h1
  rw [hinv] at h1
  change Except.ok _ = Except.ok _ at h1
  cases h1
  unfold prepareArt RefStructure.getFracDirection at hp
  rw [hinv, hk] at hp
  dsimp only [bind, Except.bind, pure, Except.pure] at hp
  set e : Vec3 := fun j => wrap1 (∑ i, dir i * m.ref.lattice⁻¹ i j) with he
  have hw : (applyPbcDisplacement (matMulPos (fun a i => if a = k then dir i else 0) m.ref.lattice⁻¹)
      : Pos N ℝ) = fun a i => if a = k then e i else 0 := by
    funext a i
    unfold applyPbcDisplacement matMulPos
    by_cases h : a = k
    · simp [h, he]
    · simp [h, wrap1_zero]
  rw [hw] at hw0 ⊢
  have hn : norm2 (fun i => e i * 10) ≠ 0 := by
    intro h
    have h0 := norm2_eq_zero.1 h
    apply hw0
    funext a i
    have := congrFun h0 i
    simp only [Pi.zero_apply, mul_eq_zero, OfNat.ofNat_ne_zero, or_false] at this
    simp [this]
  have hpos : 0 < norm2 (fun i => e i * 10) := lt_of_le_of_ne (norm2_nonneg _) hn.symm
  have hart : artDisplacement k e
      = some fun a i => 1 / norm2 (fun i => e i * 10) * if a = k then e i else 0 := by
    unfold artDisplacement
    dsimp only
    rw [if_neg hn]
    congr 1
    funext a i
    by_cases h : a = k
    · simp only [if_pos h]; ring
    · simp [h]
  have hcart : cart = some (m.ref.getCartDisplacement fun a i =>
      1 / norm2 (fun i => e i * 10) * if a = k then e i else 0) := by
    rw [hart] at hp
    split_ifs at hp <;> cases hp <;> rfl
  refine ⟨1 / norm2 (fun i => e i * 10), by positivity, fun a i => ?_, hcart⟩
  have h2 : e i ^ 2 * 100 ≤ norm2 (fun i => e i * 10) ^ 2 := by
    rw [norm2_sq]
    have := Finset.single_le_sum (f := fun x => (e x * 10) * (e x * 10))
      (fun x _ => mul_self_nonneg _) (Finset.mem_univ i)
    unfold dot
    linarith
  have h3 : |e i * 10| ≤ norm2 (fun i => e i * 10) := by
    refine abs_le_of_sq_le_sq ?_ hpos.le
    linarith
  have h4 : |1 / norm2 (fun i => e i * 10) * e i| ≤ 1 / 10 := by
    rw [abs_mul, abs_of_pos (by positivity : (0 : ℝ) < 1 / norm2 (fun i => e i * 10)), one_div,
      inv_mul_le_iff₀ hpos]
    rw [abs_mul, abs_of_pos (by norm_num : (0 : ℝ) < 10)] at h3
    linarith
  by_cases h : a = k
  · simp only [if_pos h]
    rw [abs_le] at h4
    constructor <;> linarith [h4.1, h4.2]
  · simp only [if_neg h, mul_zero]
    norm_num [InHalfBox]

/-- What a successful call does, whichever way its data came. -/
def CallFacts (spline : SplineFn) (m : IModel N) (w : Pos N ℝ) (pols : List (Mat3 ℝ))
    (m' : IModel N) : Prop :=
  ∃ (e : Pos N ℝ) (κ : ℝ) (amps : List ℝ) (inc : Bool) (order : ℤ)
    (recs : List (Pos N ℝ × List (ℝ × Mat3 ℝ))) (fs : List (ℝ → Mat3 ℝ)),
    0 < κ ∧ (e = fun a i => κ * w a i) ∧ (∀ a i, InHalfBox (e a i)) ∧
    m' = { m with
      basis := m.basis ++ recs.map Prod.fst
      interps := m.interps ++ fs
      mask := m.mask ++ List.replicate recs.length false } ∧
    List.Forall₂ (fun r f =>
      SplineReady order.toNat (r.2.insertionSort fun a b => a.1 ≤ b.1) ∧
      spline order.toNat (r.2.insertionSort fun a b => a.1 ≤ b.1) = .ok f) recs fs ∧
    (recs = [] ∨ ∃ groups, m.ref.getEquivalentDisplacements e = .ok (some groups) ∧
      List.Forall₂ (fun g r => GroupFacts m inc (amps.zip pols) g r.1 r.2) groups recs)

theorem AddCall.facts (spline : SplineFn) (we : Bool) (m : IModel N) (hdum : m.dummy = false)
    (c : AddCall N) (w : Pos N ℝ) (pols : List (Mat3 ℝ)) (hc : c.Measures m.ref w pols) (hw0 : w ≠ 0)
    (hok : (c.run spline we m).result = .ok ()) :
    CallFacts spline m w pols (c.run spline we m).state := by
  -- `add_dof` with a displacement in nearest-image form
  have key : ∀ cart w' amps pols order inc κ, 0 < κ → (w' = fun a i => κ * w a i) →
      m.ref.getFracDisplacement cart = .ok w' →
      (m.addDofNan spline we (some cart) amps pols order inc).result = .ok () →
      CallFacts spline m w pols (m.addDofNan spline we (some cart) amps pols order inc).state := by
    intro cart w' amps pols order inc κ hκ hw' hf hr
    obtain ⟨parent, recs, fs, h1, h2, h3, h4, h5, _, _, h6, h7⟩ :=
      addDofNan_facts spline we m (some cart) amps pols order inc _ rfl hr
    have hne : w' ≠ 0 := by
      rintro rfl
      apply hw0
      funext a i
      have := congrFun (congrFun hw' a) i
      simp only [Pi.zero_apply] at this
      rcases mul_eq_zero.1 this.symm with h | h
      · exact absurd h hκ.ne'
      · exact h
    refine ⟨w', κ, amps, inc, order, recs, fs, hκ, hw', (frac_ok _ _ _ hf).2.1, ?_, h6, ?_⟩
    · rw [h5, hdum]; rfl
    · refine h7.imp id ?_
      rintro ⟨q, groups, rfl, h8, h9⟩
      obtain ⟨q', c, _, g1, _, g2, _⟩ := (parent_facts m cart w' hf).2 hne
      rw [h1] at g1
      cases g1
      rw [g2] at h8
      refine ⟨groups, h8, ?_⟩
      have hu : usedPols m amps pols = pols := by unfold usedPols; rw [hdum]; rfl
      rw [hu] at h9
      exact h9
  have back : ∀ (d : Pos N ℝ) amps pols order inc, (∀ a i, InHalfBox (d a i)) →
      (m.addDofNan spline we (some (m.ref.getCartDisplacement d)) amps pols order inc).result = .ok () →
      m.ref.getFracDisplacement (m.ref.getCartDisplacement d) = .ok d := by
    intro d amps pols order inc hb hr
    obtain ⟨parent, recs, fs, h1, _⟩ :=
      addDofNan_facts spline we m (some _) amps pols order inc _ rfl hr
    unfold parentDisplacement at h1
    dsimp only at h1
    cases hf : m.ref.getFracDisplacement (m.ref.getCartDisplacement d) with
    | error e => rw [hf] at h1; cases h1
    | ok r =>
      rw [C18_frac_cart_frac m.ref (frac_ok _ _ _ hf).1] at hf
      rw [← hf]
      congr 1
      funext a i
      exact wrap1_of_inHalfBox (hb a i)
  have tail : ∀ amps pols, (∀ a i, InHalfBox (w a i)) → ∀ o : Outcome N,
      (o = if multipleAtomsDisplaced w then ⟨.error .invalidDOF, [], m⟩
        else match getDof m (some w) amps pols false with
          | .error e => ⟨.error e, [], m⟩
          | .ok [] => ⟨.error .indexError, [], m⟩
          | .ok (g :: gs) =>
            if g.pts.length ≠ 2 then ⟨.error .invalidDOF, [], m⟩
            else constructAndAdd spline we m (g :: gs) 1) → o.result = .ok () →
      CallFacts spline m w pols o.state := by
    intro amps pols hb o ho hr
    split_ifs at ho with hm
    · rw [ho] at hr; cases hr
    cases hg : getDof m (some w) amps pols false with
    | error e => rw [hg] at ho; rw [ho] at hr; cases hr
    | ok gs =>
      rw [hg] at ho
      cases gs with
      | nil => rw [ho] at hr; cases hr
      | cons g gs =>
        dsimp only at ho
        split_ifs at ho with hl
        · rw [ho] at hr; cases hr
        · subst ho
          obtain ⟨recs, fs, _, _, h3, _, _, h6, h7⟩ :=
            construct_facts spline we m (some w) amps pols false (g :: gs) 1 hg hr
          refine ⟨w, 1, amps, false, 1, recs, fs, one_pos, by funext a i; rw [one_mul], hb, ?_, h6, ?_⟩
          · rw [h3, hdum]; rfl
          · refine h7.imp id ?_
            rintro ⟨q, groups, he, h8, h9⟩
            cases he
            exact ⟨groups, h8, h9⟩
  have one : w = fun a i => (1 : ℝ) * w a i := by funext a i; rw [one_mul]
  cases c with
  | dof cart amps As order =>
    obtain ⟨h1, rfl⟩ := hc
    exact key cart w amps As order true 1 one_pos one h1 hok
  | files fs order =>
    obtain ⟨q, A, data, rfl, h1, rfl⟩ := hc
    unfold AddCall.run IModel.addDofFromFiles at hok ⊢
    dsimp only at hok ⊢
    rcases hr : readDof m (((q, A) :: data).map (fun x => .ok (some x.1, x.2)))
      with e | ⟨ds, amps, pols⟩
    · rw [hr] at hok; cases hok
    · obtain ⟨rest, rfl, rfl⟩ := readDof_first hdum hr
      rw [hr] at hok ⊢
      dsimp only at hok ⊢
      rw [(calcDisplacement_nearest _ _).unique h1] at hok ⊢
      exact key _ w amps _ order true 1 one_pos one
        (back _ _ _ _ _ (fun a i => (h1 a i).1) hok) hok
  | pymatgen ss As order =>
    obtain ⟨st, rest, rfl, ⟨hl, h1⟩, rfl⟩ := hc
    unfold AddCall.run IModel.addDofFromPymatgen at hok ⊢
    dsimp only at hok ⊢
    rw [if_neg (by simp)] at hok ⊢
    rcases hr : pmgDisplacementAmplitudes true m (some st :: rest) with e | ⟨ds, amps⟩
    · rw [hr] at hok; cases hok
    · obtain ⟨ds', rfl⟩ := pmg_first hl hr
      rw [hr] at hok
      dsimp only at hok ⊢
      rw [(calcDisplacement_nearest _ _).unique h1] at hok ⊢
      exact key _ w amps _ order true 1 one_pos one
        (back _ _ _ _ _ (fun a i => (h1 a i).1) hok) hok
  | art atom dir amps As =>
    obtain ⟨k, hk, h1, rfl⟩ := hc
    unfold AddCall.run IModel.addArt at hok ⊢
    dsimp only at hok ⊢
    cases hp : prepareArt m atom dir amps As with
    | error e => rw [hp] at hok; cases hok
    | ok cart =>
      rw [hp] at hok
      dsimp only at hok ⊢
      obtain ⟨κ, hκ, hb, rfl⟩ := prepareArt_first hk h1 hw0 hp
      exact key _ (fun a i => κ * w a i) amps As 1 false κ hκ rfl (back _ _ _ _ _ hb hok) hok
  | artFiles fs =>
    obtain ⟨q, A, data, rfl, h1, rfl⟩ := hc
    unfold AddCall.run IModel.addArtFromFiles at hok ⊢
    dsimp only at hok ⊢
    rcases hr : readDof m (((q, A) :: data).map (fun x => .ok (some x.1, x.2)))
      with e | ⟨ds, amps, pols⟩
    · rw [hr] at hok; cases hok
    · obtain ⟨rest, rfl, rfl⟩ := readDof_first hdum hr
      rw [hr] at hok ⊢
      dsimp only at hok ⊢
      rw [(calcDisplacement_nearest _ _).unique h1] at hok ⊢
      exact tail _ _ (fun a i => (h1 a i).1) _ rfl hok
  | artPymatgen ss As =>
    obtain ⟨st, rest, rfl, ⟨hl, h1⟩, rfl⟩ := hc
    unfold AddCall.run IModel.addArtFromPymatgen at hok ⊢
    dsimp only at hok ⊢
    rcases hr : pmgDisplacementAmplitudes true m (some st :: rest) with e | ⟨ds, amps⟩
    · rw [hr] at hok; cases hok
    · obtain ⟨ds', rfl⟩ := pmg_first hl hr
      rw [hr] at hok
      dsimp only at hok ⊢
      rw [(calcDisplacement_nearest _ _).unique h1] at hok ⊢
      exact tail _ _ (fun a i => (h1 a i).1) _ rfl hok

/-- C168, one call: whichever of the six entry points is used, a successful call leaves the degrees of
freedom permuted by every symmetry operation if they were before. -/
theorem C168_call (spglib : Mat3 ℝ → Pos N ℝ → (Fin N → ℕ) → Option SymDict)
    (nums : Fin N → ℕ) (lat : Mat3 ℝ) (p : Pos N ℝ) (s : RefStructure N)
    (hX : CubicCrystal spglib nums lat p s) (spline : SplineFn) (hsp : SplineEquivariant spline)
    (we : Bool) (pol : Mat3 ℝ) (hpol : ∀ op ∈ s.ops, turned op.rot pol = pol) (m : IModel N)
    (hm : HasSymmetry s pol p m) (c : AddCall N) (w : Pos N ℝ) (pols : List (Mat3 ℝ))
    (hc : c.Measures s w pols) (hw0 : w ≠ 0) (hcl : CleanAlong p s w pols)
    (hok : (c.run spline we m).result = .ok ()) :
    HasSymmetry s pol p (c.run spline we m).state := by
  obtain ⟨e, κ, amps, inc, order, recs, fs, hκ, he, hb, hst, hS, hG⟩ :=
    c.facts spline we m hm.real w pols (by rw [hm.ref]; exact hc) hw0 hok
  have hl := hS.length_eq
  rw [hst]
  refine ⟨hm.ref, hm.refPol, hm.real, ?_, ?_, ?_⟩
  · simp [hm.interps, hl]
  · simp [hm.mask]
  intro op hop σ hσ
  dsimp only
  have hi := hm.interps
  have hk := hm.mask
  rw [List.zip_append (by omega), List.zip_append (by simp; omega)]
  refine permutedBy_append (hm.permuted op hop σ hσ) ?_
  rcases hG with rfl | ⟨groups, h8, h9⟩
  · cases hS
    exact ⟨[], by simp, by simp⟩
  rw [hm.ref] at h8
  have hcar : ∀ (τ : Equiv.Perm (Fin N)) (Q : Mat3 ℝ),
      carried τ Q e = fun a j => κ * carried τ Q w a j := fun τ Q => by rw [he, carried_smul]
  have he0 : e ≠ 0 := by
    intro h
    apply hw0
    funext a i
    have := congrFun (congrFun he a) i
    rw [h] at this
    rcases mul_eq_zero.1 this.symm with h | h
    · exact absurd h hκ.ne'
    · exact h
  refine records_permuted hX.built hX.size hX.separated hX.symmetric hX.isometric hX.commutes
    hX.product hX.quotient e hb he0 ?_ m hm.ref (by rw [hm.refPol]; exact hpol) inc (amps.zip pols) ?_
    spline hsp order.toNat groups h8 recs fs h9 hS op hop σ hσ
  · intro x hx y hy τ ρ hτ hρ
    rcases (hcl x hx y hy τ ρ hτ hρ).1 with ⟨μ, hμ, h⟩ | h
    · refine Or.inl ⟨μ, hμ, ?_⟩
      rw [hcar, hcar, h]
      funext a i
      ring
    · right
      rw [hcar, hcar, inner3_smul_left, inner3_smul, h]
      ring
  · intro x hx y hy τ ρ hτ hρ h d hd
    refine (hcl x hx y hy τ ρ hτ hρ).2 ?_ d.2 (List.of_mem_zip hd).2
    rw [hcar, hcar] at h
    funext a i
    have := congrFun (congrFun h a) i
    exact mul_left_cancel₀ hκ.ne' this

/-- C168, scripts: after any sequence of successful calls on a new model, every symmetry operation
permutes the degrees of freedom. -/
theorem C168_script (spglib : Mat3 ℝ → Pos N ℝ → (Fin N → ℕ) → Option SymDict)
    (nums : Fin N → ℕ) (lat : Mat3 ℝ) (p : Pos N ℝ) (s : RefStructure N)
    (hX : CubicCrystal spglib nums lat p s) (spline : SplineFn) (hsp : SplineEquivariant spline)
    (we : Bool) (pol : Mat3 ℝ) (hpol : ∀ op ∈ s.ops, turned op.rot pol = pol)
    (calls : List (AddCall N)) (hcalls : ∀ c ∈ calls, ∃ w pols, c.Measures s w pols ∧ w ≠ 0 ∧
      CleanAlong p s w pols)
    (ws : List DofWarning) (m : IModel N)
    (hrun : runScript spline we (IModel.init s pol false) calls = .ok (ws, m)) :
    HasSymmetry s pol p m := by
  have key : ∀ (calls : List (AddCall N)) (m₀ : IModel N) (ws : List DofWarning) (m : IModel N),
      HasSymmetry s pol p m₀ →
      (∀ c ∈ calls, ∃ w pols, c.Measures s w pols ∧ w ≠ 0 ∧ CleanAlong p s w pols) →
      runScript spline we m₀ calls = .ok (ws, m) → HasSymmetry s pol p m := by
    intro calls
    induction calls with
    | nil => intro m₀ ws m h _ hr; cases hr; exact h
    | cons c cs ih =>
      intro m₀ ws m h hc hr
      rw [runScript] at hr
      obtain ⟨w, pols, g1, g2, g3⟩ := hc c List.mem_cons_self
      cases r1 : (c.run spline we m₀).result with
      | error e => rw [r1] at hr; cases hr
      | ok u =>
        rw [r1] at hr
        dsimp only at hr
        have h' := C168_call spglib nums lat p s hX spline hsp we pol hpol m₀ h c w pols g1 g2 g3 r1
        cases r2 : runScript spline we (c.run spline we m₀).state cs with
        | error e => rw [r2] at hr; cases hr
        | ok x =>
          obtain ⟨ws', m'⟩ := x
          rw [r2] at hr
          cases hr
          exact ih _ _ _ h' (fun d hd => hc d (List.mem_cons_of_mem _ hd)) r2
  exact key calls _ ws m ⟨rfl, rfl, rfl, rfl, rfl, fun op _ σ _ =>
    ⟨[], by simp [IModel.init], by simp [IModel.init]⟩⟩ hcalls hrun

/-- C168, predictions: a configuration transformed by an operation of the crystal has the turned
polarizability. -/
theorem C168_equivariant (spglib : Mat3 ℝ → Pos N ℝ → (Fin N → ℕ) → Option SymDict)
    (nums : Fin N → ℕ) (lat : Mat3 ℝ) (p : Pos N ℝ) (s : RefStructure N)
    (hX : CubicCrystal spglib nums lat p s) (spline : SplineFn) (hsp : SplineEquivariant spline)
    (we : Bool) (pol : Mat3 ℝ) (hpol : ∀ op ∈ s.ops, turned op.rot pol = pol)
    (calls : List (AddCall N)) (hcalls : ∀ c ∈ calls, ∃ w pols, c.Measures s w pols ∧ w ≠ 0 ∧
      CleanAlong p s w pols)
    (ws : List DofWarning) (m : IModel N)
    (hrun : runScript spline we (IModel.init s pol false) calls = .ok (ws, m))
    (op : SymOp) (hop : op ∈ s.ops) (σ : Equiv.Perm (Fin N)) (hσ : IsSymmetry p op.rot op.trans σ)
    (q q' v : Pos N ℝ) (hq : TransformedTo op.rot op.trans σ q q') (hv : NearestImage p q v)
    (hbox : ∀ a j, InHalfBox (∑ i, v a i * op.rot i j)) :
    ∃ A, evalOne m.calcPolarizabilities q = .ok A ∧
      evalOne m.calcPolarizabilities q' = .ok (turned op.rot A) := by
  have h := C168_script spglib nums lat p s hX spline hsp we pol hpol calls hcalls ws m hrun
  obtain ⟨hp, hL, _⟩ := init_facts hX.built
  refine C120_criterion m h.interps h.mask op.rot op.rot op.trans σ ?_ ?_ (hX.isometric _ hop) ?_
    (h.permuted op hop σ hσ) q q' v hq ?_ hbox
  · rw [h.ref, hp]; exact hσ
  · rw [h.ref, hL]; exact hX.commutes _ hop
  · rw [h.refPol]; exact hpol _ hop
  · rw [h.ref, hp]; exact hv

/-- C168, Raman tensors: a vibration transformed by an operation of the crystal has the turned Raman
tensor. -/
theorem C168_tensor (spglib : Mat3 ℝ → Pos N ℝ → (Fin N → ℕ) → Option SymDict)
    (nums : Fin N → ℕ) (lat : Mat3 ℝ) (p : Pos N ℝ) (s : RefStructure N)
    (hX : CubicCrystal spglib nums lat p s) (spline : SplineFn) (hsp : SplineEquivariant spline)
    (we : Bool) (pol : Mat3 ℝ) (hpol : ∀ op ∈ s.ops, turned op.rot pol = pol)
    (calls : List (AddCall N)) (hcalls : ∀ c ∈ calls, ∃ w pols, c.Measures s w pols ∧ w ≠ 0 ∧
      CleanAlong p s w pols)
    (ws : List DofWarning) (m : IModel N)
    (hrun : runScript spline we (IModel.init s pol false) calls = .ok (ws, m))
    (op : SymOp) (hop : op ∈ s.ops) (σ : Equiv.Perm (Fin N)) (hσ : IsSymmetry p op.rot op.trans σ)
    (d : Pos N ℝ) (hd : ∀ a i, |d a i| < 500) (hd' : ∀ a i, |carried σ op.rot d a i| < 500) :
    ∃ T, ramanTensor m.calcPolarizabilities p d = .ok T ∧
      ramanTensor m.calcPolarizabilities p (carried σ op.rot d) = .ok (turned op.rot T) := by
  have h := C168_script spglib nums lat p s hX spline hsp we pol hpol calls hcalls ws m hrun
  obtain ⟨hp, hL, _⟩ := init_facts hX.built
  have := C146_tensor m h.interps h.mask op.rot op.rot σ (by rw [h.ref, hL]; exact hX.commutes _ hop)
    (hX.isometric _ hop) (h.permuted op hop σ hσ) d hd hd'
  rwa [h.ref, hp] at this

/-- C168, selection rules: in a crystal with a centre of inversion, vibrations of odd parity are
invisible. -/
theorem C168_silent (spglib : Mat3 ℝ → Pos N ℝ → (Fin N → ℕ) → Option SymDict)
    (nums : Fin N → ℕ) (lat : Mat3 ℝ) (p : Pos N ℝ) (s : RefStructure N)
    (hX : CubicCrystal spglib nums lat p s) (spline : SplineFn) (hsp : SplineEquivariant spline)
    (we : Bool) (pol : Mat3 ℝ) (hpol : ∀ op ∈ s.ops, turned op.rot pol = pol)
    (calls : List (AddCall N)) (hcalls : ∀ c ∈ calls, ∃ w pols, c.Measures s w pols ∧ w ≠ 0 ∧
      CleanAlong p s w pols)
    (ws : List DofWarning) (m : IModel N)
    (hrun : runScript spline we (IModel.init s pol false) calls = .ok (ws, m))
    (t : Fin 3 → ℝ) (hop : (⟨-1, t⟩ : SymOp) ∈ s.ops) (σ : Equiv.Perm (Fin N))
    (hσ : IsSymmetry p (-1) t σ) (d : Pos N ℝ) (hd : ∀ a i, |d a i| < 500) (hu : Ungerade σ d) :
    ramanTensor m.calcPolarizabilities p d = .ok 0 := by
  have h := C168_script spglib nums lat p s hX spline hsp we pol hpol calls hcalls ws m hrun
  obtain ⟨hp, _⟩ := init_facts hX.built
  have := C146_mutual_exclusion m h.interps h.mask σ (h.permuted _ hop σ hσ) d hd hu
  rwa [h.ref, hp] at this

/-! ### Concrete: one atom at a centre of inversion, displaced along `x` and along `y` -/

/-- Images of a displacement and its negative. -/
theorem inv_images (nums : Fin 1 → ℕ) (s : RefStructure 1)
    (hs : RefStructure.init invSpglib nums 1 (fun _ _ => 0) = .ok s) (u : Fin 3 → ℝ)
    (n1 : u 0 ^ 2 + u 1 ^ 2 + u 2 ^ 2 = (1 / 10) ^ 2) (b1 : ∀ j, InHalfBox (u j))
    (b2 : ∀ j, InHalfBox (-u j)) (j₀ : Fin 3) (hj : u j₀ = 1 / 10) :
    s.getEquivalentDisplacements (one1 u) =
      .ok (some [⟨[one1 u, one1 fun i => -u i], [⟨1, 0⟩, ⟨-1, 0⟩]⟩]) := by
  have hz : ∀ (a : Fin 1) (i : Fin 3), InClosedCell ((fun _ _ => 0 : Pos 1 ℝ) a i) :=
    fun _ _ => by norm_num [InClosedCell]
  obtain ⟨P, hP, _⟩ := C12_entry (fun _ _ => 0 : Pos 1 ℝ) ⟨1, 0⟩ integer_one.1 hz
  obtain ⟨Q, hQ, _⟩ := C12_entry (fun _ _ => 0 : Pos 1 ℝ) ⟨-1, 0⟩ integer_one.2 hz
  have hs' : RefStructure.init invSpglib nums 1 (fun _ _ => 0) =
      .ok ⟨nums, 1, fun _ _ => 0, [⟨1, 0⟩, ⟨-1, 0⟩], [P, Q], [0]⟩ := by
    unfold RefStructure.init invSpglib computePermutationMatrices
    simp only [List.mapM_cons, hP, hQ, List.mapM_nil]
    rfl
  rw [hs] at hs'
  have hse := Except.ok.inj hs'
  have c0 := one_candidate P 1 integer_one.1 hP u u b1 (fun j => by simp [Matrix.one_apply])
  have c1 := one_candidate Q (-1) integer_one.2 hQ u (fun i => -u i) b2
    (fun j => by simp [Matrix.one_apply])
  unfold RefStructure.getEquivalentDisplacements
  rw [mir_scale u n1 b1, hse]
  simp only [List.zip_cons_cons, List.zip_nil_left, eqLoop]
  rw [c0]
  change (candidate _ _ _ _ >>= _) >>= _ = _
  rw [c1, eqInsert_first]
  have n2 : (fun i => -u i) 0 ^ 2 + (fun i => -u i) 1 ^ 2 + (fun i => -u i) 2 ^ 2 =
      (1 / 10) ^ 2 := by simpa using n1
  have hcos : cosine (flat (one1 fun i => -u i)) (flat (one1 u)) = -1 := by
    rw [cosine_one1 _ _ (1 / 10) (by norm_num) n2 n1]
    rw [div_eq_iff (by norm_num)]
    linear_combination -n1
  have hc : Collinear (flat (one1 fun i => -u i)) (flat (one1 u)) :=
    ⟨one1_ne (vec_ne_zero n2), one1_ne (vec_ne_zero n1), by rw [hcos]; norm_num [angTol]⟩
  have i1 : eqInsert (⟨[⟨[one1 u], [⟨1, 0⟩]⟩], [one1 u]⟩ : EqState 1) ⟨-1, 0⟩
      (one1 fun i => -u i) =
      ⟨[⟨[one1 u, one1 fun i => -u i], [⟨1, 0⟩, ⟨-1, 0⟩]⟩], [one1 u]⟩ := by
    unfold eqInsert
    rw [if_neg]
    · have hr : isNonCollinearWithAll (flat (one1 fun i => -u i)) [flat (one1 u)] = 0 := by
        rcases C09_is_non_collinear_with_all (flat (one1 fun i => -u i)) [flat (one1 u)] with
          ⟨-, h⟩ | ⟨k, hk, h, -, -⟩
        · exact absurd hc (h _ (by simp))
        · have : k = 0 := by simpa using hk
          rw [h, this]
          rfl
      have hfar : allClose5 (one1 fun i => -u i) (one1 u) = false := by
        unfold allClose5
        rw [decide_eq_false_iff_not]
        intro h
        have := h 0 j₀
        norm_num [one1, hj, abs_of_pos, abs_of_neg] at this
      simp only [List.map_cons, List.map_nil, hr]
      rw [if_pos (by norm_num)]
      simp [modAt, hfar]
    · rw [C08_all_orthogonal]
      intro h
      have := (h (flat (one1 u)) (by simp)).2.2
      rw [hcos] at this
      norm_num [angTol] at this
  dsimp only [bind, Except.bind]
  rw [i1]
  rfl

/-- Adding such a displacement to a model, with one measurement. -/
theorem inv_step (nums : Fin 1 → ℕ) (s : RefStructure 1)
    (hs : RefStructure.init invSpglib nums 1 (fun _ _ => 0) = .ok s) (u : Fin 3 → ℝ)
    (n1 : u 0 ^ 2 + u 1 ^ 2 + u 2 ^ 2 = (1 / 10) ^ 2) (b1 : ∀ j, InHalfBox (u j))
    (b2 : ∀ j, InHalfBox (-u j)) (j₀ : Fin 3) (hj : u j₀ = 1 / 10) (A : Mat3 ℝ) (m : IModel 1)
    (hr : m.ref = s) (hdum : m.dummy = false) (ho : orthCheck m (some (one1 u)) = -1) : ∃ g,
    m.addDof lookupSpline true (one1 u) [-(3 / 50)] [A] 2 true
      = ⟨.ok (), [], { m with
          basis := m.basis ++ [one1 fun i => 10 * u i], interps := m.interps ++ [g],
          mask := m.mask ++ [false] }⟩ := by
  obtain ⟨hpos, hlat, _⟩ := init_facts hs
  have hgr := inv_images nums s hs u n1 b1 b2 j₀ hj
  have hne : one1 u ≠ 0 := fun h => one1_ne (vec_ne_zero n1) (by rw [h]; rfl)
  obtain ⟨g, hg, -, -⟩ := build_sym (3 / 50) (by norm_num) (by norm_num) 0
    ((1 : Mat3 ℝ)⁻¹ * (A - m.refPol) * (1 : Mat3 ℝ))
    ((-1 : Mat3 ℝ)⁻¹ * (A - m.refPol) * (-1 : Mat3 ℝ))
  have hm := multiplier_smul (one1 u) hne (-1) (by norm_num)
  have he : (fun a i => -1 * one1 u a i) = one1 fun i => -u i := by
    funext a i
    simp [one1]
  rw [he] at hm
  have d1 := dofGroup_eq m [-(3 / 50)] [A] true
    ⟨[one1 u, one1 fun i => -u i], [⟨1, 0⟩, ⟨-1, 0⟩]⟩ (one1 u) [one1 fun i => -u i] rfl
    (by simp [Matrix.det_neg])
  simp only [List.zip_cons_cons, List.zip_nil_left, List.flatMap_cons, List.flatMap_nil,
    List.append_nil, multiplier_self _ hne, hm, hr,
    mir_normalize s hlat u n1 b1,
    List.map_cons, List.map_nil, imagePoint, refPoint, Option.map_some, one_mul, if_true,
    List.singleton_append] at d1
  refine ⟨g, ?_⟩
  unfold IModel.addDof IModel.addDofNan
  have hu : usedPols m [-(3 / 50)] [A] = [A] := by unfold usedPols; rw [hdum]; rfl
  rw [prepareDof_eq _ _ _ _ _ _ (mir_parent m (by rw [hr]; exact hlat) u n1 b1)
    (by rw [hu]; rfl), getDof_eq _ _ _ _ _ _ ho (by rw [hr]; exact hgr), hu, List.mapM_cons, d1]
  change constructAndAdd _ _ _ [_] _ = _
  unfold constructAndAdd
  rw [if_neg (by norm_num)]
  have h2 : (2 : ℤ).toNat = 2 := rfl
  simp only [buildAll, h2, one_mul, mul_one, inv_one] at hg ⊢
  norm_num at hg ⊢
  simp only [hg, hdum]
  rfl

theorem inv_crystal (nums : Fin 1 → ℕ) (s : RefStructure 1)
    (hs : RefStructure.init invSpglib nums 1 (fun _ _ => 0) = .ok s)
    (hops : s.ops = [⟨1, 0⟩, ⟨-1, 0⟩]) : CubicCrystal invSpglib nums 1 (fun _ _ => 0) s := by
  have hor : ∀ op ∈ s.ops, op = ⟨1, 0⟩ ∨ op = ⟨-1, 0⟩ := by
    intro op hop
    rw [hops] at hop
    simpa using hop
  have hin1 : (⟨1, 0⟩ : SymOp) ∈ s.ops := by rw [hops]; simp
  have hin2 : (⟨-1, 0⟩ : SymOp) ∈ s.ops := by rw [hops]; simp
  have hcomp : ∀ A B : Mat3 ℝ, Composite A 0 B 0 (A * B) 0 := fun A B =>
    ⟨rfl, fun j => ⟨0, by simp⟩⟩
  refine ⟨hs, by norm_num, one_apart _, ?_, ?_, fun op _ => by simp, ?_, ?_⟩
  · intro op hop
    rcases hor op hop with rfl | rfl
    · exact ⟨_, one_sym _ integer_one.1⟩
    · exact ⟨_, one_sym _ integer_one.2⟩
  · intro op hop
    rcases hor op hop with rfl | rfl <;> simp
  · intro x hx y hy
    rcases hor x hx with rfl | rfl <;> rcases hor y hy with rfl | rfl
    · exact ⟨_, hin1, by simpa using hcomp 1 1⟩
    · exact ⟨_, hin2, by simpa using hcomp 1 (-1)⟩
    · exact ⟨_, hin2, by simpa using hcomp (-1) 1⟩
    · exact ⟨_, hin1, by simpa using hcomp (-1) (-1)⟩
  · intro x hx y hy
    rcases hor x hx with rfl | rfl <;> rcases hor y hy with rfl | rfl
    · exact ⟨_, hin1, by simpa using hcomp 1 1⟩
    · exact ⟨_, hin2, by simpa using hcomp (-1) (-1)⟩
    · exact ⟨_, hin2, by simpa using hcomp (-1) 1⟩
    · exact ⟨_, hin1, by simpa using hcomp 1 (-1)⟩

theorem inv_clean (s : RefStructure 1) (hops : s.ops = [⟨1, 0⟩, ⟨-1, 0⟩]) (u : Fin 3 → ℝ)
    (pols : List (Mat3 ℝ)) : CleanAlong (fun _ _ => 0) s (one1 u) pols := by
  have hor : ∀ op ∈ s.ops, op = ⟨1, 0⟩ ∨ op = ⟨-1, 0⟩ := by
    intro op hop
    rw [hops] at hop
    simpa using hop
  have i1 : ∀ σ : Equiv.Perm (Fin 1), carried σ 1 (one1 u) = one1 u := fun σ => by
    rw [carried_one1]
    congr 1
    funext j
    simp [Matrix.one_apply]
  have i2 : ∀ σ : Equiv.Perm (Fin 1), carried σ (-1) (one1 u) = one1 fun i => -u i := fun σ => by
    rw [carried_one1]
    congr 1
    funext j
    simp [Matrix.one_apply]
  have htr : ∀ op ∈ s.ops, ∀ A : Mat3 ℝ, turned op.rot A = A := by
    intro op hop A
    rcases hor op hop with rfl | rfl <;> simp [turned]
  intro x hx y hy σ τ _ _
  refine ⟨Or.inl ?_, fun _ A _ => by rw [htr x hx, htr y hy]⟩
  rcases hor x hx with rfl | rfl <;> rcases hor y hy with rfl | rfl <;> dsimp only <;>
    simp only [i1, i2]
  · exact ⟨1, Or.inl rfl, by funext a i; ring⟩
  · exact ⟨-1, Or.inr rfl, by funext a i; simp [one1]⟩
  · exact ⟨-1, Or.inr rfl, by funext a i; simp [one1]⟩
  · exact ⟨1, Or.inl rfl, by funext a i; ring⟩

/-- C168, concrete: two calls with arbitrary data `A`, `B`; the model gets two degrees of freedom and
no vibration is visible. -/
example (nums : Fin 1 → ℕ) (pol A B : Mat3 ℝ) (d : Pos 1 ℝ) (hd : ∀ a i, |d a i| < 500) : ∃ s m,
    RefStructure.init invSpglib nums 1 (fun _ _ => 0) = .ok s ∧
    runScript lookupSpline true (IModel.init s pol false)
      [.dof (one1 mirV) [-(3 / 50)] [A] 2, .dof (one1 mirV') [-(3 / 50)] [B] 2] = .ok ([], m) ∧
    m.basis = [one1 mirX, one1 mirY] ∧
    ramanTensor m.calcPolarizabilities (fun _ _ => 0) d = .ok 0 := by
  obtain ⟨s, hs, hlat, hops, -⟩ := inv_groups nums
  obtain ⟨-, -, n1, n2⟩ := mir_norms
  obtain ⟨-, -, b1, b2⟩ := mir_box
  have b1' : ∀ j, InHalfBox (-mirV j) := by
    intro j
    fin_cases j <;> norm_num [mirV, InHalfBox]
  have b2' : ∀ j, InHalfBox (-mirV' j) := by
    intro j
    fin_cases j <;> norm_num [mirV', InHalfBox]
  obtain ⟨g, h1⟩ := inv_step nums s hs mirV n1 b1 b1' 0 (by norm_num [mirV]) A
    (IModel.init s pol false) rfl rfl
    (plain_orth s hlat _ rfl _ mirV' n1 n2 b1 (by norm_num [mirV, mirV', vec_two]) (Or.inl rfl))
  obtain ⟨h, h2⟩ := inv_step nums s hs mirV' n2 b2 b2' 1 (by norm_num [mirV']) B
    ((IModel.init s pol false).addDof lookupSpline true (one1 mirV) [-(3 / 50)] [A] 2 true).state
    (by rw [h1]; rfl) (by rw [h1]; rfl)
    (plain_orth s hlat _ (by rw [h1]; rfl) _ mirV n2 n1 b2 (by norm_num [mirV, mirV', vec_two])
      (Or.inr (by rw [h1]; rfl)))
  have hrun : runScript lookupSpline true (IModel.init s pol false)
      [.dof (one1 mirV) [-(3 / 50)] [A] 2, .dof (one1 mirV') [-(3 / 50)] [B] 2] = .ok ([],
        (IModel.addDof lookupSpline true (IModel.addDof lookupSpline true (IModel.init s pol false)
          (one1 mirV) [-(3 / 50)] [A] 2 true).state (one1 mirV') [-(3 / 50)] [B] 2 true).state) := by
    rw [runScript, AddCall.run, h1]
    dsimp only
    rw [runScript, AddCall.run]
    rw [h1] at h2
    rw [h2]
    rfl
  refine ⟨s, _, hs, hrun, by rw [h2, h1]; rfl, ?_⟩
  exact C168_silent invSpglib nums 1 _ s (inv_crystal nums s hs hops) lookupSpline
    lookupSpline_equivariant true pol (by
      intro op hop
      rw [hops] at hop
      simp only [List.mem_cons, List.not_mem_nil, or_false] at hop
      rcases hop with rfl | rfl <;> simp [turned]) _ (by
      intro c hc
      simp only [List.mem_cons, List.not_mem_nil, or_false] at hc
      rcases hc with rfl | rfl
      · exact ⟨one1 mirV, [A], ⟨mir_frac s hlat mirV b1, rfl⟩,
          fun h => one1_ne (vec_ne_zero n1) (by rw [h]; rfl), inv_clean s hops _ _⟩
      · exact ⟨one1 mirV', [B], ⟨mir_frac s hlat mirV' b2, rfl⟩,
          fun h => one1_ne (vec_ne_zero n2) (by rw [h]; rfl), inv_clean s hops _ _⟩)
    [] _ hrun 0 (by rw [hops]; simp) (Equiv.refl _) (one_sym _ integer_one.2) d hd fun _ _ => rfl

end Verif
