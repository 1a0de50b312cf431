import Verif.Proofs.Frame
import Verif.Spec.Origin

/-!
# The same crystal described from another origin
-/

namespace Verif

open Spec

noncomputable section

variable {N : ℕ}

/-- Every row of the matrix has exactly one entry. -/
def SingleRows (P : PermMat N) : Prop := ∀ j, ∃ i, ∀ k, P j k = true ↔ k = i

theorem permApply_single {P : PermMat N} (q : Pos N ℝ) (j i : Fin N)
    (h : ∀ k, P j k = true ↔ k = i) (c : Fin 3) : permApply P q j c = q i c := by
  unfold permApply
  rw [Finset.sum_eq_single i]
  · rw [if_pos ((h i).2 rfl), one_mul]
  · intro k _ hk
    rw [if_neg (fun hp => hk ((h k).1 hp)), zero_mul]
  · intro h; exact absurd (Finset.mem_univ i) h

theorem moved_image {v : Vec3} {p q : Pos N ℝ} (h : MovedBy v p q) {op op' : SymOp}
    (ho : MovedOperation v op.rot op.trans op'.rot op'.trans) (hR : IntegerMatrix op.rot) (a : Fin N)
    (j : Fin 3) : SameImage (∑ k, p a k * op.rot k j + op.trans j + v j)
      (∑ k, q a k * op'.rot k j + op'.trans j) := by
  obtain ⟨hr, ht⟩ := ho
  have h1 := matMulPos_sameImage (p := fun a i => p a i + v i) (q := q) h hR a j
  unfold matMulPos at h1
  have h2 := h1.add (ht j)
  rw [hr]
  refine SameImage.trans ?_ h2
  have : (∑ i, (p a i + v i) * op.rot i j) = ∑ i, p a i * op.rot i j + ∑ i, v i * op.rot i j := by
    rw [← Finset.sum_add_distrib]
    exact Finset.sum_congr rfl fun i _ => by ring
  rw [this]
  exact ⟨0, by push_cast; ring⟩

theorem permMatrixOf_moved {v : Vec3} {p q : Pos N ℝ} (h : MovedBy v p q) {op op' : SymOp}
    (ho : MovedOperation v op.rot op.trans op'.rot op'.trans) (hR : IntegerMatrix op.rot)
    (hp : ∀ a i, InClosedCell (p a i)) (hq : ∀ a i, InClosedCell (q a i)) :
    permMatrixOf (comShift q) q op' = permMatrixOf (comShift p) p op := by
  have hR' : IntegerMatrix op'.rot := by rw [ho.1]; exact hR
  rw [permMatrixOf_shift, permMatrixOf_shift (comShift p)]
  unfold permMatrixOf
  rw [transform_apply_int p hR _ hp, transform_apply_int q hR' _ hq]
  change Except.ok _ = Except.ok _
  congr 1
  funext j i
  unfold permMatrix
  congr 3
  refine Finset.sum_congr rfl fun c _ => ?_
  congr 1
  refine wrap1_congr ?_
  rw [displace_apply, displace_apply]
  have h1 : SameImage (p j c + v c) (pbc1 (q j c + (bcast (fun _ => (0 : ℝ)) : Pos N ℝ) j c)) := by
    refine (h j c).trans ?_
    simpa [bcast] using pbc1_sameImage (q j c)
  have h2 : SameImage (p j c) (pbc1 (p j c + (bcast (fun _ => (0 : ℝ)) : Pos N ℝ) j c)) := by
    simpa [bcast] using pbc1_sameImage (p j c)
  have h3 := (moved_image h ho hR i c).trans (pbc1_sameImage _)
  have h4 := pbc1_sameImage (∑ k, p i k * op.rot k c + op.trans c)
  simp only [add_zero]
  have h5 := (h1.sub h3)
  have h6 := (h2.sub h4)
  refine h5.symm.trans (SameImage.trans ?_ h6)
  exact ⟨0, by push_cast; ring⟩

theorem perms_moved {v : Vec3} {p q : Pos N ℝ} (h : MovedBy v p q) {ops ops' : List SymOp}
    (ho : List.Forall₂ (fun op op' => MovedOperation v op.rot op.trans op'.rot op'.trans) ops ops')
    (hR : ∀ op ∈ ops, IntegerMatrix op.rot)
    (hp : ∀ a i, InClosedCell (p a i)) (hq : ∀ a i, InClosedCell (q a i)) :
    computePermutationMatrices ops' q = computePermutationMatrices ops p := by
  unfold computePermutationMatrices
  induction ho with
  | nil => rfl
  | cons h1 _ ih =>
    rw [List.mapM_cons, List.mapM_cons, permMatrixOf_moved h h1 (hR _ (by simp)) hp hq,
      ih fun op hop => hR op (by simp [hop])]

/-- The structure as seen from another origin. -/
structure OriginMoved (v : Vec3) (s s' : RefStructure N) : Prop where
  numbers : s'.atomicNumbers = s.atomicNumbers
  lattice : s'.lattice = s.lattice
  positions : MovedBy v s.positions s'.positions
  ops : List.Forall₂ (fun op op' => MovedOperation v op.rot op.trans op'.rot op'.trans) s.ops s'.ops
  perms : s'.perms = s.perms
  equiv : s'.equivAtoms = s.equivAtoms

theorem displace_inCell (p d : Pos N ℝ) (a : Fin N) (i : Fin 3) :
    InClosedCell (displacePositions p d a i) := by
  rw [displace_apply]
  have := pbc1_inCell (p a i + d a i)
  exact ⟨this.1, this.2.le⟩

theorem displace_moved {v : Vec3} {p q : Pos N ℝ} (h : MovedBy v p q) (d : Pos N ℝ) :
    MovedBy v (displacePositions p d) (displacePositions q d) := by
  intro a i
  rw [displace_apply, displace_apply]
  have h1 := (pbc1_sameImage (p a i + d a i)).symm.add (SameImage.refl (v i))
  have h2 := ((h a i).add (SameImage.refl (d a i))).trans (pbc1_sameImage _)
  refine h1.trans (SameImage.trans ?_ h2)
  exact ⟨0, by push_cast; ring⟩

theorem calc_moved {v : Vec3} {p q p' q' : Pos N ℝ} (h : MovedBy v p p') (h' : MovedBy v q q') :
    calcDisplacement p' q' = calcDisplacement p q := by
  funext a i
  rw [calc_apply, calc_apply]
  refine wrap1_congr ((((h' a i).sub (h a i)).symm).trans ?_)
  exact ⟨0, by push_cast; ring⟩

theorem candidate_moved {v : Vec3} {p q : Pos N ℝ} (h : MovedBy v p q) (d : Pos N ℝ) {op op' : SymOp}
    (ho : MovedOperation v op.rot op.trans op'.rot op'.trans) (hR : IntegerMatrix op.rot)
    {P : PermMat N} (hP : SingleRows P) :
    candidate q (displacePositions q d) op' P = candidate p (displacePositions p d) op P := by
  have hR' : IntegerMatrix op'.rot := by rw [ho.1]; exact hR
  unfold candidate
  rw [transform_apply_int _ hR _ (displace_inCell p d),
    transform_apply_int _ hR' _ (displace_inCell q d)]
  change Except.ok _ = Except.ok _
  congr 1
  refine calc_moved h fun a i => ?_
  obtain ⟨k, hk⟩ := hP a
  rw [permApply_single _ a k hk, permApply_single _ a k hk]
  have h1 := (pbc1_sameImage (∑ j, displacePositions p d k j * op.rot j i + op.trans i)).symm.add
    (SameImage.refl (v i))
  exact h1.trans ((moved_image (displace_moved h d) ho hR k i).trans (pbc1_sameImage _))

/-- The same displacements, obtained with the same rotations. -/
def SameGroup (g g' : EqGroup N) : Prop :=
  g'.displacements = g.displacements ∧
    List.Forall₂ (fun op op' : SymOp => op'.rot = op.rot) g.transformations g'.transformations

def SameState (st st' : EqState N) : Prop :=
  List.Forall₂ SameGroup st.result st'.result ∧ st'.orth = st.orth

theorem forall₂_append {α β : Type} {R : α → β → Prop} {l₁ l₂ : List α} {r₁ r₂ : List β}
    (h₁ : List.Forall₂ R l₁ r₁) (h₂ : List.Forall₂ R l₂ r₂) :
    List.Forall₂ R (l₁ ++ l₂) (r₁ ++ r₂) := by
  induction h₁ with
  | nil => exact h₂
  | cons h _ ih => exact .cons h ih

theorem modAt_forall₂ {α : Type} {R : α → α → Prop} {f f' : α → α}
    (hf : ∀ x y, R x y → R (f x) (f' y)) : ∀ (k : ℕ) {l l' : List α}, List.Forall₂ R l l' →
    List.Forall₂ R (modAt f k l) (modAt f' k l')
  | _, _, _, .nil => by unfold modAt; exact .nil
  | 0, _, _, .cons h t => .cons (hf _ _ h) t
  | k + 1, _, _, .cons h t => .cons h (modAt_forall₂ hf k t)

theorem eqInsert_same {st st' : EqState N} (h : SameState st st') {op op' : SymOp}
    (ho : op'.rot = op.rot) (c : Pos N ℝ) : SameState (eqInsert st op c) (eqInsert st' op' c) := by
  obtain ⟨h1, h2⟩ := h
  unfold eqInsert
  rw [h2]
  dsimp only
  by_cases h3 : isOrthogonalToAll (flat c) (st.orth.map flat) = -1
  · rw [if_pos h3, if_pos h3]
    exact ⟨forall₂_append h1 (.cons ⟨rfl, .cons ho .nil⟩ .nil), rfl⟩
  · rw [if_neg h3, if_neg h3]
    by_cases h4 : isNonCollinearWithAll (flat c) (st.orth.map flat) ≠ -1
    · rw [if_pos h4, if_pos h4]
      refine ⟨modAt_forall₂ (fun g g' hg => ?_) _ h1, rfl⟩
      obtain ⟨hg1, hg2⟩ := hg
      rw [hg1]
      by_cases h5 : (g.displacements.any fun m => allClose5 c m) = true
      · rw [if_pos h5, if_pos h5]
        exact ⟨hg1, hg2⟩
      · rw [if_neg h5, if_neg h5]
        exact ⟨rfl, forall₂_append hg2 (.cons ho .nil)⟩
    · rw [if_neg h4, if_neg h4]
      exact ⟨h1, h2⟩

theorem eqLoop_moved {v : Vec3} {p q : Pos N ℝ} (h : MovedBy v p q) (d : Pos N ℝ)
    {l l' : List (SymOp × PermMat N)}
    (hl : List.Forall₂ (fun x y => MovedOperation v x.1.rot x.1.trans y.1.rot y.1.trans ∧ y.2 = x.2) l l')
    (hR : ∀ x ∈ l, IntegerMatrix x.1.rot ∧ SingleRows x.2) :
    ∀ st st' : EqState N, SameState st st' →
    ∃ t t', eqLoop p (displacePositions p d) l st = .ok t ∧
      eqLoop q (displacePositions q d) l' st' = .ok t' ∧ SameState t t' := by
  induction hl with
  | nil => intro st st' hst; exact ⟨st, st', rfl, rfl, hst⟩
  | @cons x y l l' h1 h2 ih =>
    intro st st' hst
    obtain ⟨op, P⟩ := x
    obtain ⟨op', P'⟩ := y
    obtain ⟨ho, hP⟩ := h1
    dsimp only at ho hP
    rw [hP]
    clear hP
    have hx := hR (op, P) (by simp)
    have hc := candidate_moved h d ho hx.1 hx.2
    have hok : ∃ c, candidate p (displacePositions p d) op P = .ok c := by
      unfold candidate
      rw [transform_apply_int _ hx.1 _ (displace_inCell p d)]
      exact ⟨_, rfl⟩
    obtain ⟨c, hok⟩ := hok
    obtain ⟨t, t', e1, e2, e3⟩ := ih (fun x hx => hR x (by simp [hx])) _ _
      (eqInsert_same hst ho.1 c)
    refine ⟨t, t', ?_, ?_, e3⟩
    · rw [eqLoop, hok]; exact e1
    · rw [eqLoop, hc, hok]; exact e2

theorem zip_forall₂ {α β : Type} {R : α → α → Prop} : ∀ {l l' : List α} (m : List β),
    List.Forall₂ R l l' →
    List.Forall₂ (fun x y : α × β => R x.1 y.1 ∧ y.2 = x.2) (l.zip m) (l'.zip m)
  | _, _, _, .nil => by simp
  | _, _, [], .cons _ _ => by simp
  | _, _, _ :: m, .cons h t => .cons ⟨h, rfl⟩ (zip_forall₂ m t)

theorem equivalent_moved {v : Vec3} {s s' : RefStructure N} (h : OriginMoved v s s')
    (hR : ∀ op ∈ s.ops, IntegerMatrix op.rot) (hP : ∀ P ∈ s.perms, SingleRows P) (d : Pos N ℝ) :
    (s.getEquivalentDisplacements d = .ok none ∧ s'.getEquivalentDisplacements d = .ok none) ∨
    ∃ gs gs', s.getEquivalentDisplacements d = .ok (some gs) ∧
      s'.getEquivalentDisplacements d = .ok (some gs') ∧ List.Forall₂ SameGroup gs gs' := by
  have hz : List.Forall₂ (fun x y => MovedOperation v x.1.rot x.1.trans y.1.rot y.1.trans ∧ y.2 = x.2)
      (s.ops.zip s.perms) (s'.ops.zip s'.perms) := by
    rw [h.perms]
    exact zip_forall₂ s.perms h.ops
  unfold RefStructure.getEquivalentDisplacements
  cases scaleDisplacement d with
  | none =>
    dsimp only
    have : (s'.ops.zip s'.perms).isEmpty = (s.ops.zip s.perms).isEmpty := by
      revert hz
      generalize s.ops.zip s.perms = l
      generalize s'.ops.zip s'.perms = l'
      intro hz
      cases hz <;> rfl
    rw [this]
    split_ifs
    · exact Or.inr ⟨[], [], rfl, rfl, .nil⟩
    · exact Or.inl ⟨rfl, rfl⟩
  | some e =>
    dsimp only
    obtain ⟨t, t', e1, e2, e3⟩ := eqLoop_moved h.positions e hz
      (fun x hx => ⟨hR _ (List.of_mem_zip hx).1, hP _ (List.of_mem_zip hx).2⟩)
      ⟨[], []⟩ ⟨[], []⟩ ⟨.nil, rfl⟩
    refine Or.inr ⟨t.result, t'.result, ?_, ?_, e3.1⟩
    · rw [e1]; rfl
    · rw [e2]; rfl

theorem groupPoints_rot (P : Mat3 ℝ) (amps : List ℝ) (pols : List (Mat3 ℝ)) (mu : Option ℝ)
    {op op' : SymOp} (h : op'.rot = op.rot) :
    groupPoints P amps pols mu op' = groupPoints P amps pols mu op := by
  unfold groupPoints
  rw [h]

/-- The model with its structure replaced. -/
def IModel.withRef (m : IModel N) (s : RefStructure N) : IModel N := { m with ref := s }

def Outcome.withRef (o : Outcome N) (s : RefStructure N) : Outcome N :=
  { o with state := o.state.withRef s }

theorem cart_moved {v : Vec3} {s s' : RefStructure N} (h : OriginMoved v s s') (d : Pos N ℝ) :
    s'.getCartDisplacement d = s.getCartDisplacement d := by
  unfold RefStructure.getCartDisplacement
  rw [h.lattice]

theorem zip_mapM_rot (m : IModel N) (amps : List ℝ) (pols : List (Mat3 ℝ)) (child : Pos N ℝ)
    (ds : List (Pos N ℝ)) : ∀ {ts ts' : List SymOp},
    List.Forall₂ (fun op op' : SymOp => op'.rot = op.rot) ts ts' →
    ((ds.zip ts').mapM fun x => groupPoints m.refPol amps pols (multiplier child x.1) x.2) =
      (ds.zip ts).mapM fun x => groupPoints m.refPol amps pols (multiplier child x.1) x.2 := by
  induction ds with
  | nil => intro ts ts' _; simp
  | cons d ds ih =>
    intro ts ts' h
    cases h with
    | nil => simp
    | cons h1 h2 =>
      rw [List.zip_cons_cons, List.zip_cons_cons, List.mapM_cons, List.mapM_cons, ih h2,
        groupPoints_rot m.refPol amps pols _ h1]

theorem dofGroup_moved {v : Vec3} (m : IModel N) {s' : RefStructure N} (h : OriginMoved v m.ref s')
    (amps : List ℝ) (pols : List (Mat3 ℝ)) (inc : Bool) {g g' : EqGroup N} (hg : SameGroup g g') :
    dofGroup (m.withRef s') amps pols inc g' = dofGroup m amps pols inc g := by
  obtain ⟨h1, h2⟩ := hg
  unfold dofGroup
  rw [h1]
  cases g.displacements with
  | nil => rfl
  | cons child rest =>
    dsimp only
    have hz := zip_mapM_rot m amps pols child (child :: rest) h2
    change (do
      let pts ← ((child :: rest).zip g'.transformations).mapM fun x : Pos N ℝ × SymOp =>
        groupPoints m.refPol amps pols (multiplier child x.1) x.2
      return (⟨normalizePos (s'.getCartDisplacement child),
        refPoint inc ++ pts.flatten⟩ : DofGroup N)) = _
    rw [hz, cart_moved h]

theorem nanGroups_moved {v : Vec3} (m : IModel N) {s' : RefStructure N} (h : OriginMoved v m.ref s')
    (amps : List ℝ) (pols : List (Mat3 ℝ)) (inc : Bool) :
    nanGroups (m.withRef s') amps pols inc = nanGroups m amps pols inc := by
  have hz := zip_forall₂ m.ref.perms h.ops
  unfold nanGroups
  change (match s'.ops.zip s'.perms with
    | [] => _
    | (op, _) :: _ => _) = _
  rw [h.perms]
  revert hz
  generalize m.ref.ops.zip m.ref.perms = l
  generalize s'.ops.zip m.ref.perms = l'
  intro hz
  cases hz with
  | nil => rfl
  | cons h1 _ =>
    dsimp only
    rw [← groupPoints_rot m.refPol amps pols none h1.1.1]
    rfl

theorem mapM_forall₂ {α β : Type} {R : α → α → Prop} {f f' : α → Py β}
    (hf : ∀ x y, R x y → f' y = f x) {l l' : List α} (h : List.Forall₂ R l l') :
    l'.mapM f' = l.mapM f := by
  induction h with
  | nil => rfl
  | cons h _ ih => rw [List.mapM_cons, List.mapM_cons, ih, hf _ _ h]

theorem getDof_moved {v : Vec3} (m : IModel N) {s' : RefStructure N} (h : OriginMoved v m.ref s')
    (hR : ∀ op ∈ m.ref.ops, IntegerMatrix op.rot) (hP : ∀ P ∈ m.ref.perms, SingleRows P)
    (p : Option (Pos N ℝ)) (amps : List ℝ) (pols : List (Mat3 ℝ)) (inc : Bool) :
    getDof (m.withRef s') p amps pols inc = getDof m p amps pols inc := by
  have ho : orthCheck (m.withRef s') p = orthCheck m p := by
    unfold orthCheck
    cases p with
    | none => rfl
    | some p =>
      change isOrthogonalToAll (flat (s'.getCartDisplacement p)) (m.basis.map flat) = _
      rw [cart_moved h]
  unfold getDof
  rw [ho]
  split_ifs
  · rfl
  · cases p with
    | none => exact nanGroups_moved m h amps pols inc
    | some p =>
      dsimp only
      change (do
        match ← s'.getEquivalentDisplacements p with
        | none => nanGroups (m.withRef s') amps pols inc
        | some groups => groups.mapM (dofGroup (m.withRef s') amps pols inc)) = _
      rcases equivalent_moved h hR hP p with ⟨e1, e2⟩ | ⟨gs, gs', e1, e2, e3⟩
      · rw [e1, e2]
        exact nanGroups_moved m h amps pols inc
      · rw [e1, e2]
        exact mapM_forall₂ (fun g g' hg => dofGroup_moved m h amps pols inc hg) e3

theorem constructAndAdd_withRef (spline : SplineFn) (we : Bool) (m : IModel N) (s' : RefStructure N)
    (gs : List (DofGroup N)) (order : ℤ) :
    constructAndAdd spline we (m.withRef s') gs order =
      (constructAndAdd spline we m gs order).withRef s' := by
  unfold constructAndAdd
  split_ifs
  · rfl
  · rcases buildAll spline we order.toNat gs with ⟨r, ws⟩
    cases r with
    | error e => rfl
    | ok fs =>
      dsimp only
      cases finiteBasis gs with
      | error e => rfl
      | ok bs =>
        unfold Outcome.withRef IModel.withRef
        dsimp only
        by_cases hd : m.dummy = true
        · simp [hd]
        · simp [hd]

theorem prepareDof_moved {v : Vec3} (m : IModel N) {s' : RefStructure N} (h : OriginMoved v m.ref s')
    (hR : ∀ op ∈ m.ref.ops, IntegerMatrix op.rot) (hP : ∀ P ∈ m.ref.perms, SingleRows P)
    (cart : Option (Pos N ℝ)) (amps : List ℝ) (pols : List (Mat3 ℝ)) (inc : Bool) :
    prepareDof (m.withRef s') cart amps pols inc = prepareDof m cart amps pols inc := by
  have hp : parentDisplacement (m.withRef s') cart = parentDisplacement m cart := by
    unfold parentDisplacement RefStructure.getFracDisplacement
    cases cart with
    | none =>
      change (do let _ ← npInv s'.lattice; return none) = _
      rw [h.lattice]
    | some c =>
      change (do
        let d ← (do let inv ← npInv s'.lattice; return applyPbcDisplacement (matMulPos c inv))
        return normalizeTenth d) = _
      rw [h.lattice]
  unfold prepareDof
  rw [hp]
  cases parentDisplacement m cart with
  | error e => rfl
  | ok p =>
    change (if (usedPols m amps pols).length ≠ amps.length then _ else
      getDof (m.withRef s') p amps (usedPols m amps pols) inc) =
      (if (usedPols m amps pols).length ≠ amps.length then _ else
        getDof m p amps (usedPols m amps pols) inc)
    rw [getDof_moved m h hR hP]

theorem addDofNan_moved {v : Vec3} (spline : SplineFn) (we : Bool) (m : IModel N)
    {s' : RefStructure N} (h : OriginMoved v m.ref s')
    (hR : ∀ op ∈ m.ref.ops, IntegerMatrix op.rot) (hP : ∀ P ∈ m.ref.perms, SingleRows P)
    (cart : Option (Pos N ℝ)) (amps : List ℝ) (pols : List (Mat3 ℝ)) (order : ℤ) (inc : Bool) :
    (m.withRef s').addDofNan spline we cart amps pols order inc =
      (m.addDofNan spline we cart amps pols order inc).withRef s' := by
  unfold IModel.addDofNan
  rw [prepareDof_moved m h hR hP]
  cases prepareDof m cart amps pols inc with
  | error e => rfl
  | ok gs => exact constructAndAdd_withRef spline we m s' gs order

/-- Two lists of files: the second holds the structures of the first as seen from the other origin. -/
def MovedFile (v : Vec3) (f f' : DofFile N) : Prop :=
  (∃ e, f = .error e ∧ f' = .error e) ∨ (∃ A, f = .ok (none, A) ∧ f' = .ok (none, A)) ∨
    ∃ p q A, f = .ok (some p, A) ∧ f' = .ok (some q, A) ∧ MovedBy v p q

theorem readDofFiles_moved {v : Vec3} (m : IModel N) {s' : RefStructure N} (h : OriginMoved v m.ref s')
    {fs fs' : List (DofFile N)} (hf : List.Forall₂ (MovedFile v) fs fs') :
    readDofFiles (m.withRef s') fs' = readDofFiles m fs := by
  induction hf with
  | nil => rfl
  | cons h1 _ ih =>
    rw [readDofFiles, readDofFiles, ih]
    rcases h1 with ⟨e, rfl, rfl⟩ | ⟨A, rfl, rfl⟩ | ⟨p, q, A, rfl, rfl, hpq⟩
    · rfl
    · rfl
    · change (do
        let rest ← readDofFiles m _
        return (calcDisplacement s'.positions q, if m.dummy then 0 else A) :: rest) = _
      rw [calc_moved h.positions hpq]
      rfl

theorem readDof_moved {v : Vec3} (m : IModel N) {s' : RefStructure N} (h : OriginMoved v m.ref s')
    {fs fs' : List (DofFile N)} (hf : List.Forall₂ (MovedFile v) fs fs') :
    readDof (m.withRef s') fs' = readDof m fs := by
  have hc : (m.withRef s').ref.getCartDisplacement = m.ref.getCartDisplacement :=
    funext fun d => cart_moved h d
  unfold readDof
  rw [readDofFiles_moved m h hf, hc]

end

end Verif
