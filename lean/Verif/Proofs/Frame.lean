import Verif.Props.Equivariance

/-!
# The same crystal described in a rotated laboratory frame

A change of frame by an orthogonal matrix `Q` has two parts: the geometry (`reoriented`: lattice
vectors and Cartesian basis vectors) and the tensors (`turnedBy`: polarizabilities).
-/

namespace Verif

open Spec

noncomputable section

variable {N : ℕ}

/-! ## The changed descriptions -/

/-- The structure with rotated lattice vectors (fractional coordinates stay). -/
def RefStructure.reoriented (Q : Mat3 ℝ) (s : RefStructure N) : RefStructure N :=
  { s with lattice := s.lattice * Q }

/-- The model with rotated lattice and basis vectors. -/
def IModel.reoriented (Q : Mat3 ℝ) (m : IModel N) : IModel N :=
  { m with ref := m.ref.reoriented Q, basis := m.basis.map (toCart Q) }

/-- The model with turned polarizabilities. -/
def IModel.turnedBy (Q : Mat3 ℝ) (m : IModel N) : IModel N :=
  { m with refPol := turned Q m.refPol, interps := m.interps.map fun f x => turned Q (f x) }

/-- The model as described in the rotated frame. -/
def IModel.inFrame (Q : Mat3 ℝ) (m : IModel N) : IModel N := (m.reoriented Q).turnedBy Q

def DofGroup.reoriented (Q : Mat3 ℝ) (g : DofGroup N) : DofGroup N :=
  { g with basis := g.basis.map (toCart Q) }

def DofGroup.turnedBy (Q : Mat3 ℝ) (g : DofGroup N) : DofGroup N :=
  { g with pts := g.pts.map fun x => (x.1, turned Q x.2) }

def Outcome.reoriented (Q : Mat3 ℝ) (o : Outcome N) : Outcome N :=
  { o with state := o.state.reoriented Q }

def Outcome.turnedBy (Q : Mat3 ℝ) (o : Outcome N) : Outcome N :=
  { o with state := o.state.turnedBy Q }

def Outcome.inFrame (Q : Mat3 ℝ) (o : Outcome N) : Outcome N :=
  { o with state := o.state.inFrame Q }

/-! ## Geometry -/

theorem toCart_matMul (Q : Mat3 ℝ) (d : Pos N ℝ) : toCart Q d = matMulPos d Q := rfl

theorem inner3_frame {Q : Mat3 ℝ} (hQ : Q * Q.transpose = 1) (b D : Pos N ℝ) :
    inner3 (toCart Q b) (toCart Q D) = inner3 b D :=
  inner3_carried (Equiv.refl _) hQ b D

theorem dot_inner (b D : Pos N ℝ) : dot (flat b) (flat D) = inner3 b D := by
  unfold dot inner3 flat
  rw [Fintype.sum_prod_type]

theorem dot_frame {Q : Mat3 ℝ} (hQ : Q * Q.transpose = 1) (b D : Pos N ℝ) :
    dot (flat (toCart Q b)) (flat (toCart Q D)) = dot (flat b) (flat D) := by
  rw [dot_inner, dot_inner, inner3_frame hQ]

theorem norm_frame {Q : Mat3 ℝ} (hQ : Q * Q.transpose = 1) (b : Pos N ℝ) :
    norm2 (flat (toCart Q b)) = norm2 (flat b) := by
  unfold norm2; rw [dot_frame hQ]

theorem toCart_div (Q : Mat3 ℝ) (d : Pos N ℝ) (n : ℝ) :
    toCart Q (fun a i => d a i / n) = fun a i => toCart Q d a i / n := by
  funext a i
  unfold toCart
  rw [Finset.sum_div]
  exact Finset.sum_congr rfl fun j _ => by ring

theorem normalizePos_frame {Q : Mat3 ℝ} (hQ : Q * Q.transpose = 1) (d : Pos N ℝ) :
    normalizePos (toCart Q d) = (normalizePos d).map (toCart Q) := by
  unfold normalizePos
  rw [norm_frame hQ]
  split_ifs
  · rfl
  · rw [Option.map_some, toCart_div]

theorem dotNan_frame {Q : Mat3 ℝ} (hQ : Q * Q.transpose = 1) (u v : Pos N ℝ) :
    dotNan (normalize (flat (toCart Q u))) (normalize (flat (toCart Q v))) =
      dotNan (normalize (flat u)) (normalize (flat v)) := by
  unfold normalize
  rw [norm_frame hQ, norm_frame hQ]
  by_cases hu : norm2 (flat u) = 0
  · simp [hu, dotNan]
  by_cases hv : norm2 (flat v) = 0
  · simp [hv, hu, dotNan]
  rw [if_neg hu, if_neg hv, if_neg hu, if_neg hv]
  change some _ = some _
  congr 1
  have h : ∀ w w' : Fin N × Fin 3 → ℝ, dot (fun i => w i / norm2 (flat u))
      (fun i => w' i / norm2 (flat v)) = dot w w' / (norm2 (flat u) * norm2 (flat v)) := by
    intro w w'
    unfold dot
    rw [Finset.sum_div]
    exact Finset.sum_congr rfl fun i _ => by field_simp
  rw [h, h, dot_frame hQ]

theorem firstIndex_map {α β : Type} (f : α → β) (p : β → Bool) : ∀ (l : List α) (k : ℕ),
    firstIndexFrom p k (l.map f) = firstIndexFrom (fun x => p (f x)) k l
  | [], _ => rfl
  | x :: l, k => by
    rw [List.map_cons, firstIndexFrom, firstIndexFrom, firstIndex_map f p l]

theorem orthogonal_frame {Q : Mat3 ℝ} (hQ : Q * Q.transpose = 1) (u : Pos N ℝ)
    (vs : List (Pos N ℝ)) :
    isOrthogonalToAll (flat (toCart Q u)) ((vs.map (toCart Q)).map flat) =
      isOrthogonalToAll (flat u) (vs.map flat) := by
  unfold isOrthogonalToAll
  dsimp only
  rw [List.map_map, firstIndex_map, firstIndex_map]
  congr 1
  funext v
  simp only [Function.comp, dotNan_frame hQ]

theorem cart_frame (Q : Mat3 ℝ) (s : RefStructure N) (d : Pos N ℝ) :
    (s.reoriented Q).getCartDisplacement d = toCart Q (s.getCartDisplacement d) := by
  unfold RefStructure.getCartDisplacement RefStructure.reoriented
  rw [← toCart_matMul, ← toCart_matMul, toCart_toCart]

theorem det_ne_zero_of_orthogonal {Q : Mat3 ℝ} (hQ : Q * Q.transpose = 1) : Q.det ≠ 0 := by
  intro h
  have := congrArg Matrix.det hQ
  rw [Matrix.det_mul, h, zero_mul, Matrix.det_one] at this
  exact zero_ne_one this

theorem npInv_frame {Q : Mat3 ℝ} (hQ : Q * Q.transpose = 1) (L : Mat3 ℝ) :
    npInv (L * Q) = (npInv L).map fun M => Q.transpose * M := by
  unfold npInv
  rw [Matrix.det_mul]
  have hd := det_ne_zero_of_orthogonal hQ
  by_cases h : L.det = 0
  · rw [if_pos (by rw [h, zero_mul]), if_pos h]; rfl
  · rw [if_neg (mul_ne_zero h hd), if_neg h]
    change Except.ok _ = Except.ok _
    rw [Matrix.mul_inv_rev, Matrix.inv_eq_right_inv hQ]

theorem frac_frame {Q : Mat3 ℝ} (hQ : Q * Q.transpose = 1) (s : RefStructure N) (d : Pos N ℝ) :
    (s.reoriented Q).getFracDisplacement (toCart Q d) = s.getFracDisplacement d := by
  unfold RefStructure.getFracDisplacement RefStructure.reoriented
  dsimp only
  rw [npInv_frame hQ]
  cases npInv s.lattice with
  | error e => rfl
  | ok M =>
    change Except.ok _ = Except.ok _
    rw [← toCart_matMul, ← toCart_matMul, toCart_toCart, ← Matrix.mul_assoc, hQ,
      Matrix.one_mul]

theorem fracDirection_frame {Q : Mat3 ℝ} (hQ : Q * Q.transpose = 1) (s : RefStructure N) (d : Vec3) :
    (s.reoriented Q).getFracDirection (fun j => ∑ i, d i * Q i j) = s.getFracDirection d := by
  unfold RefStructure.getFracDirection RefStructure.reoriented
  dsimp only
  rw [npInv_frame hQ]
  cases npInv s.lattice with
  | error e => rfl
  | ok M =>
    change Except.ok _ = Except.ok _
    congr 1
    funext j
    have h := congrFun (congrFun (toCart_toCart (fun _ : Fin 1 => d) Q (Q.transpose * M)) 0) j
    rw [← Matrix.mul_assoc, hQ, Matrix.one_mul] at h
    exact congrArg wrap1 h

theorem equivalent_frame (Q : Mat3 ℝ) (s : RefStructure N) (d : Pos N ℝ) :
    (s.reoriented Q).getEquivalentDisplacements d = s.getEquivalentDisplacements d := rfl

theorem mapM_except_map {α β γ : Type} (f : β → γ) (g : α → Py β) (l : List α) :
    l.mapM (fun x => (g x).map f) = (l.mapM g).map (List.map f) := by
  induction l with
  | nil => rfl
  | cons x l ih =>
    rw [List.mapM_cons, List.mapM_cons, ih]
    cases g x with
    | error e => rfl
    | ok y =>
      cases l.mapM g with
      | error e => rfl
      | ok ys => rfl

theorem dofGroup_reoriented {Q : Mat3 ℝ} (hQ : Q * Q.transpose = 1) (m : IModel N) (amps : List ℝ)
    (pols : List (Mat3 ℝ)) (inc : Bool) (g : EqGroup N) :
    dofGroup (m.reoriented Q) amps pols inc g =
      (dofGroup m amps pols inc g).map (DofGroup.reoriented Q) := by
  unfold dofGroup
  cases g.displacements with
  | nil => rfl
  | cons child rest =>
    dsimp only
    change (do
      let pts ← ((child :: rest).zip g.transformations).mapM fun x : Pos N ℝ × SymOp =>
        groupPoints m.refPol amps pols (multiplier child x.1) x.2
      return (⟨normalizePos ((m.ref.reoriented Q).getCartDisplacement child),
        refPoint inc ++ pts.flatten⟩ : DofGroup N)) = _
    rw [cart_frame, normalizePos_frame hQ]
    cases ((child :: rest).zip g.transformations).mapM fun x : Pos N ℝ × SymOp =>
        groupPoints m.refPol amps pols (multiplier child x.1) x.2 with
    | error e => rfl
    | ok pts => rfl

theorem orthCheck_reoriented {Q : Mat3 ℝ} (hQ : Q * Q.transpose = 1) (m : IModel N)
    (p : Option (Pos N ℝ)) : orthCheck (m.reoriented Q) p = orthCheck m p := by
  unfold orthCheck
  cases p with
  | none =>
    change (if (m.basis.map (toCart Q)).isEmpty then _ else _) = _
    rw [List.isEmpty_map]
  | some p =>
    change isOrthogonalToAll (flat ((m.ref.reoriented Q).getCartDisplacement p))
      ((m.basis.map (toCart Q)).map flat) = _
    rw [cart_frame, orthogonal_frame hQ]

theorem nanGroups_reoriented (Q : Mat3 ℝ) (m : IModel N) (amps : List ℝ)
    (pols : List (Mat3 ℝ)) (inc : Bool) :
    nanGroups (m.reoriented Q) amps pols inc =
      (nanGroups m amps pols inc).map (List.map (DofGroup.reoriented Q)) := by
  unfold nanGroups
  change (match m.ref.ops.zip m.ref.perms with
    | [] => _
    | (op, _) :: _ => _) = _
  cases m.ref.ops.zip m.ref.perms with
  | nil => rfl
  | cons x l =>
    dsimp only
    change (do
      let pts ← groupPoints m.refPol amps pols none x.1
      return [(⟨none, refPoint inc ++ pts⟩ : DofGroup N)]) = _
    cases groupPoints m.refPol amps pols none x.1 with
    | error e => rfl
    | ok pts => rfl

theorem getDof_reoriented {Q : Mat3 ℝ} (hQ : Q * Q.transpose = 1) (m : IModel N)
    (p : Option (Pos N ℝ)) (amps : List ℝ) (pols : List (Mat3 ℝ)) (inc : Bool) :
    getDof (m.reoriented Q) p amps pols inc =
      (getDof m p amps pols inc).map (List.map (DofGroup.reoriented Q)) := by
  unfold getDof
  rw [orthCheck_reoriented hQ]
  split_ifs with h
  · rfl
  · cases p with
    | none => exact nanGroups_reoriented Q m amps pols inc
    | some p =>
      dsimp only
      change (do
        match ← m.ref.getEquivalentDisplacements p with
        | none => nanGroups (m.reoriented Q) amps pols inc
        | some groups => groups.mapM (dofGroup (m.reoriented Q) amps pols inc)) = _
      cases m.ref.getEquivalentDisplacements p with
      | error e => rfl
      | ok r =>
        cases r with
        | none => exact nanGroups_reoriented Q m amps pols inc
        | some groups =>
          change groups.mapM (dofGroup (m.reoriented Q) amps pols inc) =
            (groups.mapM (dofGroup m amps pols inc)).map _
          rw [← mapM_except_map]
          congr 1
          funext g
          exact dofGroup_reoriented hQ m amps pols inc g

theorem buildAll_reoriented (Q : Mat3 ℝ) (spline : SplineFn) (we : Bool) (order : ℕ) :
    ∀ gs : List (DofGroup N), buildAll spline we order (gs.map (DofGroup.reoriented Q)) =
      buildAll spline we order gs
  | [] => rfl
  | g :: gs => by
    rw [List.map_cons, buildAll, buildAll, buildAll_reoriented Q spline we order gs]
    rfl

theorem finiteBasis_reoriented (Q : Mat3 ℝ) (gs : List (DofGroup N)) :
    finiteBasis (gs.map (DofGroup.reoriented Q)) = (finiteBasis gs).map (List.map (toCart Q)) := by
  unfold finiteBasis
  rw [← mapM_except_map, List.mapM_map]
  congr 1
  funext g
  rcases g with ⟨b, pts⟩
  cases b with
  | none => rfl
  | some b => rfl

theorem constructAndAdd_reoriented (Q : Mat3 ℝ) (spline : SplineFn) (we : Bool) (m : IModel N)
    (gs : List (DofGroup N)) (order : ℤ) :
    constructAndAdd spline we (m.reoriented Q) (gs.map (DofGroup.reoriented Q)) order =
      (constructAndAdd spline we m gs order).reoriented Q := by
  unfold constructAndAdd
  rw [buildAll_reoriented, finiteBasis_reoriented]
  split_ifs with h
  · rfl
  · rcases buildAll spline we order.toNat gs with ⟨r, ws⟩
    cases r with
    | error e => rfl
    | ok fs =>
      dsimp only
      cases finiteBasis gs with
      | error e => rfl
      | ok bs =>
        change (⟨_, _, _⟩ : Outcome N) = _
        unfold Outcome.reoriented IModel.reoriented
        dsimp only
        by_cases hd : m.dummy = true
        · simp [hd]
        · simp [hd]

theorem parent_reoriented {Q : Mat3 ℝ} (hQ : Q * Q.transpose = 1) (m : IModel N)
    (cart : Option (Pos N ℝ)) :
    parentDisplacement (m.reoriented Q) (cart.map (toCart Q)) = parentDisplacement m cart := by
  unfold parentDisplacement
  cases cart with
  | none =>
    change (do let _ ← npInv (m.ref.lattice * Q); return none) = _
    rw [npInv_frame hQ]
    dsimp only
    cases npInv m.ref.lattice with
    | error e => rfl
    | ok M => rfl
  | some c =>
    change (do
      let d ← (m.ref.reoriented Q).getFracDisplacement (toCart Q c)
      return normalizeTenth d) = _
    rw [frac_frame hQ]

theorem prepareDof_reoriented {Q : Mat3 ℝ} (hQ : Q * Q.transpose = 1) (m : IModel N)
    (cart : Option (Pos N ℝ)) (amps : List ℝ) (pols : List (Mat3 ℝ)) (inc : Bool) :
    prepareDof (m.reoriented Q) (cart.map (toCart Q)) amps pols inc =
      (prepareDof m cart amps pols inc).map (List.map (DofGroup.reoriented Q)) := by
  unfold prepareDof
  rw [parent_reoriented hQ]
  cases parentDisplacement m cart with
  | error e => rfl
  | ok p =>
    change (if (usedPols m amps pols).length ≠ amps.length then _ else
      getDof (m.reoriented Q) p amps (usedPols m amps pols) inc) =
      Except.map _ (if (usedPols m amps pols).length ≠ amps.length then _ else
        getDof m p amps (usedPols m amps pols) inc)
    rw [getDof_reoriented hQ]
    split_ifs <;> rfl

theorem addDofNan_reoriented {Q : Mat3 ℝ} (hQ : Q * Q.transpose = 1) (spline : SplineFn) (we : Bool)
    (m : IModel N) (cart : Option (Pos N ℝ)) (amps : List ℝ) (pols : List (Mat3 ℝ)) (order : ℤ)
    (inc : Bool) :
    (m.reoriented Q).addDofNan spline we (cart.map (toCart Q)) amps pols order inc =
      (m.addDofNan spline we cart amps pols order inc).reoriented Q := by
  unfold IModel.addDofNan
  rw [prepareDof_reoriented hQ]
  cases prepareDof m cart amps pols inc with
  | error e => rfl
  | ok gs => exact constructAndAdd_reoriented Q spline we m gs order

theorem accumulate_reoriented {Q : Mat3 ℝ} (hQ : Q * Q.transpose = 1) (disps : List (Pos N ℝ)) :
    ∀ (bs : List (Pos N ℝ)) (fs : List (ℝ → Mat3 ℝ)) (ks : List Bool) (acc : List (Mat3 ℝ)),
    accumulate (disps.map (toCart Q)) (bs.map (toCart Q)) fs ks acc = accumulate disps bs fs ks acc
  | [], [], [], acc => rfl
  | b :: bs, f :: fs, k :: ks, acc => by
    rw [List.map_cons, accumulate, accumulate, accumulate_reoriented hQ disps bs fs ks,
      List.zipWith_map_left]
    congr 2
    funext D a
    unfold getAmplitude
    rw [dot_frame hQ]
  | [], [], _ :: _, _ => rfl
  | [], _ :: _, [], _ => rfl
  | [], _ :: _, _ :: _, _ => rfl
  | _ :: _, [], [], _ => rfl
  | _ :: _, [], _ :: _, _ => rfl
  | _ :: _, _ :: _, [], _ => rfl

theorem calc_reoriented {Q : Mat3 ℝ} (hQ : Q * Q.transpose = 1) (m : IModel N)
    (batch : List (Pos N ℝ)) :
    (m.reoriented Q).calcPolarizabilities batch = m.calcPolarizabilities batch := by
  unfold IModel.calcPolarizabilities
  dsimp only
  have h : (batch.map fun p => (m.reoriented Q).ref.getCartDisplacement
      (calcDisplacement (m.reoriented Q).ref.positions p)) =
      (batch.map fun p => m.ref.getCartDisplacement (calcDisplacement m.ref.positions p)).map
        (toCart Q) := by
    rw [List.map_map]
    refine List.map_congr_left fun p _ => ?_
    exact cart_frame Q m.ref _
  rw [h, show (m.reoriented Q).basis = m.basis.map (toCart Q) from rfl,
    accumulate_reoriented hQ]
  rfl

/-! ## Tensors -/

/-- A spline routine applied to turned ordinates gives the turned spline. -/
def SplineTurns (Q : Mat3 ℝ) (spline : SplineFn) : Prop :=
  ∀ k pts, spline k (pts.map fun x => (x.1, turned Q x.2)) =
    (spline k pts).map fun f x => turned Q (f x)

theorem inv_commutes {Q R : Mat3 ℝ} (hQ : Q * Q.transpose = 1) (h : R * Q = Q * R)
    (hd : R.det ≠ 0) (A : Mat3 ℝ) : R⁻¹ * turned Q A * R = turned Q (R⁻¹ * A * R) := by
  have hQ' : Q.transpose * Q = 1 := mul_eq_one_comm.1 hQ
  have hu : IsUnit R.det := isUnit_iff_ne_zero.2 hd
  have h1 : R * Q.transpose = Q.transpose * R := by
    calc R * Q.transpose = Q.transpose * Q * (R * Q.transpose) := by rw [hQ', Matrix.one_mul]
      _ = Q.transpose * (Q * R) * Q.transpose := by simp only [Matrix.mul_assoc]
      _ = Q.transpose * R * (Q * Q.transpose) := by rw [← h]; simp only [Matrix.mul_assoc]
      _ = Q.transpose * R := by rw [hQ, Matrix.mul_one]
  have h2 : R⁻¹ * Q.transpose = Q.transpose * R⁻¹ := by
    calc R⁻¹ * Q.transpose = R⁻¹ * (Q.transpose * R) * R⁻¹ := by
          rw [Matrix.mul_assoc, Matrix.mul_assoc, Matrix.mul_nonsing_inv R hu, Matrix.mul_one]
      _ = R⁻¹ * R * Q.transpose * R⁻¹ := by rw [← h1]; simp only [Matrix.mul_assoc]
      _ = Q.transpose * R⁻¹ := by rw [Matrix.nonsing_inv_mul R hu, Matrix.one_mul]
  unfold turned
  calc R⁻¹ * (Q.transpose * A * Q) * R = R⁻¹ * Q.transpose * A * (Q * R) := by
        simp only [Matrix.mul_assoc]
    _ = Q.transpose * R⁻¹ * A * (R * Q) := by rw [h2, h]
    _ = Q.transpose * (R⁻¹ * A * R) * Q := by simp only [Matrix.mul_assoc]

theorem groupPoints_turned {Q : Mat3 ℝ} (hQ : Q * Q.transpose = 1) (P : Mat3 ℝ) (amps : List ℝ)
    (pols : List (Mat3 ℝ)) (mu : Option ℝ) (op : SymOp) (h : op.rot * Q = Q * op.rot) :
    groupPoints (turned Q P) amps (pols.map (turned Q)) mu op =
      (groupPoints P amps pols mu op).map (List.map fun x => (x.1, turned Q x.2)) := by
  unfold groupPoints
  rw [← mapM_except_map, List.zip_map_right, List.mapM_map]
  congr 1
  funext x
  unfold npInv
  by_cases hd : op.rot.det = 0
  · rw [if_pos hd]; rfl
  · rw [if_neg hd]
    change Except.ok _ = Except.ok _
    simp only [Prod.map, id]
    rw [← turned_sub, inv_commutes hQ h hd]

theorem refPoint_turned (Q : Mat3 ℝ) (inc : Bool) :
    (refPoint inc).map (fun x => (x.1, turned Q x.2)) = refPoint inc := by
  cases inc
  · rfl
  · simp [refPoint, turned_zero]

theorem mapM_congr_mem {α β : Type} {f g : α → Py β} {l : List α} (h : ∀ x ∈ l, f x = g x) :
    l.mapM f = l.mapM g := by
  induction l with
  | nil => rfl
  | cons x l ih =>
    rw [List.mapM_cons, List.mapM_cons, h x (by simp), ih fun y hy => h y (by simp [hy])]

theorem dofGroup_turned {Q : Mat3 ℝ} (hQ : Q * Q.transpose = 1) (m : IModel N) (amps : List ℝ)
    (pols : List (Mat3 ℝ)) (inc : Bool) (g : EqGroup N)
    (h : ∀ op ∈ g.transformations, op.rot * Q = Q * op.rot) :
    dofGroup (m.turnedBy Q) amps (pols.map (turned Q)) inc g =
      (dofGroup m amps pols inc g).map (DofGroup.turnedBy Q) := by
  unfold dofGroup
  cases hg : g.displacements with
  | nil => rfl
  | cons child rest =>
    dsimp only
    change (do
      let pts ← ((child :: rest).zip g.transformations).mapM fun x : Pos N ℝ × SymOp =>
        groupPoints (turned Q m.refPol) amps (pols.map (turned Q)) (multiplier child x.1) x.2
      return (⟨normalizePos (m.ref.getCartDisplacement child),
        refPoint inc ++ pts.flatten⟩ : DofGroup N)) = _
    rw [mapM_congr_mem fun x hx => groupPoints_turned hQ m.refPol amps pols (multiplier child x.1) x.2
      (h _ (List.of_mem_zip hx).2), mapM_except_map]
    cases ((child :: rest).zip g.transformations).mapM fun x : Pos N ℝ × SymOp =>
        groupPoints m.refPol amps pols (multiplier child x.1) x.2 with
    | error e => rfl
    | ok pts =>
      change Except.ok _ = Except.ok _
      unfold DofGroup.turnedBy
      dsimp only
      rw [List.map_append, refPoint_turned, List.map_flatten]

theorem nanGroups_turned {Q : Mat3 ℝ} (hQ : Q * Q.transpose = 1) (m : IModel N) (amps : List ℝ)
    (pols : List (Mat3 ℝ)) (inc : Bool) (h : ∀ op ∈ m.ref.ops, op.rot * Q = Q * op.rot) :
    nanGroups (m.turnedBy Q) amps (pols.map (turned Q)) inc =
      (nanGroups m amps pols inc).map (List.map (DofGroup.turnedBy Q)) := by
  unfold nanGroups
  change (match m.ref.ops.zip m.ref.perms with
    | [] => _
    | (op, _) :: _ => _) = _
  cases hz : m.ref.ops.zip m.ref.perms with
  | nil => rfl
  | cons x l =>
    dsimp only
    change (do
      let pts ← groupPoints (turned Q m.refPol) amps (pols.map (turned Q)) none x.1
      return [(⟨none, refPoint inc ++ pts⟩ : DofGroup N)]) = _
    have hx : x ∈ m.ref.ops.zip m.ref.perms := by rw [hz]; simp
    rw [groupPoints_turned hQ m.refPol amps pols none x.1 (h _ (List.of_mem_zip hx).1)]
    cases groupPoints m.refPol amps pols none x.1 with
    | error e => rfl
    | ok pts =>
      change Except.ok [_] = Except.ok [_]
      unfold DofGroup.turnedBy
      dsimp only
      rw [List.map_append, refPoint_turned]

theorem transformations_ops {s : RefStructure N} {d : Pos N ℝ} {groups : List (EqGroup N)}
    (h : s.getEquivalentDisplacements d = .ok (some groups)) :
    ∀ g ∈ groups, ∀ op ∈ g.transformations, op ∈ s.ops := by
  obtain ⟨done, orth, hI, hdone, _⟩ := getEq_some _ _ _ h
  intro g hg op hop
  obtain ⟨n, hn, rfl⟩ := List.mem_iff_getElem.1 hop
  have hl := hI.len g hg
  have hz : (g.transformations[n], g.displacements[n]'(by omega)) ∈ g.pairs := by
    unfold EqGroup.pairs
    rw [List.mem_iff_getElem]
    exact ⟨n, by rw [List.length_zip]; omega, by simp⟩
  exact hdone _ (hI.prov.subset (List.mem_flatMap.2 ⟨g, hg, hz⟩))

theorem getDof_turned {Q : Mat3 ℝ} (hQ : Q * Q.transpose = 1) (m : IModel N)
    (h : ∀ op ∈ m.ref.ops, op.rot * Q = Q * op.rot)
    (p : Option (Pos N ℝ)) (amps : List ℝ) (pols : List (Mat3 ℝ)) (inc : Bool) :
    getDof (m.turnedBy Q) p amps (pols.map (turned Q)) inc =
      (getDof m p amps pols inc).map (List.map (DofGroup.turnedBy Q)) := by
  unfold getDof
  rw [show orthCheck (m.turnedBy Q) p = orthCheck m p from rfl]
  split_ifs with ho
  · rfl
  · cases p with
    | none => exact nanGroups_turned hQ m amps pols inc h
    | some p =>
      dsimp only
      change (do
        match ← m.ref.getEquivalentDisplacements p with
        | none => nanGroups (m.turnedBy Q) amps (pols.map (turned Q)) inc
        | some groups => groups.mapM (dofGroup (m.turnedBy Q) amps (pols.map (turned Q)) inc)) = _
      cases he : m.ref.getEquivalentDisplacements p with
      | error e => rfl
      | ok r =>
        cases r with
        | none => exact nanGroups_turned hQ m amps pols inc h
        | some groups =>
          change groups.mapM (dofGroup (m.turnedBy Q) amps (pols.map (turned Q)) inc) =
            (groups.mapM (dofGroup m amps pols inc)).map _
          rw [← mapM_except_map]
          exact mapM_congr_mem fun g hg => dofGroup_turned hQ m amps pols inc g
            fun op hop => h op (transformations_ops he g hg op hop)

theorem finitePts_turned (Q : Mat3 ℝ) : ∀ pts : List (Option ℝ × Mat3 ℝ),
    finitePts (pts.map fun x => (x.1, turned Q x.2)) =
      (finitePts pts).map (List.map fun x => (x.1, turned Q x.2))
  | [] => rfl
  | (none, _) :: _ => rfl
  | (some x, y) :: l => by
    rw [List.map_cons, finitePts, finitePts, finitePts_turned Q l]
    cases finitePts l with
    | none => rfl
    | some l => rfl

theorem buildOne_turned {Q : Mat3 ℝ} {spline : SplineFn} (hs : SplineTurns Q spline) (we : Bool)
    (order : ℕ) (pts : List (Option ℝ × Mat3 ℝ)) :
    buildOne spline we order (pts.map fun x => (x.1, turned Q x.2)) =
      ((buildOne spline we order pts).1.map fun f x => turned Q (f x),
        (buildOne spline we order pts).2) := by
  unfold buildOne
  rw [List.map_map, List.length_map, finitePts_turned]
  change (if hasDuplicates (pts.map Prod.fst) then _ else _) = _
  split_ifs
  · rfl
  · rfl
  · cases finitePts pts with
    | none => rfl
    | some fin =>
      change (if we && !(dofWarnings ((fin.map fun x => (x.1, turned Q x.2)).map Prod.fst)).isEmpty
        then _ else (spline order ((fin.map fun x => (x.1, turned Q x.2)).insertionSort
          fun a b => a.1 ≤ b.1),
          dofWarnings ((fin.map fun x => (x.1, turned Q x.2)).map Prod.fst))) = _
      rw [List.map_map]
      change (if we && !(dofWarnings (fin.map Prod.fst)).isEmpty then _ else
        (_, dofWarnings (fin.map Prod.fst))) = _
      rw [← List.map_insertionSort (r := fun a b : ℝ × Mat3 ℝ => a.1 ≤ b.1)
        (s := fun a b : ℝ × Mat3 ℝ => a.1 ≤ b.1) (fun x : ℝ × Mat3 ℝ => (x.1, turned Q x.2)) fin
        (fun a _ b _ => Iff.rfl), hs]
      dsimp only
      split_ifs <;> rfl

theorem buildAll_turned {Q : Mat3 ℝ} {spline : SplineFn} (hs : SplineTurns Q spline) (we : Bool)
    (order : ℕ) : ∀ gs : List (DofGroup N),
    buildAll spline we order (gs.map (DofGroup.turnedBy Q)) =
      ((buildAll spline we order gs).1.map (List.map fun f x => turned Q (f x)),
        (buildAll spline we order gs).2)
  | [] => rfl
  | g :: gs => by
    rw [List.map_cons, buildAll, buildAll, buildAll_turned hs we order gs,
      show (DofGroup.turnedBy Q g).pts = g.pts.map fun x => (x.1, turned Q x.2) from rfl,
      buildOne_turned hs]
    rcases buildOne spline we order g.pts with ⟨r, ws⟩
    cases r with
    | error e => rfl
    | ok f =>
      rcases buildAll spline we order gs with ⟨r', ws'⟩
      cases r' with
      | error e => rfl
      | ok fs => rfl

theorem finiteBasis_turned (Q : Mat3 ℝ) (gs : List (DofGroup N)) :
    finiteBasis (gs.map (DofGroup.turnedBy Q)) = finiteBasis gs := by
  unfold finiteBasis
  rw [List.mapM_map]
  rfl

theorem constructAndAdd_turned {Q : Mat3 ℝ} {spline : SplineFn} (hs : SplineTurns Q spline) (we : Bool)
    (m : IModel N) (gs : List (DofGroup N)) (order : ℤ) :
    constructAndAdd spline we (m.turnedBy Q) (gs.map (DofGroup.turnedBy Q)) order =
      (constructAndAdd spline we m gs order).turnedBy Q := by
  unfold constructAndAdd
  rw [buildAll_turned hs, finiteBasis_turned]
  split_ifs with h
  · rfl
  · rcases buildAll spline we order.toNat gs with ⟨r, ws⟩
    cases r with
    | error e => rfl
    | ok fs =>
      dsimp only [Except.map]
      cases finiteBasis gs with
      | error e => rfl
      | ok bs =>
        unfold Outcome.turnedBy IModel.turnedBy
        dsimp only
        by_cases hd : m.dummy = true
        · simp [hd]
        · simp [hd]

theorem usedPols_turned (Q : Mat3 ℝ) (m : IModel N) (amps : List ℝ) (pols : List (Mat3 ℝ)) :
    usedPols (m.turnedBy Q) amps (pols.map (turned Q)) = (usedPols m amps pols).map (turned Q) := by
  unfold usedPols
  change (if m.dummy then _ else _) = _
  split_ifs
  · rw [List.map_map]
    exact List.map_congr_left fun _ _ => (turned_zero Q).symm
  · rfl

theorem prepareDof_turned {Q : Mat3 ℝ} (hQ : Q * Q.transpose = 1) (m : IModel N)
    (h : ∀ op ∈ m.ref.ops, op.rot * Q = Q * op.rot)
    (cart : Option (Pos N ℝ)) (amps : List ℝ) (pols : List (Mat3 ℝ)) (inc : Bool) :
    prepareDof (m.turnedBy Q) cart amps (pols.map (turned Q)) inc =
      (prepareDof m cart amps pols inc).map (List.map (DofGroup.turnedBy Q)) := by
  unfold prepareDof
  rw [show parentDisplacement (m.turnedBy Q) cart = parentDisplacement m cart from rfl]
  cases parentDisplacement m cart with
  | error e => rfl
  | ok p =>
    change (if (usedPols (m.turnedBy Q) amps (pols.map (turned Q))).length ≠ amps.length then _ else
      getDof (m.turnedBy Q) p amps (usedPols (m.turnedBy Q) amps (pols.map (turned Q))) inc) =
      Except.map _ (if (usedPols m amps pols).length ≠ amps.length then _ else
        getDof m p amps (usedPols m amps pols) inc)
    rw [usedPols_turned, List.length_map, getDof_turned hQ m h]
    split_ifs <;> rfl

theorem addDofNan_turned {Q : Mat3 ℝ} (hQ : Q * Q.transpose = 1) {spline : SplineFn}
    (hs : SplineTurns Q spline) (we : Bool) (m : IModel N)
    (h : ∀ op ∈ m.ref.ops, op.rot * Q = Q * op.rot) (cart : Option (Pos N ℝ)) (amps : List ℝ)
    (pols : List (Mat3 ℝ)) (order : ℤ) (inc : Bool) :
    (m.turnedBy Q).addDofNan spline we cart amps (pols.map (turned Q)) order inc =
      (m.addDofNan spline we cart amps pols order inc).turnedBy Q := by
  unfold IModel.addDofNan
  rw [prepareDof_turned hQ m h]
  cases prepareDof m cart amps pols inc with
  | error e => rfl
  | ok gs => exact constructAndAdd_turned hs we m gs order

theorem turned_smul (Q A : Mat3 ℝ) (c : ℝ) : turned Q (c • A) = c • turned Q A := by
  unfold turned; rw [Matrix.mul_smul, Matrix.smul_mul]

theorem accumulate_turned (Q : Mat3 ℝ) (disps : List (Pos N ℝ)) :
    ∀ (bs : List (Pos N ℝ)) (fs : List (ℝ → Mat3 ℝ)) (ks : List Bool) (acc : List (Mat3 ℝ)),
    accumulate disps bs (fs.map fun f x => turned Q (f x)) ks (acc.map (turned Q)) =
      (accumulate disps bs fs ks acc).map (List.map (turned Q))
  | [], [], [], acc => rfl
  | b :: bs, f :: fs, k :: ks, acc => by
    rw [List.map_cons, accumulate, accumulate, ← accumulate_turned Q disps bs fs ks,
      List.zipWith_map_right, List.map_zipWith]
    congr 2
    funext D a
    rw [turned_add, turned_smul]
  | [], [], _ :: _, _ => rfl
  | [], _ :: _, [], _ => rfl
  | [], _ :: _, _ :: _, _ => rfl
  | _ :: _, [], [], _ => rfl
  | _ :: _, [], _ :: _, _ => rfl
  | _ :: _, _ :: _, [], _ => rfl

theorem calc_turned (Q : Mat3 ℝ) (m : IModel N) (batch : List (Pos N ℝ)) :
    (m.turnedBy Q).calcPolarizabilities batch =
      (m.calcPolarizabilities batch).map (List.map (turned Q)) := by
  unfold IModel.calcPolarizabilities
  dsimp only
  have h0 : (batch.map fun _ => (0 : Mat3 ℝ)) = (batch.map fun _ => (0 : Mat3 ℝ)).map (turned Q) := by
    rw [List.map_map]
    exact List.map_congr_left fun _ _ => (turned_zero Q).symm
  have h := accumulate_turned Q (batch.map fun p =>
    m.ref.getCartDisplacement (calcDisplacement m.ref.positions p)) m.basis m.interps m.mask
    (batch.map fun _ => 0)
  rw [← h0] at h
  change (match accumulate (batch.map fun p =>
      m.ref.getCartDisplacement (calcDisplacement m.ref.positions p)) m.basis
      (m.interps.map fun f x => turned Q (f x)) m.mask (batch.map fun _ => 0) with
    | .ok acc => Except.ok (acc.map (· + turned Q m.refPol))
    | .error e => if m.dummy then .error PyErr.userError else .error e) = _
  rw [h]
  cases accumulate (batch.map fun p =>
    m.ref.getCartDisplacement (calcDisplacement m.ref.positions p)) m.basis m.interps m.mask
    (batch.map fun _ => 0) with
  | error e => dsimp only [Except.map]; split_ifs <;> rfl
  | ok acc =>
    dsimp only [Except.map]
    congr 1
    rw [List.map_map, List.map_map]
    exact List.map_congr_left fun A _ => (turned_add Q A _).symm

/-! ## Files -/

/-- A file of the rotated frame: fractional positions as before, polarizability turned. -/
def DofFile.turnedBy (Q : Mat3 ℝ) (f : DofFile N) : DofFile N :=
  Except.map (fun x => (x.1, turned Q x.2)) f

theorem readDofFiles_reoriented (Q : Mat3 ℝ) (m : IModel N) : ∀ fs : List (DofFile N),
    readDofFiles (m.reoriented Q) fs = readDofFiles m fs
  | [] => rfl
  | f :: fs => by
    rw [readDofFiles, readDofFiles, readDofFiles_reoriented Q m fs]
    rfl

theorem readDof_reoriented {Q : Mat3 ℝ} (hQ : Q * Q.transpose = 1) (m : IModel N)
    (fs : List (DofFile N)) : readDof (m.reoriented Q) fs = readDof m fs := by
  unfold readDof
  rw [readDofFiles_reoriented]
  cases readDofFiles m fs with
  | error e => rfl
  | ok data =>
    dsimp only [bind, Except.bind]
    cases data.map Prod.fst with
    | nil => rfl
    | cons d0 ds =>
      dsimp only
      split_ifs
      · rfl
      · change (match normalizePos ((m.ref.reoriented Q).getCartDisplacement d0) with
          | none => _
          | some b => Except.ok (d0 :: ds, (d0 :: ds).map fun d => getAmplitude b
              ((m.ref.reoriented Q).getCartDisplacement d), data.map Prod.snd)) = _
        rw [cart_frame, normalizePos_frame hQ]
        cases normalizePos (m.ref.getCartDisplacement d0) with
        | none => rfl
        | some b =>
          change Except.ok _ = Except.ok _
          congr 3
          refine List.map_congr_left fun d _ => ?_
          unfold getAmplitude
          rw [cart_frame, dot_frame hQ]

theorem addDofFromFiles_reoriented {Q : Mat3 ℝ} (hQ : Q * Q.transpose = 1) (spline : SplineFn)
    (we : Bool) (m : IModel N) (fs : List (DofFile N)) (order : ℤ) :
    (m.reoriented Q).addDofFromFiles spline we fs order =
      (m.addDofFromFiles spline we fs order).reoriented Q := by
  unfold IModel.addDofFromFiles
  rw [readDof_reoriented hQ]
  cases readDof m fs with
  | error e => rfl
  | ok r =>
    obtain ⟨ds, amps, pols⟩ := r
    cases ds with
    | nil => rfl
    | cons d0 ds =>
      change (m.reoriented Q).addDofNan spline we
        (some ((m.ref.reoriented Q).getCartDisplacement d0)) amps pols order true = _
      rw [cart_frame]
      exact addDofNan_reoriented hQ spline we m (some (m.ref.getCartDisplacement d0)) amps pols order
        true

theorem addArtFromFiles_reoriented {Q : Mat3 ℝ} (hQ : Q * Q.transpose = 1) (spline : SplineFn)
    (we : Bool) (m : IModel N) (fs : List (DofFile N)) :
    (m.reoriented Q).addArtFromFiles spline we fs =
      (m.addArtFromFiles spline we fs).reoriented Q := by
  unfold IModel.addArtFromFiles
  rw [readDof_reoriented hQ]
  cases readDof m fs with
  | error e => rfl
  | ok r =>
    obtain ⟨ds, amps, pols⟩ := r
    cases ds with
    | nil => rfl
    | cons d0 ds =>
      dsimp only
      split_ifs
      · rfl
      · rw [getDof_reoriented hQ]
        cases getDof m (some d0) amps pols false with
        | error e => rfl
        | ok gs =>
          cases gs with
          | nil => rfl
          | cons g gs =>
            change (if g.pts.length ≠ 2 then _ else constructAndAdd spline we (m.reoriented Q)
              ((g :: gs).map (DofGroup.reoriented Q)) 1) = _
            rw [constructAndAdd_reoriented]
            dsimp only
            split_ifs <;> rfl

theorem readDofFiles_turned (Q : Mat3 ℝ) (m : IModel N) : ∀ fs : List (DofFile N),
    readDofFiles (m.turnedBy Q) (fs.map (DofFile.turnedBy Q)) =
      (readDofFiles m fs).map (List.map fun x => (x.1, turned Q x.2))
  | [] => rfl
  | f :: fs => by
    rw [List.map_cons, readDofFiles, readDofFiles, readDofFiles_turned Q m fs]
    cases f with
    | error e => rfl
    | ok x =>
      obtain ⟨p, pol⟩ := x
      cases p with
      | none => rfl
      | some p =>
        change (do
          let rest ← (readDofFiles m fs).map (List.map fun x : Pos N ℝ × Mat3 ℝ => (x.1, turned Q x.2))
          return (calcDisplacement m.ref.positions p, if m.dummy then 0 else turned Q pol) :: rest)
          = _
        dsimp only [bind, Except.bind]
        cases readDofFiles m fs with
        | error e => rfl
        | ok rest =>
          change Except.ok _ = Except.ok _
          congr 1
          rw [List.map_cons]
          congr 2
          split_ifs
          · exact (turned_zero Q).symm
          · rfl

theorem readDof_turned (Q : Mat3 ℝ) (m : IModel N) (fs : List (DofFile N)) :
    readDof (m.turnedBy Q) (fs.map (DofFile.turnedBy Q)) =
      (readDof m fs).map fun x => (x.1, x.2.1, x.2.2.map (turned Q)) := by
  unfold readDof
  rw [readDofFiles_turned]
  cases readDofFiles m fs with
  | error e => rfl
  | ok data =>
    dsimp only [bind, Except.bind, Except.map]
    have h1 : (data.map fun x => (x.1, turned Q x.2)).map Prod.fst = data.map Prod.fst := by
      rw [List.map_map]
      exact List.map_congr_left fun _ _ => rfl
    have h2 : (data.map fun x => (x.1, turned Q x.2)).map Prod.snd =
        (data.map Prod.snd).map (turned Q) := by rw [List.map_map, List.map_map]; rfl
    rw [h1, h2]
    cases data.map Prod.fst with
    | nil => rfl
    | cons d0 ds =>
      dsimp only
      split_ifs
      · rfl
      · change (match normalizePos (m.ref.getCartDisplacement d0) with
          | none => _
          | some b => Except.ok (d0 :: ds, (d0 :: ds).map fun d => getAmplitude b
              (m.ref.getCartDisplacement d), (data.map Prod.snd).map (turned Q))) = _
        cases normalizePos (m.ref.getCartDisplacement d0) with
        | none => rfl
        | some b => rfl

theorem addDofFromFiles_turned {Q : Mat3 ℝ} (hQ : Q * Q.transpose = 1) {spline : SplineFn}
    (hs : SplineTurns Q spline) (we : Bool) (m : IModel N)
    (h : ∀ op ∈ m.ref.ops, op.rot * Q = Q * op.rot) (fs : List (DofFile N)) (order : ℤ) :
    (m.turnedBy Q).addDofFromFiles spline we (fs.map (DofFile.turnedBy Q)) order =
      (m.addDofFromFiles spline we fs order).turnedBy Q := by
  unfold IModel.addDofFromFiles
  rw [readDof_turned]
  cases readDof m fs with
  | error e => rfl
  | ok r =>
    obtain ⟨ds, amps, pols⟩ := r
    cases ds with
    | nil => rfl
    | cons d0 ds => exact addDofNan_turned hQ hs we m h _ amps pols order true

theorem addArtFromFiles_turned {Q : Mat3 ℝ} (hQ : Q * Q.transpose = 1) {spline : SplineFn}
    (hs : SplineTurns Q spline) (we : Bool) (m : IModel N)
    (h : ∀ op ∈ m.ref.ops, op.rot * Q = Q * op.rot) (fs : List (DofFile N)) :
    (m.turnedBy Q).addArtFromFiles spline we (fs.map (DofFile.turnedBy Q)) =
      (m.addArtFromFiles spline we fs).turnedBy Q := by
  unfold IModel.addArtFromFiles
  rw [readDof_turned]
  cases readDof m fs with
  | error e => rfl
  | ok r =>
    obtain ⟨ds, amps, pols⟩ := r
    cases ds with
    | nil => rfl
    | cons d0 ds =>
      dsimp only [Except.map]
      split_ifs
      · rfl
      · rw [getDof_turned hQ m h]
        cases getDof m (some d0) amps pols false with
        | error e => rfl
        | ok gs =>
          cases gs with
          | nil => rfl
          | cons g gs =>
            change (if (g.pts.map fun x => (x.1, turned Q x.2)).length ≠ 2 then _ else
              constructAndAdd spline we (m.turnedBy Q) ((g :: gs).map (DofGroup.turnedBy Q)) 1) = _
            rw [constructAndAdd_turned hs, List.length_map]
            dsimp only
            split_ifs <;> rfl

/-! ## Atoms displaced one at a time -/

theorem prepareArt_reoriented {Q : Mat3 ℝ} (hQ : Q * Q.transpose = 1) (m : IModel N) (a : ℤ)
    (dir : Vec3) (amps : List ℝ) (pols : List (Mat3 ℝ)) :
    prepareArt (m.reoriented Q) a (fun j => ∑ i, dir i * Q i j) amps pols =
      (prepareArt m a dir amps pols).map (Option.map (toCart Q)) := by
  unfold prepareArt
  rw [show (m.reoriented Q).ref = m.ref.reoriented Q from rfl, fracDirection_frame hQ]
  cases m.ref.getFracDirection dir with
  | error e => rfl
  | ok d =>
    dsimp only [bind, Except.bind]
    by_cases ha : amps.length = 1 ∨ amps.length = 2
    · rw [if_neg (not_not.2 ha), if_neg (not_not.2 ha)]
      change (if (usedPols m amps pols).length ≠ amps.length then _ else _) = Except.map _
        (if (usedPols m amps pols).length ≠ amps.length then _ else _)
      split_ifs
      · rfl
      · cases pyIndex N a with
        | none => rfl
        | some k =>
          change Except.ok _ = Except.ok _
          congr 1
          cases artDisplacement k d with
          | none => rfl
          | some w => exact congrArg some (cart_frame Q m.ref w)
    · rw [if_pos ha, if_pos ha]; rfl

theorem addArt_reoriented {Q : Mat3 ℝ} (hQ : Q * Q.transpose = 1) (spline : SplineFn) (we : Bool)
    (m : IModel N) (a : ℤ) (dir : Vec3) (amps : List ℝ) (pols : List (Mat3 ℝ)) :
    (m.reoriented Q).addArt spline we a (fun j => ∑ i, dir i * Q i j) amps pols =
      (m.addArt spline we a dir amps pols).reoriented Q := by
  unfold IModel.addArt
  rw [prepareArt_reoriented hQ]
  cases prepareArt m a dir amps pols with
  | error e => rfl
  | ok cart => exact addDofNan_reoriented hQ spline we m cart amps pols 1 false

theorem prepareArt_turned (Q : Mat3 ℝ) (m : IModel N) (a : ℤ)
    (dir : Vec3) (amps : List ℝ) (pols : List (Mat3 ℝ)) :
    prepareArt (m.turnedBy Q) a dir amps (pols.map (turned Q)) = prepareArt m a dir amps pols := by
  unfold prepareArt
  rw [show (m.turnedBy Q).ref = m.ref from rfl]
  cases m.ref.getFracDirection dir with
  | error e => rfl
  | ok d =>
    dsimp only [bind, Except.bind]
    by_cases ha : amps.length = 1 ∨ amps.length = 2
    · rw [if_neg (not_not.2 ha), if_neg (not_not.2 ha)]
      change (if (usedPols (m.turnedBy Q) amps (pols.map (turned Q))).length ≠ amps.length then _
        else _) = (if (usedPols m amps pols).length ≠ amps.length then _ else _)
      rw [usedPols_turned, List.length_map]
    · rw [if_pos ha, if_pos ha]

theorem addArt_turned {Q : Mat3 ℝ} (hQ : Q * Q.transpose = 1) {spline : SplineFn}
    (hs : SplineTurns Q spline) (we : Bool) (m : IModel N)
    (h : ∀ op ∈ m.ref.ops, op.rot * Q = Q * op.rot) (a : ℤ) (dir : Vec3) (amps : List ℝ)
    (pols : List (Mat3 ℝ)) :
    (m.turnedBy Q).addArt spline we a dir amps (pols.map (turned Q)) =
      (m.addArt spline we a dir amps pols).turnedBy Q := by
  unfold IModel.addArt
  rw [prepareArt_turned]
  cases prepareArt m a dir amps pols with
  | error e => rfl
  | ok cart => exact addDofNan_turned hQ hs we m h cart amps pols 1 false

/-! ## Phonons and trajectories -/

theorem evalOne_turned (Q : Mat3 ℝ) {M M' : PolModel N}
    (h : ∀ batch, M' batch = (M batch).map (List.map (turned Q))) (p : Pos N ℝ) :
    evalOne M' p = (evalOne M p).map (turned Q) := by
  unfold evalOne
  rw [h]
  cases M [p] with
  | error e => rfl
  | ok l =>
    cases l with
    | nil => rfl
    | cons A l => rfl

theorem ramanTensor_turned (Q : Mat3 ℝ) {M M' : PolModel N}
    (h : ∀ batch, M' batch = (M batch).map (List.map (turned Q))) (ref d : Pos N ℝ) :
    ramanTensor M' ref d = (ramanTensor M ref d).map (turned Q) := by
  unfold ramanTensor
  simp only [evalOne_turned Q h, asIncompatible_id]
  cases evalOne M fun a i => ref a i + d a i * centralDifference with
  | error e => rfl
  | ok A =>
    cases evalOne M fun a i => ref a i - d a i * centralDifference with
    | error e => rfl
    | ok B =>
      change Except.ok _ = Except.ok _
      rw [turned_smul, turned_sub]

end

end Verif
