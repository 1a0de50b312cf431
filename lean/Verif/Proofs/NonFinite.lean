import Verif.Model.NonFinite
import Verif.Proofs.InterpAdd

/-!
# Lemmas about `add_dof` on data that need not be finite
-/

namespace Verif

noncomputable section

variable {N : ℕ}

/-- A number that may be NaN as a float. -/
def toF : Option ℝ → FReal
  | none => .nan
  | some x => .num x

/-- A point with a finite tensor. -/
def liftPt (p : Option ℝ × Mat3 ℝ) : PointF := (toF p.1, some p.2)

/-- A degree of freedom with finite tensors. -/
def liftGroup (g : DofGroup N) : DofGroupF N := ⟨g.basis, g.pts.map liftPt⟩

theorem mapM_lift {α β γ δ : Type} (f : α → Py β) (f' : γ → Py δ) (h : α → γ) (g : β → δ)
    (hf : ∀ x, f' (h x) = (f x).map g) (l : List α) :
    (l.map h).mapM f' = (l.mapM f).map (List.map g) := by
  induction l with
  | nil => rfl
  | cons x l ih =>
    rw [List.map_cons, List.mapM_cons, List.mapM_cons, hf, ih]
    cases f x with
    | error e => rfl
    | ok y => cases l.mapM f <;> rfl

theorem scale_num (mu : Option ℝ) (x : ℝ) : (FReal.num x).scale mu = toF (mu.map (· * x)) := by
  cases mu <;> rfl

theorem groupPointsF_lift (ref : Mat3 ℝ) (amps : List ℝ) (pols : List (Mat3 ℝ)) (mu : Option ℝ)
    (op : SymOp) : groupPointsF (some ref) (amps.map .num) (pols.map some) mu op
      = (groupPoints ref amps pols mu op).map (List.map liftPt) := by
  unfold groupPointsF groupPoints
  have : (amps.map FReal.num).zip (pols.map some)
      = (amps.zip pols).map fun x => (FReal.num x.1, some x.2) := by
    rw [List.zip_map]; rfl
  rw [this]
  refine mapM_lift _ _ _ _ (fun x => ?_) _
  cases npInv op.rot with
  | error e => rfl
  | ok inv =>
    change Except.ok _ = Except.ok _
    rw [scale_num]
    rfl

theorem refPointF_lift (inc : Bool) : refPointF inc = (refPoint inc).map liftPt := by
  cases inc <;> rfl

theorem dofGroupF_lift (m : IModel N) (ref : Mat3 ℝ) (hr : m.refPol = ref) (amps : List ℝ)
    (pols : List (Mat3 ℝ)) (inc : Bool) (g : EqGroup N) :
    dofGroupF m (some ref) (amps.map .num) (pols.map some) inc g
      = (dofGroup m amps pols inc g).map liftGroup := by
  unfold dofGroupF dofGroup
  cases g.displacements with
  | nil => rfl
  | cons child rest =>
    dsimp only
    have h := mapM_lift (fun x : Pos N ℝ × SymOp => groupPoints m.refPol amps pols (multiplier child x.1) x.2)
      (fun x => groupPointsF (some ref) (amps.map .num) (pols.map some) (multiplier child x.1) x.2) id
      (List.map liftPt) (fun x => by rw [hr]; exact groupPointsF_lift _ _ _ _ _)
      ((child :: rest).zip g.transformations)
    rw [List.map_id] at h
    rw [h]
    cases List.mapM (fun x : Pos N ℝ × SymOp => groupPoints m.refPol amps pols (multiplier child x.1) x.2)
        ((child :: rest).zip g.transformations) with
    | error e => rfl
    | ok pts =>
      change Except.ok _ = Except.ok _
      rw [refPointF_lift]
      unfold liftGroup
      rw [List.map_append, List.map_flatten]

theorem nanGroupsF_lift (m : IModel N) (ref : Mat3 ℝ) (hr : m.refPol = ref) (amps : List ℝ)
    (pols : List (Mat3 ℝ)) (inc : Bool) :
    nanGroupsF m (some ref) (amps.map .num) (pols.map some) inc
      = (nanGroups m amps pols inc).map (List.map liftGroup) := by
  unfold nanGroupsF nanGroups
  cases m.ref.ops.zip m.ref.perms with
  | nil => rfl
  | cons x l =>
    dsimp only
    rw [groupPointsF_lift, hr]
    cases groupPoints ref amps pols none x.1 with
    | error e => rfl
    | ok pts =>
      change Except.ok _ = Except.ok _
      rw [refPointF_lift]
      simp [liftGroup]

theorem getDofF_lift (m : IModel N) (ref : Mat3 ℝ) (hr : m.refPol = ref) (parent : Option (Pos N ℝ))
    (amps : List ℝ) (pols : List (Mat3 ℝ)) (inc : Bool) :
    getDofF m parent (some ref) (amps.map .num) (pols.map some) inc
      = (getDof m parent amps pols inc).map (List.map liftGroup) := by
  unfold getDofF getDof
  by_cases h : orthCheck m parent ≠ -1
  · rw [if_pos h, if_pos h]; rfl
  · rw [if_neg h, if_neg h]
    cases parent with
    | none => exact nanGroupsF_lift m ref hr amps pols inc
    | some p =>
      dsimp only
      cases m.ref.getEquivalentDisplacements p with
      | error e => rfl
      | ok r =>
        cases r with
        | none => exact nanGroupsF_lift m ref hr amps pols inc
        | some groups =>
          have h := mapM_lift (dofGroup m amps pols inc)
            (dofGroupF m (some ref) (amps.map .num) (pols.map some) inc) id liftGroup
            (fun x => dofGroupF_lift m ref hr amps pols inc x) groups
          rw [List.map_id] at h
          exact h

theorem prepareDofF_lift (m : IModel N) (ref : Mat3 ℝ) (hr : m.refPol = ref)
    (cart : Option (Pos N ℝ)) (amps : List ℝ) (pols : List (Mat3 ℝ)) (inc : Bool) :
    prepareDofF m (some ref) cart (amps.map .num) (pols.map some) inc
      = (prepareDof m cart amps pols inc).map (List.map liftGroup) := by
  unfold prepareDofF prepareDof
  cases parentDisplacement m cart with
  | error e => rfl
  | ok parent =>
    dsimp only [bind, Except.bind]
    have hp : (if m.dummy = true then (amps.map FReal.num).map fun _ => some (0 : Mat3 ℝ)
        else pols.map some) = (if m.dummy = true then amps.map fun _ => (0 : Mat3 ℝ) else pols).map some := by
      split_ifs
      · rw [List.map_map, List.map_map]; rfl
      · rfl
    rw [hp, List.length_map, List.length_map]
    generalize (if m.dummy = true then amps.map fun _ => (0 : Mat3 ℝ) else pols) = q
    by_cases h : q.length ≠ amps.length
    · rw [if_pos h, if_pos h]; rfl
    · rw [if_neg h, if_neg h]
      exact getDofF_lift m ref hr parent amps q inc

/-! ## Building -/

theorem close_toF (a b : Option ℝ) : (toF a).close (toF b) = closeOpt a b := by
  cases a <;> cases b <;> rfl

theorem hasDuplicatesF_lift (xs : List (Option ℝ)) :
    hasDuplicatesF (xs.map toF) = hasDuplicates xs := by
  induction xs with
  | nil => rfl
  | cons x xs ih =>
    rw [List.map_cons, hasDuplicatesF, hasDuplicates, ih, List.any_map]
    congr 1
    congr 1
    funext b
    exact close_toF x b

theorem maxF_num (b : ℝ) (xs : List ℝ) : maxF (.num b) (xs.map .num) = .num (listMax b xs) := by
  induction xs generalizing b with
  | nil => rfl
  | cons x xs ih => exact ih (max b x)

theorem minF_num (b : ℝ) (xs : List ℝ) : minF (.num b) (xs.map .num) = .num (listMin b xs) := by
  induction xs generalizing b with
  | nil => rfl
  | cons x xs ih => exact ih (min b x)

theorem dofWarningsF_num (xs : List ℝ) : dofWarningsF (xs.map .num) = dofWarnings xs := by
  cases xs with
  | nil => rfl
  | cons x xs =>
    rw [List.map_cons, dofWarningsF, maxF_num, minF_num]
    rfl

theorem maxF_nan (xs : List FReal) : maxF .nan xs = .nan := by
  induction xs with
  | nil => rfl
  | cons x xs ih => exact ih

theorem minF_nan (xs : List FReal) : minF .nan xs = .nan := by
  induction xs with
  | nil => rfl
  | cons x xs ih => exact ih

theorem max_nan_right (b : FReal) : b.max .nan = .nan := by
  cases b with
  | inf n => cases n <;> rfl
  | _ => rfl

theorem min_nan_right (b : FReal) : b.min .nan = .nan := by
  cases b with
  | inf n => cases n <;> rfl
  | _ => rfl

theorem maxF_nan_mem (b : FReal) (xs : List FReal) (h : .nan ∈ xs) : maxF b xs = .nan := by
  induction xs generalizing b with
  | nil => simp at h
  | cons x xs ih =>
    rw [maxF]
    rcases List.mem_cons.1 h with rfl | h
    · rw [max_nan_right]; exact maxF_nan xs
    · exact ih _ h

theorem minF_nan_mem (b : FReal) (xs : List FReal) (h : .nan ∈ xs) : minF b xs = .nan := by
  induction xs generalizing b with
  | nil => simp at h
  | cons x xs ih =>
    rw [minF]
    rcases List.mem_cons.1 h with rfl | h
    · rw [min_nan_right]; exact minF_nan xs
    · exact ih _ h

theorem dofWarningsF_nan (xs : List FReal) (h : .nan ∈ xs) : dofWarningsF xs = [] := by
  cases xs with
  | nil => rfl
  | cons x xs =>
    rw [dofWarningsF]
    rcases List.mem_cons.1 h with h | h
    · rw [← h, maxF_nan, minF_nan]; rfl
    · rw [maxF_nan_mem _ _ h, minF_nan_mem _ _ h]; rfl

theorem finitePtsF_lift (pts : List (Option ℝ × Mat3 ℝ)) :
    finitePtsF (pts.map liftPt) = finitePts pts := by
  induction pts with
  | nil => rfl
  | cons p pts ih =>
    obtain ⟨x, y⟩ := p
    cases x with
    | none => rfl
    | some x =>
      rw [List.map_cons]
      change (finitePtsF (pts.map liftPt)).map _ = (finitePts pts).map _
      rw [ih]

theorem finitePts_none (pts : List (Option ℝ × Mat3 ℝ)) (h : finitePts pts = none) :
    none ∈ pts.map Prod.fst := by
  induction pts with
  | nil => cases h
  | cons p pts ih =>
    obtain ⟨x, y⟩ := p
    cases x with
    | none => simp
    | some x =>
      change (finitePts pts).map _ = none at h
      rw [Option.map_eq_none_iff] at h
      exact List.mem_cons_of_mem _ (ih h)

theorem finitePts_some' (pts : List (Option ℝ × Mat3 ℝ)) (fin : List (ℝ × Mat3 ℝ))
    (h : finitePts pts = some fin) : pts = fin.map fun x => (some x.1, x.2) := by
  induction pts generalizing fin with
  | nil => cases h; rfl
  | cons p pts ih =>
    obtain ⟨x, y⟩ := p
    cases x with
    | none => cases h
    | some x =>
      change (finitePts pts).map _ = some fin at h
      obtain ⟨l, hl, rfl⟩ := Option.map_eq_some_iff.1 h
      rw [ih l hl]; rfl

theorem buildOneF_lift (spline : SplineFn) (we : Bool) (order : ℕ)
    (pts : List (Option ℝ × Mat3 ℝ)) :
    buildOneF spline we order (pts.map liftPt) = buildOne spline we order pts := by
  unfold buildOneF buildOne
  have hx : (pts.map liftPt).map Prod.fst = (pts.map Prod.fst).map toF := by
    rw [List.map_map, List.map_map]; rfl
  rw [hx, hasDuplicatesF_lift, List.length_map, finitePtsF_lift]
  split_ifs with h1 h2
  · rfl
  · rfl
  · dsimp only
    cases hf : finitePts pts with
    | none =>
      rw [dofWarningsF_nan _ (List.mem_map.2 ⟨none, finitePts_none pts hf, rfl⟩)]
      cases we <;> rfl
    | some fin =>
      have : (pts.map Prod.fst).map toF = (fin.map Prod.fst).map FReal.num := by
        rw [finitePts_some' pts fin hf, List.map_map, List.map_map, List.map_map]; rfl
      rw [this, dofWarningsF_num]

theorem buildAllF_lift (spline : SplineFn) (we : Bool) (order : ℕ) (gs : List (DofGroup N)) :
    buildAllF spline we order (gs.map liftGroup) = buildAll spline we order gs := by
  induction gs with
  | nil => rfl
  | cons g gs ih =>
    rw [List.map_cons, buildAllF, buildAll, ih]
    have : (liftGroup g).pts = g.pts.map liftPt := rfl
    rw [this, buildOneF_lift]
    rfl

theorem finiteBasisF_lift (gs : List (DofGroup N)) :
    finiteBasisF (gs.map liftGroup) = finiteBasis gs := by
  unfold finiteBasisF finiteBasis
  induction gs with
  | nil => rfl
  | cons g gs ih =>
    rw [List.map_cons, List.mapM_cons, List.mapM_cons, ih]
    rfl

theorem addDofF_lift (spline : SplineFn) (we : Bool) (m : IModel N) (cart : Option (Pos N ℝ))
    (amps : List ℝ) (pols : List (Mat3 ℝ)) (order : ℤ) (inc : Bool) :
    m.addDofF spline we (some m.refPol) cart (amps.map .num) (pols.map some) order inc
      = m.addDofNan spline we cart amps pols order inc := by
  unfold IModel.addDofF IModel.addDofNan
  rw [prepareDofF_lift m _ rfl]
  cases prepareDof m cart amps pols inc with
  | error e => rfl
  | ok gs =>
    dsimp only [Except.map]
    unfold constructAndAddF constructAndAdd
    rw [buildAllF_lift, finiteBasisF_lift]
    rfl

/-! ## Points that are not finite -/

/-- The point cannot be interpolated. -/
def BadPoint (p : PointF) : Prop := p.1.finite? = none ∨ p.2 = none

theorem finitePtsF_bad (pts : List PointF) (h : ∃ p ∈ pts, BadPoint p) : finitePtsF pts = none := by
  induction pts with
  | nil => simp at h
  | cons p pts ih =>
    obtain ⟨x, y⟩ := p
    obtain ⟨q, hq, hb⟩ := h
    cases x with
    | nan => rfl
    | inf n => rfl
    | num x =>
      cases y with
      | none => rfl
      | some y =>
        change (finitePtsF pts).map _ = none
        rw [Option.map_eq_none_iff]
        rcases List.mem_cons.1 hq with rfl | hq
        · rcases hb with hb | hb <;> cases hb
        · exact ih ⟨q, hq, hb⟩

theorem scale_bad (mu : Option ℝ) (x : FReal) (h : x.finite? = none) :
    (x.scale mu).finite? = none := by
  cases mu with
  | none => rfl
  | some c =>
    cases x with
    | nan => rfl
    | inf n =>
      unfold FReal.scale
      dsimp only
      split_ifs <;> rfl
    | num x => cases h

theorem rotatedDifference_bad (inv rot : Mat3 ℝ) (pol ref : Option (Mat3 ℝ))
    (h : pol = none ∨ ref = none) : rotatedDifference inv rot pol ref = none := by
  rcases h with rfl | rfl
  · rfl
  · cases pol <;> rfl

theorem mapM_ok_pure {α β : Type} (f : α → β) (l : List α) :
    l.mapM (fun x => (.ok (f x) : Py β)) = .ok (l.map f) := by
  induction l with
  | nil => rfl
  | cons x l ih => rw [List.mapM_cons, ih]; rfl

theorem groupPointsF_ok (ref : Option (Mat3 ℝ)) (amps : List FReal) (pols : List (Option (Mat3 ℝ)))
    (mu : Option ℝ) (op : SymOp) (inv : Mat3 ℝ) (h : npInv op.rot = .ok inv) :
    groupPointsF ref amps pols mu op = .ok ((amps.zip pols).map fun x =>
      (x.1.scale mu, rotatedDifference inv op.rot x.2 ref)) := by
  unfold groupPointsF
  rw [h]
  exact mapM_ok_pure _ _

theorem groupPointsF_error (ref : Option (Mat3 ℝ)) (amps : List FReal)
    (pols : List (Option (Mat3 ℝ))) (mu : Option ℝ) (op : SymOp) (e : PyErr)
    (h : npInv op.rot = .error e) (hz : amps.zip pols ≠ []) :
    groupPointsF ref amps pols mu op = .error e := by
  unfold groupPointsF
  rw [h]
  obtain ⟨x, l, hl⟩ := List.exists_cons_of_ne_nil hz
  rw [hl, List.mapM_cons]
  rfl

/-- A datum that is not finite. -/
def BadDatum (ref : Option (Mat3 ℝ)) (x : FReal × Option (Mat3 ℝ)) : Prop :=
  x.1.finite? = none ∨ x.2 = none ∨ ref = none

theorem groupPointsF_bad (ref : Option (Mat3 ℝ)) (amps : List FReal) (pols : List (Option (Mat3 ℝ)))
    (mu : Option ℝ) (op : SymOp) (pts : List PointF)
    (h : groupPointsF ref amps pols mu op = .ok pts) (hb : ∃ x ∈ amps.zip pols, BadDatum ref x) :
    ∃ p ∈ pts, BadPoint p := by
  obtain ⟨x, hx, hb⟩ := hb
  cases hi : npInv op.rot with
  | error e =>
    rw [groupPointsF_error ref amps pols mu op e hi (List.ne_nil_of_mem hx)] at h
    cases h
  | ok inv =>
    rw [groupPointsF_ok ref amps pols mu op inv hi] at h
    cases h
    refine ⟨_, List.mem_map.2 ⟨x, hx, rfl⟩, ?_⟩
    rcases hb with hb | hb
    · exact Or.inl (scale_bad mu _ hb)
    · exact Or.inr (rotatedDifference_bad _ _ _ _ hb)

theorem dofGroupF_bad (m : IModel N) (ref : Option (Mat3 ℝ)) (amps : List FReal)
    (pols : List (Option (Mat3 ℝ))) (inc : Bool) (g : EqGroup N)
    (hg : g.displacements.zip g.transformations ≠ []) (r : DofGroupF N)
    (h : dofGroupF m ref amps pols inc g = .ok r) (hb : ∃ x ∈ amps.zip pols, BadDatum ref x) :
    ∃ p ∈ r.pts, BadPoint p := by
  unfold dofGroupF at h
  cases hd : g.displacements with
  | nil => rw [hd] at hg; simp at hg
  | cons child rest =>
    rw [hd] at h hg
    dsimp only at h
    cases hm : List.mapM (fun x : Pos N ℝ × SymOp => groupPointsF ref amps pols (multiplier child x.1) x.2)
        ((child :: rest).zip g.transformations) with
    | error e => rw [hm] at h; cases h
    | ok l =>
      rw [hm] at h
      cases h
      obtain ⟨x, xs, hx⟩ := List.exists_cons_of_ne_nil hg
      rw [hx] at hm
      cases (mapM_except_ok _ _ _).1 hm with
      | @cons _ y _ ys h1 _ =>
        obtain ⟨p, hp, hpb⟩ := groupPointsF_bad _ _ _ _ _ _ h1 hb
        exact ⟨p, List.mem_append_right _ (List.mem_flatten.2 ⟨y, List.mem_cons_self, hp⟩), hpb⟩

/-- The groups of equivalent displacements are not empty, and there is one if there is an
operation. -/
theorem getEq_nonempty (s : RefStructure N) (d : Pos N ℝ) (groups : List (EqGroup N))
    (h : s.getEquivalentDisplacements d = .ok (some groups)) :
    (∀ g ∈ groups, g.displacements.zip g.transformations ≠ []) ∧
    (s.ops.zip s.perms ≠ [] → groups ≠ []) := by
  unfold RefStructure.getEquivalentDisplacements at h
  split at h
  · split_ifs at h with he
    · cases h
      refine ⟨by simp, fun hn => ?_⟩
      rw [List.isEmpty_iff] at he
      exact absurd he hn
    · cases h
  · rename_i e he
    obtain ⟨new, st, h1, h2, h3⟩ :=
      eqLoop_inv s.positions e (s.ops.zip s.perms) [] ⟨[], []⟩ eqInv_empty
    dsimp only at h
    rw [h1] at h
    change Except.ok _ = Except.ok _ at h
    cases h
    constructor
    · intro g hg hz
      have hh : g.displacements.head? ∈ st.result.map fun g => g.displacements.head? :=
        List.mem_map_of_mem hg
      rw [h2.heads] at hh
      obtain ⟨x, _, hx⟩ := List.mem_map.1 hh
      have hl := h2.len g hg
      have := congrArg List.length hz
      rw [List.length_zip, List.length_nil] at this
      have h0 : g.displacements.length = 0 := by omega
      rw [List.length_eq_zero_iff.1 h0] at hx
      cases hx
    · intro hn hr
      have hlen := h3.length_eq
      cases new with
      | nil =>
        rw [List.length_nil] at hlen
        exact hn (List.length_eq_zero_iff.1 hlen)
      | cons y ys =>
        have horth : st.orth = [] := by
          have := h2.heads
          rw [hr] at this
          simpa using this.symm
        rcases h2.cover y (by simp) with ⟨g, hg, _⟩ | ⟨g, hg, _⟩ | ⟨hs, h4, ⟨x, hx, _⟩, _⟩
        · rw [hr] at hg; simp at hg
        · rw [hr] at hg; simp at hg
        · rw [horth, List.prefix_nil] at h4
          rw [h4] at hx; simp at hx

/-- The polarizabilities that are used. -/
def usedPolsF (m : IModel N) (amps : List FReal) (pols : List (Option (Mat3 ℝ))) :
    List (Option (Mat3 ℝ)) :=
  if m.dummy then amps.map fun _ => some 0 else pols

theorem getDofF_bad (m : IModel N) (ref : Option (Mat3 ℝ)) (parent : Option (Pos N ℝ))
    (amps : List FReal) (pols : List (Option (Mat3 ℝ))) (inc : Bool)
    (hops : m.ref.ops.zip m.ref.perms ≠ []) (gs : List (DofGroupF N))
    (h : getDofF m parent ref amps pols inc = .ok gs)
    (hb : ∃ x ∈ amps.zip pols, BadDatum ref x) :
    ∃ g gs', gs = g :: gs' ∧ ∃ p ∈ g.pts, BadPoint p := by
  have hnan : ∀ gs, nanGroupsF m ref amps pols inc = .ok gs →
      ∃ g gs', gs = g :: gs' ∧ ∃ p ∈ g.pts, BadPoint p := by
    intro gs h
    unfold nanGroupsF at h
    obtain ⟨x, l, hx⟩ := List.exists_cons_of_ne_nil hops
    rw [hx] at h
    dsimp only at h
    cases hg : groupPointsF ref amps pols none x.1 with
    | error e => rw [hg] at h; cases h
    | ok pts =>
      rw [hg] at h
      cases h
      obtain ⟨p, hp, hpb⟩ := groupPointsF_bad _ _ _ _ _ _ hg hb
      exact ⟨_, [], rfl, p, List.mem_append_right _ hp, hpb⟩
  unfold getDofF at h
  by_cases ho : orthCheck m parent ≠ -1
  · rw [if_pos ho] at h; cases h
  rw [if_neg ho] at h
  cases parent with
  | none => exact hnan gs h
  | some p =>
    dsimp only at h
    cases hE : m.ref.getEquivalentDisplacements p with
    | error e => rw [hE] at h; cases h
    | ok r =>
      rw [hE] at h
      cases r with
      | none => exact hnan gs h
      | some groups =>
        change groups.mapM _ = _ at h
        obtain ⟨h1, h2⟩ := getEq_nonempty _ _ _ hE
        obtain ⟨g, l, rfl⟩ := List.exists_cons_of_ne_nil (h2 hops)
        cases (mapM_except_ok _ _ _).1 h with
        | @cons _ y _ ys h3 _ =>
          exact ⟨y, ys, rfl, dofGroupF_bad m ref amps pols inc g (h1 g (by simp)) y h3 hb⟩

theorem prepareDofF_bad (m : IModel N) (ref : Option (Mat3 ℝ)) (cart : Option (Pos N ℝ))
    (amps : List FReal) (pols : List (Option (Mat3 ℝ))) (inc : Bool)
    (hops : m.ref.ops.zip m.ref.perms ≠ []) (gs : List (DofGroupF N))
    (h : prepareDofF m ref cart amps pols inc = .ok gs)
    (hb : pols.length = amps.length ∨ m.dummy = true →
      ∃ x ∈ amps.zip (usedPolsF m amps pols), BadDatum ref x) :
    ∃ g gs', gs = g :: gs' ∧ ∃ p ∈ g.pts, BadPoint p := by
  unfold prepareDofF at h
  cases hp : parentDisplacement m cart with
  | error e => rw [hp] at h; cases h
  | ok parent =>
    rw [hp] at h
    dsimp only [bind, Except.bind] at h
    change (if (usedPolsF m amps pols).length ≠ amps.length then _ else
      getDofF m parent ref amps (usedPolsF m amps pols) inc) = _ at h
    by_cases hl : (usedPolsF m amps pols).length ≠ amps.length
    · rw [if_pos hl] at h; cases h
    rw [if_neg hl] at h
    refine getDofF_bad m ref parent amps _ inc hops gs h (hb ?_)
    by_cases hd : m.dummy = true
    · exact Or.inr hd
    · left
      unfold usedPolsF at hl
      rw [if_neg hd] at hl
      exact not_not.1 hl

theorem buildOneF_bad (spline : SplineFn) (we : Bool) (order : ℕ) (pts : List PointF)
    (h : ∃ p ∈ pts, BadPoint p) :
    ∃ e ws, buildOneF spline we order pts = (.error e, ws) ∧
      (e = .invalidDOF ∨ e = .dofWarning ∨ e = .valueError) := by
  unfold buildOneF
  rw [finitePtsF_bad pts h]
  split_ifs
  · exact ⟨_, _, rfl, by simp⟩
  · exact ⟨_, _, rfl, by simp⟩
  · dsimp only
    split_ifs
    · exact ⟨_, _, rfl, by simp⟩
    · exact ⟨_, _, rfl, by simp⟩

theorem constructAndAddF_state (spline : SplineFn) (we : Bool) (m : IModel N)
    (gs : List (DofGroupF N)) (order : ℤ) (e : PyErr)
    (h : (constructAndAddF spline we m gs order).result = .error e) :
    (constructAndAddF spline we m gs order).state = m := by
  unfold constructAndAddF at h ⊢
  by_cases ho : order < 1
  · rw [if_pos ho]
  · rw [if_neg ho] at h ⊢
    cases hb : buildAllF spline we order.toNat gs with
    | mk r ws =>
      rw [hb] at h
      cases r with
      | error e' => rfl
      | ok fs =>
        dsimp only at h ⊢
        cases hf : finiteBasisF gs with
        | error e' => rfl
        | ok bs => rw [hf] at h; cases h

theorem constructAndAddF_bad (spline : SplineFn) (we : Bool) (m : IModel N) (g : DofGroupF N)
    (gs : List (DofGroupF N)) (order : ℤ) (hb : ∃ p ∈ g.pts, BadPoint p) :
    ∃ e, (constructAndAddF spline we m (g :: gs) order).result = .error e := by
  obtain ⟨e, ws, he, _⟩ := buildOneF_bad spline we order.toNat g.pts hb
  unfold constructAndAddF
  by_cases ho : order < 1
  · rw [if_pos ho]; exact ⟨_, rfl⟩
  · rw [if_neg ho, buildAllF, he]
    exact ⟨e, rfl⟩

/-! ## The same amplitudes with other polarizabilities -/

theorem mapM_shadow {α β γ : Type} {R : β → γ → Prop} (f : α → Py β) (f' : α → Py γ) (l : List α)
    (h : ∀ x ∈ l, ∀ y, f x = .ok y → ∃ z, f' x = .ok z ∧ R y z) (ys : List β)
    (hl : l.mapM f = .ok ys) : ∃ zs, l.mapM f' = .ok zs ∧ List.Forall₂ R ys zs := by
  have hF := (mapM_except_ok _ _ _).1 hl
  clear hl
  induction hF with
  | nil => exact ⟨[], rfl, .nil⟩
  | @cons x y l ys h1 _ ih =>
    obtain ⟨zs, h2, h3⟩ := ih fun x hx => h x (List.mem_cons_of_mem _ hx)
    obtain ⟨z, h4, h5⟩ := h x List.mem_cons_self y h1
    refine ⟨z :: zs, ?_, .cons h5 h3⟩
    rw [List.mapM_cons, h4, h2]
    rfl

/-- Same amplitudes. -/
def SameX (a : List (Option ℝ × Mat3 ℝ)) (b : List PointF) : Prop :=
  b.map Prod.fst = (a.map Prod.fst).map toF

theorem groupPoints_shadow (r : Mat3 ℝ) (ref : Option (Mat3 ℝ)) (amps : List ℝ)
    (pols' : List (Mat3 ℝ)) (pols : List (Option (Mat3 ℝ))) (h1 : pols'.length = amps.length)
    (h2 : pols.length = amps.length) (mu : Option ℝ) (op : SymOp) (pts : List (Option ℝ × Mat3 ℝ))
    (h : groupPoints r amps pols' mu op = .ok pts) :
    ∃ q, groupPointsF ref (amps.map .num) pols mu op = .ok q ∧ SameX pts q := by
  cases hi : npInv op.rot with
  | error e =>
    by_cases hz : amps = []
    · subst hz
      refine ⟨[], rfl, ?_⟩
      cases h; rfl
    · exfalso
      unfold groupPoints at h
      rw [hi] at h
      have : amps.zip pols' ≠ [] := by
        intro h0
        have := congrArg List.length h0
        rw [List.length_zip, h1, List.length_nil, min_self] at this
        exact hz (List.length_eq_zero_iff.1 this)
      obtain ⟨x, l, hl⟩ := List.exists_cons_of_ne_nil this
      rw [hl, List.mapM_cons] at h
      cases h
  | ok inv =>
    refine ⟨_, groupPointsF_ok _ _ _ _ _ inv hi, ?_⟩
    unfold groupPoints at h
    rw [hi] at h
    have hp := mapM_ok_pure (fun x : ℝ × Mat3 ℝ => (mu.map (· * x.1), inv * (x.2 - r) * op.rot))
      (amps.zip pols')
    have : Except.ok _ = (Except.ok pts : Py _) := hp.symm.trans h
    cases this
    unfold SameX
    rw [List.map_map, List.map_map, List.map_map]
    have e1 : (amps.map FReal.num).zip pols = (amps.zip pols).map fun x => (FReal.num x.1, x.2) := by
      rw [List.zip_map_left]; rfl
    rw [e1, List.map_map]
    have e2 : ∀ {α : Type} (l : List α), l.length = amps.length → ∀ f : ℝ → FReal,
        (amps.zip l).map (fun x => f x.1) = amps.map f := fun l hl f => by
      have := List.map_fst_zip (l₁ := amps) (l₂ := l) hl.ge
      conv_rhs => rw [← this, List.map_map]
      rfl
    refine Eq.trans (e2 pols h2 fun a => (FReal.num a).scale mu) (Eq.trans ?_
      (e2 pols' h1 fun a => toF (mu.map (· * a))).symm)
    refine List.map_congr_left fun a _ => scale_num mu a

theorem flatten_sameX {a : List (List (Option ℝ × Mat3 ℝ))} {b : List (List PointF)}
    (h : List.Forall₂ SameX a b) : SameX a.flatten b.flatten := by
  unfold SameX
  induction h with
  | nil => rfl
  | @cons x y a b h1 _ ih =>
    rw [List.flatten_cons, List.flatten_cons, List.map_append, List.map_append, List.map_append, ih, h1]

theorem sameX_ref (inc : Bool) {a : List (Option ℝ × Mat3 ℝ)} {b : List PointF} (h : SameX a b) :
    SameX (refPoint inc ++ a) (refPointF inc ++ b) := by
  unfold SameX at *
  rw [List.map_append, List.map_append, List.map_append, h]
  cases inc <;> rfl

theorem prepareDof_shadow (m : IModel N) (ref : Option (Mat3 ℝ)) (cart : Option (Pos N ℝ))
    (amps : List ℝ) (pols' : List (Mat3 ℝ)) (pols : List (Option (Mat3 ℝ))) (inc : Bool)
    (hdum : m.dummy = false) (h2 : pols.length = amps.length) (gs : List (DofGroup N))
    (h : prepareDof m cart amps pols' inc = .ok gs) :
    ∃ gs', prepareDofF m ref cart (amps.map .num) pols inc = .ok gs' ∧
      List.Forall₂ (fun a b => SameX a.pts b.pts) gs gs' := by
  unfold prepareDof at h
  unfold prepareDofF
  cases hp : parentDisplacement m cart with
  | error e => rw [hp] at h; cases h
  | ok parent =>
    rw [hp] at h
    dsimp only [bind, Except.bind] at h ⊢
    have e1 : (if m.dummy = true then (amps.map fun _ => (0 : Mat3 ℝ)) else pols') = pols' := by
      rw [hdum]; rfl
    have e2 : (if m.dummy = true then (amps.map FReal.num).map fun _ => some (0 : Mat3 ℝ) else pols)
        = pols := by
      rw [hdum]; rfl
    rw [e1] at h
    rw [e2, List.length_map, if_neg (not_not.2 h2)]
    by_cases h1 : pols'.length ≠ amps.length
    · rw [if_pos h1] at h; cases h
    rw [if_neg h1] at h
    replace h1 := not_not.1 h1
    have hnan : ∀ gs, nanGroups m amps pols' inc = .ok gs →
        ∃ gs', nanGroupsF m ref (amps.map .num) pols inc = .ok gs' ∧
          List.Forall₂ (fun a b => SameX a.pts b.pts) gs gs' := by
      intro gs h
      unfold nanGroups at h
      unfold nanGroupsF
      cases hz : m.ref.ops.zip m.ref.perms with
      | nil => rw [hz] at h; cases h; exact ⟨[], rfl, .nil⟩
      | cons x l =>
        rw [hz] at h
        dsimp only at h ⊢
        cases hg : groupPoints m.refPol amps pols' none x.1 with
        | error e => rw [hg] at h; cases h
        | ok pts =>
          rw [hg] at h
          cases h
          obtain ⟨q, hq, hs⟩ := groupPoints_shadow _ ref _ _ pols h1 h2 _ _ _ hg
          rw [hq]
          exact ⟨_, rfl, .cons (sameX_ref inc hs) .nil⟩
    unfold getDof at h
    unfold getDofF
    by_cases ho : orthCheck m parent ≠ -1
    · rw [if_pos ho] at h; cases h
    rw [if_neg ho] at h ⊢
    cases parent with
    | none => exact hnan gs h
    | some p =>
      dsimp only at h ⊢
      cases hE : m.ref.getEquivalentDisplacements p with
      | error e => rw [hE] at h; cases h
      | ok r =>
        rw [hE] at h
        cases r with
        | none => exact hnan gs h
        | some groups =>
          refine mapM_shadow (dofGroup m amps pols' inc) _ groups (fun g _ y hy => ?_) gs h
          unfold dofGroup at hy
          unfold dofGroupF
          cases hd : g.displacements with
          | nil => rw [hd] at hy; cases hy
          | cons child rest =>
            rw [hd] at hy
            dsimp only at hy ⊢
            cases hm : List.mapM (fun x : Pos N ℝ × SymOp =>
                groupPoints m.refPol amps pols' (multiplier child x.1) x.2)
                ((child :: rest).zip g.transformations) with
            | error e => rw [hm] at hy; cases hy
            | ok l =>
              rw [hm] at hy
              cases hy
              obtain ⟨zs, h3, h4⟩ := mapM_shadow (R := SameX) _ (fun x : Pos N ℝ × SymOp =>
                groupPointsF ref (amps.map .num) pols (multiplier child x.1) x.2) _
                (fun x _ y hy => groupPoints_shadow _ ref _ _ pols h1 h2 _ _ _ hy) l hm
              rw [h3]
              exact ⟨_, rfl, sameX_ref inc (flatten_sameX h4)⟩

theorem buildOneF_shadow (spline : SplineFn) (we : Bool) (order : ℕ)
    (pts : List (Option ℝ × Mat3 ℝ)) (q : List PointF) (hs : SameX pts q)
    (hb : ∃ p ∈ q, BadPoint p) (f : ℝ → Mat3 ℝ) (ws : List DofWarning)
    (h : buildOne spline we order pts = (.ok f, ws)) :
    buildOneF spline we order q = (.error .valueError, ws) := by
  rw [← buildOneF_lift] at h
  unfold buildOneF at h ⊢
  have e1 : (pts.map liftPt).map Prod.fst = q.map Prod.fst := by
    rw [hs, List.map_map, List.map_map]; rfl
  have e2 : (pts.map liftPt).length = q.length := by
    have := congrArg List.length e1
    rwa [List.length_map, List.length_map (as := q)] at this
  rw [e1, e2] at h
  rw [finitePtsF_bad q hb]
  split_ifs at h ⊢ with g1 g2
  · cases h
  · cases h
  · dsimp only at h ⊢
    split_ifs at h ⊢ with g3
    · cases h
    · cases hf : finitePtsF (pts.map liftPt) with
      | none => rw [hf] at h; cases h
      | some fin => rw [hf] at h; rw [← (Prod.mk.inj h).2]

end

end Verif
