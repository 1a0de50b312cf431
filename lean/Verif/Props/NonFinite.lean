import Verif.Proofs.NonFinite
import Verif.Props.DofPaths

/-!
# Property C177: amplitudes and polarizabilities that are not finite
(`pmodel/_interpolation.py` L410-480)
-/

namespace Verif
open Spec

variable {N : ℕ}

/-- C177 (finite data): the extended function does on finite data what the other properties say about
`add_dof`. -/
theorem C177_finite (spline : SplineFn) (we : Bool) (m : IModel N) (cart : Pos N ℝ)
    (amps : List ℝ) (pols : List (Mat3 ℝ)) (order : ℤ) (inc : Bool) :
    m.addDofF spline we (some m.refPol) (some cart) (amps.map .num) (pols.map some) order inc
      = m.addDof spline we cart amps pols order inc :=
  addDofF_lift spline we m (some cart) amps pols order inc

theorem addDofF_error (spline : SplineFn) (we : Bool) (m : IModel N) (ref : Option (Mat3 ℝ))
    (cart : Option (Pos N ℝ)) (amps : List FReal) (pols : List (Option (Mat3 ℝ))) (order : ℤ)
    (inc : Bool) (e : PyErr) (h : (m.addDofF spline we ref cart amps pols order inc).result = .error e) :
    (m.addDofF spline we ref cart amps pols order inc).state = m := by
  unfold IModel.addDofF at h ⊢
  cases hp : prepareDofF m ref cart amps pols inc with
  | error e' => rfl
  | ok gs =>
    rw [hp] at h
    exact constructAndAddF_state spline we m gs order e h

/-- Some datum that the model uses is not finite: an amplitude, or (unless the model is a dummy) a
polarizability or the reference polarizability. -/
def SomeNotFinite (dummy : Bool) (ref : Option (Mat3 ℝ)) (amps : List FReal)
    (pols : List (Option (Mat3 ℝ))) : Prop :=
  (∃ a ∈ amps, ∀ x, a ≠ .num x) ∨ (dummy = false ∧ (none ∈ pols ∨ (ref = none ∧ amps ≠ [])))

theorem someNotFinite_bad (m : IModel N) (ref : Option (Mat3 ℝ)) (amps : List FReal)
    (pols : List (Option (Mat3 ℝ))) (h : SomeNotFinite m.dummy ref amps pols)
    (hl : pols.length = amps.length ∨ m.dummy = true) :
    ∃ x ∈ amps.zip (usedPolsF m amps pols), BadDatum ref x := by
  have hlen : (usedPolsF m amps pols).length = amps.length := by
    unfold usedPolsF
    split_ifs with hd
    · rw [List.length_map]
    · exact hl.resolve_right hd
  generalize hq : usedPolsF m amps pols = q at hlen
  have hfst := List.map_fst_zip (l₁ := amps) (l₂ := q) hlen.ge
  have hsnd := List.map_snd_zip (l₁ := amps) (l₂ := q) hlen.le
  rcases h with ⟨a, ha, hna⟩ | ⟨hd, h⟩
  · rw [← hfst] at ha
    obtain ⟨x, hx, rfl⟩ := List.mem_map.1 ha
    refine ⟨x, hx, Or.inl ?_⟩
    cases hx1 : x.1 with
    | num y => exact absurd hx1 (hna y)
    | _ => rfl
  · have hqp : q = pols := by
      rw [← hq]; unfold usedPolsF; rw [hd]; rfl
    rcases h with h | ⟨h, hne⟩
    · rw [← hqp, ← hsnd] at h
      obtain ⟨x, hx, hx2⟩ := List.mem_map.1 h
      exact ⟨x, hx, Or.inr (Or.inl hx2)⟩
    · have : amps.zip q ≠ [] := by
        intro h0
        rw [h0] at hfst
        exact hne hfst.symm
      obtain ⟨x, l, hx⟩ := List.exists_cons_of_ne_nil this
      exact ⟨x, by rw [hx]; exact List.mem_cons_self, Or.inr (Or.inr h)⟩

/-- C177 (refused): if an amplitude is NaN or infinite, or if a polarizability or the reference
polarizability has such an entry and the model is not a dummy, then `add_dof` raises and leaves the model
as it was, for every displacement (also NaN), order, spline routine and warnings filter. -/
theorem C177_refused (spline : SplineFn) (we : Bool) (m : IModel N) (ref : Option (Mat3 ℝ))
    (cart : Option (Pos N ℝ)) (amps : List FReal) (pols : List (Option (Mat3 ℝ))) (order : ℤ)
    (inc : Bool) (hops : m.ref.ops ≠ []) (hperms : m.ref.perms.length = m.ref.ops.length)
    (h : SomeNotFinite m.dummy ref amps pols) :
    ∃ e, (m.addDofF spline we ref cart amps pols order inc).result = .error e ∧
      (m.addDofF spline we ref cart amps pols order inc).state = m := by
  have hz : m.ref.ops.zip m.ref.perms ≠ [] := by
    intro h0
    have := congrArg List.length h0
    rw [List.length_zip, hperms, min_self, List.length_nil] at this
    exact hops (List.length_eq_zero_iff.1 this)
  have key : ∃ e, (m.addDofF spline we ref cart amps pols order inc).result = .error e := by
    unfold IModel.addDofF
    cases hp : prepareDofF m ref cart amps pols inc with
    | error e => exact ⟨e, rfl⟩
    | ok gs =>
      obtain ⟨g, gs', rfl, hb⟩ := prepareDofF_bad m ref cart amps pols inc hz gs hp
        (someNotFinite_bad m ref amps pols h)
      exact constructAndAddF_bad spline we m g gs' order hb
  obtain ⟨e, he⟩ := key
  exact ⟨e, he, addDofF_error spline we m ref cart amps pols order inc e he⟩

/-- C177 (which exception): where some finite polarizabilities would have been accepted, a polarizability or reference polarizability that is not finite gives
`ValueError`, not the documented `InvalidDOFException`. -/
theorem C177_value_error (spline : SplineFn) (we : Bool) (m : IModel N) (ref : Option (Mat3 ℝ))
    (cart : Pos N ℝ) (amps : List ℝ) (pols' : List (Mat3 ℝ)) (pols : List (Option (Mat3 ℝ)))
    (order : ℤ) (inc : Bool) (hdum : m.dummy = false)
    (hops : m.ref.ops ≠ []) (hperms : m.ref.perms.length = m.ref.ops.length)
    (hok : (m.addDof spline we cart amps pols' order inc).result = .ok ())
    (hl : pols.length = amps.length) (h : none ∈ pols ∨ (ref = none ∧ amps ≠ [])) :
    (m.addDofF spline we ref (some cart) (amps.map .num) pols order inc).result = .error .valueError ∧
    (m.addDofF spline we ref (some cart) (amps.map .num) pols order inc).state = m := by
  have hz : m.ref.ops.zip m.ref.perms ≠ [] := by
    intro h0
    have := congrArg List.length h0
    rw [List.length_zip, hperms, min_self, List.length_nil] at this
    exact hops (List.length_eq_zero_iff.1 this)
  have key : (m.addDofF spline we ref (some cart) (amps.map .num) pols order inc).result
      = .error .valueError := by
    unfold IModel.addDof IModel.addDofNan at hok
    unfold IModel.addDofF
    cases hp : prepareDof m (some cart) amps pols' inc with
    | error e => rw [hp] at hok; cases hok
    | ok gs =>
      rw [hp] at hok
      dsimp only at hok
      obtain ⟨gs', h1, h2⟩ := prepareDof_shadow m ref (some cart) amps pols' pols inc hdum hl gs hp
      rw [h1]
      dsimp only
      obtain ⟨g', l', rfl, hb⟩ := prepareDofF_bad m ref (some cart) _ pols inc hz gs' h1
        (someNotFinite_bad m ref _ pols (Or.inr ⟨hdum, by simpa using h⟩))
      cases h2 with
      | @cons g _ l _ hs hrest =>
        unfold constructAndAdd at hok
        unfold constructAndAddF
        by_cases ho : order < 1
        · rw [if_pos ho]
        rw [if_neg ho] at hok ⊢
        rw [buildAll] at hok
        rw [buildAllF]
        cases hB : buildOne spline we order.toNat g.pts with
        | mk r ws =>
          cases r with
          | error e => rw [hB] at hok; cases hok
          | ok f =>
            rw [buildOneF_shadow spline we _ _ _ hs hb f ws hB]
  exact ⟨key, addDofF_error spline we m ref (some cart) _ pols order inc _ key⟩

/-- C177 (dummy models): the polarizabilities given to a dummy model are not looked at. -/
theorem C177_dummy (spline : SplineFn) (we : Bool) (m : IModel N) (hdum : m.dummy = true)
    (ref : Option (Mat3 ℝ)) (cart : Option (Pos N ℝ)) (amps : List FReal)
    (pols pols' : List (Option (Mat3 ℝ))) (order : ℤ) (inc : Bool) :
    m.addDofF spline we ref cart amps pols order inc
      = m.addDofF spline we ref cart amps pols' order inc := by
  unfold IModel.addDofF prepareDofF
  rw [hdum]
  rfl

/-! ## Which exception -/

/-- Two amplitudes count as repeated: finite numbers closer than NumPy's tolerances, or infinities of the
same sign. -/
def Repeated (a b : FReal) : Prop :=
  (∃ x y, a = .num x ∧ b = .num y ∧ |x - y| ≤ 1 / 10 ^ 8 + 1 / 10 ^ 5 * |y|) ∨
  ∃ negative, a = .inf negative ∧ b = .inf negative

theorem close_iff (a b : FReal) : a.close b = true ↔ Repeated a b := by
  unfold Repeated
  rcases a with _ | (_ | _) | a <;> rcases b with _ | (_ | _) | b <;> simp [FReal.close, isclose]

/-- C177 (repeated amplitudes): infinities of the same sign are repetitions of each other, NaN repeats
nothing. -/
theorem C177_duplicates (xs : List FReal) :
    hasDuplicatesF xs = false ↔ xs.Pairwise fun a b => ¬ Repeated a b := by
  induction xs with
  | nil => simp [hasDuplicatesF]
  | cons x xs ih =>
    rw [hasDuplicatesF, Bool.or_eq_false_iff, ih, List.pairwise_cons, List.any_eq_false]
    refine and_congr ?_ Iff.rfl
    exact forall₂_congr fun y _ => not_congr (close_iff x y)

theorem notAboveZero_iff (x : FReal) :
    x.notAboveZero = true ↔ x = .inf true ∨ ∃ y, x = .num y ∧ y ≤ 1 / 1000 := by
  cases x with
  | nan => simp [FReal.notAboveZero]
  | inf b => cases b <;> simp [FReal.notAboveZero]
  | num x =>
    simp only [FReal.notAboveZero, isclose, Bool.or_eq_true, decide_eq_true_eq, sub_zero, abs_zero,
      mul_zero, add_zero, reduceCtorEq, FReal.num.injEq, false_or, exists_eq_left']
    constructor
    · rintro (h | h)
      · have := le_abs_self x
        norm_num at h ⊢
        linarith
      · linarith
    · intro h
      by_cases h0 : x ≤ 0
      · exact Or.inr h0
      · rw [abs_of_nonneg (by linarith)]
        norm_num at h ⊢
        exact Or.inl h

theorem notBelowZero_iff (x : FReal) :
    x.notBelowZero = true ↔ x = .inf false ∨ ∃ y, x = .num y ∧ -(1 / 1000) ≤ y := by
  cases x with
  | nan => simp [FReal.notBelowZero]
  | inf b => cases b <;> simp [FReal.notBelowZero]
  | num x =>
    simp only [FReal.notBelowZero, isclose, Bool.or_eq_true, decide_eq_true_eq, sub_zero, abs_zero,
      mul_zero, add_zero, reduceCtorEq, FReal.num.injEq, false_or, exists_eq_left']
    constructor
    · rintro (h | h)
      · have := neg_abs_le x
        norm_num at h ⊢
        linarith
      · linarith
    · intro h
      by_cases h0 : x ≥ 0
      · exact Or.inr h0
      · rw [abs_of_neg (by linarith)]
        norm_num at h ⊢
        left
        linarith

theorem notAboveZero_max (a b : FReal) :
    (a.max b).notAboveZero = true ↔ a.notAboveZero = true ∧ b.notAboveZero = true := by
  simp only [notAboveZero_iff]
  rcases a with _ | (_ | _) | a <;> rcases b with _ | (_ | _) | b <;> simp [FReal.max]

theorem notBelowZero_min (a b : FReal) :
    (a.min b).notBelowZero = true ↔ a.notBelowZero = true ∧ b.notBelowZero = true := by
  simp only [notBelowZero_iff]
  rcases a with _ | (_ | _) | a <;> rcases b with _ | (_ | _) | b <;> simp [FReal.min]

theorem notAboveZero_maxF (x : FReal) (xs : List FReal) :
    (maxF x xs).notAboveZero = true ↔ ∀ y ∈ x :: xs, y.notAboveZero = true := by
  induction xs generalizing x with
  | nil => simp [maxF]
  | cons y xs ih =>
    rw [maxF, ih]
    simp only [List.forall_mem_cons, notAboveZero_max, and_assoc]

theorem notBelowZero_minF (x : FReal) (xs : List FReal) :
    (minF x xs).notBelowZero = true ↔ ∀ y ∈ x :: xs, y.notBelowZero = true := by
  induction xs generalizing x with
  | nil => simp [minF]
  | cons y xs ih =>
    rw [minF, ih]
    simp only [List.forall_mem_cons, notBelowZero_min, and_assoc]

/-- C177 (warnings): the first warning is issued exactly when every amplitude is at most 0.001 or negative
infinity, the second exactly when every amplitude is at least -0.001 or positive infinity; a NaN silences
both. -/
theorem C177_warnings (xs : List FReal) (hne : xs ≠ []) :
    (DofWarning.maxNonpositive ∈ dofWarningsF xs ↔
      ∀ x ∈ xs, x = .inf true ∨ ∃ y, x = .num y ∧ y ≤ 1 / 1000) ∧
    (DofWarning.minNonnegative ∈ dofWarningsF xs ↔
      ∀ x ∈ xs, x = .inf false ∨ ∃ y, x = .num y ∧ -(1 / 1000) ≤ y) := by
  obtain ⟨x, xs, rfl⟩ := List.exists_cons_of_ne_nil hne
  simp only [← notAboveZero_iff, ← notBelowZero_iff, ← notAboveZero_maxF, ← notBelowZero_minF]
  unfold dofWarningsF
  constructor
  · cases h1 : (maxF x xs).notAboveZero <;> cases h2 : (minF x xs).notBelowZero <;> simp [h1, h2]
  · cases h1 : (maxF x xs).notAboveZero <;> cases h2 : (minF x xs).notBelowZero <;> simp [h1, h2]

open Classical in
/-- C177 (which exception, in order): repeated amplitudes, then too few points, then the warnings turned
into exceptions, then the numbers that are not finite. -/
theorem C177_order (spline : SplineFn) (we : Bool) (order : ℕ) (pts : List PointF)
    (h : ∃ p ∈ pts, p.1.finite? = none ∨ p.2 = none) :
    (buildOneF spline we order pts).1 = .error (
      if ¬ (pts.map Prod.fst).Pairwise (fun a b => ¬ Repeated a b) then .invalidDOF
      else if pts.length ≤ order then .invalidDOF
      else if we = true ∧ ((∀ p ∈ pts, p.1 = .inf true ∨ ∃ y, p.1 = .num y ∧ y ≤ 1 / 1000) ∨
        ∀ p ∈ pts, p.1 = .inf false ∨ ∃ y, p.1 = .num y ∧ -(1 / 1000) ≤ y) then .dofWarning
      else .valueError) := by
  have hne : pts.map Prod.fst ≠ [] := by
    obtain ⟨p, hp, -⟩ := h
    exact List.ne_nil_of_mem (List.mem_map_of_mem hp)
  have hw : dofWarningsF (pts.map Prod.fst) ≠ [] ↔
      ((∀ p ∈ pts, p.1 = .inf true ∨ ∃ y, p.1 = .num y ∧ y ≤ 1 / 1000) ∨
        ∀ p ∈ pts, p.1 = .inf false ∨ ∃ y, p.1 = .num y ∧ -(1 / 1000) ≤ y) := by
    obtain ⟨h1, h2⟩ := C177_warnings _ hne
    rw [List.forall_mem_map] at h1 h2
    rw [← h1, ← h2]
    constructor
    · intro h0
      obtain ⟨w, l, hl⟩ := List.exists_cons_of_ne_nil h0
      rw [hl]
      cases w <;> simp
    · rintro (h0 | h0) <;> exact List.ne_nil_of_mem h0
  have hdup := C177_duplicates (pts.map Prod.fst)
  unfold buildOneF
  cases hd : hasDuplicatesF (pts.map Prod.fst) with
  | true =>
    have : ¬ (pts.map Prod.fst).Pairwise fun a b => ¬ Repeated a b := by
      rw [← hdup, hd]
      simp
    rw [if_pos rfl, if_pos this]
  | false =>
    rw [if_neg (by simp), if_neg (not_not.2 (hdup.1 hd))]
    by_cases hl : pts.length ≤ order
    · rw [if_pos hl, if_pos hl]
    · rw [if_neg hl, if_neg hl, finitePtsF_bad pts h]
      dsimp only
      by_cases hww : we = true ∧ dofWarningsF (pts.map Prod.fst) ≠ []
      · rw [if_pos (by simp [hww.1, hww.2]), if_pos ⟨hww.1, hw.1 hww.2⟩]
      · rw [if_neg, if_neg fun h' => hww ⟨h'.1, hw.2 h'.2⟩]
        intro h'
        apply hww
        simpa using h'

/-- C177, concrete: an infinite amplitude with each sign are two amplitudes, of which SciPy complains. -/
example (spline : SplineFn) : (buildOneF spline true 1
    [(.inf true, some 0), (.num 0, some 0), (.inf false, some 0)]).1 = .error .valueError := by
  rw [C177_order spline true 1 _ ⟨_, List.mem_cons_self, Or.inl rfl⟩, if_neg (by simp [Repeated]),
    if_neg (by simp), if_neg (by simp)]

/-- C177, concrete: a positive infinity given twice is a repeated amplitude. -/
example (spline : SplineFn) : (buildOneF spline true 1
    [(.inf false, some 0), (.num 0, some 0), (.inf false, some 0)]).1 = .error .invalidDOF := by
  rw [C177_order spline true 1 _ ⟨_, List.mem_cons_self, Or.inl rfl⟩, if_pos (by simp [Repeated])]

/-- C177, concrete: with positive infinity and zero only, the amplitudes do not span zero. -/
example (spline : SplineFn) : (buildOneF spline true 1
    [(.inf false, some 0), (.num 0, some 0)]).1 = .error .dofWarning := by
  rw [C177_order spline true 1 _ ⟨_, List.mem_cons_self, Or.inl rfl⟩, if_neg (by simp [Repeated]),
    if_neg (by simp), if_pos (by simp)]

theorem groupPointsF_length (ref : Option (Mat3 ℝ)) (amps : List FReal) (pols : List (Option (Mat3 ℝ)))
    (mu : Option ℝ) (op : SymOp) (pts : List PointF)
    (h : groupPointsF ref amps pols mu op = .ok pts) : pts.length = (amps.zip pols).length := by
  unfold groupPointsF at h
  exact ((mapM_except_ok _ _ _).1 h).length_eq.symm

/-- C177 (atomic Raman tensors): three or more files are refused with `InvalidDOFException`, unless
`_get_dof` raises before, also when their tensors are not finite. -/
theorem C177_art_count (spline : SplineFn) (we : Bool) (m : IModel N) (files : List (DofFile N))
    (pols : List (Option (Mat3 ℝ))) (d0 : Pos N ℝ) (ds : List (Pos N ℝ)) (amps : List ℝ)
    (ps : List (Mat3 ℝ)) (hr : readDof m files = .ok (d0 :: ds, amps, ps))
    (hl : pols.length = amps.length) (h3 : 3 ≤ amps.length)
    (gs : List (DofGroupF N)) (hg : getDofF m (some d0) (some m.refPol) (amps.map .num) pols false = .ok gs)
    (hops : m.ref.ops ≠ []) (hperms : m.ref.perms.length = m.ref.ops.length) :
    m.addArtFromFilesF spline we files pols = ⟨.error .invalidDOF, [], m⟩ := by
  have hz : m.ref.ops.zip m.ref.perms ≠ [] := by
    intro h0
    have := congrArg List.length h0
    rw [List.length_zip, hperms, min_self, List.length_nil] at this
    exact hops (List.length_eq_zero_iff.1 this)
  have hzl : ((amps.map FReal.num).zip pols).length = amps.length := by
    rw [List.length_zip, List.length_map, hl, min_self]
  have key : ∃ g l, gs = g :: l ∧ 3 ≤ g.pts.length := by
    unfold getDofF at hg
    by_cases ho : orthCheck m (some d0) ≠ -1
    · rw [if_pos ho] at hg; cases hg
    rw [if_neg ho] at hg
    dsimp only at hg
    have hnan : nanGroupsF m (some m.refPol) (amps.map .num) pols false = .ok gs →
        ∃ g l, gs = g :: l ∧ 3 ≤ g.pts.length := by
      intro hg
      unfold nanGroupsF at hg
      obtain ⟨⟨op, perm⟩, rest, hrest⟩ := List.exists_cons_of_ne_nil hz
      rw [hrest] at hg
      dsimp only at hg
      cases hp : groupPointsF (some m.refPol) (amps.map .num) pols none op with
      | error e => rw [hp] at hg; cases hg
      | ok pts =>
        rw [hp] at hg
        cases hg
        refine ⟨_, _, rfl, ?_⟩
        rw [List.length_append, groupPointsF_length _ _ _ _ _ _ hp, hzl]
        omega
    cases he : m.ref.getEquivalentDisplacements d0 with
    | error e => rw [he] at hg; cases hg
    | ok r =>
      rw [he] at hg
      cases r with
      | none => exact hnan hg
      | some groups =>
        dsimp only [bind, Except.bind] at hg
        obtain ⟨hall, hne⟩ := getEq_nonempty m.ref d0 groups he
        obtain ⟨g0, rest, rfl⟩ := List.exists_cons_of_ne_nil (hne hz)
        cases (mapM_except_ok _ _ _).1 hg with
        | @cons _ g _ l h1 _ =>
          refine ⟨g, l, rfl, ?_⟩
          have hzg := hall g0 List.mem_cons_self
          unfold dofGroupF at h1
          cases hd : g0.displacements with
          | nil => rw [hd] at h1; cases h1
          | cons child cs =>
            rw [hd] at h1 hzg
            dsimp only at h1
            obtain ⟨x, xs, hx⟩ := List.exists_cons_of_ne_nil hzg
            rw [hx] at h1
            cases hm : List.mapM (fun x : Pos N ℝ × SymOp => groupPointsF (some m.refPol)
                (amps.map .num) pols (multiplier child x.1) x.2) (x :: xs) with
            | error e => rw [hm] at h1; cases h1
            | ok L =>
              rw [hm] at h1
              cases h1
              cases (mapM_except_ok _ _ _).1 hm with
              | @cons _ y _ ys k1 _ =>
                dsimp only
                rw [List.length_append, List.flatten_cons, List.length_append,
                  groupPointsF_length _ _ _ _ _ _ k1, hzl]
                omega
  obtain ⟨g, l, rfl, h⟩ := key
  unfold IModel.addArtFromFilesF
  rw [hr]
  dsimp only
  by_cases hmul : multipleAtomsDisplaced d0
  · rw [if_pos hmul]
  · rw [if_neg hmul, hg]
    dsimp only
    rw [if_pos (by omega)]

/-! ## Files -/

theorem readDof_length (m : IModel N) (ps : List (Pos N ℝ)) (ds : List (Pos N ℝ)) (amps : List ℝ)
    (pols : List (Mat3 ℝ))
    (h : readDof m (ps.map fun p => .ok (some p, 0)) = .ok (ds, amps, pols)) :
    amps.length = ps.length := by
  have hr : ∀ ps : List (Pos N ℝ), readDofFiles m (ps.map fun p => .ok (some p, 0))
      = .ok (ps.map fun p => (calcDisplacement m.ref.positions p, 0)) := by
    intro ps
    induction ps with
    | nil => rfl
    | cons p ps ih =>
      rw [List.map_cons, readDofFiles]
      change ((readDofFiles m (ps.map fun p => .ok (some p, 0))) >>= _) = _
      rw [ih]
      change Except.ok _ = Except.ok _
      rw [List.map_cons]
      split_ifs <;> rfl
  unfold readDof at h
  rw [hr] at h
  dsimp only [bind, Except.bind] at h
  cases ps with
  | nil => cases h
  | cons p ps =>
    rw [List.map_map, List.map_cons] at h
    dsimp only at h
    split_ifs at h
    split at h
    · cases h
    · cases h
      simp

theorem finiteTensor_shape (a : List (List Num)) (h : a.length = 3 ∧ ∀ r ∈ a, r.length = 3) :
    ∃ t, finiteTensor? a = some t ∧ ((∃ r ∈ a, none ∈ r) → t = none ∧ finiteMat a = none) := by
  obtain ⟨h1, h2⟩ := h
  obtain ⟨r0, r1, r2, rfl⟩ := List.length_eq_three.1 h1
  obtain ⟨a0, a1, a2, rfl⟩ := List.length_eq_three.1 (h2 r0 (by simp))
  obtain ⟨b0, b1, b2, rfl⟩ := List.length_eq_three.1 (h2 r1 (by simp))
  obtain ⟨c0, c1, c2, rfl⟩ := List.length_eq_three.1 (h2 r2 (by simp))
  have hm : toMat [[a0, a1, a2], [b0, b1, b2], [c0, c1, c2]]
      = some ![![a0, a1, a2], ![b0, b1, b2], ![c0, c1, c2]] := rfl
  unfold finiteTensor? finiteMat
  rw [hm]
  refine ⟨_, rfl, fun hn => ?_⟩
  have hnot : ¬ ∀ i j, ((![![a0, a1, a2], ![b0, b1, b2], ![c0, c1, c2]] : NumMat) i j).isSome := by
    intro hall
    obtain ⟨r, hr, hnone⟩ := hn
    have e := fun i j => hall i j
    simp only [Fin.forall_fin_succ, Fin.forall_fin_zero_pi, Matrix.cons_val_zero, Matrix.cons_val_succ] at e
    simp only [List.mem_cons, List.not_mem_nil, or_false] at hr
    rcases hr with rfl | rfl | rfl <;>
      simp only [List.mem_cons, List.not_mem_nil, or_false] at hnone <;>
      rcases hnone with rfl | rfl | rfl <;> simp at e
  exact ⟨if_neg hnot, if_neg hnot⟩

/-- C177 (files): when the files can be read and hold the right number of atoms and tensors of three by
three numbers, and some entry of a tensor is not finite, `add_dof_from_files` and `add_art_from_files`
raise and leave the model as it was. -/
theorem C177_files {R : Type} (env : Env R) (spline : SplineFn) (we : Bool) (m : IModel N) (hN : N ≠ 0)
    (hdum : m.dummy = false)
    (hops : m.ref.ops ≠ []) (hperms : m.ref.perms.length = m.ref.ops.length)
    (arg : PathsArg) (fmt : Word) (paths : List Path) (hp : PathsOf arg paths)
    (data : List (List NumVec × List (List Num)))
    (hd : List.Forall₂ (fun path x => Describes env false fmt path (rowsList x.1) x.2 ∧
      x.1.length = N) paths data)
    (ht : ∀ x ∈ data, x.2.length = 3 ∧ ∀ r ∈ x.2, r.length = 3)
    (hbad : ∃ x ∈ data, ∃ r ∈ x.2, none ∈ r) (order : ℤ) :
    (∃ e ws, m.addDofFromPaths env spline we arg fmt order = ⟨.error e, ws, m⟩) ∧
    ∃ e ws, m.addArtFromPaths env spline we arg fmt = ⟨.error e, ws, m⟩ := by
  have hz : m.ref.ops.zip m.ref.perms ≠ [] := by
    intro h0
    have := congrArg List.length h0
    rw [List.length_zip, hperms, min_self, List.length_nil] at this
    exact hops (List.length_eq_zero_iff.1 this)
  -- the arrays of the files
  have key : ∃ ys : List ((Fin N → NumVec) × List (List Num)),
      List.Forall₂ (FitsAs env m.dummy fmt) paths ys ∧ ys.map Prod.snd = data.map Prod.snd := by
    clear hp hbad ht
    induction hd with
    | nil => exact ⟨[], .nil, rfl⟩
    | @cons path x paths data h hd ih =>
      obtain ⟨ys, h1, h2⟩ := ih
      refine ⟨(_, x.2) :: ys, .cons ⟨_, _, by rw [hdum]; exact h.1, positionsFor_rows x.1 hN h.2, ?_⟩ h1, ?_⟩
      · rw [hdum]; rfl
      · rw [List.map_cons, List.map_cons, h2]
  obtain ⟨ys, h1, h2⟩ := key
  have hshape : ∀ y ∈ ys, y.2.length = 3 ∧ ∀ r ∈ y.2, r.length = 3 := by
    intro y hy
    have : y.2 ∈ data.map Prod.snd := by rw [← h2]; exact List.mem_map_of_mem hy
    obtain ⟨x, hx, hxy⟩ := List.mem_map.1 this
    rw [← hxy]; exact ht x hx
  have hbad' : ∃ y ∈ ys, ∃ r ∈ y.2, none ∈ r := by
    obtain ⟨x, hx, hr⟩ := hbad
    have : x.2 ∈ ys.map Prod.snd := by rw [h2]; exact List.mem_map_of_mem hx
    obtain ⟨y, hy, hxy⟩ := List.mem_map.1 this
    exact ⟨y, hy, by rw [hxy]; exact hr⟩
  have hten : ∃ ts, (ys.mapM fun y => finiteTensor? y.2) = some ts ∧ none ∈ ts ∧ ts.length = ys.length ∧
      (ys.mapM fun y => finiteMat y.2) = none := by
    clear h1 h2
    have hlen : ∃ ts, (ys.mapM fun y => finiteTensor? y.2) = some ts ∧ ts.length = ys.length := by
      clear hbad'
      induction ys with
      | nil => exact ⟨[], rfl, rfl⟩
      | cons y ys ih =>
        obtain ⟨ts, h3, h4⟩ := ih fun y hy => hshape y (List.mem_cons_of_mem _ hy)
        obtain ⟨t, h5, _⟩ := finiteTensor_shape y.2 (hshape y List.mem_cons_self)
        refine ⟨t :: ts, ?_, by simp [h4]⟩
        rw [List.mapM_cons, h5, h3]
        rfl
    obtain ⟨ts, h3, h4⟩ := hlen
    refine ⟨ts, h3, ?_, h4, ?_⟩
    · clear h4
      induction ys generalizing ts with
      | nil => simp at hbad'
      | cons y ys ih =>
        obtain ⟨t, h5, h6⟩ := finiteTensor_shape y.2 (hshape y List.mem_cons_self)
        rw [List.mapM_cons, h5] at h3
        cases hm : List.mapM (fun y : (Fin N → NumVec) × List (List Num) => finiteTensor? y.2) ys with
        | none => rw [hm] at h3; cases h3
        | some us =>
          rw [hm] at h3
          cases h3
          obtain ⟨z, hz1, hz2⟩ := hbad'
          rcases List.mem_cons.1 hz1 with rfl | hz1
          · rw [(h6 hz2).1]; exact List.mem_cons_self
          · exact List.mem_cons_of_mem _
              (ih (fun y hy => hshape y (List.mem_cons_of_mem _ hy)) ⟨z, hz1, hz2⟩ us hm)
    · clear h3 h4
      induction ys with
      | nil => simp at hbad'
      | cons y ys ih =>
        obtain ⟨t, _, h6⟩ := finiteTensor_shape y.2 (hshape y List.mem_cons_self)
        rw [List.mapM_cons]
        obtain ⟨z, hz1, hz2⟩ := hbad'
        rcases List.mem_cons.1 hz1 with rfl | hz1
        · rw [(h6 hz2).2]; rfl
        · rw [ih (fun y hy => hshape y (List.mem_cons_of_mem _ hy)) ⟨z, hz1, hz2⟩]
          cases finiteMat y.2 <;> rfl
  obtain ⟨ts, h3, h4, h5, h6⟩ := hten
  have hout : ∀ (run : List (DofFile N) → Outcome N)
      (runF : List (DofFile N) → List (Option (Mat3 ℝ)) → Outcome N)
    (runS : List (DofFile N) → List (List (List Num)) → Outcome N),
      (∀ ps : List (Pos N ℝ), ps.length = ts.length →
        ∃ e ws, runF (ps.map fun p => .ok (some p, 0)) ts = ⟨.error e, ws, m⟩) →
      ∃ e ws, fromPaths env m arg fmt run runF runS = ⟨.error e, ws, m⟩ := by
    intro run runF runS hrun
    rw [fromPaths_ok hp h1]
    unfold withSnapshots
    cases hps : ys.mapM fun y => finitePositions y.1 with
    | none => exact ⟨_, _, rfl⟩
    | some ps =>
      rw [h6, h3]
      exact hrun ps (by rw [h5]; exact mapM_length _ _ _ hps)
  have hzip : ∀ (amps : List ℝ), amps.length = ts.length →
      ∃ x ∈ (amps.map FReal.num).zip ts, BadDatum (some m.refPol) x := by
    intro amps hl
    have hsnd := List.map_snd_zip (l₁ := amps.map FReal.num) (l₂ := ts)
      (by rw [List.length_map, hl])
    rw [← hsnd] at h4
    obtain ⟨x, hx, hx2⟩ := List.mem_map.1 h4
    exact ⟨x, hx, Or.inr (Or.inl hx2)⟩
  constructor
  · refine hout _ _ _ fun ps hl => ?_
    unfold IModel.addDofFromFilesF
    cases hr : readDof m (ps.map fun p => .ok (some p, 0)) with
    | error e => exact ⟨_, _, rfl⟩
    | ok r =>
      obtain ⟨ds, amps, pols⟩ := r
      cases ds with
      | nil => exact ⟨_, _, rfl⟩
      | cons d0 ds =>
        dsimp only
        obtain ⟨e, k1, k2⟩ := C177_refused spline we m (some m.refPol)
          (some (m.ref.getCartDisplacement d0)) (amps.map .num) ts order true hops hperms
          (Or.inr ⟨hdum, Or.inl h4⟩)
        generalize m.addDofF spline we (some m.refPol) (some (m.ref.getCartDisplacement d0))
          (amps.map .num) ts order true = o at k1 k2
        obtain ⟨r, ws, st⟩ := o
        dsimp only at k1 k2
        subst k1 k2
        exact ⟨e, ws, rfl⟩
  · refine hout _ _ _ fun ps hl => ?_
    unfold IModel.addArtFromFilesF
    cases hr : readDof m (ps.map fun p => .ok (some p, 0)) with
    | error e => exact ⟨_, _, rfl⟩
    | ok r =>
      obtain ⟨ds, amps, pols⟩ := r
      cases ds with
      | nil => exact ⟨_, _, rfl⟩
      | cons d0 ds =>
        dsimp only
        have hla := readDof_length m ps _ amps pols hr
        split_ifs
        · exact ⟨_, _, rfl⟩
        · cases hg : getDofF m (some d0) (some m.refPol) (amps.map .num) ts false with
          | error e => exact ⟨_, _, rfl⟩
          | ok gs =>
            obtain ⟨g, gs', rfl, hb⟩ := getDofF_bad m _ _ _ ts false hz gs hg
              (hzip amps (by rw [hla, hl]))
            dsimp only
            split_ifs
            · exact ⟨_, _, rfl⟩
            · obtain ⟨e, k1⟩ := constructAndAddF_bad spline we m g gs' 1 hb
              have k2 := constructAndAddF_state spline we m (g :: gs') 1 e k1
              generalize constructAndAddF spline we m (g :: gs') 1 = o at k1 k2
              obtain ⟨r, ws, st⟩ := o
              dsimp only at k1 k2
              subst k1 k2
              exact ⟨e, ws, rfl⟩

/-! ### Concrete cases -/

theorem trivial_lengths (s : RefStructure 1)
    (hs : RefStructure.init trivialSpglib (fun _ => 1) 1 (fun _ _ => 0) = .ok s)
    (hops : s.ops = [⟨1, 0⟩]) : s.ops ≠ [] ∧ s.perms.length = s.ops.length :=
  ⟨by rw [hops]; simp, (init_facts hs).2.2.length_eq.symm⟩

/-- The data of `C32_concrete` with a NaN in a polarizability: `ValueError`, nothing changed. -/
example (A pol : Mat3 ℝ) (s : RefStructure 1)
    (hs : RefStructure.init trivialSpglib (fun _ => 1) 1 (fun _ _ => 0) = .ok s)
    (hops : s.ops = [⟨1, 0⟩]) :
    (((IModel.init s pol false).addDofF lookupSpline true (some pol)
        (some fun _ => ![1 / 4, 0, 0]) ([-1 / 10, 1 / 10].map .num) [some A, none] 2 true).result
      = .error .valueError) ∧
    (((IModel.init s pol false).addDofF lookupSpline true none
        (some fun _ => ![1 / 4, 0, 0]) ([-1 / 10, 1 / 10].map .num) [some A, some A] 2 true).result
      = .error .valueError) := by
  obtain ⟨o, b, ho, hr, _⟩ := C32_concrete A A pol s hs hops
  obtain ⟨h1, h2⟩ := trivial_lengths s hs hops
  rw [ho] at hr
  exact ⟨(C177_value_error _ _ _ _ _ _ _ _ _ _ rfl h1 h2 hr rfl (Or.inl (by simp))).1,
    (C177_value_error _ _ _ _ _ _ _ _ _ _ rfl h1 h2 hr rfl (Or.inr ⟨rfl, by simp⟩)).1⟩

/-- A NaN amplitude is refused. -/
example (A pol : Mat3 ℝ) (s : RefStructure 1)
    (hs : RefStructure.init trivialSpglib (fun _ => 1) 1 (fun _ _ => 0) = .ok s)
    (hops : s.ops = [⟨1, 0⟩]) :
    ∃ e, ((IModel.init s pol false).addDofF lookupSpline false (some pol)
        (some fun _ => ![1 / 4, 0, 0]) [.nan, .num (1 / 10)] [some A, some A] 1 true).result
      = .error e := by
  obtain ⟨h1, h2⟩ := trivial_lengths s hs hops
  obtain ⟨e, he, _⟩ := C177_refused lookupSpline false (IModel.init s pol false) (some pol)
    (some fun _ => ![1 / 4, 0, 0]) [.nan, .num (1 / 10)] [some A, some A] 1 true h1 h2
    (Or.inl ⟨.nan, by simp, fun x => by simp⟩)
  exact ⟨e, he⟩

/-- The three exceptions: NaN is no duplicate and reaches SciPy, equal infinities are duplicates, and
the warning about the sign comes before SciPy's check. -/
example (A : Mat3 ℝ) :
    (buildOneF lookupSpline true 1 [(.num 0, some 0), (.nan, some A), (.nan, some A)]).1
      = .error .valueError ∧
    (buildOneF lookupSpline true 1 [(.num 0, some 0), (.inf false, some A), (.inf false, some A)]).1
      = .error .invalidDOF ∧
    (buildOneF lookupSpline true 1 [(.num 0, some 0), (.inf true, some A)]).1
      = .error .dofWarning := by
  refine ⟨?_, ?_, ?_⟩
  · simp [buildOneF, hasDuplicatesF, FReal.close, dofWarningsF, maxF, minF, FReal.max, FReal.min,
      FReal.notAboveZero, FReal.notBelowZero, finitePtsF]
  · simp [buildOneF, hasDuplicatesF, FReal.close]
  · simp [buildOneF, hasDuplicatesF, FReal.close, dofWarningsF, maxF, minF, FReal.max, FReal.min,
      FReal.notAboveZero, FReal.notBelowZero]

/-- The file of `oxygenRoot` with a NaN in the dielectric tensor. -/
def nanRoot : Elem :=
  el "modeling" none [
    el "atominfo" none [el "array" none [el "set" none [el "rc" none [el "c" (some "O ") []]]]],
    eln "structure" "initialpos" none [
      el "crystal" none [eln "varray" "basis" none [el "v" (some "2 0 0") [],
        el "v" (some "0 2 0") [], el "v" (some "0 0 2") []]],
      eln "varray" "positions" none [el "v" (some "0.25 0.5 0") []]],
    el "calculation" none [eln "varray" "dielectric_dft" none [el "v" (some "3 0 0") [],
        el "v" (some "0 nan 0") [], el "v" (some "0 0 1") []]]]

theorem nan_parts : InitialPositions nanRoot [[some (1 / 4), some (1 / 2), some 0]] ∧
    DielectricTensor nanRoot [[some 3, some 0, some 0], [some 0, none, some 0],
      [some 0, some 0, some 1]] := by
  have h1 : ∃ x, vasprunRefArgs nanRoot = .ok x ∧ x = ([8], [[some 2, some 0, some 0],
      [some 0, some 2, some 0], [some 0, some 0, some 2]], [[some (1 / 4), some (1 / 2), some 0]]) :=
    projOr_ok id ([], [], []) _ (by decide +kernel) (by simp)
  have h2 : ∃ x, vasprunPolarizability nanRoot = .ok x ∧ x = [[some 3, some 0, some 0],
      [some 0, none, some 0], [some 0, some 0, some 1]] :=
    projOr_ok id [] _ (by decide +kernel) (by simp)
  obtain ⟨x, h1, rfl⟩ := h1
  obtain ⟨y, h2, rfl⟩ := h2
  exact ⟨((C135_reference _ _ _ _).1 h1).2.2, (vasprunPolarizability_iff _ _).1 h2⟩

/-- C177_files, concrete: this file cannot be added to a model of a crystal with one atom. -/
example {R : Type} (env : Env R) (hf : env.fs "v".toList = some []) (hp : env.parse [] = .ok nanRoot)
    (pol : Mat3 ℝ) (s : RefStructure 1)
    (hs : RefStructure.init trivialSpglib (fun _ => 1) 1 (fun _ _ => 0) = .ok s)
    (hops : s.ops = [⟨1, 0⟩]) :
    ∃ e ws, (IModel.init s pol false).addDofFromPaths env lookupSpline true (.one "v".toList)
      "vasprun.xml".toList 1 = ⟨.error e, ws, IModel.init s pol false⟩ := by
  obtain ⟨h1, h2⟩ := trivial_lengths s hs hops
  obtain ⟨k1, k2⟩ := nan_parts
  refine (C177_files env lookupSpline true (IModel.init s pol false) (by decide) rfl h1 h2 _ _
    ["v".toList] (.one _) [([![some (1 / 4), some (1 / 2), some 0]], [[some 3, some 0, some 0],
      [some 0, none, some 0], [some 0, some 0, some 1]])] (.cons ⟨⟨[], hf, Or.inr (Or.inl ⟨rfl, nanRoot,
        hp, ?_, fun _ => k2⟩)⟩, rfl⟩ .nil) (by simp) ⟨_, List.mem_cons_self, [some 0, none, some 0],
        by simp, by simp⟩ 1).1
  simpa [rowsList, List.ofFn_succ] using k1

end Verif
