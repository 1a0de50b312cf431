import Verif.Props.InterpolationDof
import Verif.Props.InterpolationSym
import Verif.Props.CrossCall
import Verif.Props.DofCount

/-!
# Properties C34, C35 (requests that fail because of symmetry) and C123 (zero displacements)
-/

namespace Verif
open Spec

variable {N : ℕ}

theorem hasDuplicates_cross (l₁ l₂ : List (Option ℝ)) (x y : ℝ) (hx : some x ∈ l₁)
    (hy : some y ∈ l₂) (h : TooClose x y) : hasDuplicates (l₁ ++ l₂) = true := by
  induction l₁ with
  | nil => simp at hx
  | cons a l ih =>
    rw [List.cons_append, hasDuplicates, Bool.or_eq_true]
    rcases List.mem_cons.1 hx with rfl | hx
    · left
      rw [List.any_eq_true]
      exact ⟨some y, List.mem_append_right _ hy, (closeOpt_some x y).2 h⟩
    · exact Or.inr (ih hx)

/-- C34, amplitudes generated by symmetry: a displacement is accepted with some data, and the first
group of its equivalent displacements holds a displacement and its opposite.  Then all data of matching
length with amplitudes `a` and `b` where `b` coincides with `-a` within tolerance are refused with
`InvalidDOFException`, and the model is unchanged. -/
theorem C34_generated (spline : SplineFn) (we : Bool) (m : IModel N) (cart w : Pos N ℝ)
    (amps' : List ℝ) (pols' : List (Mat3 ℝ)) (order' : ℤ) (inc' : Bool) (o' : Outcome N)
    (ho' : o' = m.addDof spline we cart amps' pols' order' inc') (hok : o'.result = .ok ())
    (hnew : m.basis.length < o'.state.basis.length)
    (hw : m.ref.getFracDisplacement cart = .ok w) (g : EqGroup N) (gs : List (EqGroup N))
    (hg : m.ref.getEquivalentDisplacements w = .ok (some (g :: gs)))
    (c : Pos N ℝ) (hc : g.displacements.head? = some c)
    (hopp : (fun a i => -c a i) ∈ g.displacements)
    (amps : List ℝ) (pols : List (Mat3 ℝ)) (order : ℤ) (inc : Bool) (ho : 1 ≤ order)
    (hl : m.dummy = false → pols.length = amps.length)
    (a b : ℝ) (ha : a ∈ amps) (hb : b ∈ amps) (hab : TooClose b (-a)) :
    (m.addDof spline we cart amps pols order inc).result = .error .invalidDOF ∧
      (m.addDof spline we cart amps pols order inc).state = m := by
  have hul : (usedPols m amps pols).length = amps.length := by
    unfold usedPols
    cases hd : m.dummy
    · simpa using hl hd
    · simp
  obtain ⟨G, Gs, op, more, hp, hpts, -, p, g', gs', child, rest, ops, h1, h2, h3, h4, h5, h6⟩ :=
    prepare_other spline we m cart amps' pols' order' inc' o' ho' hok hnew amps pols inc hul
  have hw0 : w ≠ 0 := fun h0 => by
    rw [(parent_facts m cart w hw).1 h0] at h1
    cases h1
  obtain ⟨p₂, k, -, e1, -, e2, -⟩ := (parent_facts m cart w hw).2 hw0
  rw [h1] at e1
  obtain rfl : p = p₂ := Option.some.inj (Except.ok.inj e1)
  rw [e2, hg] at h2
  obtain ⟨rfl, -⟩ := List.cons.inj (Option.some.inj (Except.ok.inj h2))
  rw [h3] at hc hopp
  obtain rfl : child = c := Option.some.inj hc
  have hmem : (fun a i => -child a i) ∈ rest := by
    refine (List.mem_cons.1 hopp).resolve_left fun h => h4 ?_
    funext x i
    have := congrFun (congrFun h x) i
    have : child x i = 0 := by linarith
    exact this
  obtain ⟨n, hn, hne⟩ := List.mem_iff_getElem.1 hmem
  have hmu : multiplier child (fun a i => -child a i) = some (-1) := by
    have := multiplier_smul child h4 (-1) (by norm_num)
    simpa using this
  have hx : ∀ x ∈ amps, ∃ y, (x, y) ∈ amps.zip (usedPols m amps pols) := fun x hx => by
    obtain ⟨j, hj, rfl⟩ := List.mem_iff_getElem.1 hx
    exact ⟨(usedPols m amps pols)[j]'(by omega), List.mem_iff_getElem.2
      ⟨j, by rw [List.length_zip]; omega, by rw [List.getElem_zip]⟩⟩
  obtain ⟨ya, hya⟩ := hx a ha
  obtain ⟨yb, hyb⟩ := hx b hb
  have hdup : hasDuplicates (G.pts.map Prod.fst) = true := by
    rw [hpts, List.map_append, List.map_append, ← List.append_assoc]
    refine hasDuplicates_cross _ _ b (-a) (List.mem_append_right _ ?_) ?_ hab
    · rw [List.mem_map]
      exact ⟨_, List.mem_map_of_mem hyb, by simp [imagePoint]⟩
    · rw [h6, List.mem_map]
      refine ⟨imagePoint m.refPol (some (-1)) (ops[n]'(by omega)) (a, ya), ?_, by simp [imagePoint]⟩
      rw [List.mem_flatMap]
      refine ⟨(rest[n], ops[n]'(by omega)), List.mem_iff_getElem.2
        ⟨n, by rw [List.length_zip]; omega, by rw [List.getElem_zip]⟩, ?_⟩
      dsimp only
      rw [hne, hmu]
      exact List.mem_map_of_mem hya
  unfold IModel.addDof IModel.addDofNan
  rw [hp]
  dsimp only
  unfold constructAndAdd buildAll buildOne
  rw [if_neg (by omega), hdup, if_pos rfl]
  exact ⟨rfl, rfl⟩

/-- C34, too few points: a displacement is accepted with some data, and the first group of its
equivalent displacements has `n` members.  Then data of matching length with `k` amplitudes are refused
with `InvalidDOFException` whenever `n k` points (one more with the reference) do not exceed the order. -/
theorem C34_too_few_points (spline : SplineFn) (we : Bool) (m : IModel N) (cart w : Pos N ℝ)
    (amps' : List ℝ) (pols' : List (Mat3 ℝ)) (order' : ℤ) (inc' : Bool) (o' : Outcome N)
    (ho' : o' = m.addDof spline we cart amps' pols' order' inc') (hok : o'.result = .ok ())
    (hnew : m.basis.length < o'.state.basis.length)
    (hw : m.ref.getFracDisplacement cart = .ok w) (g : EqGroup N) (gs : List (EqGroup N))
    (hg : m.ref.getEquivalentDisplacements w = .ok (some (g :: gs)))
    (amps : List ℝ) (pols : List (Mat3 ℝ)) (order : ℤ) (inc : Bool) (ho : 1 ≤ order)
    (hl : m.dummy = false → pols.length = amps.length)
    (hfew : ((if inc then 1 else 0) + g.displacements.length * amps.length : ℕ) ≤ order) :
    (m.addDof spline we cart amps pols order inc).result = .error .invalidDOF ∧
      (m.addDof spline we cart amps pols order inc).state = m := by
  have hul : (usedPols m amps pols).length = amps.length := by
    unfold usedPols
    cases hd : m.dummy
    · simpa using hl hd
    · simp
  obtain ⟨G, Gs, op, more, hp, hpts, -, p, g', gs', child, rest, ops, h1, h2, h3, h4, h5, h6⟩ :=
    prepare_other spline we m cart amps' pols' order' inc' o' ho' hok hnew amps pols inc hul
  have hw0 : w ≠ 0 := fun h0 => by
    rw [(parent_facts m cart w hw).1 h0] at h1
    cases h1
  obtain ⟨p₂, k, -, e1, -, e2, -⟩ := (parent_facts m cart w hw).2 hw0
  rw [h1] at e1
  obtain rfl : p = p₂ := Option.some.inj (Except.ok.inj e1)
  rw [e2, hg] at h2
  obtain ⟨rfl, -⟩ := List.cons.inj (Option.some.inj (Except.ok.inj h2))
  have hlen : G.pts.length = (if inc then 1 else 0) + g.displacements.length * amps.length := by
    have hz : (amps.zip (usedPols m amps pols)).length = amps.length := by
      rw [List.length_zip]; omega
    have hm : more.length = rest.length * amps.length := by
      rw [h6, List.length_flatMap]
      simp only [List.length_map, hz, List.map_const', List.sum_replicate, List.length_zip, ← h5,
        min_self, smul_eq_mul]
    rw [hpts, List.length_append, List.length_append, List.length_map, hz, hm, h3, List.length_cons,
      add_mul, one_mul, add_comm amps.length]
    congr 1
    cases inc <;> rfl
  unfold IModel.addDof IModel.addDofNan
  rw [hp]
  dsimp only
  unfold constructAndAdd buildAll buildOne
  rw [if_neg (by omega)]
  by_cases hd : hasDuplicates (G.pts.map Prod.fst) = true
  · rw [if_pos hd]; exact ⟨rfl, rfl⟩
  · rw [if_neg hd, if_pos (by omega)]; exact ⟨rfl, rfl⟩

/-- C35, warnings before a failure: a degree of freedom whose amplitudes coincide makes the call fail
with `InvalidDOFException`; the warnings for all degrees of freedom before it have been issued. -/
theorem C35_warnings_before_failure (spline : SplineFn) (m : IModel N) (cart : Pos N ℝ)
    (amps : List ℝ) (pols : List (Mat3 ℝ)) (order : ℤ) (inc : Bool) (ho : 1 ≤ order)
    (pre post : List (DofGroup N)) (G : DofGroup N)
    (hp : prepareDof m (some cart) amps pols inc = .ok (pre ++ G :: post))
    (pairs : List (List (ℝ × Mat3 ℝ)))
    (hpre : List.Forall₂ (fun g l => g.pts = l.map (fun x => (some x.1, x.2)) ∧
      (l.map Prod.fst).Pairwise (fun a b => ¬ TooClose a b) ∧ order.toNat < l.length ∧
      ∃ f, spline order.toNat (l.insertionSort fun a b => a.1 ≤ b.1) = .ok f) pre pairs)
    (x y : ℝ) (l₁ l₂ : List (Option ℝ)) (hG : G.pts.map Prod.fst = l₁ ++ l₂) (hx : some x ∈ l₁)
    (hy : some y ∈ l₂) (hxy : TooClose x y) :
    let o := m.addDof spline false cart amps pols order inc
    o.result = .error .invalidDOF ∧ o.state = m ∧
      o.warnings = pairs.flatMap fun l => warnSpec (l.map Prod.fst) := by
  have hb : buildAll spline false order.toNat (pre ++ G :: post)
      = (.error .invalidDOF, pairs.flatMap fun l => warnSpec (l.map Prod.fst)) := by
    clear hp
    induction hpre with
    | nil =>
      rw [List.nil_append]
      unfold buildAll buildOne
      rw [hG, hasDuplicates_cross _ _ x y hx hy hxy, if_pos rfl]
      rfl
    | @cons g l gs ls hgl _ ih =>
      obtain ⟨e1, e2, e3, f, e4⟩ := hgl
      have hone : buildOne spline false order.toNat g.pts = (.ok f, warnSpec (l.map Prod.fst)) := by
        unfold buildOne
        have hfst : g.pts.map Prod.fst = (l.map Prod.fst).map some := by
          rw [e1, List.map_map, List.map_map]; rfl
        rw [hfst, (hasDuplicates_false _).2 e2, if_neg (by simp),
          if_neg (by rw [e1, List.length_map]; omega), (finitePts_some _ _).2 e1]
        dsimp only
        rw [if_neg (by simp), e4, dofWarnings_eq _ (by
          intro h
          rw [List.map_eq_nil_iff] at h
          rw [h] at e3
          simp at e3)]
      rw [List.cons_append, buildAll, hone]
      dsimp only
      rw [ih]
      rfl
  unfold IModel.addDof IModel.addDofNan
  rw [hp]
  dsimp only
  unfold constructAndAdd
  rw [if_neg (by omega), hb]
  exact ⟨rfl, rfl, rfl⟩

theorem hasDuplicates_nan (inc : Bool) (n : ℕ) :
    hasDuplicates ((if inc then [some 0] else []) ++ List.replicate n none) = false := by
  have h : ∀ n, hasDuplicates (List.replicate n none) = false := by
    intro n
    induction n with
    | zero => rfl
    | succ n ih =>
      rw [List.replicate_succ, hasDuplicates, ih, Bool.or_false, List.any_eq_false]
      intro o ho
      rw [List.eq_of_mem_replicate ho]
      simp [closeOpt]
  cases inc
  · simpa using h n
  · rw [if_pos rfl, List.singleton_append, hasDuplicates, h, Bool.or_false, List.any_eq_false]
    intro o ho
    rw [List.eq_of_mem_replicate ho]
    simp [closeOpt]

/-- C123: a displacement that vanishes up to lattice translations is never accepted, and the model stays
as it is.  A model that already has degrees of freedom refuses it as not orthogonal to them
(`InvalidDOFException`), whatever the amplitudes and the order.  A model without any refuses an order
below one with `ValueError`, too few points with `InvalidDOFException`, and otherwise fails with
`ValueError` when the amplitudes, which are not numbers, reach the spline routine. -/
theorem C123_zero_displacement (spline : SplineFn) (we : Bool) (m : IModel N) (cart : Pos N ℝ)
    (hw : m.ref.getFracDisplacement cart = .ok 0)
    (amps : List ℝ) (pols : List (Mat3 ℝ)) (order : ℤ) (inc : Bool)
    (hl : m.dummy = false → pols.length = amps.length)
    (op : SymOp) (P : PermMat N) (ops : List SymOp) (Ps : List (PermMat N))
    (hops : m.ref.ops = op :: ops) (hperms : m.ref.perms = P :: Ps) (hdet : op.rot.det ≠ 0) :
    let o := m.addDof spline we cart amps pols order inc
    o.state = m ∧ o.warnings = [] ∧
    (m.basis ≠ [] → o.result = .error .invalidDOF) ∧
    (m.basis = [] → order < 1 → o.result = .error .valueError) ∧
    (m.basis = [] → 1 ≤ order → ((if inc then 1 else 0) + amps.length : ℕ) ≤ order →
      o.result = .error .invalidDOF) ∧
    (m.basis = [] → 1 ≤ order → order < ((if inc then 1 else 0) + amps.length : ℕ) →
      o.result = .error .valueError) := by
  have hul : (usedPols m amps pols).length = amps.length := by
    unfold usedPols
    cases hd : m.dummy
    · simpa using hl hd
    · simp
  have hpar := (parent_facts m cart 0 hw).1 rfl
  have hprep := prepareDof_eq m (some cart) none amps pols inc hpar hul
  intro o
  have ho : o = m.addDof spline we cart amps pols order inc := rfl
  unfold IModel.addDof IModel.addDofNan at ho
  rw [hprep] at ho
  unfold getDof orthCheck at ho
  by_cases hbasis : m.basis = []
  · rw [if_neg (by simp [hbasis])] at ho
    dsimp only at ho
    have hpts : groupPoints m.refPol amps (usedPols m amps pols) none op
        = .ok ((amps.zip (usedPols m amps pols)).map (imagePoint m.refPol none op)) := by
      unfold groupPoints
      rw [mapM_except_ok, List.forall₂_map_right_iff, List.forall₂_same]
      intro x _
      unfold npInv
      rw [if_neg hdet]
      rfl
    unfold nanGroups at ho
    rw [hops, hperms, List.zip_cons_cons] at ho
    dsimp only at ho
    rw [hpts] at ho
    dsimp only [bind, Except.bind, pure, Except.pure] at ho
    generalize hq : refPoint inc ++ (amps.zip (usedPols m amps pols)).map
      (imagePoint m.refPol none op) = q at ho
    have hfst : q.map Prod.fst = (if inc then [some 0] else []) ++ List.replicate amps.length none := by
      rw [← hq, List.map_append, List.map_map]
      congr 1
      · cases inc <;> rfl
      · rw [List.eq_replicate_iff]
        constructor
        · rw [List.length_map, List.length_zip]; omega
        · intro z hz
          obtain ⟨x, -, rfl⟩ := List.mem_map.1 hz
          rfl
    have hlen : q.length = (if inc then 1 else 0) + amps.length := by
      have := congrArg List.length hfst
      rw [List.length_map, List.length_append, List.length_replicate] at this
      rw [this]
      cases inc <;> rfl
    unfold constructAndAdd at ho
    by_cases h1 : order < 1
    · rw [if_pos h1] at ho
      rw [ho]
      exact ⟨rfl, rfl, fun h => absurd hbasis h, fun _ _ => rfl, fun _ h => by omega,
        fun _ h => by omega⟩
    · rw [if_neg h1] at ho
      unfold buildAll buildOne at ho
      dsimp only at ho
      rw [hfst, hasDuplicates_nan, if_neg (by simp)] at ho
      by_cases h2 : q.length ≤ order.toNat
      · rw [if_pos h2] at ho
        rw [ho]
        exact ⟨rfl, rfl, fun h => absurd hbasis h, fun _ h => absurd h h1, fun _ _ _ => rfl,
          fun _ _ h => by rw [← hlen] at h; omega⟩
      · rw [if_neg h2] at ho
        have hnone : finitePts q = none := by
          cases hf : finitePts q with
          | none => rfl
          | some fin =>
            exfalso
            have hq2 := (finitePts_some _ _).1 hf
            have hm : (none : Option ℝ) ∈ q.map Prod.fst := by
              rw [hfst]
              refine List.mem_append_right _ (List.mem_replicate.2 ⟨?_, rfl⟩)
              intro h0
              rw [hlen, h0] at h2
              cases inc <;> simp at h2 <;> omega
            rw [hq2, List.map_map] at hm
            obtain ⟨x, -, hx⟩ := List.mem_map.1 hm
            cases hx
        rw [hnone] at ho
        rw [ho]
        exact ⟨rfl, rfl, fun h => absurd hbasis h, fun _ h => absurd h h1,
          fun _ _ h => by rw [← hlen] at h; omega, fun _ _ _ => rfl⟩
  · rw [if_pos (by simp [hbasis])] at ho
    rw [ho]
    exact ⟨rfl, rfl, fun _ => rfl, fun h => absurd h hbasis, fun h => absurd h hbasis,
      fun h => absurd h hbasis⟩

/-! ## Concrete cases -/

/-- A displacement along `(1, -1, 0)`; the mirror plane `x ↔ y` reverses it. -/
noncomputable def mirW : Fin 3 → ℝ := ![Real.sqrt (1 / 200), -Real.sqrt (1 / 200), 0]

theorem mirW_facts : mirW 0 ^ 2 + mirW 1 ^ 2 + mirW 2 ^ 2 = (1 / 10) ^ 2 ∧
    (∀ j, InHalfBox (mirW j)) ∧ (∀ j, InHalfBox (-mirW j)) ∧
    (∀ j, ∑ i, mirW i * mirRot i j = -mirW j) ∧ 7 / 100 ≤ mirW 0 := by
  have h0 := Real.sq_sqrt (show (0 : ℝ) ≤ 1 / 200 by norm_num)
  have h1 := Real.sqrt_nonneg (1 / 200 : ℝ)
  have h2 : Real.sqrt (1 / 200) < 1 / 10 := by nlinarith
  have h3 : 7 / 100 ≤ Real.sqrt (1 / 200) := by
    rw [Real.le_sqrt (by norm_num) (by norm_num)]; norm_num
  refine ⟨?_, fun j => ?_, fun j => ?_, fun j => ?_, h3⟩
  · change Real.sqrt (1 / 200) ^ 2 + (-Real.sqrt (1 / 200)) ^ 2 + 0 ^ 2 = _
    rw [neg_sq, h0]; norm_num
  · fin_cases j
    · change InHalfBox (Real.sqrt (1 / 200)); constructor <;> linarith
    · change InHalfBox (-Real.sqrt (1 / 200)); constructor <;> linarith
    · change InHalfBox 0; constructor <;> norm_num
  · fin_cases j
    · change InHalfBox (-Real.sqrt (1 / 200)); constructor <;> linarith
    · change InHalfBox (- -Real.sqrt (1 / 200)); rw [neg_neg]; constructor <;> linarith
    · change InHalfBox (-0); rw [neg_zero]; constructor <;> norm_num
  · fin_cases j <;> simp [mirW, mirRot, Fin.sum_univ_three]

theorem mirW_groups (nums : Fin 1 → ℕ) (s : RefStructure 1)
    (hs : RefStructure.init mirSpglib nums 1 (fun _ _ => 0) = .ok s) (hops : s.ops = mirOps) :
    s.getEquivalentDisplacements (one1 mirW)
      = .ok (some [⟨[one1 mirW, one1 fun i => -mirW i], [⟨1, 0⟩, ⟨mirRot, 0⟩]⟩]) := by
  obtain ⟨hu, hub, hvb, hk, hbig⟩ := mirW_facts
  obtain ⟨hpos, hlat, hperm⟩ := init_facts hs
  rw [hops] at hperm
  unfold mirOps at hperm
  obtain ⟨P, Ps, hP, hperm, e1⟩ := List.forall₂_cons_left_iff.1 hperm
  obtain ⟨Q, Qs, hQ, hperm, e2⟩ := List.forall₂_cons_left_iff.1 hperm
  cases hperm
  subst e2
  unfold RefStructure.getEquivalentDisplacements
  rw [mir_scale mirW hu hub]
  dsimp only
  rw [hops, e1, hpos]
  unfold mirOps
  have c0 := mir_candidate P ⟨1, 0⟩ (by simp [mirOps]) hP mirW mirW hub (fun j => by
    simp [Matrix.one_apply])
  have c1 := mir_candidate Q ⟨mirRot, 0⟩ (by simp [mirOps]) hQ mirW (fun i => -mirW i) hvb hk
  have i0 : eqInsert (⟨[], []⟩ : EqState 1) ⟨1, 0⟩ (one1 mirW)
      = ⟨[⟨[one1 mirW], [⟨1, 0⟩]⟩], [one1 mirW]⟩ := by
    unfold eqInsert isOrthogonalToAll
    simp [firstIndexFrom]
  have hv : (-mirW 0) ^ 2 + (-mirW 1) ^ 2 + (-mirW 2) ^ 2 = (1 / 10) ^ 2 := by
    rw [neg_sq, neg_sq, neg_sq]; exact hu
  have hun := one1_ne (vec_ne_zero hu)
  have hvn := one1_ne (v := fun i => -mirW i) (vec_ne_zero hv)
  have hcos : cosine (flat (one1 fun i => -mirW i)) (flat (one1 mirW)) = -1 := by
    rw [cosine_one1 _ _ (1 / 10) (by norm_num) hv hu]
    rw [show -mirW 0 * mirW 0 + -mirW 1 * mirW 1 + -mirW 2 * mirW 2
      = -(mirW 0 ^ 2 + mirW 1 ^ 2 + mirW 2 ^ 2) by ring, hu]
    norm_num
  have i1 : eqInsert (⟨[⟨[one1 mirW], [⟨1, 0⟩]⟩], [one1 mirW]⟩ : EqState 1) ⟨mirRot, 0⟩
      (one1 fun i => -mirW i)
      = ⟨[⟨[one1 mirW, one1 fun i => -mirW i], [⟨1, 0⟩, ⟨mirRot, 0⟩]⟩], [one1 mirW]⟩ := by
    unfold eqInsert
    rw [if_neg]
    · dsimp only
      have hcol : isNonCollinearWithAll (flat (one1 fun i => -mirW i)) [flat (one1 mirW)] = 0 := by
        unfold isNonCollinearWithAll firstIndexFrom
        rw [if_pos ((areCollinear_iff _ _).2 ⟨hvn, hun, by rw [hcos]; norm_num [angTol]⟩)]
        rfl
      rw [List.map_cons, List.map_nil, hcol, if_pos (by norm_num)]
      have hnc : allClose5 (one1 fun i => -mirW i) (one1 mirW) = false := by
        unfold allClose5
        rw [decide_eq_false_iff_not]
        intro h
        have := h 0 0
        have habs : |mirW 0| = mirW 0 := abs_of_pos (by linarith)
        change |-mirW 0 - mirW 0| ≤ 1 / 10 ^ 5 + 1 / 10 ^ 5 * |mirW 0| at this
        rw [show -mirW 0 - mirW 0 = -(2 * mirW 0) by ring, abs_neg, abs_mul, abs_two, habs] at this
        norm_num at this
        linarith
      simp [modAt, hnc]
    · rw [C08_all_orthogonal]
      intro h
      have := (h (flat (one1 mirW)) (by simp)).2.2
      rw [hcos] at this
      norm_num [angTol] at this
  simp only [List.zip_cons_cons, List.zip_nil_left, eqLoop]
  rw [c0]
  change (do let c ← candidate _ _ _ _; _) >>= _ = _
  simp only [i0, c1]
  change (pure _ >>= _ : Py _) = _
  rw [i1]
  rfl

/-- C34, concrete: the amplitude `-0.1` alone is accepted (symmetry provides `0.1`), but supplying both
`-0.1` and `0.1` is refused, and so is a cubic spline through the three points. -/
example (nums : Fin 1 → ℕ) (pol A B : Mat3 ℝ) : ∃ s,
    RefStructure.init mirSpglib nums 1 (fun _ _ => 0) = .ok s ∧
    ((IModel.init s pol false).addDof lookupSpline true (one1 mirW) [-(1 / 10)] [A] 2 true).result
      = .ok () ∧
    ((IModel.init s pol false).addDof lookupSpline true (one1 mirW) [-(1 / 10), 1 / 10] [A, B] 2
      true).result = .error .invalidDOF ∧
    ((IModel.init s pol false).addDof lookupSpline true (one1 mirW) [-(1 / 10)] [A] 3 true).result
      = .error .invalidDOF := by
  obtain ⟨s, hs, hops⟩ := mirInit nums
  obtain ⟨hpos, hlat, _⟩ := init_facts hs
  obtain ⟨n1, b1, -, -, -⟩ := mirW_facts
  have hgr := mirW_groups nums s hs hops
  have hne : one1 mirW ≠ 0 := fun h => one1_ne (vec_ne_zero n1) (by rw [h]; rfl)
  have hmu : multiplier (one1 mirW) (one1 fun i => -mirW i) = some (-1) := by
    have := multiplier_smul (one1 mirW) hne (-1) (by norm_num)
    rw [show (one1 fun i => -mirW i) = fun a i => -1 * one1 mirW a i by
      funext a i; simp [one1], this]
    norm_num
  obtain ⟨f, hf, -, -⟩ := build_sym (1 / 10) (by norm_num) (by norm_num) 0
    ((1 : Mat3 ℝ)⁻¹ * (A - pol) * (1 : Mat3 ℝ)) (mirRot⁻¹ * (A - pol) * mirRot)
  have hok : (IModel.init s pol false).addDof lookupSpline true (one1 mirW) [-(1 / 10)] [A] 2 true
      = ⟨.ok (), [], { IModel.init s pol false with
          basis := [one1 fun i => 10 * mirW i], interps := [f], mask := [false] }⟩ := by
    unfold IModel.addDof IModel.addDofNan
    rw [prepareDof_eq _ _ _ _ _ _ (mir_parent (IModel.init s pol false) hlat mirW n1 b1)
      (by simp [usedPols, IModel.init]), getDof_eq _ _ _ _ _ _ (by rfl) hgr]
    have hu : usedPols (IModel.init s pol false) [-(1 / 10)] [A] = [A] := rfl
    have hr : (IModel.init s pol false).ref = s := rfl
    have hrp : (IModel.init s pol false).refPol = pol := rfl
    have d1 := dofGroup_eq (IModel.init s pol false) [-(1 / 10)] [A] true
      ⟨[one1 mirW, one1 fun i => -mirW i], [⟨1, 0⟩, ⟨mirRot, 0⟩]⟩ (one1 mirW) _ rfl
      (by simpa using mir_det)
    simp only [List.zip_cons_cons, List.zip_nil_left, List.flatMap_cons, List.flatMap_nil,
      List.append_nil, multiplier_self _ hne, hmu, hr, hrp, mir_normalize s hlat mirW n1 b1,
      List.map_cons, List.map_nil, imagePoint, refPoint, Option.map_some, one_mul, if_true,
      List.singleton_append, neg_mul_neg] at d1
    rw [hu, List.mapM_cons, d1]
    change constructAndAdd _ _ _ [_] _ = _
    unfold constructAndAdd
    rw [if_neg (by norm_num)]
    have h2 : (2 : ℤ).toNat = 2 := rfl
    simp only [buildAll, h2, one_mul, mul_one, inv_one] at hf ⊢
    simp only [hf]
    rfl
  refine ⟨s, hs, by rw [hok], ?_, ?_⟩
  swap
  · exact (C34_too_few_points lookupSpline true (IModel.init s pol false) (one1 mirW) (one1 mirW)
      [-(1 / 10)] [A] 2 true _ rfl (by rw [hok]) (by rw [hok]; simp [IModel.init])
      (mir_frac s hlat mirW b1) _ [] hgr _ _ 3 true (by norm_num) (fun _ => rfl) (by simp)).1
  exact (C34_generated lookupSpline true (IModel.init s pol false) (one1 mirW) (one1 mirW)
    [-(1 / 10)] [A] 2 true _ rfl (by rw [hok]) (by rw [hok]; simp [IModel.init])
    (mir_frac s hlat mirW b1) _ [] hgr (one1 mirW) rfl (List.mem_cons_of_mem _ List.mem_cons_self) [-(1 / 10), 1 / 10] [A, B] 2
    true (by norm_num) (fun _ => rfl) (-(1 / 10)) (1 / 10) (by simp) (by simp)
    (by unfold TooClose; norm_num)).1

/-- C123, concrete: displacing the atom by a lattice vector, on an empty and a nonempty model. -/
example (nums : Fin 1 → ℕ) (pol A B : Mat3 ℝ) (spline : SplineFn) : ∃ s,
    RefStructure.init mirSpglib nums 1 (fun _ _ => 0) = .ok s ∧
    ((IModel.init s pol false).addDof spline true (one1 ![1, 0, 0]) [-(1 / 10), 1 / 10] [A, B] 2
      true).result = .error .valueError ∧
    (IModel.addDof (N := 1) spline true { IModel.init s pol false with
      basis := [one1 ![0, 1, 0]], interps := [fun _ => 0], mask := [false] } (one1 ![1, 0, 0])
      [-(1 / 10), 1 / 10] [A, B] 2 true).result = .error .invalidDOF := by
  obtain ⟨s, hs, hops⟩ := mirInit nums
  obtain ⟨hpos, hlat, hperm⟩ := init_facts hs
  rw [hops] at hperm
  unfold mirOps at hperm hops
  obtain ⟨P, Ps, hP, -, e1⟩ := List.forall₂_cons_left_iff.1 hperm
  have hw : s.getFracDisplacement (one1 ![1, 0, 0]) = .ok 0 := by
    unfold RefStructure.getFracDisplacement npInv
    rw [hlat, if_neg (by simp), inv_one]
    change Except.ok _ = Except.ok _
    congr 1
    funext a i
    have h : matMulPos (one1 ![1, 0, 0]) (1 : Mat3 ℝ) a i = (![1, 0, 0] : Fin 3 → ℝ) i := by
      simp [matMulPos, Matrix.one_apply, one1]
    unfold applyPbcDisplacement
    rw [h]
    fin_cases i <;> norm_num [wrap1, pyMod, pyFloorDiv]
  refine ⟨s, hs, ?_, ?_⟩
  · exact (C123_zero_displacement spline true (IModel.init s pol false) (one1 ![1, 0, 0]) hw _ _ 2
      true (fun _ => rfl) _ P _ Ps hops e1 (by simp)).2.2.2.2.2 rfl (by norm_num) (by norm_num)
  · exact (C123_zero_displacement spline true { IModel.init s pol false with
      basis := [one1 ![0, 1, 0]], interps := [fun _ => 0], mask := [false] } (one1 ![1, 0, 0]) hw _ _ 2
      true (fun _ => rfl) _ P _ Ps hops e1 (by simp)).2.2.1 (by simp)

/-! ### Warnings before a failure -/

/-- The fourfold rotation about `z`, `x ↦ y`. -/
def fourRot : Mat3 ℝ := !![0, 1, 0; -1, 0, 0; 0, 0, 1]
/-- Its inverse, `x ↦ -y`. -/
def fourRot' : Mat3 ℝ := !![0, -1, 0; 1, 0, 0; 0, 0, 1]

def fourOps : List SymOp := [⟨1, 0⟩, ⟨fourRot, 0⟩, ⟨fourRot', 0⟩]

/-- An (oracle for an) spglib answer that lacks the twofold rotation. -/
def fourSpglib : Mat3 ℝ → Pos 1 ℝ → (Fin 1 → ℕ) → Option SymDict :=
  fun _ _ _ => some ⟨fourOps, [0]⟩

theorem four_det : fourRot.det ≠ 0 ∧ fourRot'.det ≠ 0 := by
  constructor <;> simp [fourRot, fourRot', Matrix.det_fin_three]

theorem four_integer : ∀ op ∈ fourOps, IntegerMatrix op.rot ∧ op.trans = 0 := by
  intro op hop
  simp only [fourOps, List.mem_cons, List.not_mem_nil, or_false] at hop
  rcases hop with rfl | rfl | rfl
  · exact ⟨(idOp_sym (fun (_ : Fin 1) _ => (0 : ℝ))).1, rfl⟩
  · refine ⟨⟨!![0, 1, 0; -1, 0, 0; 0, 0, 1], ?_⟩, rfl⟩
    intro i j
    fin_cases i <;> fin_cases j <;> simp [fourRot]
  · refine ⟨⟨!![0, -1, 0; 1, 0, 0; 0, 0, 1], ?_⟩, rfl⟩
    intro i j
    fin_cases i <;> fin_cases j <;> simp [fourRot']

theorem fourInit (nums : Fin 1 → ℕ) : ∃ s,
    RefStructure.init fourSpglib nums 1 (fun _ _ => 0) = .ok s ∧ s.ops = fourOps := by
  have hz : ∀ (a : Fin 1) (i : Fin 3), InClosedCell ((fun _ _ => 0 : Pos 1 ℝ) a i) :=
    fun _ _ => by norm_num [InClosedCell]
  obtain ⟨P, hP, _⟩ := C12_entry (fun _ _ => 0 : Pos 1 ℝ) ⟨1, 0⟩
    (four_integer _ (by simp [fourOps])).1 hz
  obtain ⟨Q, hQ, _⟩ := C12_entry (fun _ _ => 0 : Pos 1 ℝ) ⟨fourRot, 0⟩
    (four_integer _ (by simp [fourOps])).1 hz
  obtain ⟨T, hT, _⟩ := C12_entry (fun _ _ => 0 : Pos 1 ℝ) ⟨fourRot', 0⟩
    (four_integer _ (by simp [fourOps])).1 hz
  refine ⟨⟨nums, 1, fun _ _ => 0, fourOps, [P, Q, T], [0]⟩, ?_, rfl⟩
  unfold RefStructure.init fourSpglib computePermutationMatrices fourOps
  simp only [List.mapM_cons, hP, hQ, hT, List.mapM_nil]
  rfl

theorem four_candidate (P : PermMat 1) (op : SymOp) (hop : op ∈ fourOps)
    (hP : permMatrixOf (comShift fun (_ : Fin 1) _ => (0 : ℝ)) (fun _ _ => 0) op = .ok P)
    (u v : Fin 3 → ℝ) (hv : ∀ j, InHalfBox (v j)) (hk : ∀ j, ∑ i, u i * op.rot i j = v j) :
    candidate (fun _ _ => 0) (displacePositions (fun _ _ => 0) (one1 u)) op P
      = .ok (one1 v) := by
  have hsym : IsSymmetry (fun (_ : Fin 1) _ => (0 : ℝ)) op.rot op.trans (Equiv.refl _) := by
    obtain ⟨h1, h2⟩ := four_integer op hop
    refine ⟨h1, fun a j => ⟨0, ?_⟩⟩
    rw [h2]; simp
  obtain ⟨c, hc, hcc⟩ := C13_candidate (fun (_ : Fin 1) _ => (0 : ℝ)) (one1 u) op P
    (Equiv.refl _) (one_apart _) hsym hP
  rw [hc]
  congr 1
  funext a j
  have h := hcc a j
  rw [Equiv.refl_apply] at h
  unfold one1 at h
  rw [hk j] at h
  exact (h.2.eq_of_inHalfBox (hv j) h.1).symm

theorem four_groups (nums : Fin 1 → ℕ) (s : RefStructure 1)
    (hs : RefStructure.init fourSpglib nums 1 (fun _ _ => 0) = .ok s) (hops : s.ops = fourOps) :
    s.getEquivalentDisplacements (one1 mirV)
      = .ok (some [⟨[one1 mirV], [⟨1, 0⟩]⟩,
        ⟨[one1 mirV', one1 fun i => -mirV' i], [⟨fourRot, 0⟩, ⟨fourRot', 0⟩]⟩]) := by
  obtain ⟨-, -, b1, b2⟩ := mir_box
  obtain ⟨-, -, n1, n2⟩ := mir_norms
  have n3 : (-mirV' 0) ^ 2 + (-mirV' 1) ^ 2 + (-mirV' 2) ^ 2 = (1 / 10) ^ 2 := by
    rw [neg_sq, neg_sq, neg_sq]; exact n2
  have b3 : ∀ j, InHalfBox (-mirV' j) := by
    intro j
    fin_cases j <;> norm_num [mirV', InHalfBox]
  obtain ⟨hpos, hlat, hperm⟩ := init_facts hs
  rw [hops] at hperm
  unfold fourOps at hperm
  obtain ⟨P, Ps, hP, hperm, e1⟩ := List.forall₂_cons_left_iff.1 hperm
  obtain ⟨Q, Qs, hQ, hperm, e2⟩ := List.forall₂_cons_left_iff.1 hperm
  obtain ⟨T, Ts, hT, hperm, e3⟩ := List.forall₂_cons_left_iff.1 hperm
  cases hperm
  subst e3 e2
  unfold RefStructure.getEquivalentDisplacements
  rw [mir_scale mirV n1 b1]
  dsimp only
  rw [hops, e1, hpos]
  unfold fourOps
  have c0 := four_candidate P ⟨1, 0⟩ (by simp [fourOps]) hP mirV mirV b1 (fun j => by
    simp [Matrix.one_apply])
  have c1 := four_candidate Q ⟨fourRot, 0⟩ (by simp [fourOps]) hQ mirV mirV' b2 (fun j => by
    fin_cases j <;> simp [mirV, mirV', fourRot, Fin.sum_univ_three])
  have c2 := four_candidate T ⟨fourRot', 0⟩ (by simp [fourOps]) hT mirV (fun i => -mirV' i) b3
    (fun j => by fin_cases j <;> simp [mirV, mirV', fourRot', Fin.sum_univ_three])
  have hun := one1_ne (vec_ne_zero n1)
  have hvn := one1_ne (vec_ne_zero n2)
  have hwn := one1_ne (v := fun i => -mirV' i) (vec_ne_zero n3)
  have i0 := insert_orth ⟨[], []⟩ ⟨1, 0⟩ mirV n1 (by simp)
  have i1 := insert_orth ⟨[⟨[one1 mirV], [⟨1, 0⟩]⟩], [one1 mirV]⟩ ⟨fourRot, 0⟩ mirV' n2 (by
    intro x hx
    rw [List.mem_singleton] at hx
    subst hx
    refine ⟨hun, ?_⟩
    rw [cosine_one1 _ _ (1 / 10) (by norm_num) n2 n1]
    simp [mirV, mirV'])
  have k1 : cosine (flat (one1 fun i => -mirV' i)) (flat (one1 mirV)) = 0 := by
    rw [cosine_one1 _ _ (1 / 10) (by norm_num) n3 n1]
    simp [mirV, mirV']
  have k2 : cosine (flat (one1 fun i => -mirV' i)) (flat (one1 mirV')) = -1 := by
    rw [cosine_one1 _ _ (1 / 10) (by norm_num) n3 n2]
    norm_num [mirV', vec_two]
  have i2 : eqInsert (⟨[⟨[one1 mirV], [⟨1, 0⟩]⟩, ⟨[one1 mirV'], [⟨fourRot, 0⟩]⟩],
      [one1 mirV, one1 mirV']⟩ : EqState 1) ⟨fourRot', 0⟩ (one1 fun i => -mirV' i)
      = ⟨[⟨[one1 mirV], [⟨1, 0⟩]⟩,
        ⟨[one1 mirV', one1 fun i => -mirV' i], [⟨fourRot, 0⟩, ⟨fourRot', 0⟩]⟩],
        [one1 mirV, one1 mirV']⟩ := by
    unfold eqInsert
    rw [if_neg]
    · dsimp only
      have hcol : isNonCollinearWithAll (flat (one1 fun i => -mirV' i))
          [flat (one1 mirV), flat (one1 mirV')] = 1 := by
        unfold isNonCollinearWithAll
        simp only [firstIndexFrom]
        rw [if_neg, if_pos ((areCollinear_iff _ _).2 ⟨hwn, hvn, by rw [k2]; norm_num [angTol]⟩)]
        · rfl
        · rw [areCollinear_iff]
          rintro ⟨-, -, h⟩
          rw [k1] at h
          norm_num [angTol] at h
      rw [List.map_cons, List.map_cons, List.map_nil, hcol, if_pos (by norm_num)]
      have hnc : allClose5 (one1 fun i => -mirV' i) (one1 mirV') = false := by
        unfold allClose5
        rw [decide_eq_false_iff_not]
        intro h
        have := h 0 1
        norm_num [one1, mirV', abs_of_pos] at this
      simp [modAt, hnc]
    · rw [C08_all_orthogonal]
      intro h
      have := (h (flat (one1 mirV')) (by simp)).2.2
      rw [k2] at this
      norm_num [angTol] at this
  simp only [List.zip_cons_cons, List.zip_nil_left, eqLoop]
  rw [c0]
  change (do let c ← candidate _ _ _ _; _) >>= _ = _
  rw [i0, c1]
  change (do let c ← candidate _ _ _ _; _) >>= _ = _
  simp only [List.nil_append]
  rw [i1, c2]
  change (pure _ >>= _ : Py _) = _
  simp only [List.singleton_append]
  rw [i2]
  rfl

/-- C35, concrete: without the reference polarizability, amplitudes 0 and 0.1 serve for the first
degree of freedom (with a warning), but symmetry repeats the amplitude 0 for the second one. -/
example (nums : Fin 1 → ℕ) (pol A B : Mat3 ℝ) : ∃ s o,
    RefStructure.init fourSpglib nums 1 (fun _ _ => 0) = .ok s ∧
    o = (IModel.init s pol false).addDof lookupSpline false (one1 mirV) [0, 1 / 10] [A, B] 1 false ∧
    o.result = .error .invalidDOF ∧ o.warnings = [.minNonnegative] := by
  obtain ⟨s, hs, hops⟩ := fourInit nums
  obtain ⟨hpos, hlat, _⟩ := init_facts hs
  obtain ⟨-, -, b1, b2⟩ := mir_box
  obtain ⟨-, -, n1, n2⟩ := mir_norms
  have hgr := four_groups nums s hs hops
  have hne : one1 mirV ≠ 0 := fun h => one1_ne (vec_ne_zero n1) (by rw [h]; rfl)
  have hne' : one1 mirV' ≠ 0 := fun h => one1_ne (vec_ne_zero n2) (by rw [h]; rfl)
  have hmu : multiplier (one1 mirV') (one1 fun i => -mirV' i) = some (-1) := by
    have := multiplier_smul (one1 mirV') hne' (-1) (by norm_num)
    rw [show (one1 fun i => -mirV' i) = fun a i => -1 * one1 mirV' a i by
      funext a i; simp [one1], this]
    norm_num
  have hp : prepareDof (IModel.init s pol false) (some (one1 mirV)) [0, 1 / 10] [A, B] false
      = .ok ([⟨normalizePos (s.getCartDisplacement (one1 mirV)),
          [(some 0, 1⁻¹ * (A - pol) * 1), (some (1 / 10), 1⁻¹ * (B - pol) * 1)]⟩] ++
        ⟨normalizePos (s.getCartDisplacement (one1 mirV')),
          [(some 0, fourRot⁻¹ * (A - pol) * fourRot), (some (1 / 10), fourRot⁻¹ * (B - pol) * fourRot),
          (some 0, fourRot'⁻¹ * (A - pol) * fourRot'),
          (some (-(1 / 10)), fourRot'⁻¹ * (B - pol) * fourRot')]⟩ :: []) := by
    rw [prepareDof_eq _ _ _ _ _ _ (mir_parent (IModel.init s pol false) hlat mirV n1 b1)
      (by simp [usedPols, IModel.init]), getDof_eq _ _ _ _ _ _ (by rfl) hgr]
    have hu : usedPols (IModel.init s pol false) [0, 1 / 10] [A, B] = [A, B] := rfl
    have hr : (IModel.init s pol false).ref = s := rfl
    have hrp : (IModel.init s pol false).refPol = pol := rfl
    have d1 := dofGroup_eq (IModel.init s pol false) [0, 1 / 10] [A, B] false
      ⟨[one1 mirV], [⟨1, 0⟩]⟩ (one1 mirV) [] rfl (by simp)
    have d2 := dofGroup_eq (IModel.init s pol false) [0, 1 / 10] [A, B] false
      ⟨[one1 mirV', one1 fun i => -mirV' i], [⟨fourRot, 0⟩, ⟨fourRot', 0⟩]⟩ (one1 mirV') _ rfl
      (by simpa using four_det)
    simp only [List.zip_cons_cons, List.zip_nil_left, List.flatMap_cons, List.flatMap_nil,
      List.append_nil, multiplier_self _ hne, multiplier_self _ hne', hmu, hr, hrp,
      List.map_cons, List.map_nil, imagePoint, refPoint, Option.map_some, one_mul,
      List.singleton_append, List.nil_append, List.cons_append, mul_zero, neg_mul, Bool.false_eq_true,
      if_false] at d1 d2
    rw [hu, List.mapM_cons, d1, List.mapM_cons, d2]
    rfl
  have h := C35_warnings_before_failure lookupSpline (IModel.init s pol false) (one1 mirV) [0, 1 / 10]
    [A, B] 1 false (by norm_num) _ _ _ hp
    [[(0, 1⁻¹ * (A - pol) * 1), (1 / 10, 1⁻¹ * (B - pol) * 1)]]
    (List.Forall₂.cons ⟨rfl, by
      simp only [List.map_cons, List.map_nil, List.pairwise_cons, List.mem_singleton, TooClose]
      refine ⟨?_, by simp⟩
      rintro x rfl
      norm_num [abs_of_pos], by simp, ⟨_, rfl⟩⟩ List.Forall₂.nil)
    0 0 [some 0, some (1 / 10)] [some 0, some (-(1 / 10))] rfl (by simp) (by simp)
    (by unfold TooClose; norm_num)
  refine ⟨s, _, hs, rfl, h.1, ?_⟩
  rw [h.2.2]
  simp only [List.flatMap_cons, List.flatMap_nil, List.append_nil, List.map_cons, List.map_nil]
  unfold warnSpec
  rw [if_neg, if_pos]
  · rfl
  · intro x hx
    simp only [List.mem_cons, List.not_mem_nil, or_false] at hx
    rcases hx with rfl | rfl <;> norm_num
  · intro h'
    have := h' (1 / 10) (by simp)
    norm_num at this

end Verif
