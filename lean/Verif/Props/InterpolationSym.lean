import Verif.Props.InterpolationDof
import Verif.Props.Symmetry

/-!
# Properties C35-C40: warnings, scaling, orthogonality and symmetry images

Theorems about `Verif.Model.Interpolation`.
-/

namespace Verif

open Spec

variable {N : ℕ}

/-! ## C35 -/

open Classical in
/-- C35: after a successful `add_dof` the warnings issued are, for each new degree of freedom
in turn: the first kind iff all its amplitudes are at most `1e-3`, the second kind iff all are
at least `-1e-3`.  (`pairs` are the points of the new degrees of freedom; each new
interpolation is the spline through them.) -/
theorem C35_warnings (spline : SplineFn) (we : Bool) (m : IModel N) (cart : Pos N ℝ)
    (amps : List ℝ) (pols : List (Mat3 ℝ)) (order : ℤ) (inc : Bool) (o : Outcome N)
    (ho : o = m.addDof spline we cart amps pols order inc) (hok : o.result = .ok ())
    (hd : m.dummy = false) :
    ∃ (bs : List (Pos N ℝ)) (pairs : List (List (ℝ × Mat3 ℝ))) (fs : List (ℝ → Mat3 ℝ)),
      o.state.basis = m.basis ++ bs ∧ o.state.interps = m.interps ++ fs ∧
      bs.length = pairs.length ∧
      List.Forall₂ (fun l f => ∃ sorted, sorted.Perm l ∧ SplineReady order.toNat sorted ∧
        spline order.toNat sorted = .ok f) pairs fs ∧
      (∀ l ∈ pairs, (inc = true → (0, 0) ∈ l) ∧ ∀ a ∈ amps, ∃ A, (a, A) ∈ l) ∧
      o.warnings = pairs.flatMap fun l =>
        (if ∀ x ∈ l, x.1 ≤ 1 / 1000 then [.maxNonpositive] else []) ++
        (if ∀ x ∈ l, -1 / 1000 ≤ x.1 then [.minNonnegative] else []) := by
  obtain ⟨parent, recs, fs, _, hlen, _, _, h5, h6, _, h8, h9⟩ :=
    addDofNan_facts spline we m (some cart) amps pols order inc o ho hok
  refine ⟨recs.map Prod.fst, recs.map Prod.snd, fs, by rw [h5], by rw [h5, hd]; rfl, by simp,
    ?_, ?_, ?_⟩
  · rw [List.forall₂_map_left_iff]
    exact h8.imp fun r f hrf => ⟨_, List.perm_insertionSort _ _, hrf.1, hrf.2⟩
  · intro l hl
    obtain ⟨r, hr, rfl⟩ := List.mem_map.1 hl
    obtain ⟨p', groups, _, _, hF⟩ := h9.resolve_left (List.ne_nil_of_mem hr)
    obtain ⟨k, hk, rfl⟩ := List.mem_iff_getElem.1 hr
    have hg := (List.forall₂_iff_get.1 hF).2 k (by rw [hF.length_eq]; exact hk) hk
    simp only [List.get_eq_getElem] at hg
    obtain ⟨op, imgs, _, _, _, _, q3⟩ := hg.pts
    rw [q3]
    refine ⟨fun hi => ?_, fun a ha => ?_⟩
    · rw [hi]; simp [dofPoints]
    · obtain ⟨j, hj, rfl⟩ := List.mem_iff_getElem.1 ha
      refine ⟨op.rot⁻¹ * ((usedPols m amps pols)[j] - m.refPol) * op.rot, ?_⟩
      unfold dofPoints
      refine List.mem_append_right _ (List.mem_flatMap.2 ⟨(1, op), by simp, ?_⟩)
      refine List.mem_map.2 ⟨(amps[j], (usedPols m amps pols)[j]), ?_, by simp⟩
      rw [List.mem_iff_getElem]
      exact ⟨j, by rw [List.length_zip]; omega, by simp⟩
  · rw [h6, List.flatMap_map]
    congr 1
    funext r
    unfold warnSpec
    congr 1
    · refine if_congr ?_ rfl rfl
      simp only [List.forall_mem_map]
      norm_num
    · refine if_congr ?_ rfl rfl
      simp only [List.forall_mem_map]
      norm_num

theorem buildOne_warn (spline : SplineFn) (k : ℕ) (pts : List (Option ℝ × Mat3 ℝ))
    (f : ℝ → Mat3 ℝ) (ws : List DofWarning) (h : buildOne spline false k pts = (.ok f, ws)) :
    buildOne spline true k pts = if ws = [] then (.ok f, []) else (.error .dofWarning, []) := by
  unfold buildOne at h ⊢
  split_ifs at h ⊢ with h1 h2 h3
  all_goals first | (cases h; done) | skip
  all_goals
    cases hf : finitePts pts with
    | none => rw [hf] at h; cases h
    | some fin =>
      rw [hf] at h
      dsimp only at h ⊢
      rw [Bool.false_and, if_neg Bool.false_ne_true] at h
      obtain ⟨e1, rfl⟩ := Prod.mk.inj h
      simp_all

theorem buildAll_warn (spline : SplineFn) (k : ℕ) (gs : List (DofGroup N))
    (fs : List (ℝ → Mat3 ℝ)) (ws : List DofWarning)
    (h : buildAll spline false k gs = (.ok fs, ws)) :
    (ws = [] → buildAll spline true k gs = (.ok fs, [])) ∧
    (ws ≠ [] → (buildAll spline true k gs).1 = .error .dofWarning) := by
  induction gs generalizing fs ws with
  | nil => cases h; simp [buildAll]
  | cons g gs ih =>
    unfold buildAll at h ⊢
    split at h
    · cases h
    · rename_i f ws1 h1
      rw [buildOne_warn spline k _ _ _ h1]
      split at h
      · cases h
      · rename_i fs' ws2 h2
        obtain ⟨i1, i2⟩ := ih _ _ h2
        cases h
        by_cases hw : ws1 = []
        · subst hw
          rw [if_pos rfl]
          dsimp only
          refine ⟨fun h0 => ?_, fun h0 => ?_⟩
          · rw [i1 (by simpa using h0)]; rfl
          · have := i2 (by simpa using h0)
            split
            · rename_i e ws' hb; rw [hb] at this; exact this
            · rename_i f ws' hb; rw [hb] at this; cases this
        · rw [if_neg hw]
          simp [hw]

/-- C35: with a warnings filter that turns warnings into exceptions, a call that would have
succeeded silently is unaffected and one that would have warned fails with `DOFWarning`,
leaving the model unchanged. -/
theorem C35_warnings_as_errors (spline : SplineFn) (m : IModel N) (cart : Pos N ℝ)
    (amps : List ℝ) (pols : List (Mat3 ℝ)) (order : ℤ) (inc : Bool) (o : Outcome N)
    (ho : o = m.addDof spline false cart amps pols order inc) (hok : o.result = .ok ()) :
    (o.warnings = [] → m.addDof spline true cart amps pols order inc = o) ∧
    (o.warnings ≠ [] →
      (m.addDof spline true cart amps pols order inc).result = .error .dofWarning ∧
      (m.addDof spline true cart amps pols order inc).state = m) := by
  subst ho
  unfold IModel.addDof IModel.addDofNan at hok ⊢
  cases hp : prepareDof m (some cart) amps pols inc with
  | error e => rw [hp] at hok; cases hok
  | ok gs =>
    rw [hp] at hok
    dsimp only at hok ⊢
    unfold constructAndAdd at hok ⊢
    by_cases h1 : order < 1
    · rw [if_pos h1] at hok; cases hok
    · rw [if_neg h1] at hok
      rw [if_neg h1, if_neg h1]
      cases hb : buildAll spline false order.toNat gs with
      | mk r ws =>
        rw [hb] at hok
        cases r with
        | error e => cases hok
        | ok fs =>
          obtain ⟨i1, i2⟩ := buildAll_warn spline _ _ _ _ hb
          dsimp only at hok ⊢
          cases hf : finiteBasis gs with
          | error e => rw [hf] at hok; cases hok
          | ok bs =>
            dsimp only
            refine ⟨fun h0 => ?_, fun h0 => ?_⟩
            · rw [i1 h0, h0]
            · have := i2 h0
              cases hb' : buildAll spline true order.toNat gs with
              | mk r' ws' =>
                rw [hb'] at this
                dsimp only at this
                subst this
                exact ⟨rfl, rfl⟩

/-- C35, non-trivial: two positive amplitudes are accepted with exactly one warning. -/
example (A B pol : Mat3 ℝ) : ∃ (s : RefStructure 1) (o : Outcome 1),
    o = (IModel.init s pol false).addDof lookupSpline false (fun _ => ![1 / 4, 0, 0])
      [1 / 10, 2 / 10] [A, B] 1 true ∧ o.result = .ok () ∧ o.warnings = [.minNonnegative] := by
  obtain ⟨s, hs, hops⟩ := trivialInit
  obtain ⟨_, hlat, _⟩ := init_facts hs
  have hw := trivialFrac s hlat
  have hw0 : (fun _ => ![1 / 4, 0, 0] : Pos 1 ℝ) ≠ 0 := fun h => by
    have := congrFun (congrFun h 0) 0
    norm_num at this
  obtain ⟨b, hprep, hb⟩ := addDof_single trivialSpglib _ _ _ s hs (one_apart _) hops lookupSpline
    false pol _ _ hw hw0 [1 / 10, 2 / 10] [A, B] rfl 1 (by norm_num) true
  obtain ⟨f, hf⟩ : ∃ f, buildOne lookupSpline false (1 : ℤ).toNat ((dofPoints pol true [(1, ⟨1, 0⟩)]
      ([1 / 10, 2 / 10].zip [A, B])).map fun x => (some x.1, x.2)) = (.ok f, [.minNonnegative]) := by
    have hd : hasDuplicates ((((dofPoints pol true [(1, ⟨1, 0⟩)]
        ([1 / 10, 2 / 10].zip [A, B])).map fun x => (some x.1, x.2))).map Prod.fst) = false := by
      rw [List.map_map]
      have e : (Prod.fst ∘ fun x : ℝ × Mat3 ℝ => (some x.1, x.2)) = some ∘ Prod.fst := rfl
      rw [e, ← List.map_map, hasDuplicates_false]
      simp [dofPoints, TooClose]
      norm_num [abs_of_pos, abs_of_neg]
    unfold buildOne
    rw [hd]
    have hl : ¬ ((dofPoints pol true [(1, ⟨1, 0⟩)]
        ([1 / 10, 2 / 10].zip [A, B])).map fun x => ((some x.1 : Option ℝ), x.2)).length
          ≤ (1 : ℤ).toNat := by
      simp [dofPoints]
    rw [if_neg (by simp), if_neg hl, (finitePts_some _ _).2 rfl]
    dsimp only
    have hws : dofWarnings ((dofPoints pol true [(1, ⟨1, 0⟩)]
        ([1 / 10, 2 / 10].zip [A, B])).map Prod.fst) = [.minNonnegative] := by
      rw [dofWarnings_eq _ (by simp [dofPoints])]
      unfold warnSpec
      rw [if_neg, if_pos]
      · rfl
      · intro x hx
        simp [dofPoints] at hx
        rcases hx with rfl | rfl | rfl <;> norm_num
      · intro h
        have := h (1 / 10) (by simp [dofPoints])
        norm_num at this
    rw [hws]
    exact ⟨_, rfl⟩
  have hres := hb f _ hf
  exact ⟨s, _, rfl, by rw [hres], by rw [hres]⟩

/-! ## C36 -/

/-- C36: scaling the displacement by a positive factor does not change the effect of
`add_dof`, if both displacements have fractional coordinates in (-1/2,1/2]. -/
theorem C36_scale_partial (spline : SplineFn) (we : Bool) (m : IModel N) (cart : Pos N ℝ) (s : ℝ)
    (hs : 0 < s)
    (h1 : ∀ a j, InHalfBox (∑ i, cart a i * m.ref.lattice⁻¹ i j))
    (h2 : ∀ a j, InHalfBox (s * ∑ i, cart a i * m.ref.lattice⁻¹ i j))
    (amps : List ℝ) (pols : List (Mat3 ℝ)) (order : ℤ) (inc : Bool) :
    m.addDof spline we (fun a i => s * cart a i) amps pols order inc
      = m.addDof spline we cart amps pols order inc := by
  have key : parentDisplacement m (some fun a i => s * cart a i)
      = parentDisplacement m (some cart) := by
    unfold parentDisplacement RefStructure.getFracDisplacement npInv
    dsimp only
    by_cases hd : m.ref.lattice.det = 0
    · rw [if_pos hd]; rfl
    · rw [if_neg hd]
      change Except.ok _ = Except.ok _
      congr 1
      have e1 : applyPbcDisplacement (matMulPos cart m.ref.lattice⁻¹)
          = fun a j => ∑ i, cart a i * m.ref.lattice⁻¹ i j := by
        funext a j; exact wrap1_of_inHalfBox (h1 a j)
      have e2 : applyPbcDisplacement (matMulPos (fun a i => s * cart a i) m.ref.lattice⁻¹)
          = fun a j => s * ∑ i, cart a i * m.ref.lattice⁻¹ i j := by
        funext a j
        have : matMulPos (fun a i => s * cart a i) m.ref.lattice⁻¹ a j
            = s * ∑ i, cart a i * m.ref.lattice⁻¹ i j := by
          unfold matMulPos; rw [Finset.mul_sum]
          exact Finset.sum_congr rfl fun i _ => by ring
        unfold applyPbcDisplacement
        rw [this]; exact wrap1_of_inHalfBox (h2 a j)
      rw [e1, e2]
      obtain ⟨w, hw⟩ : ∃ w : Pos N ℝ, ∀ a j, ∑ i, cart a i * m.ref.lattice⁻¹ i j = w a j :=
        ⟨_, fun _ _ => rfl⟩
      simp only [hw]
      unfold normalizeTenth
      dsimp only
      have hn : norm2 (flat fun a i => s * w a i * 10)
          = s * norm2 (flat fun a i => w a i * 10) := by
        have : (flat fun a i => s * w a i * 10) = fun x => s * flat (fun a i => w a i * 10) x := by
          funext x; simp only [flat]; ring
        rw [this, norm2_smul, abs_of_pos hs]
      rw [hn]
      by_cases h0 : norm2 (flat fun a i => w a i * 10) = 0
      · rw [if_pos h0, if_pos (by rw [h0, mul_zero])]
      · rw [if_neg h0, if_neg (mul_ne_zero hs.ne' h0)]
        congr 1
        funext a i
        rw [mul_div_mul_left _ _ hs.ne']
  unfold IModel.addDof IModel.addDofNan prepareDof
  rw [key]

/-- C36, counterexample to the unrestricted claim: in a unit cubic cell a displacement by a
whole lattice vector is rejected although the same direction, shorter, is accepted. -/
theorem C36_scale_counterexample (pol A B : Mat3 ℝ) :
    ∃ (s : RefStructure 1) (spline : SplineFn),
      ((IModel.init s pol false).addDof spline true (fun _ => ![1 / 4, 0, 0])
        [-1 / 10, 1 / 10] [A, B] 2 true).result = .ok () ∧
      ((IModel.init s pol false).addDof spline true (fun _ => ![4 * (1 / 4), 4 * 0, 4 * 0])
        [-1 / 10, 1 / 10] [A, B] 2 true).result = .error .valueError := by
  obtain ⟨s, hs, hops⟩ := trivialInit
  obtain ⟨o, b, rfl, hok, _⟩ := C32_concrete A B pol s hs hops
  refine ⟨s, lookupSpline, hok, ?_⟩
  obtain ⟨_, hlat, hperm⟩ := init_facts hs
  have hw : s.getFracDisplacement (fun _ => ![4 * (1 / 4), 4 * 0, 4 * 0]) = .ok 0 := by
    unfold RefStructure.getFracDisplacement npInv
    rw [hlat, if_neg (by simp), inv_one]
    change Except.ok _ = Except.ok _
    congr 1
    funext a i
    have h : matMulPos (fun (_ : Fin 1) => ![(4 : ℝ) * (1 / 4), 4 * 0, 4 * 0]) (1 : Mat3 ℝ) a i
        = ![(4 : ℝ) * (1 / 4), 4 * 0, 4 * 0] i := by
      simp [matMulPos, Matrix.one_apply]
    unfold applyPbcDisplacement
    rw [h]
    refine ((wrap1_unique (y := (0 : ℝ)) ?_ (by norm_num [InHalfBox]))).symm
    fin_cases i
    · exact ⟨-1, by norm_num⟩
    · exact ⟨0, by norm_num⟩
    · exact ⟨0, by norm_num⟩
  have hpar := (parent_facts (IModel.init s pol false) _ _ hw).1 rfl
  unfold IModel.addDof IModel.addDofNan
  rw [prepareDof_eq _ _ _ _ _ _ hpar (by simp [usedPols, IModel.init])]
  have hg : getDof (IModel.init s pol false) none [-1 / 10, 1 / 10]
      (usedPols (IModel.init s pol false) [-1 / 10, 1 / 10] [A, B]) true
      = .ok [⟨none, refPoint true ++ ([-1 / 10, 1 / 10].zip [A, B]).map
          (imagePoint pol none ⟨1, 0⟩)⟩] := by
    unfold getDof
    rw [if_neg (by simp [orthCheck, IModel.init])]
    dsimp only
    unfold nanGroups
    have : (IModel.init s pol false).ref.ops.zip (IModel.init s pol false).ref.perms
        = s.ops.zip s.perms := rfl
    rw [hops] at this hperm
    cases hp : s.perms with
    | nil => rw [hp] at hperm; cases hperm
    | cons P Ps =>
      rw [hp, List.zip_cons_cons] at this
      rw [this]
      dsimp only
      have hu : usedPols (IModel.init s pol false) [-1 / 10, 1 / 10] [A, B] = [A, B] := rfl
      rw [groupPoints_eq _ _ _ _ _ (by simp), hu]
      rfl
  rw [hg]
  rfl

/-! ## C37 -/

/-- C37: `add_dof` with data of matching length and a displacement with (nonzero, wrapped)
fractional version `w`: if it succeeds, the displacement is orthogonal within tolerance to
every previous basis vector; if some previous basis vector is not orthogonal to it, it fails
with `InvalidDOFException` and leaves the model unchanged. -/
theorem C37_orthogonal (spline : SplineFn) (we : Bool) (m : IModel N) (cart w : Pos N ℝ)
    (hw : m.ref.getFracDisplacement cart = .ok w) (hw0 : w ≠ 0) (amps : List ℝ)
    (pols : List (Mat3 ℝ)) (order : ℤ) (inc : Bool) (o : Outcome N)
    (ho : o = m.addDof spline we cart amps pols order inc) :
    (o.result = .ok () →
      ∀ b ∈ m.basis, Orthogonal (flatten (toCart m.ref.lattice w)) (flatten b)) ∧
    ((m.dummy = false → pols.length = amps.length) →
      (∃ b ∈ m.basis, ¬ Orthogonal (flatten (toCart m.ref.lattice w)) (flatten b)) →
      o.result = .error .invalidDOF ∧ o.state = m) := by
  obtain ⟨p, c, hc, h1, _, _, _, h5⟩ := (parent_facts m cart w hw).2 hw0
  have horth : orthCheck m (some p) = -1 ↔
      ∀ b ∈ m.basis, Orthogonal (flatten (toCart m.ref.lattice w)) (flatten b) := by
    unfold orthCheck
    dsimp only
    rw [h5, C08_all_orthogonal]
    have e : flat (fun a i => c * toCart m.ref.lattice w a i)
        = fun x => c * flatten (toCart m.ref.lattice w) x := rfl
    simp only [List.forall_mem_map, e]
    have hcos : ∀ v, Orthogonal (fun x => c * flatten (toCart m.ref.lattice w) x) v ↔
        Orthogonal (flatten (toCart m.ref.lattice w)) v := by
      intro v
      unfold Orthogonal
      rw [cosine_smul_left hc.ne']
      have h0 : (fun x => c * flatten (toCart m.ref.lattice w) x) ≠ 0 ↔
          flatten (toCart m.ref.lattice w) ≠ 0 := by
        rw [not_iff_not]
        constructor
        · intro h; funext x
          have := congrFun h x
          simpa [hc.ne'] using this
        · intro h; rw [h]; funext x; simp
      rw [h0]
    exact forall_congr' fun b => forall_congr' fun _ => hcos _
  subst ho
  refine ⟨fun hok => ?_, fun hl hex => ?_⟩
  · obtain ⟨parent, recs, fs, g1, _, _, g4, _⟩ :=
      addDofNan_facts spline we m (some cart) amps pols order inc _ rfl hok
    rw [h1] at g1; cases g1
    exact horth.1 g4
  · have hul : (usedPols m amps pols).length = amps.length := by
      unfold usedPols
      cases hd : m.dummy
      · simpa using hl hd
      · simp
    have hne : orthCheck m (some p) ≠ -1 := by
      intro h
      obtain ⟨b, hb, hno⟩ := hex
      exact hno (horth.1 h b hb)
    have hprep : prepareDof m (some cart) amps pols inc = .error .invalidDOF := by
      rw [prepareDof_eq m _ _ amps pols inc h1 hul]
      unfold getDof
      rw [if_pos hne]
    unfold IModel.addDof IModel.addDofNan
    rw [hprep]
    exact ⟨rfl, rfl⟩

/-- C37, non-trivial: on a model that already has the x direction, adding it again is
rejected. -/
example (pol A B : Mat3 ℝ) : ∃ (m : IModel 1) (o : Outcome 1), m.basis ≠ [] ∧
    o = m.addDof lookupSpline true (fun _ => ![1 / 4, 0, 0]) [-1 / 10, 1 / 10] [A, B] 2 true ∧
    o.result = .error .invalidDOF := by
  obtain ⟨s, hs, hops⟩ := trivialInit
  obtain ⟨_, hlat, _⟩ := init_facts hs
  obtain ⟨m, hb, hr, hdum⟩ : ∃ m : IModel 1, m.basis = [fun _ => ![1, 0, 0]] ∧ m.ref = s ∧
    m.dummy = false := ⟨{ IModel.init s pol false with basis := [fun _ => ![1, 0, 0]] }, rfl, rfl, rfl⟩
  refine ⟨m, _, by rw [hb]; simp, rfl, ?_⟩
  have hw : m.ref.getFracDisplacement (fun _ => ![1 / 4, 0, 0]) = .ok fun _ => ![1 / 4, 0, 0] := by
    rw [hr]; exact trivialFrac s hlat
  have hw0 : (fun _ => ![1 / 4, 0, 0] : Pos 1 ℝ) ≠ 0 := by
    intro h
    have := congrFun (congrFun h 0) 0
    norm_num at this
  refine ((C37_orthogonal lookupSpline true m _ _ hw hw0 _ _ 2 true _ rfl).2 (fun _ => rfl)
    ⟨fun _ => ![1, 0, 0], by rw [hb]; simp, ?_⟩).1
  · rintro ⟨_, _, h⟩
    have e : toCart m.ref.lattice (fun (_ : Fin 1) => ![1 / 4, 0, 0]) = fun _ => ![1 / 4, 0, 0] := by
      funext a i
      rw [hr, hlat]
      fin_cases i <;> simp [toCart, Matrix.one_apply]
    rw [e] at h
    have h4 : Real.sqrt ((1 / 4 : ℝ) ^ 2) = 1 / 4 := Real.sqrt_sq (by norm_num)
    have hc : cosine (flatten (fun _ => ![1 / 4, 0, 0] : Fin 1 → Fin 3 → ℝ))
        (flatten (fun _ => ![1, 0, 0] : Fin 1 → Fin 3 → ℝ)) = 1 := by
      simp only [cosine, flatten, Fintype.sum_prod_type, Fin.sum_univ_three, Finset.univ_unique,
        Finset.sum_singleton]
      simp
    rw [hc] at h
    norm_num [angTol] at h

/-- C37: the index named in the exception is that of the first offending basis vector. -/
theorem C37_index (m : IModel N) (p : Pos N ℝ) :
    IsFirstIndex (fun b => ¬ Orthogonal (flatten (m.ref.getCartDisplacement p)) (flatten b))
      m.basis (orthCheck m (some p)) := by
  have h := C08_is_orthogonal_to_all (flat (m.ref.getCartDisplacement p)) (m.basis.map flat)
  unfold orthCheck
  dsimp only
  rcases h with ⟨h1, h2⟩ | ⟨k, hk, h1, h2, h3⟩
  · left
    refine ⟨h1, fun x hx => h2 _ (List.mem_map_of_mem hx)⟩
  · right
    have hk' : k < m.basis.length := by simpa using hk
    refine ⟨k, hk', h1, ?_, fun j hj => ?_⟩
    · rw [List.getElem_map] at h2; exact h2
    · have := h3 j hj
      rw [List.getElem_map] at this; exact this

/-! ## C39 -/

/-- C39: in every group of equivalent displacements, the amplitudes of the points belonging
to an image that is exactly `k` times the group's first displacement are the supplied
amplitudes times `1/k`; for an image of equal norm the factor is `k`, which is 1 or -1. -/
theorem C39_multiplier (m : IModel N) (p : Pos N ℝ) (amps : List ℝ) (pols : List (Mat3 ℝ))
    (inc : Bool) (groups : List (EqGroup N)) (Gs : List (DofGroup N))
    (hl : pols.length = amps.length)
    (hg : m.ref.getEquivalentDisplacements p = .ok (some groups))
    (hG : getDof m (some p) amps pols inc = .ok Gs) :
    List.Forall₂ (fun g G => ∃ (child : Pos N ℝ) (mus : List (Option ℝ)),
      g.displacements.head? = some child ∧
      G.pts.map Prod.fst = (if inc then [some 0] else []) ++
        mus.flatMap (fun mu => amps.map fun a => mu.map (· * a)) ∧
      List.Forall₂ (fun (d : Pos N ℝ) mu => ∀ k : ℝ, k ≠ 0 → child ≠ 0 →
        (∀ a i, d a i = k * child a i) → mu = some (1 / k) ∧
        (∑ a, ∑ i, d a i ^ 2 = ∑ a, ∑ i, child a i ^ 2 → mu = some k ∧ (k = 1 ∨ k = -1)))
        g.displacements mus) groups Gs := by
  have hG' : groups.mapM (dofGroup m amps pols inc) = .ok Gs := by
    unfold getDof at hG
    split_ifs at hG
    dsimp only at hG; rw [hg] at hG; exact hG
  obtain ⟨done, orth, hI, _, _⟩ := getEq_some _ _ _ hg
  rw [mapM_except_ok] at hG'
  have hG2 : List.Forall₂ (fun g G => g ∈ groups ∧ dofGroup m amps pols inc g = .ok G) groups Gs := by
    rw [List.forall₂_iff_get] at hG' ⊢
    exact ⟨hG'.1, fun i h1 h2 => ⟨List.get_mem _ _, hG'.2 i h1 h2⟩⟩
  refine hG2.imp fun g G hgG => ?_
  obtain ⟨hmem, hgG⟩ := hgG
  obtain ⟨child, rest, e1, _, e3⟩ := dofGroup_ok m amps pols inc g G hgG
  have hlen := hI.len g hmem
  refine ⟨child, g.displacements.map (multiplier child), by rw [e1]; rfl, ?_, ?_⟩
  · rw [e3, List.map_append]
    congr 1
    · unfold refPoint; cases inc <;> rfl
    · rw [List.map_flatMap, List.flatMap_map]
      have hz : g.displacements = (g.displacements.zip g.transformations).map Prod.fst :=
        (List.map_fst_zip (by omega)).symm
      conv_rhs => rw [hz]
      rw [List.flatMap_map]
      congr 1
      funext x
      rw [List.map_map]
      have : Prod.fst ∘ imagePoint m.refPol (multiplier child x.1) x.2
          = (fun a => (multiplier child x.1).map (· * a)) ∘ Prod.fst := by
        funext y; rfl
      rw [this, ← List.map_map, List.map_fst_zip (by omega)]
  · rw [List.forall₂_map_right_iff, List.forall₂_same]
    intro d _ k hk hc hd
    have hdk : d = fun a i => k * child a i := by funext a i; exact hd a i
    have hmu := multiplier_smul child hc k hk
    rw [← hdk] at hmu
    refine ⟨hmu, fun hnorm => ?_⟩
    have hs : ∑ a, ∑ i, d a i ^ 2 = k ^ 2 * ∑ a, ∑ i, child a i ^ 2 := by
      simp only [hd, mul_pow, ← Finset.mul_sum]
    have hpos : 0 < ∑ a, ∑ i, child a i ^ 2 := by
      by_contra hcon
      have h0 : ∑ a, ∑ i, child a i ^ 2 = 0 := le_antisymm (not_lt.1 hcon)
        (Finset.sum_nonneg fun a _ => Finset.sum_nonneg fun i _ => sq_nonneg _)
      rw [Finset.sum_eq_zero_iff_of_nonneg
        (fun a _ => Finset.sum_nonneg fun i _ => sq_nonneg _)] at h0
      apply hc
      funext a i
      have h1 := h0 a (Finset.mem_univ a)
      rw [Finset.sum_eq_zero_iff_of_nonneg (fun i _ => sq_nonneg _)] at h1
      simpa using h1 i (Finset.mem_univ i)
    rw [hs] at hnorm
    have hk2 : k ^ 2 = 1 := by
      have : (k ^ 2 - 1) * ∑ a, ∑ i, child a i ^ 2 = 0 := by linarith
      rcases mul_eq_zero.1 this with h | h
      · linarith
      · exact absurd h hpos.ne'
    rcases sq_eq_one_iff.1 hk2 with h | h <;> subst h <;> rw [hmu] <;> norm_num

/-! ## C38 -/

/-- Candidates lie in the half-open box. -/
theorem candidate_box (p q : Pos N ℝ) (op : SymOp) (P : PermMat N) (c : Pos N ℝ)
    (h : candidate p q op P = .ok c) (a : Fin N) (i : Fin 3) : InHalfBox (c a i) := by
  unfold candidate at h
  cases ht : transformPositions q op.rot op.trans with
  | error er => rw [ht] at h; cases h
  | ok r =>
    rw [ht] at h
    have := Except.ok.inj h
    rw [← this, calc_apply]
    exact wrap1_inHalfBox _

/-- Displacements of all groups lie in the half-open box. -/
theorem getEq_box (s : RefStructure N) (d : Pos N ℝ) (groups : List (EqGroup N))
    (h : s.getEquivalentDisplacements d = .ok (some groups)) (g : EqGroup N) (hg : g ∈ groups)
    (x : Pos N ℝ) (hx : x ∈ g.displacements) (a : Fin N) (i : Fin 3) : InHalfBox (x a i) := by
  unfold RefStructure.getEquivalentDisplacements at h
  split at h
  · split_ifs at h
    · cases h
      simp at hg
    · cases h
  · rename_i e _
    obtain ⟨new, st, h1, hI, h3⟩ :=
      eqLoop_inv s.positions e (s.ops.zip s.perms) [] ⟨[], []⟩ eqInv_empty
    dsimp only at h
    rw [h1] at h
    change Except.ok _ = Except.ok _ at h
    cases h
    have hl := hI.len g hg
    obtain ⟨k, hk, rfl⟩ := List.mem_iff_getElem.1 hx
    have hmem : (g.transformations[k]'(by omega), g.displacements[k]) ∈ g.pairs := by
      unfold EqGroup.pairs
      rw [List.mem_iff_getElem]
      exact ⟨k, by rw [List.length_zip]; omega, by simp⟩
    have hnew := hI.prov.subset (List.mem_flatMap.2 ⟨g, hg, hmem⟩)
    rw [List.nil_append] at hnew
    obtain ⟨j, hj, he⟩ := List.mem_iff_getElem.1 hnew
    have hc := (List.forall₂_iff_get.1 h3).2 j (by rw [h3.length_eq]; exact hj) hj
    simp only [List.get_eq_getElem] at hc
    rw [he] at hc
    obtain ⟨_, hc⟩ := hc
    exact candidate_box _ _ _ _ _ hc a i

theorem inner_toCart {L : Mat3 ℝ} {c : ℝ} (hL : L * L.transpose = c • 1) (u v : Pos N ℝ) :
    ∑ x, flatten (toCart L u) x * flatten (toCart L v) x
      = c * ∑ x, flatten u x * flatten v x := by
  have hLL : ∀ i k, ∑ j, L i j * L k j = c * (1 : Mat3 ℝ) i k := fun i k => by
    have := congrFun (congrFun hL i) k
    simpa [Matrix.mul_apply] using this
  simp only [Fintype.sum_prod_type, flatten, toCart]
  rw [Finset.mul_sum]
  refine Finset.sum_congr rfl fun a _ => ?_
  calc ∑ j, (∑ i, u a i * L i j) * ∑ k, v a k * L k j
      = ∑ j, ∑ i, ∑ k, u a i * v a k * (L i j * L k j) := by
        refine Finset.sum_congr rfl fun j _ => ?_
        rw [Finset.sum_mul_sum]
        refine Finset.sum_congr rfl fun i _ => Finset.sum_congr rfl fun k _ => by ring
    _ = ∑ i, ∑ k, u a i * v a k * ∑ j, L i j * L k j := by
        rw [Finset.sum_comm]
        refine Finset.sum_congr rfl fun i _ => ?_
        rw [Finset.sum_comm]
        refine Finset.sum_congr rfl fun k _ => by rw [Finset.mul_sum]
    _ = c * ∑ i, u a i * v a i := by
        simp only [hLL, Matrix.one_apply]
        rw [Finset.mul_sum]
        refine Finset.sum_congr rfl fun i _ => ?_
        simp
        ring

theorem cosine_toCart {L : Mat3 ℝ} {c : ℝ} (hc : 0 < c) (hL : L * L.transpose = c • 1)
    (u v : Pos N ℝ) :
    cosine (flatten (toCart L u)) (flatten (toCart L v)) = cosine (flatten u) (flatten v) := by
  have h : ∀ w : Pos N ℝ, ∑ x, flatten (toCart L w) x ^ 2 = c * ∑ x, flatten w x ^ 2 := fun w => by
    simpa only [sq] using inner_toCart hL w w
  unfold cosine
  rw [inner_toCart hL, h, h, Real.sqrt_mul hc.le, Real.sqrt_mul hc.le]
  have hs : Real.sqrt c * Real.sqrt c = c := Real.mul_self_sqrt hc.le
  have : Real.sqrt c * √(∑ x, flatten u x ^ 2) * (Real.sqrt c * √(∑ x, flatten v x ^ 2))
      = c * (√(∑ x, flatten u x ^ 2) * √(∑ x, flatten v x ^ 2)) := by
    calc _ = (Real.sqrt c * Real.sqrt c) * (√(∑ x, flatten u x ^ 2) * √(∑ x, flatten v x ^ 2)) := by ring
      _ = _ := by rw [hs]
  rw [this, mul_div_mul_left _ _ hc.ne']

theorem orthogonal_smul {ι : Type} [Fintype ι] {u v u' v' : ι → ℝ} {c d : ℝ} (hc : 0 < c)
    (hd : 0 < d) (hu : ∀ x, u' x = c * u x) (hv : ∀ x, v' x = d * v x) (h : Orthogonal u v) :
    Orthogonal u' v' := by
  obtain ⟨h1, h2, h3⟩ := h
  have eu : u' = fun x => c * u x := funext hu
  have ev : v' = fun x => d * v x := funext hv
  refine ⟨fun h0 => h1 ?_, fun h0 => h2 ?_, ?_⟩
  · funext x
    have := congrFun h0 x
    rw [hu] at this
    simpa [hc.ne'] using this
  · funext x
    have := congrFun h0 x
    rw [hv] at this
    simpa [hd.ne'] using this
  · rw [eu, ev, cosine_smul_left hc.ne', cosine_comm, cosine_smul_left hd.ne', cosine_comm]
    exact h3

/-- C38 (part): in a cubic-shaped cell (`L Lᵀ` a multiple of the identity) the basis vectors
added by one `add_dof` call are mutually orthogonal within tolerance; together with `C37`
the supplied displacement is orthogonal to all earlier ones.  Missing: lattices of other
shapes (false, `C38_counterexample`) and symmetry images of the supplied displacement
against basis vectors of earlier calls. -/
theorem C38_mutually_orthogonal_partial (spline : SplineFn) (we : Bool) (m : IModel N)
    (cart : Pos N ℝ) (amps : List ℝ) (pols : List (Mat3 ℝ)) (order : ℤ) (inc : Bool)
    (c : ℝ) (hc : 0 < c) (hL : m.ref.lattice * m.ref.lattice.transpose = c • 1) (o : Outcome N)
    (ho : o = m.addDof spline we cart amps pols order inc) (hok : o.result = .ok ()) :
    ∃ bs, o.state.basis = m.basis ++ bs ∧
      bs.Pairwise fun b b' => Orthogonal (flatten b) (flatten b') := by
  obtain ⟨parent, recs, fs, _, _, _, _, h5, _, _, _, h9⟩ :=
    addDofNan_facts spline we m (some cart) amps pols order inc o ho hok
  refine ⟨recs.map Prod.fst, by rw [h5], ?_⟩
  rcases h9 with rfl | ⟨p, groups, _, hg, hF⟩
  · simp
  obtain ⟨done, orth, hI, _, _⟩ := getEq_some _ _ _ hg
  have hbox := getEq_box _ _ _ hg
  rw [List.pairwise_map, List.pairwise_iff_getElem]
  intro i j hi hj hij
  have hlen := hF.length_eq
  have hi' : i < groups.length := by omega
  have hj' : j < groups.length := by omega
  have gi := (List.forall₂_iff_get.1 hF).2 i hi' hi
  have gj := (List.forall₂_iff_get.1 hF).2 j hj' hj
  simp only [List.get_eq_getElem] at gi gj
  obtain ⟨ci, ri, e1, e2⟩ := gi.basis
  obtain ⟨cj, rj, f1, f2⟩ := gj.basis
  have hlo : groups.length = orth.length := by
    have := congrArg List.length hI.heads; simpa using this
  have hhead : ∀ k (hk : k < groups.length) c r, groups[k].displacements = c :: r →
      orth[k]'(by omega) = c := by
    intro k hk c r h
    have h1 := hI.heads
    have h2 := congrArg (fun l => l[k]?) h1
    simp only [List.getElem?_map, List.getElem?_eq_getElem hk,
      List.getElem?_eq_getElem (show k < orth.length by omega), Option.map_some, h,
      List.head?_cons, Option.some.injEq] at h2
    exact h2.symm
  have ho := List.pairwise_iff_getElem.1 hI.orth i j (by dsimp only; omega) (by dsimp only; omega) hij
  dsimp only at ho
  rw [hhead i hi' ci ri e1, hhead j hj' cj rj f1] at ho
  have hci : ∀ a i, InHalfBox (ci a i) := hbox _ (List.getElem_mem hi') ci (by rw [e1]; simp)
  have hcj : ∀ a i, InHalfBox (cj a i) := hbox _ (List.getElem_mem hj') cj (by rw [f1]; simp)
  rw [getCart_of_box _ _ hci] at e2
  rw [getCart_of_box _ _ hcj] at f2
  obtain ⟨ni, _, si, psi, hsi⟩ := normalizePos_some _ _ e2
  obtain ⟨nj, _, sj, psj, hsj⟩ := normalizePos_some _ _ f2
  refine orthogonal_smul psi psj (fun x => hsi x.1 x.2) (fun x => hsj x.1 x.2)
    (u := flatten (toCart m.ref.lattice ci)) (v := flatten (toCart m.ref.lattice cj))
    ⟨flat_ne_zero ni, flat_ne_zero nj, ?_⟩
  rw [cosine_toCart hc hL]
  exact ho.2.2

/-! ### Hexagonal counterexample -/

/-- A hexagonal lattice (rows are lattice vectors, 120° apart). -/
noncomputable def hexLattice : Mat3 ℝ := !![1, 0, 0; -1 / 2, Real.sqrt 3 / 2, 0; 0, 0, 1]

/-- Threefold rotation in fractional coordinates: a₁ ↦ a₂ ↦ -a₁-a₂. -/
def hexRot : Mat3 ℝ := !![0, 1, 0; -1, -1, 0; 0, 0, 1]

/-- Its square. -/
def hexRot2 : Mat3 ℝ := !![-1, -1, 0; 1, 0, 0; 0, 0, 1]

def hexOps : List SymOp := [⟨1, 0⟩, ⟨hexRot, 0⟩, ⟨hexRot2, 0⟩]

/-- An (oracle for an) spglib answer: the three rotations about the c axis. -/
def hexSpglib : Mat3 ℝ → Pos 1 ℝ → (Fin 1 → ℕ) → Option SymDict :=
  fun _ _ _ => some ⟨hexOps, [0]⟩

theorem hex_group : hexRot * hexRot = hexRot2 ∧ hexRot * hexRot2 = 1 := by
  constructor
  · ext i j; fin_cases i <;> fin_cases j <;> simp [hexRot, hexRot2, Matrix.mul_apply, Fin.sum_univ_three]
  · ext i j; fin_cases i <;> fin_cases j <;> simp [hexRot, hexRot2, Matrix.mul_apply, Fin.sum_univ_three]

theorem hex_integer : ∀ op ∈ hexOps, IntegerMatrix op.rot ∧ op.trans = 0 := by
  intro op hop
  simp only [hexOps, List.mem_cons, List.not_mem_nil, or_false] at hop
  rcases hop with rfl | rfl | rfl
  · exact ⟨(idOp_sym (fun (_ : Fin 1) _ => (0 : ℝ))).1, rfl⟩
  · refine ⟨⟨!![0, 1, 0; -1, -1, 0; 0, 0, 1], ?_⟩, rfl⟩
    intro i j
    fin_cases i <;> fin_cases j <;> simp [hexRot]
  · refine ⟨⟨!![-1, -1, 0; 1, 0, 0; 0, 0, 1], ?_⟩, rfl⟩
    intro i j
    fin_cases i <;> fin_cases j <;> simp [hexRot2]

theorem hex_sym (op : SymOp) (hop : op ∈ hexOps) :
    IsSymmetry (fun (_ : Fin 1) _ => (0 : ℝ)) op.rot op.trans (Equiv.refl _) := by
  obtain ⟨h1, h2⟩ := hex_integer op hop
  refine ⟨h1, fun a j => ⟨0, ?_⟩⟩
  rw [h2]; simp

theorem hexInit (nums : Fin 1 → ℕ) : ∃ s,
    RefStructure.init hexSpglib nums hexLattice (fun _ _ => 0) = .ok s ∧ s.ops = hexOps := by
  have hz : ∀ (a : Fin 1) (i : Fin 3), InClosedCell ((fun _ _ => 0 : Pos 1 ℝ) a i) :=
    fun _ _ => by norm_num [InClosedCell]
  obtain ⟨P, hP, _⟩ := C12_entry (fun _ _ => 0 : Pos 1 ℝ) ⟨1, 0⟩
    (hex_integer _ (by simp [hexOps])).1 hz
  obtain ⟨Q, hQ, _⟩ := C12_entry (fun _ _ => 0 : Pos 1 ℝ) ⟨hexRot, 0⟩
    (hex_integer _ (by simp [hexOps])).1 hz
  obtain ⟨T, hT, _⟩ := C12_entry (fun _ _ => 0 : Pos 1 ℝ) ⟨hexRot2, 0⟩
    (hex_integer _ (by simp [hexOps])).1 hz
  refine ⟨⟨nums, hexLattice, fun _ _ => 0, hexOps, [P, Q, T], [0]⟩, ?_, rfl⟩
  unfold RefStructure.init hexSpglib computePermutationMatrices hexOps
  simp only [List.mapM_cons, hP, hQ, hT, List.mapM_nil]
  rfl

theorem hex_det : hexLattice.det ≠ 0 := by
  have h3 : Real.sqrt 3 ≠ 0 := by positivity
  simp [hexLattice, Matrix.det_fin_three, h3]

/-- The three images. -/
noncomputable def hexImg (k : Fin 3) : Pos 1 ℝ :=
  fun _ => ![![1 / 10, 0, 0], ![0, 1 / 10, 0], ![-1 / 10, -1 / 10, 0]] k

theorem hex_candidate (P : PermMat 1) (op : SymOp) (hop : op ∈ hexOps)
    (hP : permMatrixOf (comShift fun (_ : Fin 1) _ => (0 : ℝ)) (fun _ _ => 0) op = .ok P)
    (k : Fin 3) (hk : ∀ j, ∑ i, hexImg 0 0 i * op.rot i j = hexImg k 0 j) :
    candidate (fun _ _ => 0) (displacePositions (fun _ _ => 0) (hexImg 0)) op P
      = .ok (hexImg k) := by
  obtain ⟨c, hc, hcc⟩ := C13_candidate (fun (_ : Fin 1) _ => (0 : ℝ)) (hexImg 0) op P
    (Equiv.refl _) (one_apart _) (hex_sym op hop) hP
  rw [hc]
  congr 1
  funext a j
  have h := hcc a j
  rw [Equiv.refl_apply] at h
  have ha : a = 0 := Subsingleton.elim _ _
  subst ha
  rw [hk j] at h
  refine (h.2.eq_of_inHalfBox ?_ h.1).symm
  fin_cases k <;> fin_cases j <;> norm_num [hexImg, InHalfBox]

theorem hex_ne (k : Fin 3) : flat (hexImg k) ≠ 0 := by
  intro h
  fin_cases k
  · have := congrFun h (0, 0); norm_num [flat, hexImg] at this
  · have := congrFun h (0, 1); norm_num [flat, hexImg] at this
  · have := congrFun h (0, 0); norm_num [flat, hexImg] at this

theorem hex_cos : cosine (flat (hexImg 1)) (flat (hexImg 0)) = 0 ∧
    |cosine (flat (hexImg 2)) (flat (hexImg 0))| = Real.sqrt 2 / 2 ∧
    |cosine (flat (hexImg 2)) (flat (hexImg 1))| = Real.sqrt 2 / 2 := by
  have n0 : Real.sqrt (∑ x, flat (hexImg 0) x ^ 2) = 1 / 10 := by
    rw [show ∑ x, flat (hexImg 0) x ^ 2 = (1 / 10) ^ 2 by
      simp [flat, hexImg, Fintype.sum_prod_type, Fin.sum_univ_three], Real.sqrt_sq (by norm_num)]
  have n1 : Real.sqrt (∑ x, flat (hexImg 1) x ^ 2) = 1 / 10 := by
    rw [show ∑ x, flat (hexImg 1) x ^ 2 = (1 / 10) ^ 2 by
      simp [flat, hexImg, Fintype.sum_prod_type, Fin.sum_univ_three], Real.sqrt_sq (by norm_num)]
  have n2 : Real.sqrt (∑ x, flat (hexImg 2) x ^ 2) = Real.sqrt 2 * (1 / 10) := by
    rw [show ∑ x, flat (hexImg 2) x ^ 2 = 2 * (1 / 10) ^ 2 by
      simp [flat, hexImg, Fintype.sum_prod_type, Fin.sum_univ_three]; norm_num,
      Real.sqrt_mul (by norm_num), Real.sqrt_sq (by norm_num)]
  have hp2 : 0 < Real.sqrt 2 := by positivity
  have hs2 : Real.sqrt 2 ^ 2 = 2 := Real.sq_sqrt (by norm_num)
  refine ⟨?_, ?_, ?_⟩
  · simp [cosine, flat, hexImg, Fintype.sum_prod_type, Fin.sum_univ_three]
  · have : cosine (flat (hexImg 2)) (flat (hexImg 0)) = -(Real.sqrt 2 / 2) := by
      unfold cosine
      rw [n0, n2, show ∑ i, flat (hexImg 2) i * flat (hexImg 0) i = -1 / 100 by
        simp [flat, hexImg, Fintype.sum_prod_type, Fin.sum_univ_three]; norm_num]
      field_simp
      linarith
    rw [this, abs_neg, abs_of_pos (by positivity)]
  · have : cosine (flat (hexImg 2)) (flat (hexImg 1)) = -(Real.sqrt 2 / 2) := by
      unfold cosine
      rw [n1, n2, show ∑ i, flat (hexImg 2) i * flat (hexImg 1) i = -1 / 100 by
        simp [flat, hexImg, Fintype.sum_prod_type, Fin.sum_univ_three]; norm_num]
      field_simp
      linarith
    rw [this, abs_neg, abs_of_pos (by positivity)]

theorem hex_groups (nums : Fin 1 → ℕ) (s : RefStructure 1)
    (hs : RefStructure.init hexSpglib nums hexLattice (fun _ _ => 0) = .ok s)
    (hops : s.ops = hexOps) (w : Pos 1 ℝ) (hw : scaleDisplacement w = some (hexImg 0)) :
    s.getEquivalentDisplacements w
      = .ok (some [⟨[hexImg 0], [⟨1, 0⟩]⟩, ⟨[hexImg 1], [⟨hexRot, 0⟩]⟩]) := by
  obtain ⟨hpos, hlat, hperm⟩ := init_facts hs
  rw [hops] at hperm
  unfold hexOps at hperm
  obtain ⟨P, Ps, hP, hperm, e1⟩ := List.forall₂_cons_left_iff.1 hperm
  obtain ⟨Q, Qs, hQ, hperm, e2⟩ := List.forall₂_cons_left_iff.1 hperm
  obtain ⟨T, Ts, hT, hperm, e3⟩ := List.forall₂_cons_left_iff.1 hperm
  cases hperm
  subst e3; subst e2
  unfold RefStructure.getEquivalentDisplacements
  rw [hw]
  dsimp only
  rw [hops, e1, hpos]
  unfold hexOps
  have c0 := hex_candidate P ⟨1, 0⟩ (by simp [hexOps]) hP 0 (fun j => by
    fin_cases j <;> simp [hexImg, Matrix.one_apply])
  have c1 := hex_candidate Q ⟨hexRot, 0⟩ (by simp [hexOps]) hQ 1 (fun j => by
    fin_cases j <;> simp [hexImg, hexRot, Fin.sum_univ_three])
  have c2 := hex_candidate T ⟨hexRot2, 0⟩ (by simp [hexOps]) hT 2 (fun j => by
    fin_cases j <;> simp [hexImg, hexRot2, Fin.sum_univ_three] <;> norm_num)
  have s2 : Real.sqrt 2 < 1.42 := by
    rw [Real.sqrt_lt' (by norm_num)]; norm_num
  have s2' : 1.41 < Real.sqrt 2 := by
    rw [Real.lt_sqrt (by norm_num)]; norm_num
  obtain ⟨k1, k2, k3⟩ := hex_cos
  have i0 : eqInsert (⟨[], []⟩ : EqState 1) ⟨1, 0⟩ (hexImg 0)
      = ⟨[⟨[hexImg 0], [⟨1, 0⟩]⟩], [hexImg 0]⟩ := by
    unfold eqInsert isOrthogonalToAll
    simp [firstIndexFrom]
  have i1 : eqInsert (⟨[⟨[hexImg 0], [⟨1, 0⟩]⟩], [hexImg 0]⟩ : EqState 1) ⟨hexRot, 0⟩ (hexImg 1)
      = ⟨[⟨[hexImg 0], [⟨1, 0⟩]⟩, ⟨[hexImg 1], [⟨hexRot, 0⟩]⟩], [hexImg 0, hexImg 1]⟩ := by
    unfold eqInsert
    rw [if_pos]
    · rfl
    · rw [C08_all_orthogonal]
      intro v hv
      simp only [List.map_cons, List.map_nil, List.mem_singleton] at hv
      subst hv
      exact ⟨hex_ne _, hex_ne _, by rw [k1]; norm_num [angTol]⟩
  have i2 : eqInsert (⟨[⟨[hexImg 0], [⟨1, 0⟩]⟩, ⟨[hexImg 1], [⟨hexRot, 0⟩]⟩],
      [hexImg 0, hexImg 1]⟩ : EqState 1) ⟨hexRot2, 0⟩ (hexImg 2)
      = ⟨[⟨[hexImg 0], [⟨1, 0⟩]⟩, ⟨[hexImg 1], [⟨hexRot, 0⟩]⟩], [hexImg 0, hexImg 1]⟩ := by
    unfold eqInsert
    rw [if_neg]
    · dsimp only
      rw [if_neg]
      rw [not_not, (C09_neg_one _ _).2]
      intro v hv
      simp only [List.map_cons, List.map_nil, List.mem_cons, List.not_mem_nil, or_false] at hv
      rintro ⟨_, _, h⟩
      rcases hv with rfl | rfl
      · rw [k2] at h; norm_num [angTol] at h; linarith
      · rw [k3] at h; norm_num [angTol] at h; linarith
    · rw [C08_all_orthogonal]
      intro h
      have := (h (flat (hexImg 0)) (by simp)).2.2
      rw [k2] at this
      norm_num [angTol] at this
      linarith
  simp only [List.zip_cons_cons, List.zip_nil_left, eqLoop]
  rw [c0]
  change (do let c ← candidate _ _ _ _; _) >>= _ = _
  simp only [i0, c1]
  change (do let c ← candidate _ _ _ _; _) >>= _ = _
  simp only [i1, c2]
  change (pure _ >>= _ : Py _) = _
  rw [i2]
  rfl

/-- Building the interpolation of three points at 0, -1/10 and 1/10 succeeds silently. -/
theorem build_three (Y₀ Y₁ Y₂ : Mat3 ℝ) : ∃ f : ℝ → Mat3 ℝ,
    buildOne lookupSpline true 2 [(some 0, Y₀), (some (-1 / 10), Y₁), (some (1 / 10), Y₂)]
      = (.ok f, []) ∧ f 0 = Y₀ ∧ f (-1 / 10) = Y₁ ∧ f (1 / 10) = Y₂ ∧
    ∀ x, x ≠ 0 → x ≠ -1 / 10 → x ≠ 1 / 10 → f x = 0 := by
  have hd : hasDuplicates (([(some 0, Y₀), (some (-1 / 10), Y₁), (some (1 / 10), Y₂)] :
      List (Option ℝ × Mat3 ℝ)).map Prod.fst) = false := by
    have := (hasDuplicates_false [0, -1 / 10, 1 / 10]).2 (by
      simp [TooClose]; norm_num [abs_of_pos, abs_of_neg])
    exact this
  have hsort : [((0 : ℝ), Y₀), (-1 / 10, Y₁), (1 / 10, Y₂)].insertionSort (fun a b => a.1 ≤ b.1)
      = [(-1 / 10, Y₁), (0, Y₀), (1 / 10, Y₂)] := by
    norm_num [List.insertionSort, List.orderedInsert]
  have hw : dofWarnings [0, -1 / 10, 1 / 10] = [] := by
    rw [dofWarnings_eq _ (by simp)]
    unfold warnSpec
    rw [if_neg, if_neg]
    · rfl
    · intro h
      have := h (-1 / 10) (by simp)
      norm_num at this
    · intro h
      have := h (1 / 10) (by simp)
      norm_num at this
  have hb : buildOne lookupSpline true 2 [(some 0, Y₀), (some (-1 / 10), Y₁), (some (1 / 10), Y₂)]
      = (lookupSpline 2 [(-1 / 10, Y₁), (0, Y₀), (1 / 10, Y₂)], []) := by
    unfold buildOne
    rw [hd, if_neg (by simp), if_neg (by simp)]
    have hf : finitePts [(some 0, Y₀), (some (-1 / 10), Y₁), (some (1 / 10), Y₂)]
        = some [(0, Y₀), (-1 / 10, Y₁), (1 / 10, Y₂)] := rfl
    rw [hf]
    dsimp only
    have hm : ([((0 : ℝ), Y₀), (-1 / 10, Y₁), (1 / 10, Y₂)].map Prod.fst) = [0, -1 / 10, 1 / 10] :=
      rfl
    rw [hm, hw, hsort]
    rfl
  refine ⟨_, hb, ?_, ?_, ?_, ?_⟩
  · norm_num
  · norm_num
  · norm_num
  · intro x h1 h2 h3
    have h3' : (10 : ℝ)⁻¹ ≠ x := fun h => h3 (by rw [← h]; norm_num)
    simp [Ne.symm h1, Ne.symm h2, h3']

theorem hex_frac (s : RefStructure 1) (hL : s.lattice = hexLattice) :
    s.getFracDisplacement (fun _ => ![1 / 10, 0, 0]) = .ok (hexImg 0) := by
  unfold RefStructure.getFracDisplacement npInv
  rw [hL, if_neg hex_det]
  change Except.ok _ = Except.ok _
  congr 1
  have h : (fun _ => ![1 / 10, 0, 0] : Pos 1 ℝ) = matMulPos (hexImg 0) hexLattice := by
    funext a i
    fin_cases i <;> simp [matMulPos, hexImg, hexLattice, Fin.sum_univ_three]
  rw [h, matMulPos_inv_right hex_det]
  funext a i
  apply wrap1_of_inHalfBox
  fin_cases i <;> norm_num [hexImg, InHalfBox]

theorem hex_scale : scaleDisplacement (hexImg 0) = some (hexImg 0) := by
  have hb : applyPbcDisplacement (hexImg 0) = hexImg 0 := by
    funext a i
    apply wrap1_of_inHalfBox
    fin_cases i <;> norm_num [hexImg, InHalfBox]
  have hn : norm2 (flat (hexImg 0)) = 1 / 10 := by
    unfold norm2 dot
    rw [show ∑ i, flat (hexImg 0) i * flat (hexImg 0) i = (1 / 10) ^ 2 by
      simp [flat, hexImg, Fintype.sum_prod_type, Fin.sum_univ_three]; norm_num,
      Real.sqrt_sq (by norm_num)]
  unfold scaleDisplacement
  dsimp only
  rw [hb, hn, if_neg (by norm_num)]
  congr 1
  funext a i
  norm_num

/-- The two basis vectors. -/
noncomputable def hexBasis : List (Pos 1 ℝ) :=
  [fun _ => ![1, 0, 0], fun _ => ![-1 / 2, Real.sqrt 3 / 2, 0]]

theorem hex_normalize (s : RefStructure 1) (hL : s.lattice = hexLattice) :
    normalizePos (s.getCartDisplacement (hexImg 0)) = some (fun _ => ![1, 0, 0]) ∧
    normalizePos (s.getCartDisplacement (hexImg 1))
      = some (fun _ => ![-1 / 2, Real.sqrt 3 / 2, 0]) := by
  have h3 : Real.sqrt 3 ^ 2 = 3 := Real.sq_sqrt (by norm_num)
  have key : ∀ (v b : Pos 1 ℝ), (∀ a i, v a i = 1 / 10 * b a i) → inner3 b b = 1 →
      normalizePos v = some b := by
    intro v b hv hb
    have hn : norm2 (flat v) = 1 / 10 := by
      have : flat v = fun x => 1 / 10 * flat b x := by funext x; exact hv x.1 x.2
      rw [this, norm2_smul]
      have h1 : norm2 (flat b) = 1 := by
        unfold norm2
        have : dot (flat b) (flat b) = inner3 b b := by
          rw [dot, Fintype.sum_prod_type]; rfl
        rw [this, hb, Real.sqrt_one]
      rw [h1]; norm_num
    unfold normalizePos
    rw [hn, if_neg (by norm_num)]
    congr 1
    funext a i
    rw [hv]; ring
  constructor
  · rw [getCart_of_box _ _ fun a i => by fin_cases i <;> norm_num [hexImg, InHalfBox]]
    apply key
    · intro a i
      rw [hL]
      fin_cases i <;> simp [toCart, hexImg, hexLattice, Fin.sum_univ_three]
    · simp [inner3, Fin.sum_univ_three]
  · rw [getCart_of_box _ _ fun a i => by fin_cases i <;> norm_num [hexImg, InHalfBox]]
    apply key
    · intro a i
      rw [hL]
      fin_cases i <;> simp [toCart, hexImg, hexLattice, Fin.sum_univ_three]
    · simp [inner3, Fin.sum_univ_three]
      nlinarith

theorem hexRot_inv : hexRot⁻¹ = hexRot2 := Matrix.inv_eq_right_inv hex_group.2

theorem hexRot_det : hexRot.det ≠ 0 := by
  intro h
  have := congrArg Matrix.det hex_group.2
  rw [Matrix.det_mul, h] at this
  simp at this

/-- The operations are Cartesian isometries. -/
theorem hex_isometry (op : SymOp) (hop : op ∈ hexOps) :
    (hexLattice⁻¹ * op.rot * hexLattice) * (hexLattice⁻¹ * op.rot * hexLattice).transpose = 1 := by
  have hu : IsUnit hexLattice.det := isUnit_iff_ne_zero.2 hex_det
  have h3 : Real.sqrt 3 * Real.sqrt 3 = 3 := Real.mul_self_sqrt (by norm_num)
  have key : ∀ R Q : Mat3 ℝ, R * hexLattice = hexLattice * Q → Q * Q.transpose = 1 →
      (hexLattice⁻¹ * R * hexLattice) * (hexLattice⁻¹ * R * hexLattice).transpose = 1 := by
    intro R Q h hQ
    have : hexLattice⁻¹ * R * hexLattice = Q := by
      rw [Matrix.mul_assoc, h, Matrix.nonsing_inv_mul_cancel_left _ _ hu]
    rw [this, hQ]
  simp only [hexOps, List.mem_cons, List.not_mem_nil, or_false] at hop
  rcases hop with rfl | rfl | rfl
  · exact key 1 1 (by simp) (by simp)
  · refine key _ !![-1 / 2, Real.sqrt 3 / 2, 0; -(Real.sqrt 3) / 2, -1 / 2, 0; 0, 0, 1] ?_ ?_
    · ext i j
      fin_cases i <;> fin_cases j <;>
        simp [hexRot, hexLattice, Matrix.mul_apply, Fin.sum_univ_three] <;> nlinarith
    · ext i j
      fin_cases i <;> fin_cases j <;>
        simp [Matrix.mul_apply, Fin.sum_univ_three] <;> nlinarith
  · refine key _ !![-1 / 2, -(Real.sqrt 3) / 2, 0; Real.sqrt 3 / 2, -1 / 2, 0; 0, 0, 1] ?_ ?_
    · ext i j
      fin_cases i <;> fin_cases j <;>
        simp [hexRot2, hexLattice, Matrix.mul_apply, Fin.sum_univ_three] <;> nlinarith
    · ext i j
      fin_cases i <;> fin_cases j <;>
        simp [Matrix.mul_apply, Fin.sum_univ_three] <;> nlinarith

/-- `add_dof` in the hexagonal structure. -/
theorem hex_add (nums : Fin 1 → ℕ) (s : RefStructure 1)
    (hs : RefStructure.init hexSpglib nums hexLattice (fun _ _ => 0) = .ok s)
    (hops : s.ops = hexOps) (pol A B : Mat3 ℝ) : ∃ f g : ℝ → Mat3 ℝ,
    (IModel.init s pol false).addDof lookupSpline true (fun _ => ![1 / 10, 0, 0])
      [-1 / 10, 1 / 10] [A, B] 2 true
      = ⟨.ok (), [], { IModel.init s pol false with
          basis := hexBasis, interps := [f, g], mask := [false, false] }⟩ ∧
    f (-1 / 20) = 0 ∧ g (1 / 10) = hexRot2 * (B - pol) * hexRot := by
  obtain ⟨hpos, hlat, _⟩ := init_facts hs
  obtain ⟨hn1, hn2⟩ := hex_normalize s hlat
  have hne : (hexImg 0) ≠ 0 := fun h => hex_ne 0 (by rw [h]; rfl)
  have hne1 : (hexImg 1) ≠ 0 := fun h => hex_ne 1 (by rw [h]; rfl)
  obtain ⟨p, c, hc, h1, _, h3, _, _⟩ := (parent_facts (IModel.init s pol false) _ _
    (hex_frac s hlat)).2 hne
  have hgr := hex_groups nums s hs hops _ hex_scale
  obtain ⟨f, hf, _, _, _, hf0⟩ := build_three 0
    ((1 : Mat3 ℝ)⁻¹ * (A - pol) * (1 : Mat3 ℝ)) ((1 : Mat3 ℝ)⁻¹ * (B - pol) * (1 : Mat3 ℝ))
  obtain ⟨g, hg, _, _, hg2, _⟩ := build_three 0
    (hexRot⁻¹ * (A - pol) * hexRot) (hexRot⁻¹ * (B - pol) * hexRot)
  refine ⟨f, g, ?_, hf0 _ (by norm_num) (by norm_num) (by norm_num), by rw [hg2, hexRot_inv]⟩
  unfold IModel.addDof IModel.addDofNan
  rw [prepareDof_eq _ _ _ _ _ _ h1 (by simp [usedPols, IModel.init]),
    getDof_eq _ _ _ _ _ _ (by rfl) (by rw [h3]; exact hgr)]
  have hu : usedPols (IModel.init s pol false) [-1 / 10, 1 / 10] [A, B] = [A, B] := rfl
  have hr : (IModel.init s pol false).ref = s := rfl
  have hrp : (IModel.init s pol false).refPol = pol := rfl
  have d1 := dofGroup_eq (IModel.init s pol false) [-1 / 10, 1 / 10] [A, B] true
    ⟨[hexImg 0], [⟨1, 0⟩]⟩ (hexImg 0) [] rfl (by simp)
  have d2 := dofGroup_eq (IModel.init s pol false) [-1 / 10, 1 / 10] [A, B] true
    ⟨[hexImg 1], [⟨hexRot, 0⟩]⟩ (hexImg 1) [] rfl (by simpa using hexRot_det)
  simp only [List.zip_cons_cons, List.zip_nil_left, List.flatMap_cons, List.flatMap_nil,
    List.append_nil, multiplier_self _ hne, multiplier_self _ hne1, hr, hrp, hn1, hn2,
    List.map_cons, List.map_nil, imagePoint, refPoint, Option.map_some, one_mul, if_true,
    List.singleton_append] at d1 d2
  rw [hu, List.mapM_cons, d1, List.mapM_cons, d2]
  change constructAndAdd _ _ _ [_, _] _ = _
  unfold constructAndAdd
  rw [if_neg (by norm_num)]
  have h2 : (2 : ℤ).toNat = 2 := rfl
  simp only [buildAll, h2, hf, hg]
  rfl

/-- C38, counterexample: in a hexagonal cell one `add_dof` call on a fresh model succeeds
and adds two basis vectors at an angle of 120°. -/
theorem C38_counterexample (nums : Fin 1 → ℕ) (pol A B : Mat3 ℝ) :
    ∃ (s : RefStructure 1) (m : IModel 1) (b₁ b₂ : Pos 1 ℝ),
      RefStructure.init hexSpglib nums hexLattice (fun _ _ => 0) = .ok s ∧
      (∀ op ∈ s.ops, IsSymmetry s.positions op.rot op.trans (Equiv.refl _) ∧
        (s.lattice⁻¹ * op.rot * s.lattice) * (s.lattice⁻¹ * op.rot * s.lattice).transpose = 1) ∧
      ((IModel.init s pol false).addDof lookupSpline true (fun _ => ![1 / 10, 0, 0])
        [-1 / 10, 1 / 10] [A, B] 2 true).result = .ok () ∧
      m = ((IModel.init s pol false).addDof lookupSpline true (fun _ => ![1 / 10, 0, 0])
        [-1 / 10, 1 / 10] [A, B] 2 true).state ∧ Reachable lookupSpline m ∧
      m.basis = [b₁, b₂] ∧ inner3 b₁ b₁ = 1 ∧ inner3 b₂ b₂ = 1 ∧ inner3 b₁ b₂ = -1 / 2 := by
  obtain ⟨s, hs, hops⟩ := hexInit nums
  obtain ⟨hpos, hlat, _⟩ := init_facts hs
  obtain ⟨f, g, h, _, _⟩ := hex_add nums s hs hops pol A B
  have h3 : Real.sqrt 3 ^ 2 = 3 := Real.sq_sqrt (by norm_num)
  refine ⟨s, _, fun _ => ![1, 0, 0], fun _ => ![-1 / 2, Real.sqrt 3 / 2, 0], hs, ?_, by rw [h], rfl,
    Reachable.addDof _ _ _ _ _ _ (Reachable.init _ _ _), by rw [h]; rfl, ?_, ?_, ?_⟩
  · intro op hop
    rw [hops] at hop
    refine ⟨by rw [hpos]; exact hex_sym op hop, ?_⟩
    rw [hlat]
    exact hex_isometry op hop
  · simp [inner3, Fin.sum_univ_three]
  · simp [inner3, Fin.sum_univ_three]; nlinarith
  · simp [inner3, Fin.sum_univ_three]

/-! ## C40 -/

theorem physical_rotation {L R Q : Mat3 ℝ} (A : Mat3 ℝ) (hQ : Q = L⁻¹ * R * L) (hdet : L.det ≠ 0)
    (hcomm : L * R = R * L) (hiso : Q.transpose * Q = 1) :
    R⁻¹ * A * R = Q.transpose * A * Q := by
  have hu : IsUnit L.det := isUnit_iff_ne_zero.2 hdet
  have hQR : Q = R := by
    rw [hQ, Matrix.mul_assoc, ← hcomm, Matrix.nonsing_inv_mul_cancel_left _ _ hu]
  have hR : R⁻¹ = Q.transpose := by
    rw [hQR] at hiso
    rw [hQR]
    exact Matrix.inv_eq_left_inv hiso
  rw [hR, hQR]

/-- C40 (part): if every operation of the structure commutes with the lattice (as for cubic
axes) and is a Cartesian isometry, then after a successful `add_dof` the polarizability
changes interpolated are physically rotated tensors `Qᵀ ΔA Q`, with `Q = L⁻¹ R L` the
Cartesian version of an operation `R` of the structure.  For other lattices the claim is
false, see `C40_counterexample`. -/
theorem C40_rotation_partial (spline : SplineFn) (we : Bool) (m : IModel N) (cart : Pos N ℝ)
    (amps : List ℝ) (pols : List (Mat3 ℝ)) (order : ℤ) (inc : Bool) (o : Outcome N)
    (ho : o = m.addDof spline we cart amps pols order inc) (hok : o.result = .ok ())
    (hd : m.dummy = false) (hdet : m.ref.lattice.det ≠ 0)
    (hcomm : ∀ op ∈ m.ref.ops, m.ref.lattice * op.rot = op.rot * m.ref.lattice)
    (hiso : ∀ op ∈ m.ref.ops, (m.ref.lattice⁻¹ * op.rot * m.ref.lattice).transpose *
      (m.ref.lattice⁻¹ * op.rot * m.ref.lattice) = 1) :
    ∃ (pairs : List (List (ℝ × Mat3 ℝ))) (fs : List (ℝ → Mat3 ℝ)),
      o.state.interps = m.interps ++ fs ∧
      List.Forall₂ (fun l f => ∃ sorted, sorted.Perm l ∧ SplineReady order.toNat sorted ∧
        spline order.toNat sorted = .ok f) pairs fs ∧
      ∀ l ∈ pairs, ∃ imgs : List (ℝ × Mat3 ℝ),
        (∀ x ∈ imgs, ∃ op ∈ m.ref.ops, x.2 = m.ref.lattice⁻¹ * op.rot * m.ref.lattice) ∧
        l = (if inc then [(0, 0)] else []) ++
          imgs.flatMap (fun x => (amps.zip pols).map fun y =>
            (x.1 * y.1, x.2.transpose * (y.2 - m.refPol) * x.2)) := by
  obtain ⟨pairs, fs, h1, h2, h3⟩ := C33_knots spline we m cart amps pols order inc o ho hok hd
  refine ⟨pairs, fs, h1, h2, fun l hl => ?_⟩
  obtain ⟨op, imgs, hop, himgs, rfl⟩ := h3 l hl
  refine ⟨((1, op) :: imgs).map fun x => (x.1, m.ref.lattice⁻¹ * x.2.rot * m.ref.lattice), ?_, ?_⟩
  · intro x hx
    obtain ⟨y, hy, rfl⟩ := List.mem_map.1 hx
    rcases List.mem_cons.1 hy with rfl | hy
    · exact ⟨op, hop, rfl⟩
    · exact ⟨y.2, himgs y hy, rfl⟩
  · rw [List.append_assoc]
    congr 1
    rw [List.flatMap_map, List.flatMap_cons]
    congr 1
    · refine List.map_congr_left fun y _ => ?_
      dsimp only
      rw [one_mul, physical_rotation _ rfl hdet (hcomm op hop) (hiso op hop)]
    · rw [List.flatMap_def, List.flatMap_def]
      congr 1
      refine List.map_congr_left fun x hx => List.map_congr_left fun y _ => ?_
      rw [physical_rotation _ rfl hdet (hcomm _ (himgs x hx)) (hiso _ (himgs x hx))]

/-- C40, non-trivial: a fourfold rotation in a cubic cell commutes with the lattice and is an
isometry, and it does rotate tensors. -/
example : ∃ (L R A : Mat3 ℝ), L.det ≠ 0 ∧ L * R = R * L ∧
    (L⁻¹ * R * L).transpose * (L⁻¹ * R * L) = 1 ∧ R⁻¹ * A * R ≠ A := by
  refine ⟨1, !![0, 1, 0; -1, 0, 0; 0, 0, 1], !![1, 0, 0; 0, 0, 0; 0, 0, 0], by simp, by simp, ?_, ?_⟩
  · simp only [inv_one, one_mul, mul_one]
    ext i j
    fin_cases i <;> fin_cases j <;> simp [Matrix.mul_apply, Fin.sum_univ_three]
  · have hinv : (!![0, 1, 0; -1, 0, 0; 0, 0, 1] : Mat3 ℝ)⁻¹ = !![0, -1, 0; 1, 0, 0; 0, 0, 1] := by
      apply Matrix.inv_eq_right_inv
      ext i j
      fin_cases i <;> fin_cases j <;> simp [Matrix.mul_apply, Fin.sum_univ_three]
    rw [hinv]
    intro h
    have := congrFun (congrFun h 0) 0
    simp [Matrix.mul_apply, Fin.sum_univ_three] at this

/-- C40, counterexample: in a hexagonal cell whose operations are symmetries and Cartesian
isometries, with symmetric input polarizabilities, the model built by one `add_dof` call
returns a tensor that is not symmetric (so it is not `Qᵀ A Q` for any `Q`). -/
theorem C40_counterexample (nums : Fin 1 → ℕ) :
    ∃ (s : RefStructure 1) (A T : Mat3 ℝ) (o : Outcome 1),
      RefStructure.init hexSpglib nums hexLattice (fun _ _ => 0) = .ok s ∧
      (∀ op ∈ s.ops, IsSymmetry s.positions op.rot op.trans (Equiv.refl _) ∧
        (s.lattice⁻¹ * op.rot * s.lattice) * (s.lattice⁻¹ * op.rot * s.lattice).transpose = 1) ∧
      A.transpose = A ∧
      o = (IModel.init s 0 false).addDof lookupSpline true (fun _ => ![1 / 10, 0, 0])
        [-1 / 10, 1 / 10] [A, A] 2 true ∧ o.result = .ok () ∧
      o.state.calcPolarizabilities [fun _ => ![0, 1 / 10, 0]] = .ok [T] ∧
      T.transpose ≠ T ∧ ∀ Q : Mat3 ℝ, T ≠ Q.transpose * A * Q := by
  obtain ⟨s, hs, hops⟩ := hexInit nums
  obtain ⟨hpos, hlat, _⟩ := init_facts hs
  have hA : (!![1, 0, 0; 0, 0, 0; 0, 0, 0] : Mat3 ℝ).transpose = !![1, 0, 0; 0, 0, 0; 0, 0, 0] := by
    ext i j; fin_cases i <;> fin_cases j <;> rfl
  obtain ⟨f, g, h, hf, hg⟩ := hex_add nums s hs hops 0 !![1, 0, 0; 0, 0, 0; 0, 0, 0]
    !![1, 0, 0; 0, 0, 0; 0, 0, 0]
  have hT : (hexRot2 * (!![1, 0, 0; 0, 0, 0; 0, 0, 0] - 0) * hexRot).transpose
      ≠ hexRot2 * (!![1, 0, 0; 0, 0, 0; 0, 0, 0] - 0) * hexRot := by
    intro h
    have := congrFun (congrFun h 0) 1
    simp [hexRot, hexRot2, Matrix.mul_apply, Fin.sum_univ_three] at this
  have h3 : Real.sqrt 3 * Real.sqrt 3 = 3 := Real.mul_self_sqrt (by norm_num)
  refine ⟨s, !![1, 0, 0; 0, 0, 0; 0, 0, 0], _, _, hs, ?_, hA, rfl, by rw [h], ?_, hT, fun Q hQ => ?_⟩
  · intro op hop
    rw [hops] at hop
    refine ⟨by rw [hpos]; exact hex_sym op hop, ?_⟩
    rw [hlat]
    exact hex_isometry op hop
  · rw [h, calc_ok _ rfl rfl]
    congr 2
    unfold valueAt
    dsimp only
    have hn : calcDisplacement s.positions (fun _ => ![0, 1 / 10, 0]) = hexImg 1 := by
      refine (calcDisplacement_nearest _ _).unique fun a i => ⟨?_, ?_⟩
      · fin_cases i <;> norm_num [hexImg, InHalfBox]
      · rw [hpos]; exact ⟨0, by fin_cases i <;> simp [hexImg]⟩
    have hr : (IModel.init s 0 false).ref = s := rfl
    have hrp : (IModel.init s 0 false).refPol = 0 := rfl
    rw [hr, List.map_cons, List.map_nil, hn, hlat, hrp]
    congr 1
    have i1 : inner3 (fun _ => ![1, 0, 0]) (toCart hexLattice (hexImg 1)) = -1 / 20 := by
      simp [inner3, toCart, hexImg, hexLattice, Fin.sum_univ_three]; norm_num
    have i2 : inner3 (fun _ => ![-1 / 2, Real.sqrt 3 / 2, 0]) (toCart hexLattice (hexImg 1))
        = 1 / 10 := by
      simp [inner3, toCart, hexImg, hexLattice, Fin.sum_univ_three]; nlinarith
    unfold expansion hexBasis
    simp only [List.zip_cons_cons, List.zip_nil_left, List.map_cons, List.map_nil, List.sum_cons,
      List.sum_nil, i1, i2, hf, hg]
    simp
  · apply hT
    rw [hQ]
    simp only [Matrix.transpose_mul, Matrix.transpose_transpose, hA, Matrix.mul_assoc]

end Verif
