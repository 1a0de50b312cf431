import Verif.Proofs.InterpBuild
import Verif.Props.Reference

/-! Helper lemmas: what a successful `add_dof` adds. -/

namespace Verif
open Spec

variable {N : ℕ}

theorem getEq_some (s : RefStructure N) (d : Pos N ℝ) (groups : List (EqGroup N))
    (h : s.getEquivalentDisplacements d = .ok (some groups)) :
    ∃ done orth, EqInv done ⟨groups, orth⟩ ∧ (∀ x ∈ done, x.1 ∈ s.ops) ∧
      done.length ≤ s.ops.length := by
  unfold RefStructure.getEquivalentDisplacements at h
  split at h
  · split_ifs at h
    · cases h
      exact ⟨[], [], eqInv_empty, by simp, by simp⟩
    · cases h
  · rename_i e he
    obtain ⟨new, st, h1, h2, h3⟩ := eqLoop_inv s.positions e (s.ops.zip s.perms) [] ⟨[], []⟩ eqInv_empty
    dsimp only at h
    rw [h1] at h
    change Except.ok _ = Except.ok _ at h
    cases h
    refine ⟨new, st.orth, by simpa using h2, fun x hx => ?_, ?_⟩
    swap
    · rw [← h3.length_eq, List.length_zip]; omega
    obtain ⟨k, hk, rfl⟩ := List.mem_iff_getElem.1 hx
    have hl := h3.length_eq
    have := (List.forall₂_iff_get.1 h3).2 k (by omega) hk
    simp only [List.get_eq_getElem, List.getElem_zip] at this
    rw [← this.1]
    exact List.getElem_mem _

theorem finiteBasis_ok (gs : List (DofGroup N)) (bs : List (Pos N ℝ))
    (h : finiteBasis gs = .ok bs) : List.Forall₂ (fun g b => g.basis = some b) gs bs := by
  refine ((mapM_except_ok _ _ _).1 h).imp fun g b hb => ?_
  cases hg : g.basis with
  | none => rw [hg] at hb; cases hb
  | some b' => rw [hg] at hb; cases hb; rfl

/-- Points of one degree of freedom: the reference point and images of the supplied data. -/
noncomputable def dofPoints (refPol : Mat3 ℝ) (inc : Bool) (imgs : List (ℝ × SymOp))
    (data : List (ℝ × Mat3 ℝ)) : List (ℝ × Mat3 ℝ) :=
  (if inc then [(0, 0)] else []) ++ imgs.flatMap fun x => data.map fun y =>
    (x.1 * y.1, x.2.rot⁻¹ * (y.2 - refPol) * x.2.rot)

/-- What the code knows about a group that ends up as a degree of freedom. -/
structure GroupFacts (m : IModel N) (inc : Bool) (data : List (ℝ × Mat3 ℝ))
    (g : EqGroup N) (b : Pos N ℝ) (pts : List (ℝ × Mat3 ℝ)) : Prop where
  basis : ∃ child rest, g.displacements = child :: rest ∧
    normalizePos (m.ref.getCartDisplacement child) = some b
  mults : ∃ child rest op ops, g.displacements = child :: rest ∧ g.transformations = op :: ops ∧
    pts = dofPoints m.refPol inc
      ((1, op) :: (rest.zip ops).map fun x => ((multiplier child x.1).getD 0, x.2)) data
  pts : ∃ op imgs, (∀ x ∈ imgs, x.2 ∈ m.ref.ops) ∧ op ∈ m.ref.ops ∧
    g.transformations.head? = some op ∧ imgs.length + 1 = g.transformations.length ∧ pts = dofPoints m.refPol inc ((1, op) :: imgs) data

theorem getCart_of_box (s : RefStructure N) (w : Pos N ℝ) (h : ∀ a i, InHalfBox (w a i)) :
    s.getCartDisplacement w = toCart s.lattice w := by
  unfold RefStructure.getCartDisplacement
  have : applyPbcDisplacement w = w := by
    funext a i; exact wrap1_of_inHalfBox (h a i)
  rw [this]; rfl

theorem frac_ok (s : RefStructure N) (cart w : Pos N ℝ) (hw : s.getFracDisplacement cart = .ok w) :
    s.lattice.det ≠ 0 ∧ (∀ a i, InHalfBox (w a i)) ∧
    ∀ a j, SameImage (∑ i, cart a i * s.lattice⁻¹ i j) (w a j) := by
  unfold RefStructure.getFracDisplacement npInv at hw
  by_cases h : s.lattice.det = 0
  · rw [if_pos h] at hw; cases hw
  · rw [if_neg h] at hw
    change Except.ok _ = Except.ok _ at hw
    cases hw
    exact ⟨h, fun a i => wrap1_inHalfBox _, fun a i => wrap1_sameImage _⟩

theorem flat_ne_zero {w : Pos N ℝ} (h : w ≠ 0) : flat w ≠ 0 := fun h0 => h (by
  funext a i; exact congrFun h0 (a, i))

theorem box_of_norm {p : Pos N ℝ} (h : norm2 (flat p) ≤ 1 / 10) (a : Fin N) (i : Fin 3) :
    InHalfBox (p a i) := by
  have h1 : p a i ^ 2 ≤ dot (flat p) (flat p) := by
    have := Finset.single_le_sum (f := fun x => flat p x * flat p x)
      (fun x _ => mul_self_nonneg _) (Finset.mem_univ (a, i))
    simpa [flat, sq, dot] using this
  rw [← norm2_sq] at h1
  have h2 := abs_le_of_sq_le_sq' h1 (norm2_nonneg _)
  constructor <;> linarith [h2.1, h2.2]

/-- The parent displacement of `add_dof` is a rescaled version of the fractional displacement
and has the same equivalent displacements. -/
theorem parent_facts (m : IModel N) (cart w : Pos N ℝ)
    (hw : m.ref.getFracDisplacement cart = .ok w) :
    (w = 0 → parentDisplacement m (some cart) = .ok none) ∧
    (w ≠ 0 → ∃ p c, 0 < c ∧ parentDisplacement m (some cart) = .ok (some p) ∧
      (∀ a i, p a i = c * w a i) ∧
      m.ref.getEquivalentDisplacements p = m.ref.getEquivalentDisplacements w ∧
      norm2 (flat p) = 1 / 10 ∧
      m.ref.getCartDisplacement p = fun a i => c * toCart m.ref.lattice w a i) := by
  have hpd : parentDisplacement m (some cart) = .ok (normalizeTenth w) := by
    unfold parentDisplacement; dsimp only; rw [hw]; rfl
  obtain ⟨_, hbox, _⟩ := frac_ok _ _ _ hw
  have hn10 : norm2 (flat fun a i => w a i * 10) = 10 * norm2 (flat w) := by
    have : (flat fun a i => w a i * 10) = fun x => 10 * flat w x := by
      funext x; simp [flat, mul_comm]
    rw [this, norm2_smul]; norm_num
  constructor
  · rintro rfl
    rw [hpd]
    unfold normalizeTenth
    dsimp only
    rw [hn10, if_pos (by rw [norm2_eq_zero.2 (by rfl), mul_zero])]
  · intro hne
    have hpos := norm2_pos (flat_ne_zero hne)
    refine ⟨fun a i => w a i / (10 * norm2 (flat w)), 1 / (10 * norm2 (flat w)), by positivity,
      ?_, fun a i => by ring, ?_, ?_, ?_⟩
    · rw [hpd]
      unfold normalizeTenth
      dsimp only
      rw [hn10, if_neg (by positivity)]
    · have hnp : norm2 (flat fun a i => w a i / (10 * norm2 (flat w))) = 1 / 10 := by
        have : (flat fun a i => w a i / (10 * norm2 (flat w)))
            = fun x => (1 / (10 * norm2 (flat w))) * flat w x := by
          funext x; simp only [flat]; ring
        rw [this, norm2_smul, abs_of_pos (by positivity)]
        field_simp
      have e1 : scaleDisplacement (fun a i => w a i / (10 * norm2 (flat w)))
          = scaleDisplacement w := by
        unfold scaleDisplacement
        dsimp only
        have b1 : applyPbcDisplacement (fun a i => w a i / (10 * norm2 (flat w)))
            = fun a i => w a i / (10 * norm2 (flat w)) := by
          funext a i
          exact wrap1_of_inHalfBox (box_of_norm (p := fun a i => w a i / (10 * norm2 (flat w)))
            hnp.le a i)
        have b2 : applyPbcDisplacement w = w := by
          funext a i; exact wrap1_of_inHalfBox (hbox a i)
        rw [b1, b2, hnp, if_neg (by norm_num), if_neg hpos.ne']
        congr 1
        funext a i
        field_simp
      unfold RefStructure.getEquivalentDisplacements
      rw [e1]
    · have : (flat fun a i => w a i / (10 * norm2 (flat w)))
          = fun x => (1 / (10 * norm2 (flat w))) * flat w x := by
        funext x; simp only [flat]; ring
      rw [this, norm2_smul, abs_of_pos (by positivity)]
      field_simp
    · rw [getCart_of_box]
      · funext a j
        unfold toCart
        rw [Finset.mul_sum]
        exact Finset.sum_congr rfl fun i _ => by ring
      · intro a i
        refine box_of_norm (p := fun a i => w a i / (10 * norm2 (flat w))) ?_ a i
        have : (flat fun a i => w a i / (10 * norm2 (flat w)))
            = fun x => (1 / (10 * norm2 (flat w))) * flat w x := by
          funext x; simp only [flat]; ring
        rw [this, norm2_smul, abs_of_pos (by positivity)]
        apply le_of_eq
        field_simp

theorem getCart_zero (s : RefStructure N) : s.getCartDisplacement 0 = 0 := by
  funext a j
  simp [RefStructure.getCartDisplacement, matMulPos, applyPbcDisplacement, wrap1_zero]

theorem groupFacts (m : IModel N) (amps : List ℝ) (pols : List (Mat3 ℝ)) (inc : Bool)
    (g : EqGroup N) (G : DofGroup N) (b : Pos N ℝ) (fin : List (ℝ × Mat3 ℝ))
    (hlen : g.displacements.length = g.transformations.length)
    (hops : ∀ op ∈ g.transformations, op ∈ m.ref.ops)
    (hG : dofGroup m amps pols inc g = .ok G) (hb : G.basis = some b) (hf : FinPts G.pts fin) :
    GroupFacts m inc (amps.zip pols) g b fin := by
  obtain ⟨child, rest, h1, h2, h3⟩ := dofGroup_ok _ _ _ _ _ _ hG
  have hnb : normalizePos (m.ref.getCartDisplacement child) = some b := h2 ▸ hb
  have hc : child ≠ 0 := fun h0 => (normalizePos_some _ _ hnb).1 (by rw [h0, getCart_zero])
  cases ht : g.transformations with
  | nil => rw [h1, ht] at hlen; simp at hlen
  | cons op ops =>
    suffices hpts : fin = dofPoints m.refPol inc
        ((1, op) :: (rest.zip ops).map fun x => ((multiplier child x.1).getD 0, x.2))
        (amps.zip pols) from by
      refine ⟨⟨child, rest, h1, hnb⟩, ⟨child, rest, op, ops, h1, ht, hpts⟩,
        ⟨op, (rest.zip ops).map fun x => ((multiplier child x.1).getD 0, x.2), ?_,
          hops op (by rw [ht]; simp), by rw [ht]; rfl, ?_, hpts⟩⟩
      · intro x hx
        obtain ⟨y, hy, rfl⟩ := List.mem_map.1 hx
        exact hops _ (by rw [ht]; exact List.mem_cons_of_mem _ (List.of_mem_zip hy).2)
      · rw [h1, ht] at hlen; simp at hlen; rw [ht]; simp [hlen]
    · rw [h1, ht, List.zip_cons_cons] at h3
      unfold FinPts at hf
      rw [hf] at h3
      have hfin : fin = (fin.map fun x => ((some x.1 : Option ℝ), x.2)).map
          fun x => (x.1.getD 0, x.2) := by
        rw [List.map_map]
        simp [Function.comp_def]
      have hsome : ∀ x ∈ (fin.map fun x => ((some x.1 : Option ℝ), x.2)), x.1.isSome := by
        intro x hx
        obtain ⟨y, _, rfl⟩ := List.mem_map.1 hx
        rfl
      rw [hfin, h3]
      rw [h3] at hsome
      unfold dofPoints
      rw [List.map_append]
      congr 1
      · unfold refPoint; cases inc <;> rfl
      · rw [List.map_flatMap, List.flatMap_cons, List.flatMap_cons, List.flatMap_map]
        congr 1
        · rw [List.map_map, multiplier_self child hc]
          refine List.map_congr_left fun y _ => ?_
          simp [imagePoint]
        · refine List.flatMap_congr fun x hx => ?_
          rw [List.map_map]
          refine List.map_congr_left fun y hy => ?_
          have hs := hsome (imagePoint m.refPol (multiplier child x.1) x.2 y) (by
            refine List.mem_append_right _ ?_
            rw [List.flatMap_cons]
            exact List.mem_append_right _ (List.mem_flatMap.2 ⟨x, hx, List.mem_map_of_mem hy⟩))
          simp only [imagePoint, Option.isSome_map] at hs
          obtain ⟨mu, hmu⟩ := Option.isSome_iff_exists.1 hs
          simp [imagePoint, hmu]

theorem forall₂_exists_zip {α β γ : Type} {R : α → β → Prop} {S : α → γ → Prop} {l : List α}
    {bs : List β} {cs : List γ} (h1 : List.Forall₂ R l bs) (h2 : List.Forall₂ S l cs) :
    List.Forall₂ (fun a x => R a x.1 ∧ S a x.2) l (bs.zip cs) := by
  induction h1 generalizing cs with
  | nil => cases h2; exact .nil
  | cons h _ ih =>
    cases h2 with
    | cons h' t => exact .cons ⟨h, h'⟩ (ih t)

theorem forall₂_comp {α β γ : Type} {R : α → β → Prop} {S : β → γ → Prop} {l : List α}
    {bs : List β} {cs : List γ} (h1 : List.Forall₂ R l bs) (h2 : List.Forall₂ S bs cs) :
    List.Forall₂ (fun a c => ∃ b, R a b ∧ S b c) l cs := by
  induction h1 generalizing cs with
  | nil => cases h2; exact .nil
  | cons h _ ih =>
    cases h2 with
    | cons h' t => exact .cons ⟨_, h, h'⟩ (ih t)

/-- A successful `_get_dof` whose basis vectors are finite works on genuine groups. -/
theorem getDof_ok (m : IModel N) (parent : Option (Pos N ℝ)) (amps : List ℝ)
    (pols : List (Mat3 ℝ)) (inc : Bool) (gs : List (DofGroup N))
    (h : getDof m parent amps pols inc = .ok gs) (bs : List (Pos N ℝ))
    (hb : finiteBasis gs = .ok bs) :
    orthCheck m parent = -1 ∧ (gs = [] ∨ ∃ p groups, parent = some p ∧
      m.ref.getEquivalentDisplacements p = .ok (some groups) ∧
      List.Forall₂ (fun g G => dofGroup m amps pols inc g = .ok G) groups gs) := by
  unfold getDof at h
  split_ifs at h with h1
  refine ⟨not_not.1 h1, ?_⟩
  have hnan : nanGroups m amps pols inc = .ok gs → gs = [] := by
    intro hn
    unfold nanGroups at hn
    split at hn
    · cases hn; rfl
    · rename_i op P rest hz
      cases hp : groupPoints m.refPol amps pols none op with
      | error e => rw [hp] at hn; cases hn
      | ok pts =>
        rw [hp] at hn
        change Except.ok _ = Except.ok _ at hn
        cases hn
        have := finiteBasis_ok _ _ hb
        cases this with
        | cons h _ => cases h
  cases parent with
  | none => exact Or.inl (hnan h)
  | some p =>
    dsimp only at h
    cases he : m.ref.getEquivalentDisplacements p with
    | error e => rw [he] at h; cases h
    | ok r =>
      rw [he] at h
      cases r with
      | none => exact Or.inl (hnan h)
      | some groups => exact Or.inr ⟨p, groups, rfl, he, (mapM_except_ok _ _ _).1 h⟩

/-- Anatomy of groups turned into degrees of freedom. -/
theorem construct_facts (spline : SplineFn) (we : Bool) (m : IModel N)
    (parent : Option (Pos N ℝ)) (amps : List ℝ) (pols : List (Mat3 ℝ)) (inc : Bool)
    (gs : List (DofGroup N)) (order : ℤ) (hg : getDof m parent amps pols inc = .ok gs)
    (h : (constructAndAdd spline we m gs order).result = .ok ()) :
    ∃ (recs : List (Pos N ℝ × List (ℝ × Mat3 ℝ))) (fs : List (ℝ → Mat3 ℝ)),
      1 ≤ order ∧ orthCheck m parent = -1 ∧
      (constructAndAdd spline we m gs order).state = { m with
        basis := m.basis ++ recs.map Prod.fst
        interps := m.interps ++ (if m.dummy then [] else fs)
        mask := m.mask ++ List.replicate recs.length false } ∧
      (constructAndAdd spline we m gs order).warnings
        = recs.flatMap (fun r => warnSpec (r.2.map Prod.fst)) ∧
      (we = true → (constructAndAdd spline we m gs order).warnings = []) ∧
      List.Forall₂ (fun r f =>
        SplineReady order.toNat (r.2.insertionSort fun a b => a.1 ≤ b.1) ∧
        spline order.toNat (r.2.insertionSort fun a b => a.1 ≤ b.1) = .ok f) recs fs ∧
      (recs = [] ∨ ∃ p groups, parent = some p ∧
        m.ref.getEquivalentDisplacements p = .ok (some groups) ∧
        List.Forall₂ (fun g r => GroupFacts m inc (amps.zip pols) g r.1 r.2) groups recs) := by
  obtain ⟨fs, ws, bs, h1, h2, h3, h4, h5⟩ := constructAndAdd_ok spline we m gs order h
  obtain ⟨fins, c1, c2, c3, c4⟩ := buildAll_ok spline we order.toNat (by omega) gs fs ws h2
  obtain ⟨ho, hgs⟩ := getDof_ok m parent amps pols inc gs hg bs h3
  have hB := finiteBasis_ok gs bs h3
  have hlen : bs.length = fins.length := hB.length_eq.symm.trans c1.length_eq
  refine ⟨bs.zip fins, fs, h1, ho, ?_, ?_, ?_, ?_, ?_⟩
  · rw [h5, List.map_fst_zip (by omega)]
    simp [hlen]
  · rw [h4, c3]
    have : fins = (bs.zip fins).map Prod.snd := (List.map_snd_zip (by omega)).symm
    conv_lhs => rw [this]
    rw [List.flatMap_map]
  · intro hw; rw [h4]; exact c4 hw
  · have h6 : fins = (bs.zip fins).map Prod.snd := (List.map_snd_zip (by omega)).symm
    have h7 := c2
    rw [h6, List.forall₂_map_left_iff] at h7
    exact h7
  · rcases hgs with rfl | ⟨p, groups, rfl, he, hF⟩
    · left; cases hB; rfl
    · right
      refine ⟨p, groups, rfl, he, ?_⟩
      obtain ⟨done, orth, hI, hops, _⟩ := getEq_some _ _ _ he
      have hall : ∀ g ∈ groups, g.displacements.length = g.transformations.length ∧
          ∀ op ∈ g.transformations, op ∈ m.ref.ops := by
        intro g hg
        have hl := hI.len g hg
        refine ⟨hl, fun op hop => ?_⟩
        obtain ⟨k, hk, rfl⟩ := List.mem_iff_getElem.1 hop
        have hmem : (g.transformations[k], g.displacements[k]'(by omega)) ∈ g.pairs := by
          unfold EqGroup.pairs
          rw [List.mem_iff_getElem]
          refine ⟨k, ?_, ?_⟩
          · rw [List.length_zip]; omega
          · simp
        exact hops _ (hI.prov.subset (List.mem_flatMap.2 ⟨g, hg, hmem⟩))
      have hz := forall₂_comp hF (forall₂_exists_zip hB c1)
      have hz' : List.Forall₂ (fun g r => g ∈ groups ∧ ∃ G, dofGroup m amps pols inc g = .ok G ∧
          G.basis = some r.1 ∧ FinPts G.pts r.2) groups (bs.zip fins) := by
        rw [List.forall₂_iff_get] at hz ⊢
        exact ⟨hz.1, fun i h1 h2 => ⟨List.get_mem _ _, hz.2 i h1 h2⟩⟩
      refine hz'.imp fun g r hgr => ?_
      obtain ⟨hmem, G, hG, hb, hf⟩ := hgr
      obtain ⟨hl, ho⟩ := hall g hmem
      exact groupFacts m amps pols inc g G r.1 r.2 hl ho hG hb hf

/-- The polarizabilities that are actually used. -/
noncomputable def usedPols (m : IModel N) (amps : List ℝ) (pols : List (Mat3 ℝ)) : List (Mat3 ℝ) :=
  if m.dummy then amps.map fun _ => 0 else pols

theorem prepareDof_ok (m : IModel N) (cart : Option (Pos N ℝ)) (amps : List ℝ)
    (pols : List (Mat3 ℝ)) (inc : Bool) (gs : List (DofGroup N))
    (h : prepareDof m cart amps pols inc = .ok gs) :
    ∃ parent, parentDisplacement m cart = .ok parent ∧
      (usedPols m amps pols).length = amps.length ∧
      getDof m parent amps (usedPols m amps pols) inc = .ok gs := by
  unfold prepareDof at h
  cases hp : parentDisplacement m cart with
  | error e => rw [hp] at h; cases h
  | ok parent =>
    rw [hp] at h
    change (if (usedPols m amps pols).length ≠ amps.length then _ else
      getDof m parent amps (usedPols m amps pols) inc) = _ at h
    by_cases h1 : (usedPols m amps pols).length = amps.length
    · rw [if_neg (not_not.2 h1)] at h
      exact ⟨parent, rfl, h1, h⟩
    · rw [if_pos h1] at h; cases h

/-- Anatomy of a successful `add_dof`. -/
theorem addDofNan_facts (spline : SplineFn) (we : Bool) (m : IModel N) (cart : Option (Pos N ℝ))
    (amps : List ℝ) (pols : List (Mat3 ℝ)) (order : ℤ) (inc : Bool) (o : Outcome N)
    (ho : o = m.addDofNan spline we cart amps pols order inc) (h : o.result = .ok ()) :
    ∃ (parent : Option (Pos N ℝ)) (recs : List (Pos N ℝ × List (ℝ × Mat3 ℝ)))
      (fs : List (ℝ → Mat3 ℝ)),
      parentDisplacement m cart = .ok parent ∧
      (usedPols m amps pols).length = amps.length ∧
      1 ≤ order ∧ orthCheck m parent = -1 ∧
      o.state = { m with
        basis := m.basis ++ recs.map Prod.fst
        interps := m.interps ++ (if m.dummy then [] else fs)
        mask := m.mask ++ List.replicate recs.length false } ∧
      o.warnings = recs.flatMap (fun r => warnSpec (r.2.map Prod.fst)) ∧
      (we = true → o.warnings = []) ∧
      List.Forall₂ (fun r f =>
        SplineReady order.toNat (r.2.insertionSort fun a b => a.1 ≤ b.1) ∧
        spline order.toNat (r.2.insertionSort fun a b => a.1 ≤ b.1) = .ok f) recs fs ∧
      (recs = [] ∨ ∃ p groups, parent = some p ∧
        m.ref.getEquivalentDisplacements p = .ok (some groups) ∧
        List.Forall₂ (fun g r => GroupFacts m inc (amps.zip (usedPols m amps pols)) g r.1 r.2)
          groups recs) := by
  subst ho
  unfold IModel.addDofNan at h ⊢
  cases hp : prepareDof m cart amps pols inc with
  | error e => rw [hp] at h; cases h
  | ok gs =>
    rw [hp] at h
    dsimp only at h ⊢
    obtain ⟨parent, h1, h2, h3⟩ := prepareDof_ok _ _ _ _ _ _ hp
    obtain ⟨recs, fs, h4⟩ := construct_facts spline we m parent amps _ inc gs order h3 h
    exact ⟨parent, recs, fs, h1, h2, h4⟩

/-! ### Forward computation -/

theorem prepareDof_eq (m : IModel N) (cart : Option (Pos N ℝ)) (parent : Option (Pos N ℝ))
    (amps : List ℝ) (pols : List (Mat3 ℝ)) (inc : Bool)
    (h : parentDisplacement m cart = .ok parent)
    (hl : (usedPols m amps pols).length = amps.length) :
    prepareDof m cart amps pols inc = getDof m parent amps (usedPols m amps pols) inc := by
  unfold prepareDof
  rw [h]
  change (if (usedPols m amps pols).length ≠ amps.length then _ else
      getDof m parent amps (usedPols m amps pols) inc) = _
  rw [if_neg (not_not.2 hl)]

theorem getDof_eq (m : IModel N) (p : Pos N ℝ) (amps : List ℝ) (pols : List (Mat3 ℝ)) (inc : Bool)
    (groups : List (EqGroup N)) (h : orthCheck m (some p) = -1)
    (hg : m.ref.getEquivalentDisplacements p = .ok (some groups)) :
    getDof m (some p) amps pols inc = groups.mapM (dofGroup m amps pols inc) := by
  unfold getDof
  rw [if_neg (not_not.2 h)]
  dsimp only
  rw [hg]
  rfl

theorem groupPoints_eq (refPol : Mat3 ℝ) (amps : List ℝ) (pols : List (Mat3 ℝ)) (mu : Option ℝ)
    (op : SymOp) (h : op.rot.det ≠ 0) :
    groupPoints refPol amps pols mu op = .ok ((amps.zip pols).map (imagePoint refPol mu op)) := by
  unfold groupPoints
  rw [mapM_except_ok, List.forall₂_map_right_iff, List.forall₂_same]
  intro x _
  unfold npInv
  rw [if_neg h]
  rfl

theorem dofGroup_eq (m : IModel N) (amps : List ℝ) (pols : List (Mat3 ℝ)) (inc : Bool)
    (g : EqGroup N) (child : Pos N ℝ) (rest : List (Pos N ℝ))
    (hg : g.displacements = child :: rest) (h : ∀ op ∈ g.transformations, op.rot.det ≠ 0) :
    dofGroup m amps pols inc g = .ok ⟨normalizePos (m.ref.getCartDisplacement child),
      refPoint inc ++ (g.displacements.zip g.transformations).flatMap fun x =>
        (amps.zip pols).map (imagePoint m.refPol (multiplier child x.1) x.2)⟩ := by
  unfold dofGroup
  rw [hg]
  dsimp only
  have : ((child :: rest).zip g.transformations).mapM (fun x =>
        groupPoints m.refPol amps pols (multiplier child x.1) x.2)
      = .ok (((child :: rest).zip g.transformations).map fun x =>
        (amps.zip pols).map (imagePoint m.refPol (multiplier child x.1) x.2)) := by
    rw [mapM_except_ok, List.forall₂_map_right_iff, List.forall₂_same]
    intro x hx
    exact groupPoints_eq _ _ _ _ _ (h _ (List.of_mem_zip hx).2)
  rw [this]
  rfl

end Verif
