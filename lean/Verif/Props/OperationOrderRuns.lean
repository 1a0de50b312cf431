import Verif.Props.OperationOrder

/-!
# C151: calls that succeed for one order of the operations succeed for every other order
-/

namespace Verif

open Spec

variable {N : ℕ}

/-! ### Building interpolations, forwards -/

theorem buildOne_checks {spline : SplineFn} {we : Bool} {k : ℕ} {pts : List (Option ℝ × Mat3 ℝ)}
    {f : ℝ → Mat3 ℝ} {ws : List DofWarning} (h : buildOne spline we k pts = (.ok f, ws)) :
    hasDuplicates (pts.map Prod.fst) = false ∧ k < pts.length := by
  unfold buildOne at h
  split_ifs at h with h1 h2
  · cases h
  · cases h
  · exact ⟨by simpa using h1, by omega⟩

/-- Whether `buildOne` accepts finite points only depends on the amplitudes and on the spline. -/
theorem buildOne_of {spline : SplineFn} {we : Bool} {k : ℕ} {pts : List (Option ℝ × Mat3 ℝ)}
    {fin : List (ℝ × Mat3 ℝ)} {f : ℝ → Mat3 ℝ} (hfin : FinPts pts fin)
    (hdup : hasDuplicates ((fin.map Prod.fst).map some) = false) (hlen : k < fin.length)
    (hwe : we = true → warnSpec (fin.map Prod.fst) = [])
    (hf : spline k (fin.insertionSort fun a b => a.1 ≤ b.1) = .ok f) :
    buildOne spline we k pts = (.ok f, warnSpec (fin.map Prod.fst)) := by
  have hfst : pts.map Prod.fst = (fin.map Prod.fst).map some := by
    rw [hfin, List.map_map, List.map_map]; rfl
  have hl : pts.length = fin.length := by rw [hfin, List.length_map]
  have hne : fin.map Prod.fst ≠ [] := fun h => by
    rw [List.map_eq_nil_iff.1 h] at hlen
    simp at hlen
  unfold buildOne
  rw [hfst, if_neg (by rw [hdup]; simp), if_neg (by omega), (finitePts_some _ _).2 hfin]
  dsimp only
  rw [dofWarnings_eq _ hne, if_neg, hf]
  cases we with
  | false => simp
  | true => rw [hwe rfl]; simp

theorem buildAll_iff {spline : SplineFn} {we : Bool} {k : ℕ} {gs : List (DofGroup N)}
    {fs : List (ℝ → Mat3 ℝ)} {ws : List DofWarning} :
    buildAll spline we k gs = (.ok fs, ws) ↔ ∃ xs : List ((ℝ → Mat3 ℝ) × List DofWarning),
      List.Forall₂ (fun g x => buildOne spline we k g.pts = (.ok x.1, x.2)) gs xs ∧
      fs = xs.map Prod.fst ∧ ws = xs.flatMap Prod.snd := by
  induction gs generalizing fs ws with
  | nil =>
    constructor
    · intro h
      cases h
      exact ⟨[], .nil, rfl, rfl⟩
    · rintro ⟨xs, h1, rfl, rfl⟩
      cases h1
      rfl
  | cons g gs ih =>
    constructor
    · intro h
      unfold buildAll at h
      split at h
      · cases h
      · rename_i f ws1 h1
        split at h
        · cases h
        · rename_i fs' ws2 h2
          cases h
          obtain ⟨xs, a1, rfl, rfl⟩ := ih.1 h2
          exact ⟨(f, ws1) :: xs, .cons h1 a1, rfl, rfl⟩
    · rintro ⟨xs, h1, rfl, rfl⟩
      cases h1 with
      | @cons _ x _ xs h1 h2 =>
        unfold buildAll
        rw [h1]
        dsimp only
        rw [ih.2 ⟨xs, h2, rfl, rfl⟩]
        rfl

/-! ### The shape of a group -/

section shape
variable {new : List (SymOp × Pos N ℝ)} {groups : List (EqGroup N)} {orth : List (Pos N ℝ)}

/-- With clean images a group holds its first displacement and at most the opposite one. -/
theorem group_shape (hI : EqInv new ⟨groups, orth⟩) (hC : CleanList new) {g : EqGroup N}
    (hg : g ∈ groups) {h : Pos N ℝ} {rest : List (Pos N ℝ)} (hh : g.displacements = h :: rest) :
    rest = [] ∨ rest = [fun a i => -1 * h a i] := by
  have hself : ∀ d : Pos N ℝ, Coincide d d := by
    intro d a i
    rw [sub_self, abs_zero]
    positivity
  have hnd := hI.nodup g hg
  rw [hh, List.pairwise_cons] at hnd
  have hall : ∀ d ∈ rest, d = fun a i => -1 * h a i := by
    intro d hd
    obtain ⟨κ, rfl | rfl, hκ⟩ := disp_sign hI hC hg hh (d := d) (by rw [hh]; simp [hd])
    · exfalso
      refine hnd.1 d hd ?_
      have : d = h := by rw [hκ]; funext a i; ring
      rw [this]
      exact hself h
    · exact hκ
  match rest, hall, hnd with
  | [], _, _ => exact Or.inl rfl
  | [d], hall, _ => exact Or.inr (by rw [hall d (by simp)])
  | d :: d' :: l, hall, hnd =>
    exfalso
    have h1 := hall d (by simp)
    have h2 := hall d' (by simp)
    have h3 := (List.pairwise_cons.1 hnd.2).1 d' (by simp)
    rw [h2, ← h1] at h3
    exact h3 (hself d)

/-- The opposite displacement is in the group whenever it is an image. -/
theorem group_second (hN : N ≤ 10 ^ 8) (hI : EqInv new ⟨groups, orth⟩) (hC : CleanList new)
    {g : EqGroup N} (hg : g ∈ groups) {h : Pos N ℝ} {rest : List (Pos N ℝ)}
    (hh : g.displacements = h :: rest) :
    rest ≠ [] ↔ ∃ y ∈ new, y.2 = fun a i => -1 * h a i := by
  constructor
  · intro hr
    rcases group_shape hI hC hg hh with h1 | h1
    · exact absurd h1 hr
    · obtain ⟨op, hop⟩ := disp_mem hI hg (d := fun a i => -1 * h a i) (by rw [hh, h1]; simp)
      exact ⟨_, pair_mem hI hg hop, rfl⟩
  · rintro ⟨y, hy, hyh⟩ hr
    obtain ⟨g', hg', h', rest', hh', ⟨μ, hμ, hym⟩, y', hy', hyy⟩ := image_covered hN hI hC hy
    obtain ⟨n, hn, rfl⟩ := List.mem_iff_getElem.1 hg
    obtain ⟨n', hn', rfl⟩ := List.mem_iff_getElem.1 hg'
    obtain ⟨oh, hoh⟩ := head_mem hI hg hh
    have hh0 := ne_zero_of_norm (hC.norm _ hoh)
    have hμ2 : μ * μ = 1 := by rcases hμ with rfl | rfl <;> norm_num
    have hμ0 : μ ≠ 0 := by rcases hμ with rfl | rfl <;> norm_num
    have := head_unique hI hn hn' hh hh' (κ := μ * -1) (mul_ne_zero hμ0 (by norm_num)) hh0 (by
        funext a i
        have h7 := congrFun (congrFun (hyh.symm.trans hym) a) i
        rw [mul_assoc, h7, ← mul_assoc, hμ2, one_mul])
    subst this
    have h8 := (List.of_mem_zip hy').2
    rw [hh, hr, List.mem_singleton, hyy, hyh] at h8
    refine hh0 ?_
    funext a i
    have := congrFun (congrFun h8 a) i
    change h a i = 0
    linarith

/-- The amplitudes collected for a group. -/
def ampList (inc : Bool) (data : List (ℝ × Mat3 ℝ)) (both : Bool) : List ℝ :=
  (if inc then [0] else []) ++ (data.map fun d => 1 * d.1) ++
    if both then data.map fun d => -1 * d.1 else []

theorem amplitudes (hN : N ≤ 10 ^ 8) (hI : EqInv new ⟨groups, orth⟩) (hC : CleanList new)
    {g : EqGroup N} (hg : g ∈ groups) {h : Pos N ℝ} {rest : List (Pos N ℝ)}
    (hh : g.displacements = h :: rest) {m : IModel N} {inc : Bool} {data : List (ℝ × Mat3 ℝ)}
    {b : Pos N ℝ} {pts : List (ℝ × Mat3 ℝ)} (hG : GroupFacts m inc data g b pts) :
    ∃ both, (both = true ↔ ∃ y ∈ new, y.2 = fun a i => -1 * h a i) ∧
      pts.map Prod.fst = ampList inc data both := by
  obtain ⟨oh, hoh⟩ := head_mem hI hg hh
  have hh0 := ne_zero_of_norm (hC.norm _ hoh)
  have h2 := group_second hN hI hC hg hh
  have hl := hI.len g hg
  obtain ⟨h', rest', op, ops, e1, e2, e3⟩ := hG.mults
  rw [hh] at e1
  cases e1
  rcases group_shape hI hC hg hh with hr | hr
  · subst hr
    refine ⟨false, ?_, ?_⟩
    · rw [← h2]; simp
    · rw [e3]
      unfold dofPoints ampList
      cases inc <;> simp [Function.comp_def]
  · refine ⟨true, ?_, ?_⟩
    · rw [← h2, hr]; simp
    · rw [hh, e2, hr] at hl
      match ops, hl with
      | [o], _ =>
        have hmu : (multiplier h fun a i => -1 * h a i).getD 0 = -1 := by
          rw [multiplier_smul h hh0 (-1) (by norm_num)]
          norm_num
        rw [e3, hr]
        unfold dofPoints ampList
        rw [List.zip_cons_cons, List.map_cons, hmu]
        cases inc <;> simp [Function.comp_def]

end shape

/-! ### Everything two orders of the operations have in common -/

/-- The images `new` and `new'` that two runs of `get_equivalent_displacements` collect. -/
structure Common (m : IModel N) (data : List (ℝ × Mat3 ℝ)) (groups groups' : List (EqGroup N))
    (new new' : List (SymOp × Pos N ℝ)) : Prop where
  inv : ∃ orth, EqInv new ⟨groups, orth⟩
  inv' : ∃ orth, EqInv new' ⟨groups', orth⟩
  clean : CleanList new
  clean' : CleanList new'
  same : ∀ x, x ∈ new ↔ x ∈ new'
  rot : ∀ x ∈ new, x.1.rot * x.1.rot.transpose = 1
  data : ∀ x ∈ new, ∀ y ∈ new, x.2 = y.2 → ∀ d ∈ data,
    turned x.1.rot (d.2 - m.refPol) = turned y.1.rot (d.2 - m.refPol)

theorem common {spglib spglib' : Mat3 ℝ → Pos N ℝ → (Fin N → ℕ) → Option SymDict}
    {nums : Fin N → ℕ} {lat : Mat3 ℝ} {p : Pos N ℝ} {s s' : RefStructure N}
    (hs : RefStructure.init spglib nums lat p = .ok s)
    (hs' : RefStructure.init spglib' nums lat p = .ok s')
    (hops : ∀ op, op ∈ s.ops ↔ op ∈ s'.ops)
    (hsep : ∀ j k, j ≠ k → Apart (2 / 10 ^ 5) (p j) (p k))
    (hsym : ∀ op ∈ s.ops, ∃ σ, IsSymmetry p op.rot op.trans σ)
    (hiso : ∀ op ∈ s.ops, op.rot * op.rot.transpose = 1)
    (w : Pos N ℝ) (hbox : ∀ a i, InHalfBox (w a i)) (hw : w ≠ 0)
    (m : IModel N) (amps : List ℝ) (pols : List (Mat3 ℝ)) (hcl : CleanCall p s m.refPol w pols)
    (groups groups' : List (EqGroup N))
    (hgr : s.getEquivalentDisplacements w = .ok (some groups))
    (hgr' : s'.getEquivalentDisplacements w = .ok (some groups')) :
    ∃ new new', Common m (amps.zip pols) groups groups' new new' ∧
      ∀ x ∈ new, x.1 ∈ s.ops := by
  have hsym' : ∀ op ∈ s'.ops, ∃ σ, IsSymmetry p op.rot op.trans σ :=
    fun op h => hsym op ((hops op).2 h)
  have hiso' : ∀ op ∈ s'.ops, op.rot * op.rot.transpose = 1 := fun op h => hiso op ((hops op).2 h)
  obtain ⟨e, c, groups₁, orth, new, hc, hec, hen, g1, hI, hnew, hnew'⟩ :=
    images_of_displacement hs hsep hsym hiso w hbox hw
  rw [hgr] at g1
  cases g1
  obtain ⟨e', c', groups₂, orth', new₂, hc', hec', hen', g2, hI', hnew₂, hnew₂'⟩ :=
    images_of_displacement hs' hsep hsym' hiso' w hbox hw
  rw [hgr'] at g2
  cases g2
  have hcc : c' = c := by
    have i1 : ∀ c : ℝ, inner3 (fun a i => c * w a i) (fun a i => c * w a i) = c ^ 2 * inner3 w w := by
      intro c
      unfold inner3
      simp only [Finset.mul_sum]
      exact Finset.sum_congr rfl fun a _ => Finset.sum_congr rfl fun j _ => by ring
    have i2 := inner3_self_pos hw
    rw [hec, i1] at hen
    rw [hec', i1] at hen'
    have : c' ^ 2 = c ^ 2 := mul_right_cancel₀ i2.ne' (hen'.trans hen.symm)
    exact (pow_left_inj₀ hc'.le hc.le (by norm_num)).1 this
  have hee : e' = e := by rw [hec', hec, hcc]
  subst hee
  have hclean := fun x hx y hy σ τ hσ hτ => (hcl x hx y hy σ τ hσ hτ).1
  refine ⟨new, new₂, ⟨⟨orth, hI⟩, ⟨orth', hI'⟩, clean_of_images hsym hiso hclean hec hen hnew',
    clean_of_images hsym hiso hclean hec hen fun x hx =>
      ⟨(hops _).2 (hnew₂' x hx).1, (hnew₂' x hx).2⟩, fun x => ⟨fun hx => ?_, fun hx => ?_⟩,
    fun x hx => hiso _ (hnew' x hx).1, ?_⟩, fun x hx => (hnew' x hx).1⟩
  · obtain ⟨h1, h2⟩ := hnew' x hx
    obtain ⟨τ, hτ⟩ := hsym _ h1
    obtain ⟨d, hd⟩ := hnew₂ _ ((hops _).1 h1)
    have h3 := (hnew₂' _ hd).2 τ hτ
    dsimp only at h3
    rw [h3, ← h2 τ hτ] at hd
    exact hd
  · obtain ⟨h1, h2⟩ := hnew₂' x hx
    obtain ⟨τ, hτ⟩ := hsym' _ h1
    obtain ⟨d, hd⟩ := hnew _ ((hops _).2 h1)
    have h3 := (hnew' _ hd).2 τ hτ
    dsimp only at h3
    rw [h3, ← h2 τ hτ] at hd
    exact hd
  · intro x hx y hy hxy d hd
    obtain ⟨h1, h2⟩ := hnew' x hx
    obtain ⟨h3, h4⟩ := hnew' y hy
    obtain ⟨τ, hτ⟩ := hsym _ h1
    obtain ⟨ρ, hρ⟩ := hsym _ h3
    refine (hcl _ h1 _ h3 τ ρ hτ hρ).2 ?_ _ (List.of_mem_zip hd).2
    rw [h2 τ hτ, h4 ρ hρ, hec, carried_smul, carried_smul] at hxy
    funext a j
    have := congrFun (congrFun hxy a) j
    exact mul_left_cancel₀ hc.ne' this

/-- If one set of interpolation points is the mirror image of another, both can be interpolated. -/
theorem spline_ok {spline : SplineFn} (hsp : SplineEquivariant spline) {k : ℕ}
    {S S' : List (ℝ × Mat3 ℝ)} {f : ℝ → Mat3 ℝ}
    (hr : SplineReady k (S.insertionSort fun a b => a.1 ≤ b.1))
    (hf : spline k (S.insertionSort fun a b => a.1 ≤ b.1) = .ok f)
    (hr' : SplineReady k (S'.insertionSort fun a b => a.1 ≤ b.1)) {ε : ℝ}
    (hε : ε = 1 ∨ ε = -1) (h : ∀ z, z ∈ S' ↔ (ε * z.1, z.2) ∈ S) :
    ∃ f', spline k (S'.insertionSort fun a b => a.1 ≤ b.1) = .ok f' := by
  have hm : ∀ (L : List (ℝ × Mat3 ℝ)) z, z ∈ L.insertionSort (fun a b => a.1 ≤ b.1) ↔ z ∈ L :=
    fun L z => List.mem_insertionSort _
  have hst := strict_of_ready hr
  have hst' := strict_of_ready hr'
  rcases hε with rfl | rfl
  · have : (S'.insertionSort fun a b => a.1 ≤ b.1) = S.insertionSort fun a b => a.1 ≤ b.1 := by
      refine eq_of_strict hst' hst fun z => ?_
      rw [hm, hm, h, one_mul]
    exact ⟨f, by rw [this, hf]⟩
  · have : (S'.insertionSort fun a b => a.1 ≤ b.1)
        = (S.insertionSort fun a b => a.1 ≤ b.1).reverse.map fun x => (-x.1, x.2) := by
      refine eq_of_strict hst' ?_ fun z => ?_
      · rw [List.pairwise_map, List.pairwise_reverse]
        exact hst.imp fun h => by simpa using h
      · rw [hm, List.mem_map, h]
        simp only [List.mem_reverse, hm]
        constructor
        · intro hz
          exact ⟨_, hz, by simp⟩
        · rintro ⟨u, hu, rfl⟩
          simpa using hu
    exact ⟨_, by rw [this]; exact (hsp k _ _ hr hf).2⟩

/-- The orthogonality check of `add_dof` gives the same verdict. -/
theorem orthCheck_same {m m' : IModel N} (hL : m'.ref.lattice = m.ref.lattice)
    (hi : m.interps.length = m.basis.length) (hk : m.mask.length = m.basis.length)
    (hd : SameDofs (m.basis.zip (m.interps.zip m.mask)) (m'.basis.zip (m'.interps.zip m'.mask)))
    (hi' : m'.interps.length = m'.basis.length) (hk' : m'.mask.length = m'.basis.length)
    (q : Pos N ℝ) (h : orthCheck m (some q) = -1) : orthCheck m' (some q) = -1 := by
  have hiff : ∀ m : IModel N, orthCheck m (some q) = -1 ↔
      ∀ b ∈ m.basis, Orthogonal (flat (m.ref.getCartDisplacement q)) (flat b) := by
    intro m
    have hof : IsFirstIndex (fun w => ¬ Orthogonal (flat (m.ref.getCartDisplacement q)) w)
        (m.basis.map flat) (orthCheck m (some q)) := by
      refine firstIndex_isFirst _ _ (fun w => ?_) _
      rw [← orthTest_iff]; simp
    rw [hof.neg_one_iff]
    simp
  rw [hiff] at h ⊢
  have hcd : m'.ref.getCartDisplacement q = m.ref.getCartDisplacement q := by
    unfold RefStructure.getCartDisplacement
    rw [hL]
  rw [hcd]
  intro b' hb'
  obtain ⟨l, h1, h2⟩ := hd
  have hb2 : b' ∈ (m'.basis.zip (m'.interps.zip m'.mask)).map Prod.fst := by
    rw [List.map_fst_zip (by rw [List.length_zip]; omega)]
    exact hb'
  obtain ⟨y, hy, rfl⟩ := List.mem_map.1 hb2
  rw [← h1.mem_iff] at hy
  obtain ⟨n, hn, rfl⟩ := List.mem_iff_getElem.1 hy
  have hl := h2.length_eq
  obtain ⟨ε, hε, g1, _⟩ := (List.forall₂_iff_get.1 h2).2 n (by omega) hn
  simp only [List.get_eq_getElem] at g1
  have hmem : ((m.basis.zip (m.interps.zip m.mask))[n]'(by omega)).1 ∈ m.basis :=
    (List.of_mem_zip (List.getElem_mem (l := m.basis.zip (m.interps.zip m.mask)) (by omega))).1
  obtain ⟨o1, o2, o3⟩ := h _ hmem
  have hε0 : ε ≠ 0 := by rcases hε with rfl | rfl <;> norm_num
  have he : flat l[n].1 = fun x => ε * flat ((m.basis.zip (m.interps.zip m.mask))[n]'(by omega)).1 x := by
    funext x
    exact g1 x.1 x.2
  refine ⟨o1, fun h0 => o2 ?_, ?_⟩
  · rw [he] at h0
    funext x
    have := congrFun h0 x
    exact (mul_eq_zero.1 this).resolve_left hε0
  · rw [he, cosine_comm, cosine_smul_left hε0, cosine_comm]
    exact o3

/-! ### C151: success carries over -/

/-- What the two calls of `add_dof` have in common: for every group of the second run the points can
be interpolated and cause the warnings of the matching group of the first run. -/
theorem groups_build (hN : N ≤ 10 ^ 8) {spline : SplineFn} (hsp : SplineEquivariant spline)
    {we : Bool} {k : ℕ} (hk : 1 ≤ k) {m m' : IModel N} (hL : m'.ref.lattice = m.ref.lattice)
    (hpp : m'.refPol = m.refPol) {inc : Bool} {amps : List ℝ} {pols : List (Mat3 ℝ)}
    {groups groups' : List (EqGroup N)} {new new' : List (SymOp × Pos N ℝ)}
    (hcom : Common m (amps.zip pols) groups groups' new new')
    (hnew : ∀ x ∈ new, x.1 ∈ m.ref.ops) (hnew' : ∀ x ∈ new', x.1 ∈ m'.ref.ops)
    {gs : List (DofGroup N)} {bs : List (Pos N ℝ)}
    {xs : List ((ℝ → Mat3 ℝ) × List DofWarning)}
    (hgs : List.Forall₂ (fun g G => dofGroup m amps pols inc g = .ok G) groups gs)
    (hbs : finiteBasis gs = .ok bs)
    (hxs : List.Forall₂ (fun g x => buildOne spline we k g.pts = (.ok x.1, x.2)) gs xs) :
    ∃ gs' bs' xs', List.Forall₂ (fun g G => dofGroup m' amps pols inc g = .ok G) groups' gs' ∧
      finiteBasis gs' = .ok bs' ∧
      List.Forall₂ (fun g x => buildOne spline we k g.pts = (.ok x.1, x.2)) gs' xs' ∧
      (xs'.map Prod.snd).Perm (xs.map Prod.snd) := by
  obtain ⟨orth, hI⟩ := hcom.inv
  obtain ⟨orth', hI'⟩ := hcom.inv'
  have hC := hcom.clean
  have hC' := hcom.clean'
  have hrot' : ∀ x ∈ new', x.1.rot * x.1.rot.transpose = 1 :=
    fun x hx => hcom.rot x ((hcom.same x).2 hx)
  have hlen := hgs.length_eq
  have hlenx := hxs.length_eq
  have hB := finiteBasis_ok gs bs hbs
  have hlenb := hB.length_eq
  -- transformations of a group are operations
  have htr : ∀ {new : List (SymOp × Pos N ℝ)} {groups : List (EqGroup N)} {orth : List (Pos N ℝ)},
      EqInv new ⟨groups, orth⟩ → ∀ g ∈ groups, ∀ op ∈ g.transformations,
        ∃ d, (op, d) ∈ new := by
    intro new groups orth hI g hg op hop
    have hl := hI.len g hg
    obtain ⟨j, hj, rfl⟩ := List.mem_iff_getElem.1 hop
    refine ⟨g.displacements[j]'(by omega), pair_mem hI hg ?_⟩
    unfold EqGroup.pairs
    rw [List.mem_iff_getElem]
    exact ⟨j, by rw [List.length_zip]; omega, by simp⟩
  have hhead : ∀ n : Fin groups.length, ∃ h rest, groups[n].displacements = h :: rest := fun n =>
    group_head hI (List.getElem_mem n.2)
  choose H rest hH using hhead
  have hhead' : ∀ n : Fin groups'.length, ∃ h rest, groups'[n].displacements = h :: rest := fun n =>
    group_head hI' (List.getElem_mem n.2)
  choose H' rest' hH' using hhead'
  obtain ⟨φ, ε, hinj, hφ⟩ := heads_match hN hI hI' hC hC' (fun x => (hcom.same x).1) H H'
    (fun n => ⟨_, hH n⟩) (fun n => ⟨_, hH' n⟩)
  obtain ⟨ψ, _, hinj', _⟩ := heads_match hN hI' hI hC' hC (fun x => (hcom.same x).2) H' H
    (fun n => ⟨_, hH' n⟩) (fun n => ⟨_, hH n⟩)
  have hcard : groups.length = groups'.length := by
    have h1 := Fintype.card_le_of_injective φ hinj
    have h2 := Fintype.card_le_of_injective ψ hinj'
    simp only [Fintype.card_fin] at h1 h2
    omega
  have hbij : Function.Bijective φ :=
    (Fintype.bijective_iff_injective_and_card φ).2 ⟨hinj, by simpa using hcard⟩
  -- the records of the first run
  have hR : ∀ n : Fin groups.length, ∃ fin, FinPts (gs[n]'(by omega)).pts fin ∧
      GroupFacts m inc (amps.zip pols) groups[n] (bs[n]'(by omega)) fin ∧
      SplineReady k (fin.insertionSort fun a b => a.1 ≤ b.1) ∧
      spline k (fin.insertionSort fun a b => a.1 ≤ b.1) = .ok (xs[n]'(by omega)).1 ∧
      (xs[n]'(by omega)).2 = warnSpec (fin.map Prod.fst) ∧
      (we = true → (xs[n]'(by omega)).2 = []) ∧
      hasDuplicates ((fin.map Prod.fst).map some) = false ∧ k < fin.length := by
    intro n
    have h1 := (List.forall₂_iff_get.1 hxs).2 n (by omega) (by omega)
    have h2 := (List.forall₂_iff_get.1 hgs).2 n (by omega) (by omega)
    have h3 := (List.forall₂_iff_get.1 hB).2 n (by omega) (by omega)
    simp only [List.get_eq_getElem] at h1 h2 h3
    obtain ⟨fin, a1, a2, a3, a4, a5⟩ := buildOne_ok spline we k hk _ _ _ h1
    obtain ⟨c1, c2⟩ := buildOne_checks h1
    refine ⟨fin, a1, ?_, a2, a3, a4, a5, ?_, ?_⟩
    · refine groupFacts m amps pols inc _ _ _ fin (hI.len _ (List.getElem_mem n.2)) ?_ h2 h3 a1
      intro op hop
      obtain ⟨d, hd⟩ := htr hI _ (List.getElem_mem n.2) op hop
      exact hnew _ hd
    · rw [← c1, a1, List.map_map, List.map_map]; rfl
    · rwa [a1, List.length_map] at c2
  choose fin hfin hGF hready hspl hws hwe hdup hlong using hR
  have hF : List.Forall₂ (fun g r => GroupFacts m inc (amps.zip pols) g r.1 r.2) groups
      (List.ofFn fun n : Fin groups.length => ((bs[n]'(by omega)), fin n)) := by
    rw [List.forall₂_iff_get]
    refine ⟨by simp, fun n h1 h2 => ?_⟩
    simp only [List.get_eq_getElem, List.getElem_ofFn]
    exact hGF ⟨n, h1⟩
  -- the groups of the second run
  have hG' : ∀ n : Fin groups'.length, ∃ G b fin', dofGroup m' amps pols inc groups'[n] = .ok G ∧
      G.basis = some b ∧ FinPts G.pts fin' ∧
      GroupFacts m' inc (amps.zip pols) groups'[n] b fin' := by
    intro n'
    obtain ⟨n, rfl⟩ := hbij.2 n'
    obtain ⟨hε, hφe⟩ := hφ n
    have hmem := List.getElem_mem (φ n).2
    have hε0 : ε n ≠ 0 := by rcases hε with h | h <;> rw [h] <;> norm_num
    have hdet : ∀ op ∈ groups'[φ n].transformations, op.rot.det ≠ 0 := by
      intro op hop h0
      obtain ⟨d, hd⟩ := htr hI' _ hmem op hop
      have := congrArg Matrix.det (hrot' _ hd)
      rw [Matrix.det_mul, h0, zero_mul, Matrix.det_one] at this
      exact zero_ne_one this
    have hG := dofGroup_eq m' amps pols inc groups'[φ n] (H' (φ n)) (rest' (φ n)) (hH' (φ n)) hdet
    obtain ⟨o1, ho1⟩ := head_mem hI (List.getElem_mem n.2) (hH n)
    obtain ⟨o2, ho2⟩ := head_mem hI' hmem (hH' (φ n))
    have hne' := ne_zero_of_norm (hC'.norm _ ho2)
    -- its basis vector
    obtain ⟨b, hb⟩ : ∃ b, normalizePos (m'.ref.getCartDisplacement (H' (φ n))) = some b := by
      obtain ⟨c1, r1, d1, b1⟩ := (hGF n).basis
      have h5 := hH n
      rw [d1] at h5
      cases h5
      obtain ⟨v0, _⟩ := normalizePos_some _ _ b1
      unfold normalizePos
      rw [if_neg]
      · exact ⟨_, rfl⟩
      · intro h0
        rw [norm2_eq_zero] at h0
        refine v0 ?_
        have hbx : ∀ {v : Pos N ℝ}, inner3 v v = 1 / 100 → ∀ a i, InHalfBox (v a i) := by
          intro v hv
          refine box_of_norm ?_
          unfold norm2
          rw [dot_flat, hv, show (1 / 100 : ℝ) = (1 / 10) ^ 2 by norm_num, Real.sqrt_sq (by norm_num)]
        rw [getCart_of_box _ _ (hbx (hC.norm _ ho1))]
        rw [getCart_of_box _ _ (hbx (hC'.norm _ ho2)), hL, hφe] at h0
        funext a i
        have h6 := congrFun h0 (a, i)
        have h7 : ε n * toCart m.ref.lattice (H n) a i = 0 := by
          refine Eq.trans ?_ h6
          simp only [flat, toCart, Finset.mul_sum, mul_assoc]
        exact (mul_eq_zero.1 h7).resolve_left hε0
    -- its points are finite
    obtain ⟨fin', hf'⟩ : ∃ fin', FinPts (refPoint inc ++
        (groups'[φ n].displacements.zip groups'[φ n].transformations).flatMap fun x =>
          (amps.zip pols).map (imagePoint m'.refPol (multiplier (H' (φ n)) x.1) x.2)) fin' := by
      refine ⟨dofPoints m'.refPol inc ((groups'[φ n].displacements.zip
        groups'[φ n].transformations).map fun x => ((multiplier (H' (φ n)) x.1).getD 0, x.2))
        (amps.zip pols), ?_⟩
      unfold FinPts dofPoints
      rw [List.map_append, List.map_flatMap, List.flatMap_map]
      congr 1
      · unfold refPoint; cases inc <;> rfl
      · refine List.flatMap_congr fun x hx => ?_
        rw [List.map_map]
        refine List.map_congr_left fun y _ => ?_
        obtain ⟨κ, hκ, hx1⟩ := disp_sign hI' hC' hmem (hH' (φ n)) (List.of_mem_zip hx).1
        have hκ0 : κ ≠ 0 := by rcases hκ with h | h <;> rw [h] <;> norm_num
        simp only [imagePoint, Function.comp_apply]
        rw [hx1, multiplier_smul _ hne' κ hκ0]
        rfl
    refine ⟨_, b, fin', hG, hb, hf', ?_⟩
    refine groupFacts m' amps pols inc _ _ _ fin' (hI'.len _ hmem) ?_ hG hb hf'
    intro op hop
    obtain ⟨d, hd⟩ := htr hI' _ hmem op hop
    exact hnew' _ hd
  choose G b' fin' hdg hbasis hfin' hGF' using hG'
  have hF' : List.Forall₂ (fun g r => GroupFacts m' inc (amps.zip pols) g r.1 r.2) groups'
      (List.ofFn fun n : Fin groups'.length => (b' n, fin' n)) := by
    rw [List.forall₂_iff_get]
    refine ⟨by simp, fun n h1 h2 => ?_⟩
    simp only [List.get_eq_getElem, List.getElem_ofFn]
    exact hGF' ⟨n, h1⟩
  -- they can be interpolated
  have hbuild : ∀ n : Fin groups.length, ∃ f', buildOne spline we k (G (φ n)).pts
      = (.ok f', (xs[n]'(by omega)).2) := by
    intro n
    obtain ⟨hε, hφe⟩ := hφ n
    have hεε : ε n * ε n = 1 := by rcases hε with h | h <;> rw [h] <;> norm_num
    have g1 := hH n
    have g2 := hH' (φ n)
    simp only [Fin.getElem_fin] at g1 g2
    have hmem := List.getElem_mem n.2
    have hmem' := List.getElem_mem (φ n).2
    have hfst : (fin' (φ n)).map Prod.fst = (fin n).map Prod.fst := by
      obtain ⟨t, t1, t2⟩ := amplitudes hN hI hC hmem g1 (hGF n)
      obtain ⟨t', t1', t2'⟩ := amplitudes hN hI' hC' hmem' g2 (hGF' (φ n))
      have : t' = t := by
        rw [Bool.eq_iff_iff, t1, t1']
        obtain ⟨o1, ho1⟩ := head_mem hI hmem g1
        obtain ⟨o2, ho2⟩ := head_mem hI' hmem' g2
        rcases hε with he | he
        · have : H' (φ n) = H n := by rw [hφe, he]; funext a i; ring
          rw [this]
          constructor
          · rintro ⟨y, hy, h⟩; exact ⟨y, (hcom.same y).2 hy, h⟩
          · rintro ⟨y, hy, h⟩; exact ⟨y, (hcom.same y).1 hy, h⟩
        · refine iff_of_true ⟨_, (hcom.same _).1 ho1, ?_⟩ ⟨_, (hcom.same _).2 ho2, ?_⟩
          · rw [hφe, he]; funext a i; ring
          · dsimp only; rw [hφe, he]
      rw [t2, t2', this]
    have hlong' : k < (fin' (φ n)).length := by
      have := congrArg List.length hfst
      rw [List.length_map, List.length_map] at this
      rw [this]
      exact hlong n
    have P := points_of_images hN hI hC hcom.rot hcom.data hF n n.2 (H n) (rest n) g1
    have P' := points_of_images hN hI' hC' hrot' (m := m') (inc := inc) (data := amps.zip pols)
      (fun x hx y hy => by
        rw [hpp]; exact hcom.data x ((hcom.same x).2 hx) y ((hcom.same y).2 hy)) hF' (φ n) (φ n).2
      (H' (φ n)) (rest' (φ n)) g2
    simp only [List.getElem_ofFn] at P P'
    rw [hpp] at P'
    obtain ⟨f', hf'⟩ := spline_ok hsp (S := fin n) (S' := fin' (φ n)) (hready n) (hspl n)
      (splineReady_sort k _ hk hlong' (by rw [hfst]; exact hdup n)) hε (by
        intro z
        rw [P, P']
        constructor
        · rintro (⟨hi, rfl⟩ | ⟨y, hy, κ, hκ, hyk, d, hd, rfl⟩)
          · exact Or.inl ⟨hi, by simp⟩
          · refine Or.inr ⟨y, (hcom.same y).2 hy, ε n * κ, ?_, ?_, d, hd, ?_⟩
            · rcases hε with h | h <;> rcases hκ with rfl | rfl <;> rw [h] <;> norm_num
            · rw [hyk, hφe]; funext a j; ring
            · rw [mul_assoc]
        · rintro (⟨hi, hz⟩ | ⟨y, hy, κ, hκ, hyk, d, hd, hz⟩)
          · refine Or.inl ⟨hi, ?_⟩
            have h1 := congrArg Prod.fst hz
            have h2 := congrArg Prod.snd hz
            dsimp only at h1 h2
            refine Prod.ext ?_ h2
            have : z.1 = ε n * (ε n * z.1) := by rw [← mul_assoc, hεε, one_mul]
            rw [this, h1]; simp
          · refine Or.inr ⟨y, (hcom.same y).1 hy, ε n * κ, ?_, ?_, d, hd, ?_⟩
            · rcases hε with h | h <;> rcases hκ with rfl | rfl <;> rw [h] <;> norm_num
            · rw [hyk, hφe]
              funext a j
              linear_combination (-κ * H n a j) * hεε
            · have h1 := congrArg Prod.fst hz
              have h2 := congrArg Prod.snd hz
              dsimp only at h1 h2
              refine Prod.ext ?_ h2
              have : z.1 = ε n * (ε n * z.1) := by rw [← mul_assoc, hεε, one_mul]
              rw [this, h1, mul_assoc])
    refine ⟨f', ?_⟩
    have := buildOne_of (we := we) (hfin' (φ n)) (by rw [hfst]; exact hdup n) hlong'
      (by rw [hfst, ← hws n]; exact hwe n) hf'
    rw [this, hfst, ← hws n]
  choose f' hf' using hbuild
  let χ : Fin groups.length ≃ Fin groups'.length := Equiv.ofBijective φ hbij
  have hχ : ∀ n, φ (χ.symm n) = n := fun n => χ.apply_symm_apply n
  let X' : Fin groups'.length → (ℝ → Mat3 ℝ) × List DofWarning := fun n =>
    (f' (χ.symm n), (xs[χ.symm n]'(by omega)).2)
  refine ⟨List.ofFn G, List.ofFn b', List.ofFn X', ?_, ?_, ?_, ?_⟩
  · rw [List.forall₂_iff_get]
    refine ⟨by simp, fun n h1 h2 => ?_⟩
    simp only [List.get_eq_getElem, List.getElem_ofFn]
    exact hdg ⟨n, h1⟩
  · refine (mapM_except_ok _ _ _).2 ?_
    rw [List.forall₂_iff_get]
    refine ⟨by simp, fun n h1 h2 => ?_⟩
    simp only [List.get_eq_getElem, List.getElem_ofFn]
    rw [hbasis]
  · rw [List.forall₂_iff_get]
    refine ⟨by simp, fun n h1 h2 => ?_⟩
    simp only [List.get_eq_getElem, List.getElem_ofFn]
    have hn : n < groups'.length := by simpa using h1
    have := hf' (χ.symm ⟨n, hn⟩)
    rw [hχ] at this
    exact this
  · have h1 : xs.map Prod.snd = List.ofFn fun n : Fin groups.length => (xs[n]'(by omega)).2 := by
      apply List.ext_getElem
      · simp; omega
      · intro n h1 h2
        simp
    have h2 : (List.ofFn X').map Prod.snd
        = List.ofFn ((fun n : Fin groups.length => (xs[n]'(by omega)).2) ∘ χ.symm) := by
      rw [List.map_ofFn]; rfl
    rw [h1, h2]
    exact ofFn_comp_bij _ χ.symm.bijective _

/-- C151: an `add_dof` call that succeeds for one order of the operations succeeds for every other
order, issues the same warnings (up to their order), and again leaves models that hold the same
degrees of freedom. -/
theorem C151_success (spglib spglib' : Mat3 ℝ → Pos N ℝ → (Fin N → ℕ) → Option SymDict)
    (nums : Fin N → ℕ) (lat : Mat3 ℝ) (p : Pos N ℝ) (s s' : RefStructure N)
    (hs : RefStructure.init spglib nums lat p = .ok s)
    (hs' : RefStructure.init spglib' nums lat p = .ok s')
    (hops : ∀ op, op ∈ s.ops ↔ op ∈ s'.ops) (hN : N ≤ 10 ^ 8)
    (hsep : ∀ j k, j ≠ k → Apart (2 / 10 ^ 5) (p j) (p k))
    (hsym : ∀ op ∈ s.ops, ∃ σ, IsSymmetry p op.rot op.trans σ)
    (hiso : ∀ op ∈ s.ops, op.rot * op.rot.transpose = 1)
    (spline : SplineFn) (hsp : SplineEquivariant spline) (we : Bool) (m m' : IModel N)
    (ht : Twins s s' m m') (cart w : Pos N ℝ) (hw : s.getFracDisplacement cart = .ok w)
    (hw0 : w ≠ 0) (amps : List ℝ) (pols : List (Mat3 ℝ)) (order : ℤ) (inc : Bool)
    (hcl : CleanCall p s m.refPol w pols)
    (hok : (m.addDof spline we cart amps pols order inc).result = .ok ()) :
    (m'.addDof spline we cart amps pols order inc).result = .ok () ∧
    (m'.addDof spline we cart amps pols order inc).warnings.Perm
      (m.addDof spline we cart amps pols order inc).warnings ∧
    Twins s s' (m.addDof spline we cart amps pols order inc).state
      (m'.addDof spline we cart amps pols order inc).state := by
  obtain ⟨_, hsl, _⟩ := init_facts hs
  obtain ⟨_, hsl', _⟩ := init_facts hs'
  have hL : m'.ref.lattice = m.ref.lattice := by rw [ht.ref, ht.ref', hsl, hsl']
  have hw' : s'.getFracDisplacement cart = .ok w := by
    unfold RefStructure.getFracDisplacement at hw ⊢
    rw [hsl', ← hsl]
    exact hw
  have hbox := (frac_ok _ _ _ hw).2.1
  obtain ⟨_, _, groups, _, _, _, _, _, hgr, _⟩ :=
    images_of_displacement hs hsep hsym hiso w hbox hw0
  obtain ⟨_, _, groups', _, _, _, _, _, hgr', _⟩ :=
    images_of_displacement hs' hsep (fun op h => hsym op ((hops op).2 h))
      (fun op h => hiso op ((hops op).2 h)) w hbox hw0
  obtain ⟨q, c, _, g1, _, g2, _⟩ :=
    (parent_facts m cart w (by rw [ht.ref]; exact hw)).2 hw0
  obtain ⟨q', c', _, g1', _, g2', _⟩ :=
    (parent_facts m' cart w (by rw [ht.ref']; exact hw')).2 hw0
  have hqq : q' = q := by
    unfold parentDisplacement at g1 g1'
    dsimp only at g1 g1'
    rw [ht.ref, hw] at g1
    rw [ht.ref', hw'] at g1'
    change Except.ok (normalizeTenth w) = _ at g1
    change Except.ok (normalizeTenth w) = _ at g1'
    rw [g1] at g1'
    cases g1'
    rfl
  subst hqq
  rw [ht.ref, hgr] at g2
  rw [ht.ref', hgr'] at g2'
  have hu : usedPols m amps pols = pols := by unfold usedPols; rw [ht.real]; rfl
  have hu' : usedPols m' amps pols = pols := by unfold usedPols; rw [ht.real']; rfl
  -- the first call
  have hok2 := hok
  unfold IModel.addDof IModel.addDofNan at hok2
  cases hp : prepareDof m (some cart) amps pols inc with
  | error e => rw [hp] at hok2; cases hok2
  | ok gs =>
  rw [hp] at hok2
  dsimp only at hok2
  obtain ⟨parent, h1, h2, h3⟩ := prepareDof_ok _ _ _ _ _ _ hp
  rw [g1] at h1
  cases h1
  rw [hu] at h2 h3
  obtain ⟨fs, ws, bs, k1, k2, k3, k4, k5⟩ := constructAndAdd_ok spline we m gs order hok2
  obtain ⟨ho, _⟩ := getDof_ok m _ amps pols inc gs h3 bs k3
  rw [getDof_eq m _ amps pols inc groups ho (by rw [ht.ref]; exact g2)] at h3
  have hgs := (mapM_except_ok _ _ _).1 h3
  obtain ⟨xs, x1, rfl, rfl⟩ := buildAll_iff.1 k2
  obtain ⟨new, new', hcom, hnew⟩ := common hs hs' hops hsep hsym hiso w hbox hw0 m amps pols hcl
    groups groups' hgr hgr'
  obtain ⟨gs', bs', xs', f1, f2, f3, f4⟩ := groups_build hN hsp (by omega) hL ht.pol hcom
    (by rw [ht.ref]; exact hnew)
    (fun x hx => by rw [ht.ref']; exact (hops _).1 (hnew x ((hcom.same x).2 hx))) hgs k3 x1
  -- the second call
  have ho' := orthCheck_same hL ht.interps ht.mask ht.dofs ht.interps' ht.mask' _ ho
  have hp' : prepareDof m' (some cart) amps pols inc = .ok gs' := by
    rw [prepareDof_eq m' _ _ amps pols inc g1' (by rw [hu']; exact h2), hu',
      getDof_eq m' _ amps pols inc groups' ho' (by rw [ht.ref']; exact g2')]
    exact (mapM_except_ok _ _ _).2 f1
  have hb' := buildAll_iff.2 ⟨xs', f3, rfl, rfl⟩
  have hrun : m'.addDof spline we cart amps pols order inc
      = constructAndAdd spline we m' gs' order := by
    unfold IModel.addDof IModel.addDofNan
    rw [hp']
  have hres : (constructAndAdd spline we m' gs' order).result = .ok () ∧
      (constructAndAdd spline we m' gs' order).warnings = xs'.flatMap Prod.snd := by
    unfold constructAndAdd
    rw [if_neg (by omega), hb']
    dsimp only
    rw [f2]
    exact ⟨rfl, rfl⟩
  have hw1 : (m.addDof spline we cart amps pols order inc).warnings = xs.flatMap Prod.snd := by
    rw [← k4]
    unfold IModel.addDof IModel.addDofNan
    rw [hp]
  have hok' : (m'.addDof spline we cart amps pols order inc).result = .ok () := by
    rw [hrun]; exact hres.1
  refine ⟨hok', ?_, C151_add_dof spglib spglib' nums lat p s s' hs hs' hops hN hsep hsym hiso spline
    hsp we m m' ht cart w hw hw0 amps pols order inc hcl hok hok'⟩
  rw [hrun, hres.2, hw1, List.flatMap_def, List.flatMap_def]
  exact f4.flatten

/-- C151: a script of `add_dof` calls (displacement, amplitudes, polarizabilities, spline degree) with
clean images and consistent data that runs through for one order of the symmetry operations runs
through for every other order, with the same warnings up to their order, and the two models predict
the same for every batch of configurations. -/
theorem C151_scripts_partial
    (spglib spglib' : Mat3 ℝ → Pos N ℝ → (Fin N → ℕ) → Option SymDict)
    (nums : Fin N → ℕ) (lat : Mat3 ℝ) (p : Pos N ℝ) (s s' : RefStructure N)
    (hs : RefStructure.init spglib nums lat p = .ok s)
    (hs' : RefStructure.init spglib' nums lat p = .ok s')
    (hops : ∀ op, op ∈ s.ops ↔ op ∈ s'.ops) (hN : N ≤ 10 ^ 8)
    (hsep : ∀ j k, j ≠ k → Apart (2 / 10 ^ 5) (p j) (p k))
    (hsym : ∀ op ∈ s.ops, ∃ σ, IsSymmetry p op.rot op.trans σ)
    (hiso : ∀ op ∈ s.ops, op.rot * op.rot.transpose = 1)
    (spline : SplineFn) (hsp : SplineEquivariant spline) (we : Bool) (pol : Mat3 ℝ)
    (calls : List (Pos N ℝ × List ℝ × List (Mat3 ℝ) × ℤ))
    (hcalls : ∀ c ∈ calls, ∃ w, s.getFracDisplacement c.1 = .ok w ∧ w ≠ 0 ∧
      CleanCall p s pol w c.2.2.1)
    (ws : List DofWarning) (m : IModel N)
    (hrun : runScript spline we (IModel.init s pol false)
      (calls.map fun c => .dof c.1 c.2.1 c.2.2.1 c.2.2.2) = .ok (ws, m)) :
    ∃ ws' m', runScript spline we (IModel.init s' pol false)
        (calls.map fun c => .dof c.1 c.2.1 c.2.2.1 c.2.2.2) = .ok (ws', m') ∧
      ws'.Perm ws ∧ ∀ batch, m'.calcPolarizabilities batch = m.calcPolarizabilities batch := by
  have key : ∀ (calls : List (Pos N ℝ × List ℝ × List (Mat3 ℝ) × ℤ)) (m₀ m₀' : IModel N)
      (ws : List DofWarning) (m : IModel N), Twins s s' m₀ m₀' → m₀.refPol = pol →
      (∀ c ∈ calls, ∃ w, s.getFracDisplacement c.1 = .ok w ∧ w ≠ 0 ∧ CleanCall p s pol w c.2.2.1) →
      runScript spline we m₀ (calls.map fun c => .dof c.1 c.2.1 c.2.2.1 c.2.2.2) = .ok (ws, m) →
      ∃ ws' m', runScript spline we m₀' (calls.map fun c => .dof c.1 c.2.1 c.2.2.1 c.2.2.2)
        = .ok (ws', m') ∧ ws'.Perm ws := by
    intro calls
    induction calls with
    | nil =>
      intro m₀ m₀' ws m ht _ _ h1
      cases h1
      exact ⟨[], _, rfl, .refl _⟩
    | cons c cs ih =>
      intro m₀ m₀' ws m ht hpol hc h1
      rw [List.map_cons] at h1 ⊢
      unfold runScript at h1 ⊢
      obtain ⟨w, g1, g2, g3⟩ := hc c List.mem_cons_self
      cases r1 : (AddCall.run spline we m₀ (.dof c.1 c.2.1 c.2.2.1 c.2.2.2)).result with
      | error e => rw [r1] at h1; cases h1
      | ok u =>
        rw [r1] at h1
        dsimp only at h1
        obtain ⟨r2, hwarn, ht2⟩ := C151_success spglib spglib' nums lat p s s' hs hs' hops hN hsep
          hsym hiso spline hsp we m₀ m₀' ht c.1 w g1 g2 c.2.1 c.2.2.1 c.2.2.2 true
          (by rw [hpol]; exact g3) r1
        have hpol2 : (m₀.addDof spline we c.1 c.2.1 c.2.2.1 c.2.2.2).state.refPol = pol := by
          obtain ⟨_, _, _, _, _, _, _, h5, _⟩ :=
            addDofNan_facts spline we m₀ (some c.1) c.2.1 c.2.2.1 c.2.2.2 true _ rfl r1
          have : (m₀.addDof spline we c.1 c.2.1 c.2.2.1 c.2.2.2).state
            = (m₀.addDofNan spline we (some c.1) c.2.1 c.2.2.1 c.2.2.2 true).state := rfl
          rw [this, h5]
          exact hpol
        split at h1
        · cases h1
        · rename_i ws1 m1 e1
          cases h1
          obtain ⟨ws', m', e2, hperm⟩ := ih _ _ _ _ ht2 hpol2
            (fun c hc' => hc c (List.mem_cons_of_mem _ hc')) e1
          have r2' : (AddCall.run spline we m₀' (.dof c.1 c.2.1 c.2.2.1 c.2.2.2)).result = .ok () := r2
          have e2' : runScript spline we
              (AddCall.run spline we m₀' (.dof c.1 c.2.1 c.2.2.1 c.2.2.2)).state
              (cs.map fun c => .dof c.1 c.2.1 c.2.2.1 c.2.2.2) = .ok (ws', m') := e2
          rw [r2']
          dsimp only
          rw [e2']
          exact ⟨_, m', rfl, List.Perm.append hwarn hperm⟩
  have h0 : Twins s s' (IModel.init s pol false) (IModel.init s' pol false) :=
    ⟨rfl, rfl, rfl, rfl, rfl, rfl, rfl, rfl, rfl, ⟨[], by simp [IModel.init], by simp [IModel.init]⟩⟩
  obtain ⟨ws', m', e, hperm⟩ := key calls _ _ _ _ h0 rfl hcalls hrun
  exact ⟨ws', m', e, hperm, fun batch => C151_partial spglib spglib' nums lat p s s' hs hs' hops hN
    hsep hsym hiso spline hsp we pol calls hcalls ws ws' m m' hrun e batch⟩

/-- C151: whether such a script runs through or raises does not depend on the order of the
operations. -/
theorem C151_accepted_iff
    (spglib spglib' : Mat3 ℝ → Pos N ℝ → (Fin N → ℕ) → Option SymDict)
    (nums : Fin N → ℕ) (lat : Mat3 ℝ) (p : Pos N ℝ) (s s' : RefStructure N)
    (hs : RefStructure.init spglib nums lat p = .ok s)
    (hs' : RefStructure.init spglib' nums lat p = .ok s')
    (hops : ∀ op, op ∈ s.ops ↔ op ∈ s'.ops) (hN : N ≤ 10 ^ 8)
    (hsep : ∀ j k, j ≠ k → Apart (2 / 10 ^ 5) (p j) (p k))
    (hsym : ∀ op ∈ s.ops, ∃ σ, IsSymmetry p op.rot op.trans σ)
    (hiso : ∀ op ∈ s.ops, op.rot * op.rot.transpose = 1)
    (spline : SplineFn) (hsp : SplineEquivariant spline) (we : Bool) (pol : Mat3 ℝ)
    (calls : List (Pos N ℝ × List ℝ × List (Mat3 ℝ) × ℤ))
    (hcalls : ∀ c ∈ calls, ∃ w, s.getFracDisplacement c.1 = .ok w ∧ w ≠ 0 ∧
      CleanCall p s pol w c.2.2.1) :
    (∃ r, runScript spline we (IModel.init s pol false)
      (calls.map fun c => .dof c.1 c.2.1 c.2.2.1 c.2.2.2) = .ok r) ↔
    ∃ r, runScript spline we (IModel.init s' pol false)
      (calls.map fun c => .dof c.1 c.2.1 c.2.2.1 c.2.2.2) = .ok r := by
  obtain ⟨_, hsl, _⟩ := init_facts hs
  obtain ⟨_, hsl', _⟩ := init_facts hs'
  constructor
  · rintro ⟨⟨ws, m⟩, hr⟩
    obtain ⟨ws', m', h, _⟩ := C151_scripts_partial spglib spglib' nums lat p s s' hs hs' hops hN hsep
      hsym hiso spline hsp we pol calls hcalls ws m hr
    exact ⟨_, h⟩
  · rintro ⟨⟨ws, m⟩, hr⟩
    obtain ⟨ws', m', h, _⟩ := C151_scripts_partial spglib' spglib nums lat p s' s hs' hs
      (fun op => (hops op).symm) hN hsep (fun op h => hsym op ((hops op).2 h))
      (fun op h => hiso op ((hops op).2 h)) spline hsp we pol calls (by
        intro c hc
        obtain ⟨w, h1, h2, h3⟩ := hcalls c hc
        refine ⟨w, ?_, h2, fun x hx y hy => h3 x ((hops x).2 hx) y ((hops y).2 hy)⟩
        unfold RefStructure.getFracDisplacement at h1 ⊢
        rw [hsl', ← hsl]
        exact h1) ws m hr
    exact ⟨_, h⟩

/-! ### Concrete: the mirror listed before the identity -/

theorem mir_cleanCall (s : RefStructure 1) (hops : s.ops = mirOps) (pol : Mat3 ℝ)
    (pols : List (Mat3 ℝ)) : CleanCall (fun _ _ => 0) s pol (one1 mirV) pols := by
  have hor : ∀ op ∈ s.ops, op = ⟨1, 0⟩ ∨ op = ⟨mirRot, 0⟩ := by
    intro op hop
    rw [hops] at hop
    simpa [mirOps] using hop
  have i1 : ∀ σ : Equiv.Perm (Fin 1), carried σ 1 (one1 mirV) = one1 mirV := fun σ => by
    rw [carried_one1]
    congr 1
    funext j
    simp [Matrix.one_apply]
  have i2 : ∀ σ : Equiv.Perm (Fin 1), carried σ mirRot (one1 mirV) = one1 mirV' := fun σ => by
    rw [carried_one1]
    congr 1
    funext j
    exact mir_images.2 j
  have hz : inner3 (one1 mirV) (one1 mirV') = 0 ∧ inner3 (one1 mirV') (one1 mirV) = 0 := by
    constructor <;> simp [inner3, one1, mirV, mirV', Fin.sum_univ_three]
  have hne : one1 mirV ≠ one1 mirV' := by
    intro hcon
    have := congrFun (congrFun hcon 0) 0
    norm_num [one1, mirV, mirV'] at this
  have hself : ∀ v : Pos 1 ℝ, ∃ κ : ℝ, (κ = 1 ∨ κ = -1) ∧ v = fun a i => κ * v a i :=
    fun v => ⟨1, Or.inl rfl, by funext a i; ring⟩
  intro x hx y hy σ τ _ _
  rcases hor x hx with rfl | rfl <;> rcases hor y hy with rfl | rfl <;> dsimp only <;>
    simp only [i1, i2]
  · exact ⟨Or.inl (hself _), fun _ _ _ => trivial⟩
  · exact ⟨Or.inr hz.1, fun h => absurd h hne⟩
  · exact ⟨Or.inr hz.2, fun h => absurd h.symm hne⟩
  · exact ⟨Or.inl (hself _), fun _ _ _ => trivial⟩

/-- C151, concrete: displacement along `x`, with images `x` and `y`; arbitrary data `C`, `D`.  From
the run with the identity listed first alone it follows that the run with the mirror listed first
goes through, without a warning, and predicts the same. -/
example (nums : Fin 1 → ℕ) (pol C D : Mat3 ℝ) (s s' : RefStructure 1)
    (hs : RefStructure.init mirSpglib nums 1 (fun _ _ => 0) = .ok s) (hops : s.ops = mirOps)
    (hs' : RefStructure.init revSpglib nums 1 (fun _ _ => 0) = .ok s')
    (hops' : s'.ops = mirOps.reverse) :
    ∃ m m', runScript lookupSpline true (IModel.init s pol false)
        [.dof (one1 mirV) [-(3 / 50), 3 / 50] [C, D] 2] = .ok ([], m) ∧
      runScript lookupSpline true (IModel.init s' pol false)
        [.dof (one1 mirV) [-(3 / 50), 3 / 50] [C, D] 2] = .ok ([], m') ∧
      ∀ batch, m'.calcPolarizabilities batch = m.calcPolarizabilities batch := by
  obtain ⟨hpos, hlat, _⟩ := init_facts hs
  obtain ⟨_, _, b1, _⟩ := mir_box
  obtain ⟨_, _, n1, _⟩ := mir_norms
  have ho : orthCheck (IModel.init s pol false) (some (one1 mirV)) = -1 := by
    unfold orthCheck
    dsimp only
    rw [C08_all_orthogonal]
    intro x hx
    simp [IModel.init] at hx
  obtain ⟨g, h, hgh, _⟩ := mir_addV nums s hs hops C D (IModel.init s pol false) rfl rfl ho
  have hrun : runScript lookupSpline true (IModel.init s pol false)
      [.dof (one1 mirV) [-(3 / 50), 3 / 50] [C, D] 2] = .ok ([],
        (IModel.addDof lookupSpline true (IModel.init s pol false) (one1 mirV)
          [-(3 / 50), 3 / 50] [C, D] 2).state) := by
    unfold runScript AddCall.run
    dsimp only
    rw [hgh]
    rfl
  obtain ⟨ws', m', h1, h2, h3⟩ := C151_scripts_partial mirSpglib revSpglib nums 1 (fun _ _ => 0) s s'
    hs hs' (fun op => by rw [hops, hops', List.mem_reverse]) (by norm_num) (one_apart _)
    (fun op hop => ⟨_, mir_sym op (hops ▸ hop)⟩) (by
      intro op hop
      rw [hops] at hop
      simp only [mirOps, List.mem_cons, List.not_mem_nil, or_false] at hop
      rcases hop with rfl | rfl
      · simp
      · dsimp only; rw [mir_transpose, mir_sq]) lookupSpline lookupSpline_equivariant true pol
    [(one1 mirV, [-(3 / 50), 3 / 50], [C, D], 2)] (by
      intro c hc
      rw [List.mem_singleton] at hc
      subst hc
      exact ⟨one1 mirV, mir_frac s hlat mirV b1,
        fun h => one1_ne (vec_ne_zero n1) (by rw [h]; rfl), mir_cleanCall s hops pol _⟩) _ _ hrun
  rw [List.perm_nil] at h2
  subst h2
  exact ⟨_, m', hrun, h1, h3⟩

end Verif
