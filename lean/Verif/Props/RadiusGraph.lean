import Verif.Props.TorchUtils

/-!
# C82, C83: radius graphs
-/

namespace Verif

theorem imageVector_iff {n : ℕ} (L : Mat3 ℝ) (p : Pos n ℝ) (a b : Fin n) (d : Fin 3 → ℝ) :
    Spec.ImageVector L (p a) (p b) d ↔ d = pairDisplacement L p a b := by
  constructor
  · rintro ⟨f, hf, hd⟩
    funext j
    rw [hd, pairDisplacement]
    refine Finset.sum_congr rfl fun i _ => ?_
    rw [wrap1_unique (hf i).1 (hf i).2]
  · rintro rfl
    exact ⟨fun i => wrap1 (p b i - p a i), fun i => ⟨wrap1_sameImage _, wrap1_inHalfBox _⟩, fun j => rfl⟩

theorem norm3_eq (d : Fin 3 → ℝ) : norm3 d = Real.sqrt (∑ j, d j ^ 2) := by
  rw [norm3, Fin.sum_univ_three]

theorem inReach_iff {n : ℕ} (L : Mat3 ℝ) (p : Pos n ℝ) (a b : Fin n) (r : ℝ) :
    Spec.InReach L r (p a) (p b) ↔ pairDistance L p a b ≤ r := by
  unfold Spec.InReach pairDistance
  simp only [imageVector_iff, exists_eq_left, norm3_eq]

theorem mem_adjacencyIndexes {n : ℕ} (cutoff : ℝ) (samples : List (Mat3 ℝ × Pos n ℝ))
    (x : ℕ × ℕ × ℕ) :
    x ∈ adjacencyIndexes cutoff samples ↔ ∃ s, samples[x.1]? = some s ∧ ∃ a b : Fin n,
      a ≠ b ∧ Spec.InReach s.1 cutoff (s.2 a) (s.2 b) ∧ x.2 = (a.1, b.1) := by
  obtain ⟨g, i, j⟩ := x
  unfold adjacencyIndexes adjacent
  simp only [List.mem_flatMap, List.mem_finRange, true_and, List.mem_map, List.mem_filter,
    Bool.and_eq_true, decide_eq_true_eq, Bool.not_eq_true', decide_eq_false_iff_not, Prod.exists,
    List.mem_zipIdx_iff_getElem?, Prod.mk.injEq, inReach_iff]
  constructor
  · rintro ⟨L, p, g', hs, a, b, ⟨hd, hab⟩, rfl, rfl, rfl⟩
    exact ⟨L, p, hs, a, b, hab, hd, rfl, rfl⟩
  · rintro ⟨L, p, hs, a, b, hab, hd, rfl, rfl⟩
    exact ⟨L, p, g, hs, a, b, ⟨hd, hab⟩, rfl, rfl, rfl⟩

/-- Information on one edge of a batch, in terms of the geometry. -/
def EdgeFacts {n : ℕ} (samples : List (Mat3 ℝ × Pos n ℝ)) (g : ℕ) (a b : Fin n) (e : GraphEdge) :
    Prop :=
  e.graph = g ∧ e.i = a.1 + g * n ∧ e.j = b.1 + g * n ∧
    ∃ s, samples[g]? = some s ∧ ∃ d, Spec.ImageVector s.1 (s.2 a) (s.2 b) d ∧
      e.distance = Real.sqrt (∑ j, d j ^ 2) ∧ (d = 0 → e.unit = none) ∧
      (d ≠ 0 → ∃ u, e.unit = some u ∧ Spec.IsDirection d u)

theorem graphInfo1_ok {n : ℕ} (samples : List (Mat3 ℝ × Pos n ℝ)) (g : ℕ) (a b : Fin n)
    (hg : g < samples.length) :
    ∃ e, graphInfo1 samples (g, a.1, b.1) = .ok e ∧ EdgeFacts samples g a b e := by
  have hs : samples[g]? = some samples[g] := List.getElem?_eq_getElem hg
  unfold graphInfo1
  dsimp only
  rw [hs]
  dsimp only
  rw [dif_pos ⟨a.2, b.2⟩]
  refine ⟨_, rfl, rfl, rfl, rfl, samples[g], hs, pairDisplacement samples[g].1 samples[g].2 a b,
    (imageVector_iff ..).2 rfl, ?_, ?_, ?_⟩
  · dsimp only
    rw [← norm3_eq]
    rfl
  · intro h
    exact unitVector_none.2 h
  · intro h
    dsimp only
    cases hu : unitVector (pairDisplacement samples[g].1 samples[g].2 a b) with
    | none => exact absurd (unitVector_none.1 hu) h
    | some u => exact ⟨u, rfl, unitVector_some.1 hu⟩

theorem radiusGraph_forall {n : ℕ} (cutoff : ℝ) (samples : List (Mat3 ℝ × Pos n ℝ)) :
    ∃ edges, radiusGraph cutoff samples = .ok edges ∧
      List.Forall₂ (fun x e => ∃ a b : Fin n, x.2 = (a.1, b.1) ∧ EdgeFacts samples x.1 a b e)
        (adjacencyIndexes cutoff samples) edges := by
  have h : ∀ l : List (ℕ × ℕ × ℕ), (∀ x ∈ l, x ∈ adjacencyIndexes cutoff samples) →
      ∃ edges, l.mapM (graphInfo1 samples) = .ok edges ∧
        List.Forall₂ (fun x e => ∃ a b : Fin n, x.2 = (a.1, b.1) ∧ EdgeFacts samples x.1 a b e)
          l edges := by
    intro l
    induction l with
    | nil => intro _; exact ⟨[], rfl, .nil⟩
    | cons x xs ih =>
      intro hx
      obtain ⟨s, hs, a, b, -, -, hab⟩ := (mem_adjacencyIndexes ..).1 (hx x (by simp))
      obtain ⟨es, hes, hall⟩ := ih fun y hy => hx y (by simp [hy])
      have hlt : x.1 < samples.length := (List.getElem?_eq_some_iff.1 hs).1
      obtain ⟨e, he, hf⟩ := graphInfo1_ok samples x.1 a b hlt
      have hxe : x = (x.1, a.1, b.1) := by rw [← hab]
      refine ⟨e :: es, ?_, .cons ⟨a, b, hab, hf⟩ hall⟩
      rw [List.mapM_cons, hxe, he, hes]
      rfl
  exact h _ fun x hx => hx

/-- C82: the radius graph has an edge from node `i` to node `j` of graph `g` iff these are distinct
atoms of that sample within reach of each other; unit vector and distance belong to the
displacement between these atoms. -/
theorem C82_edges {n : ℕ} (cutoff : ℝ) (samples : List (Mat3 ℝ × Pos n ℝ)) :
    ∃ edges, radiusGraph cutoff samples = .ok edges ∧
      (∀ g i j, (∃ e ∈ edges, e.graph = g ∧ e.i = i ∧ e.j = j) ↔
        ∃ s, samples[g]? = some s ∧ ∃ a b : Fin n, a ≠ b ∧
          Spec.InReach s.1 cutoff (s.2 a) (s.2 b) ∧ i = a.1 + g * n ∧ j = b.1 + g * n) ∧
      ∀ e ∈ edges, ∃ a b : Fin n, a ≠ b ∧ EdgeFacts samples e.graph a b e := by
  obtain ⟨edges, he, hall⟩ := radiusGraph_forall cutoff samples
  have hleft : ∀ e ∈ edges, ∃ x ∈ adjacencyIndexes cutoff samples,
      ∃ a b : Fin n, x.2 = (a.1, b.1) ∧ EdgeFacts samples x.1 a b e := forall₂_mem_right hall
  have hright : ∀ x ∈ adjacencyIndexes cutoff samples, ∃ e ∈ edges,
      ∃ a b : Fin n, x.2 = (a.1, b.1) ∧ EdgeFacts samples x.1 a b e := forall₂_mem_left hall
  refine ⟨edges, he, ?_, ?_⟩
  · intro g i j
    constructor
    · rintro ⟨e, hmem, hg, hi, hj⟩
      obtain ⟨x, hx, a, b, hab, hf⟩ := hleft e hmem
      obtain ⟨s, hs, a', b', hne, hr, hab'⟩ := (mem_adjacencyIndexes ..).1 hx
      rw [hab, Prod.mk.injEq, Fin.val_inj, Fin.val_inj] at hab'
      obtain ⟨rfl, rfl⟩ := hab'
      have hxg : x.1 = g := by rw [← hf.1, hg]
      rw [← hxg]
      exact ⟨s, hs, a, b, hne, hr, by rw [← hi, hf.2.1], by rw [← hj, hf.2.2.1]⟩
    · rintro ⟨s, hs, a, b, hne, hr, rfl, rfl⟩
      obtain ⟨e, hmem, a', b', hab, hf⟩ := hright (g, a.1, b.1)
        ((mem_adjacencyIndexes ..).2 ⟨s, hs, a, b, hne, hr, rfl⟩)
      rw [Prod.mk.injEq, Fin.val_inj, Fin.val_inj] at hab
      obtain ⟨rfl, rfl⟩ := hab
      exact ⟨e, hmem, hf.1, hf.2.1, hf.2.2.1⟩
  · intro e hmem
    obtain ⟨x, hx, a, b, hab, hf⟩ := hleft e hmem
    obtain ⟨s, hs, a', b', hne, hr, hab'⟩ := (mem_adjacencyIndexes ..).1 hx
    rw [hab, Prod.mk.injEq, Fin.val_inj, Fin.val_inj] at hab'
    obtain ⟨rfl, rfl⟩ := hab'
    exact ⟨a, b, hne, by rw [hf.1]; exact hf⟩

/-- Lexicographic order on edges. -/
def edgeLT (e f : GraphEdge) : Prop :=
  e.graph < f.graph ∨ e.graph = f.graph ∧ (e.i < f.i ∨ e.i = f.i ∧ e.j < f.j)

/-- Lexicographic order on index triples. -/
def tripleLT (e f : ℕ × ℕ × ℕ) : Prop :=
  e.1 < f.1 ∨ e.1 = f.1 ∧ (e.2.1 < f.2.1 ∨ e.2.1 = f.2.1 ∧ e.2.2 < f.2.2)

theorem adjacencyIndexes_sorted {n : ℕ} (cutoff : ℝ) (samples : List (Mat3 ℝ × Pos n ℝ)) :
    (adjacencyIndexes cutoff samples).Pairwise tripleLT := by
  unfold adjacencyIndexes
  rw [List.pairwise_flatMap]
  constructor
  · rintro ⟨s, g⟩ -
    rw [List.pairwise_flatMap]
    constructor
    · intro a _
      rw [List.pairwise_map]
      refine (List.Pairwise.filter _ (List.pairwise_lt_finRange n)).imp ?_
      intro b c hbc
      exact Or.inr ⟨rfl, Or.inr ⟨rfl, hbc⟩⟩
    · refine (List.pairwise_lt_finRange n).imp ?_
      intro a b hab x hx y hy
      rw [List.mem_map] at hx hy
      obtain ⟨c, -, rfl⟩ := hx
      obtain ⟨d, -, rfl⟩ := hy
      exact Or.inr ⟨rfl, Or.inl hab⟩
  · have hz : samples.zipIdx.Pairwise fun s t => s.2 < t.2 := by
      rw [List.pairwise_iff_getElem]
      intro i j hi hj hij
      simpa using hij
    refine hz.imp ?_
    intro s t hst x hx y hy
    rw [List.mem_flatMap] at hx hy
    obtain ⟨a, -, hx⟩ := hx
    obtain ⟨b, -, hy⟩ := hy
    rw [List.mem_map] at hx hy
    obtain ⟨c, -, rfl⟩ := hx
    obtain ⟨d, -, rfl⟩ := hy
    exact Or.inl hst

/-- C82: edges are listed in lexicographic order, so none is listed twice. -/
theorem C82_sorted {n : ℕ} (cutoff : ℝ) (samples : List (Mat3 ℝ × Pos n ℝ)) (edges : List GraphEdge)
    (h : radiusGraph cutoff samples = .ok edges) : edges.Pairwise edgeLT := by
  obtain ⟨edges', he, hall⟩ := radiusGraph_forall cutoff samples
  rw [h] at he
  cases he
  have hs := adjacencyIndexes_sorted cutoff samples
  clear h
  generalize adjacencyIndexes cutoff samples = idx at hall hs
  induction hall with
  | nil => exact .nil
  | @cons x e xs es hx hxs ih =>
    rw [List.pairwise_cons] at hs ⊢
    refine ⟨?_, ih hs.2⟩
    intro f hf
    obtain ⟨y, hy, c, d, hcd, hyf⟩ : ∃ y ∈ xs, ∃ a b : Fin n, y.2 = (a.1, b.1) ∧
        EdgeFacts samples y.1 a b f := forall₂_mem_right hxs f hf
    obtain ⟨a, b, hab, hxe⟩ := hx
    have hlt := hs.1 y hy
    unfold tripleLT at hlt
    unfold edgeLT
    rw [hab, hcd] at hlt
    rw [hxe.1, hyf.1, hxe.2.1, hyf.2.1, hxe.2.2.1, hyf.2.2.1]
    rcases hlt with h | ⟨h, h'⟩
    · exact Or.inl h
    · refine Or.inr ⟨h, ?_⟩
      rw [h]
      dsimp only at h'
      omega

theorem wrap1_neg_of_ne {x : ℝ} (h : ¬ Spec.SameImage x (1 / 2)) : wrap1 (-x) = -wrap1 x := by
  have h1 := wrap1_inHalfBox x
  have h2 := wrap1_sameImage x
  refine (wrap1_unique h2.neg ⟨?_, ?_⟩).symm
  · have : wrap1 x ≠ 1 / 2 := fun h' => h (by rw [← h']; exact h2)
    have := lt_of_le_of_ne h1.2 this
    linarith
  · have := h1.1
    linarith

theorem wrap1_neg_sq (x : ℝ) : wrap1 (-x) ^ 2 = wrap1 x ^ 2 := by
  by_cases h : Spec.SameImage x (1 / 2)
  · have h1 : wrap1 x = 1 / 2 := (wrap1_unique h ⟨by norm_num, le_refl _⟩).symm
    have h2 : wrap1 (-x) = 1 / 2 := by
      refine (wrap1_unique ?_ ⟨by norm_num, le_refl _⟩).symm
      obtain ⟨k, hk⟩ := h
      exact ⟨-k + 1, by push_cast; linarith⟩
    rw [h1, h2]
  · rw [wrap1_neg_of_ne h]; ring

/-- C82: being within reach is symmetric if no coordinates differ by exactly half a cell or the
lattice is orthogonal, so then every edge comes with its reverse. -/
theorem C82_symmetric {n : ℕ} (L : Mat3 ℝ) (p : Pos n ℝ) (a b : Fin n) (cutoff : ℝ)
    (h : (∀ i, ¬ Spec.SameImage (p b i - p a i) (1 / 2)) ∨ Spec.OrthogonalRows L) :
    Spec.InReach L cutoff (p a) (p b) ↔ Spec.InReach L cutoff (p b) (p a) := by
  rw [inReach_iff, inReach_iff]
  have hd : pairDistance L p a b = pairDistance L p b a := by
    unfold pairDistance
    rcases h with h | h
    · have : pairDisplacement L p b a = fun j => -pairDisplacement L p a b j := by
        funext j
        unfold pairDisplacement
        rw [← Finset.sum_neg_distrib]
        refine Finset.sum_congr rfl fun i _ => ?_
        rw [show p a i - p b i = -(p b i - p a i) by ring, wrap1_neg_of_ne (h i)]
        ring
      rw [this]
      simp [norm3]
    · have key : ∀ f : Fin 3 → ℝ, norm3 (fun j => ∑ i, f i * L i j) =
          Real.sqrt (∑ i, f i ^ 2 * ∑ j, L i j ^ 2) := by
        intro f
        unfold norm3
        congr 1
        have h01 := h 0 1 (by decide)
        have h02 := h 0 2 (by decide)
        have h12 := h 1 2 (by decide)
        simp only [Fin.sum_univ_three] at h01 h02 h12 ⊢
        linear_combination 2 * f 0 * f 1 * h01 + 2 * f 0 * f 2 * h02 + 2 * f 1 * f 2 * h12
      unfold pairDisplacement
      rw [key, key]
      congr 1
      refine Finset.sum_congr rfl fun i _ => ?_
      rw [show p a i - p b i = -(p b i - p a i) by ring, wrap1_neg_sq]
  rw [hd]

/-- C82: otherwise edges without reverse exist. -/
theorem C82_asymmetric :
    let L : Mat3 ℝ := !![1, 0, 0; 1, 1, 0; 0, 0, 1]
    let p : Pos 2 ℝ := ![![0, 0, 0], ![1 / 2, 1 / 4, 0]]
    ∃ edges, radiusGraph (1 / 2) [(L, p)] = .ok edges ∧ (∃ e ∈ edges, e.i = 1 ∧ e.j = 0) ∧
      ¬ ∃ e ∈ edges, e.i = 0 ∧ e.j = 1 := by
  intro L p
  have w1 : wrap1 (1 / 2 : ℝ) = 1 / 2 := wrap1_of_inHalfBox ⟨by norm_num, by norm_num⟩
  have w2 : wrap1 (-(1 / 2) : ℝ) = 1 / 2 :=
    (wrap1_unique ⟨1, by norm_num⟩ ⟨by norm_num, by norm_num⟩).symm
  have w3 : wrap1 (1 / 4 : ℝ) = 1 / 4 := wrap1_of_inHalfBox ⟨by norm_num, by norm_num⟩
  have w4 : wrap1 (-(1 / 4) : ℝ) = -(1 / 4) := wrap1_of_inHalfBox ⟨by norm_num, by norm_num⟩
  have w0 : wrap1 (0 : ℝ) = 0 := wrap1_zero
  have h01 : pairDisplacement L p 0 1 = ![3 / 4, 1 / 4, 0] := by
    funext j
    simp only [pairDisplacement, Fin.sum_univ_three]
    have e0 : p 1 0 - p 0 0 = 1 / 2 := by simp [p]
    have e1 : p 1 1 - p 0 1 = 1 / 4 := by simp [p]
    have e2 : p 1 2 - p 0 2 = 0 := by simp [p]
    rw [e0, e1, e2, w1, w3, w0]
    fin_cases j <;> simp [L]
    norm_num
  have h10 : pairDisplacement L p 1 0 = ![1 / 4, -(1 / 4), 0] := by
    funext j
    simp only [pairDisplacement, Fin.sum_univ_three]
    have e0 : p 0 0 - p 1 0 = -(1 / 2) := by simp [p]
    have e1 : p 0 1 - p 1 1 = -(1 / 4) := by simp [p]
    have e2 : p 0 2 - p 1 2 = 0 := by simp [p]
    rw [e0, e1, e2, w2, w4, w0]
    fin_cases j <;> simp [L]
    norm_num
  obtain ⟨edges, he, hiff, -⟩ := C82_edges (1 / 2) [(L, p)]
  refine ⟨edges, he, ?_, ?_⟩
  · obtain ⟨e, hm, -, hi, hj⟩ := (hiff 0 1 0).2 ⟨(L, p), rfl, 1, 0, by decide, by
      rw [inReach_iff, pairDistance, h10, norm3]
      rw [Real.sqrt_le_left (by norm_num)]
      simp
      norm_num, by simp, by simp⟩
    exact ⟨e, hm, hi, hj⟩
  · rintro ⟨e, hm, hi, hj⟩
    obtain ⟨s, hs, a, b, -, hr, ha, hb⟩ := (hiff e.graph 0 1).1 ⟨e, hm, rfl, hi, hj⟩
    have hg : e.graph = 0 := by
      have := (List.getElem?_eq_some_iff.1 hs).1
      simpa using this
    rw [hg] at hs ha hb
    cases hs
    have ha' : a = 0 := Fin.ext (by simpa using ha.symm)
    have hb' : b = 1 := Fin.ext (by simpa using hb.symm)
    subst ha' hb'
    rw [inReach_iff, pairDistance, h01, norm3, Real.sqrt_le_left (by norm_num)] at hr
    simp at hr
    norm_num at hr

/-! ## C83 -/

/-- C83: node indexes of graph `g` lie in `[g*n, (g+1)*n)`, so graph and atom are recovered by
division with remainder. -/
theorem C83_radius_graph {n : ℕ} (cutoff : ℝ) (samples : List (Mat3 ℝ × Pos n ℝ))
    (edges : List GraphEdge) (h : radiusGraph cutoff samples = .ok edges) :
    ∀ e ∈ edges, e.graph < samples.length ∧ e.graph * n ≤ e.i ∧ e.i < (e.graph + 1) * n ∧
      e.graph * n ≤ e.j ∧ e.j < (e.graph + 1) * n ∧ e.i / n = e.graph ∧ e.j / n = e.graph ∧
      e.i % n ≠ e.j % n := by
  obtain ⟨edges', he, -, hfacts⟩ := C82_edges cutoff samples
  rw [h] at he
  cases he
  intro e hmem
  obtain ⟨a, b, hab, hg, hi, hj, s, hs, -⟩ := hfacts e hmem
  have hn : 0 < n := Nat.lt_of_le_of_lt (Nat.zero_le _) a.2
  have e1 : (e.graph + 1) * n = e.graph * n + n := by ring
  have ha := a.2
  have hb := b.2
  refine ⟨(List.getElem?_eq_some_iff.1 hs).1, by omega, by omega, by omega, by omega, ?_, ?_, ?_⟩
  · rw [hi, Nat.add_mul_div_right _ _ hn, Nat.div_eq_of_lt ha, Nat.zero_add]
  · rw [hj, Nat.add_mul_div_right _ _ hn, Nat.div_eq_of_lt hb, Nat.zero_add]
  · rw [hi, hj, Nat.add_mul_mod_self_right, Nat.add_mul_mod_self_right, Nat.mod_eq_of_lt ha,
      Nat.mod_eq_of_lt hb]
    exact fun h' => hab (Fin.ext h')

/-- C83: likewise for the triplets of a batch; entry `s * E + e` of a batched index tensor belongs to
entry `e` of the reference tensor in graph `s`. -/
theorem C83_triplets (dimenet : List (ℕ × ℕ) → ℕ → Triplets) (n : ℕ)
    (edges : List (ℕ × ℕ)) (h : (dimenet edges n).Valid n edges.length) (history : List ℕ) (b : ℕ)
    (s : ℕ) (hs : s < b) :
    let ref := dimenet edges n
    let t := (((BatchTriplets.new dimenet n edges).after history).getTriplets b).1
    (∀ f ∈ [Triplets.i, Triplets.j], (f t).length = b * edges.length ∧
      ∀ (e x : ℕ), (f ref)[e]? = some x →
        ∃ y, (f t)[s * edges.length + e]? = some y ∧ y / n = s ∧ y % n = x) ∧
    (∀ f ∈ [Triplets.indexI, Triplets.indexJ, Triplets.indexK],
      (f t).length = b * ref.indexI.length ∧
      ∀ (e x : ℕ), (f ref)[e]? = some x →
        ∃ y, (f t)[s * ref.indexI.length + e]? = some y ∧ y / n = s ∧ y % n = x) ∧
    (∀ f ∈ [Triplets.indexJi, Triplets.indexKj], (f t).length = b * ref.indexI.length ∧
      ∀ (e x : ℕ), (f ref)[e]? = some x →
        ∃ y, (f t)[s * ref.indexI.length + e]? = some y ∧ y / edges.length = s ∧
          y % edges.length = x) := by
  intro ref t
  have ht := C80_cache_transparent dimenet n edges h history b
  have key : ∀ (l l' : List ℕ) (size len : ℕ), l' = Spec.shifted b size l → l.length = len →
      (∀ x ∈ l, x < size) → l'.length = b * len ∧ ∀ (e x : ℕ), l[e]? = some x →
        ∃ y, l'[s * len + e]? = some y ∧ y / size = s ∧ y % size = x := by
    intro l l' size len hl' hlen hr
    subst hl' hlen
    refine ⟨length_shifted .., ?_⟩
    intro e x hx
    obtain ⟨he, hx'⟩ := List.getElem?_eq_some_iff.1 hx
    refine ⟨_, shifted_getElem? hs he, ?_, ?_⟩
    · have hlt := hr _ (List.getElem_mem he)
      have hpos : 0 < size := by omega
      rw [Nat.add_mul_div_right _ _ hpos, Nat.div_eq_of_lt hlt, Nat.zero_add]
    · have hlt := hr _ (List.getElem_mem he)
      rw [Nat.add_mul_mod_self_right, Nat.mod_eq_of_lt hlt, hx']
  refine ⟨?_, ?_, ?_⟩
  · intro f hf
    simp only [List.mem_cons, List.not_mem_nil, or_false] at hf
    rcases hf with rfl | rfl
    · exact key _ _ n _ (congrArg Triplets.i ht) h.lenI fun x hx => h.nodes x (by tauto)
    · exact key _ _ n _ (congrArg Triplets.j ht) h.lenJ fun x hx => h.nodes x (by tauto)
  · intro f hf
    simp only [List.mem_cons, List.not_mem_nil, or_false] at hf
    rcases hf with rfl | rfl | rfl
    · exact key _ _ n _ (congrArg Triplets.indexI ht) rfl fun x hx => h.nodes x (by tauto)
    · exact key _ _ n _ (congrArg Triplets.indexJ ht) h.lenIndexJ fun x hx => h.nodes x (by tauto)
    · exact key _ _ n _ (congrArg Triplets.indexK ht) h.lenIndexK fun x hx => h.nodes x (by tauto)
  · intro f hf
    simp only [List.mem_cons, List.not_mem_nil, or_false] at hf
    rcases hf with rfl | rfl
    · exact key _ _ edges.length _ (congrArg Triplets.indexJi ht) h.lenIndexJi
        fun x hx => h.edges x (by tauto)
    · exact key _ _ edges.length _ (congrArg Triplets.indexKj ht) h.lenIndexKj
        fun x hx => h.edges x (by tauto)

end Verif
