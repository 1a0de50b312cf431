import Verif.Proofs.GnnRelabel
import Verif.Props.GnnSetup
import Verif.Proofs.ReaderLayout

/-!
# C127: the numbering of the atoms does not matter
-/

namespace Verif

variable {dn de n T : ℕ}

/-- Contract of `torch_geometric`'s `triplets` for an edge list: all paths of two edges, each once. -/
def Triplets.AllPaths (t : Triplets) (swap : Bool) (n : ℕ) (edges : List (ℕ × ℕ)) : Prop :=
  ∃ (T : ℕ) (G : Spec.Wiring (Fin n) (Fin edges.length) (Fin T))
    (ends : Fin edges.length → Fin n × Fin n),
    (∀ e, edges[e] = ((ends e).1.1, (ends e).2.1)) ∧ t.Describes G ∧ Spec.AllTriplets swap ends G

/-- The same structure with the atoms listed in another order. -/
def renumber (σ : Fin n ≃ Fin n) (x : GSample n) : GSample n :=
  ⟨x.lattice, fun a => x.numbers (σ a), fun a => x.positions (σ a)⟩

theorem Triplets.AllPaths.range {t : Triplets} {swap : Bool} {edges : List (ℕ × ℕ)}
    (h : t.AllPaths swap n edges) : EdgesInRange n edges := by
  obtain ⟨T, G, ends, he, -⟩ := h
  intro x hx
  obtain ⟨k, hk, rfl⟩ := List.getElem_of_mem hx
  have := he ⟨k, hk⟩
  change edges[k] = _ at this
  rw [this]
  exact ⟨Fin.isLt _, Fin.isLt _⟩

theorem Triplets.AllPaths.valid {t : Triplets} {swap : Bool} {edges : List (ℕ × ℕ)}
    (h : t.AllPaths swap n edges) : t.Valid n edges.length := by
  obtain ⟨T, G, ends, he, hd, -⟩ := h
  exact hd.valid

/-- Correspondence of the edges of the two graphs. -/
theorem edge_equiv (σ : Fin n ≃ Fin n) {l l' : List (ℕ × ℕ)} (hl : l.Nodup) (hl' : l'.Nodup)
    (hr : EdgesInRange n l) (hr' : EdgesInRange n l')
    (he : ∀ a b : Fin n, (a.1, b.1) ∈ l' ↔ ((σ a).1, (σ b).1) ∈ l) :
    ∃ τ : Fin l'.length ≃ Fin l.length, ∀ e, ∃ a b : Fin n, l'[e] = (a.1, b.1) ∧
      l[τ e] = ((σ a).1, (σ b).1) := by
  apply index_equiv hl hl' fun y x => ∃ a b : Fin n, y = (a.1, b.1) ∧ x = ((σ a).1, (σ b).1)
  · rintro ⟨a, b⟩ hy
    obtain ⟨h1, h2⟩ := hr' _ hy
    exact ⟨_, (he ⟨a, h1⟩ ⟨b, h2⟩).1 hy, ⟨a, h1⟩, ⟨b, h2⟩, rfl, rfl⟩
  · rintro ⟨a, b⟩ hx
    obtain ⟨h1, h2⟩ := hr _ hx
    refine ⟨((σ.symm ⟨a, h1⟩).1, (σ.symm ⟨b, h2⟩).1), (he _ _).2 (by simpa using hx), _, _, rfl, ?_⟩
    simp
  · rintro y x x' ⟨a, b, hy, hx⟩ ⟨a', b', hy', hx'⟩
    rw [hy, Prod.mk.injEq, Fin.val_inj, Fin.val_inj] at hy'
    rw [hx, hx', hy'.1, hy'.2]
  · rintro y y' x ⟨a, b, hy, hx⟩ ⟨a', b', hy', hx'⟩
    rw [hx, Prod.mk.injEq, Fin.val_inj, Fin.val_inj, σ.apply_eq_iff_eq, σ.apply_eq_iff_eq] at hx'
    rw [hy, hy', hx'.1, hx'.2]

theorem average_equiv {E E' : ℕ} (τ : Fin E' ≃ Fin E) (v : Fin E → Fin 6 → ℝ) :
    average (List.ofFn fun e => some (v (τ e))) = average (List.ofFn fun e => some (v e)) := by
  have hc : E' = E := by simpa using Fintype.card_congr τ
  subst hc
  rcases Nat.eq_zero_or_pos E' with rfl | hE
  · simp
  · rw [average_formula hE, average_formula hE]
    congr 1
    funext k
    rw [Equiv.sum_comp τ fun e => v e k]

theorem degenerate_renumber {m : PotGNN dn de} (σ : Fin n ≃ Fin n) {edges' : List (ℕ × ℕ)}
    (he : ∀ a b : Fin n, (a.1, b.1) ∈ edges' ↔ ((σ a).1, (σ b).1) ∈ m.refEdges) (x : GSample n) :
    Degenerate { m with refEdges := edges' } (renumber σ x) ↔ Degenerate m x := by
  constructor
  · rintro ⟨a, b, hab, ho⟩
    exact ⟨σ a, σ b, (he a b).1 hab, ho⟩
  · rintro ⟨a, b, hab, ho⟩
    refine ⟨σ.symm a, σ.symm b, (he _ _).2 (by simpa using hab), ?_⟩
    simpa [renumber] using ho

/-- C127: list the atoms of the reference structure in another order, keep the weights, and the
network predicts the same (or fails, or gives NaN, in the same way) for all batches of structures
with the atoms listed in this other order. -/
theorem C127_numbering {m : PotGNN dn de} {edges' : List (ℕ × ℕ)} {ref ref' : Triplets}
    {st st' : GnnState} {swap : Bool} (hst : st.Eval ref n m.refEdges.length)
    (hst' : st'.Eval ref' n edges'.length)
    (hp : ref.AllPaths swap n m.refEdges) (hp' : ref'.AllPaths swap n edges')
    (hl : m.refEdges.Nodup) (hl' : edges'.Nodup) (σ : Fin n ≃ Fin n)
    (he : ∀ a b : Fin n, (a.1, b.1) ∈ edges' ↔ ((σ a).1, (σ b).1) ∈ m.refEdges)
    (samples : List (GSample n)) :
    (PotGNN.forward { m with refEdges := edges' } st' (samples.map (renumber σ))).1 =
      (m.forward st samples).1 := by
  have hm : m.Fits n ref := ⟨hp.range, hp.valid⟩
  have hm' : PotGNN.Fits { m with refEdges := edges' } n ref' := ⟨hp'.range, hp'.valid⟩
  by_cases hk : ∀ x ∈ samples, ∀ a, m.Knows (x.numbers a)
  swap
  · push Not at hk
    obtain ⟨x, hx, a, ha⟩ := hk
    rw [C84_unknown_element hm.edges st samples ⟨x, hx, a, ha⟩,
      C84_unknown_element hm'.edges st' (samples.map (renumber σ))
        ⟨renumber σ x, List.mem_map_of_mem hx, σ.symm a, by
          change ¬ m.Knows (x.numbers (σ (σ.symm a)))
          simpa using ha⟩]
  have hk' : ∀ x ∈ samples.map (renumber σ), ∀ a,
      PotGNN.Knows { m with refEdges := edges' } (x.numbers a) := by
    intro y hy a
    obtain ⟨x, hx, rfl⟩ := List.mem_map.1 hy
    exact hk x hx (σ a)
  by_cases hd : ∃ x ∈ samples, Degenerate m x
  · rw [(C84_nan_spreads hm hst samples hk hd).1]
    obtain ⟨x, hx, hxd⟩ := hd
    rw [(C84_nan_spreads hm' hst' _ hk' ⟨renumber σ x, List.mem_map_of_mem hx,
      (degenerate_renumber σ he x).2 hxd⟩).1, List.length_map]
  have hd : ∀ x ∈ samples, ¬ Degenerate m x := fun x hx h => hd ⟨x, hx, h⟩
  obtain ⟨T, G, ends, hends, hG, hall⟩ := hp
  obtain ⟨T', G', ends', hends', hG', hall'⟩ := hp'
  obtain ⟨τ, hτ⟩ := edge_equiv σ hl hl' hm.edges hm'.edges he
  have hmatch : ∀ e, ends (τ e) = (σ (ends' e).1, σ (ends' e).2) := by
    intro e
    obtain ⟨a, b, h1, h2⟩ := hτ e
    rw [hends', Prod.mk.injEq, Fin.val_inj, Fin.val_inj] at h1
    rw [hends, Prod.mk.injEq, Fin.val_inj, Fin.val_inj] at h2
    rw [h1.1, h1.2]
    exact Prod.ext h2.1 h2.2
  obtain ⟨ρ, hρ⟩ := allTriplets_relabel σ τ hall' hall hmatch
  have hdata : ∀ x, ∃ (f : Fin n → Fin dn → ℝ) (u : Fin m.refEdges.length → Fin 3 → ℝ)
      (r : Fin m.refEdges.length → ℝ), x ∈ samples →
        m.NodeFeatures x.numbers f ∧ m.EdgeGeometry x u r := by
    intro x
    by_cases hx : x ∈ samples
    · obtain ⟨f, hf⟩ := knows_features (hk x hx)
      obtain ⟨u, r, h⟩ := geometry_exists hm.edges (hd x hx)
      exact ⟨f, u, r, fun _ => ⟨hf, h⟩⟩
    · exact ⟨0, 0, 0, fun h => absurd h hx⟩
  choose f u r h using hdata
  have hgeo : ∀ x ∈ samples, PotGNN.EdgeGeometry { m with refEdges := edges' } (renumber σ x)
      (fun e => u x (τ e)) (fun e => r x (τ e)) := by
    intro x hx e
    obtain ⟨a, b, h1, h2⟩ := hτ e
    obtain ⟨a', b', hab, d, hdd⟩ := (h x hx).2 (τ e)
    refine ⟨a, b, h1, d, ?_⟩
    rw [h2, Prod.mk.injEq, Fin.val_inj, Fin.val_inj] at hab
    change Spec.ImageVector x.lattice (x.positions (σ a)) (x.positions (σ b)) d ∧ _
    rw [hab.1, hab.2]
    exact hdd
  have hP : ∀ x ∈ samples, samplePols m ref x = .ok (List.ofFn fun e => some (Spec.edgeTensor
      (m.headOf (Spec.embed G (m.blocks.map roundOf) (f x) (m.edgeFeatures (r x)) e)) (u x e))) :=
    fun x hx => samplePols_formula hm hG (h x hx).1 (h x hx).2
  have hP' : ∀ x ∈ samples, samplePols { m with refEdges := edges' } ref' (renumber σ x) =
      .ok (List.ofFn fun e => some (Spec.edgeTensor (m.headOf
        (Spec.embed G (m.blocks.map roundOf) (f x) (m.edgeFeatures (r x)) (τ e))) (u x (τ e)))) := by
    intro x hx
    have := samplePols_formula hm' hG' (x := renumber σ x) (f := fun a => f x (σ a))
      (fun a => (h x hx).1 (σ a)) (hgeo x hx)
    rw [this]
    have hemb := embed_relabel hρ (m.blocks.map roundOf) (f x) (m.edgeFeatures (r x))
    have hemb : ∀ e, Spec.embed G' (m.blocks.map roundOf) (fun v => f x (σ v))
        (fun e => m.edgeFeatures (r x) (τ e)) e =
        Spec.embed G (m.blocks.map roundOf) (f x) (m.edgeFeatures (r x)) (τ e) := congrFun hemb
    congr 2
    funext e
    exact congrArg (fun y => some (Spec.edgeTensor (m.headOf y) (u x (τ e)))) (hemb e)
  have key : ∀ x ∈ samples, ∃ P P', samplePols m ref x = .ok P ∧
      samplePols { m with refEdges := edges' } ref' (renumber σ x) = .ok P' ∧
      average P' = average P ∧ none ∉ P ∧ none ∉ P' := by
    intro x hx
    exact ⟨_, _, hP x hx, hP' x hx, average_equiv τ fun e => Spec.edgeTensor
      (m.headOf (Spec.embed G (m.blocks.map roundOf) (f x) (m.edgeFeatures (r x)) e)) (u x e),
      by simp, by simp⟩
  have key : ∀ x, ∃ P P', x ∈ samples → samplePols m ref x = .ok P ∧
      samplePols { m with refEdges := edges' } ref' (renumber σ x) = .ok P' ∧
      average P' = average P ∧ none ∉ P ∧ none ∉ P' := by
    intro x
    by_cases hx : x ∈ samples
    · obtain ⟨P, P', hh⟩ := key x hx
      exact ⟨P, P', fun _ => hh⟩
    · exact ⟨[], [], fun h => absurd h hx⟩
  choose P P' hh using key
  have hback : ∀ x, renumber σ.symm (renumber σ x) = x := by
    intro x
    unfold renumber
    simp
  rw [(forward_ok hm hst samples P fun x hx => (hh x hx).1).1,
    (forward_ok hm' hst' (samples.map (renumber σ)) (fun y => P' (renumber σ.symm y)) (by
      intro y hy
      obtain ⟨x, hx, rfl⟩ := List.mem_map.1 hy
      rw [hback]
      exact (hh x hx).2.1)).1]
  congr 1
  rw [List.map_map]
  apply List.map_congr_left
  intro x hx
  have h1 : ¬ ∃ y ∈ samples, none ∈ P y := by
    rintro ⟨y, hy, hn⟩
    exact (hh y hy).2.2.2.1 hn
  have h2 : ¬ ∃ y ∈ samples.map (renumber σ), none ∈ P' (renumber σ.symm y) := by
    rintro ⟨y, hy, hn⟩
    obtain ⟨x, hx, rfl⟩ := List.mem_map.1 hy
    rw [hback] at hn
    exact (hh x hx).2.2.2.2 hn
  rw [if_neg h1, Function.comp_apply, if_neg h2, hback]
  exact (hh x hx).2.2.1

/-! ### Two constructor calls -/

theorem setup_facts {a : GnnArgs} {dimenet : List (ℕ × ℕ) → ℕ → Triplets}
    {setOrder : List ℕ → List ℕ} {lattice : Mat3 ℝ} {numbers : Fin n → ℕ} {positions : Pos n ℝ}
    {s : GnnSetup} (hs : a.setup dimenet setOrder lattice numbers positions = .ok s) :
    s.refEdges.Nodup ∧ s.triplets = .new dimenet n s.refEdges ∧
    s.numAtomTypes = (setOrder ((List.finRange n).map numbers)).length ∧
    atomTypeMapOf (setOrder ((List.finRange n).map numbers)) = .ok s.atomTypeMap ∧
    s.numBlocks = a.passes.toNat ∧ ∃ h : s.sizeEdge = a.sizeEdge.toNat,
      GaussianFilter.new a.filterStart a.filterEnd a.sizeEdge.toNat = .ok (h ▸ s.filter) := by
  unfold GnnArgs.setup at hs
  obtain ⟨-, -, hs⟩ := (bind_ok_iff _ _ _).1 hs
  obtain ⟨edges, he, hs⟩ := (bind_ok_iff _ _ _).1 hs
  obtain ⟨mp, hmp, hs⟩ := (bind_ok_iff _ _ _).1 hs
  obtain ⟨f, hf, hs⟩ := (bind_ok_iff _ _ _).1 hs
  cases hs
  refine ⟨?_, rfl, rfl, hmp, rfl, rfl, hf⟩
  have hsorted := C82_sorted a.cutoff _ edges he
  obtain ⟨edges', he', -, hfacts⟩ := C82_edges a.cutoff [(lattice, positions)]
  rw [he] at he'
  cases he'
  have hg : ∀ e ∈ edges, e.graph = 0 := by
    intro e hm
    obtain ⟨edges', he', hedges, -⟩ := C82_edges a.cutoff [(lattice, positions)]
    rw [he] at he'
    cases he'
    obtain ⟨smp, hsmp, -⟩ := (hedges e.graph e.i e.j).1 ⟨e, hm, rfl, rfl, rfl⟩
    simpa using (List.getElem?_eq_some_iff.1 hsmp).1
  change (edges.map fun e => (e.i, e.j)).Pairwise (· ≠ ·)
  rw [List.pairwise_map]
  refine List.Pairwise.imp_of_mem ?_ hsorted
  intro e f hme hmf h heq
  obtain ⟨h1, h2⟩ := Prod.mk.injEq .. ▸ heq
  have hge := hg e hme
  have hgf := hg f hmf
  unfold edgeLT at h
  omega

theorem setup_edges {a : GnnArgs} {dimenet : List (ℕ × ℕ) → ℕ → Triplets}
    {setOrder : List ℕ → List ℕ} {lattice : Mat3 ℝ} {numbers : Fin n → ℕ} {positions : Pos n ℝ}
    {s : GnnSetup} (hs : a.setup dimenet setOrder lattice numbers positions = .ok s) (i j : ℕ) :
    (i, j) ∈ s.refEdges ↔ ∃ x y : Fin n, x ≠ y ∧ i = x.1 ∧ j = y.1 ∧
      Spec.InReach lattice a.cutoff (positions x) (positions y) := by
  unfold GnnArgs.setup at hs
  obtain ⟨-, -, hs⟩ := (bind_ok_iff _ _ _).1 hs
  obtain ⟨edges, he, hs⟩ := (bind_ok_iff _ _ _).1 hs
  obtain ⟨mp, hmp, hs⟩ := (bind_ok_iff _ _ _).1 hs
  obtain ⟨f, hf, hs⟩ := (bind_ok_iff _ _ _).1 hs
  cases hs
  obtain ⟨edges', he', hedges, -⟩ := C82_edges a.cutoff [(lattice, positions)]
  rw [he] at he'
  cases he'
  constructor
  · intro hij
    obtain ⟨e, hemem, heq⟩ := List.mem_map.1 hij
    obtain ⟨rfl, rfl⟩ := Prod.mk.injEq .. ▸ heq
    obtain ⟨smp, hsmp, x, y, hne, hr, hi, hj⟩ := (hedges e.graph e.i e.j).1 ⟨e, hemem, rfl, rfl, rfl⟩
    have hg : e.graph = 0 := by
      have := (List.getElem?_eq_some_iff.1 hsmp).1
      simpa using this
    rw [hg] at hsmp hi hj
    obtain rfl : (lattice, positions) = smp := by simpa using hsmp
    exact ⟨x, y, hne, by simpa using hi, by simpa using hj, hr⟩
  · rintro ⟨x, y, hne, rfl, rfl, hr⟩
    obtain ⟨e, hemem, -, hi, hj⟩ := (hedges 0 x.1 y.1).2 ⟨(lattice, positions), rfl, x, y, hne, hr,
      by simp, by simp⟩
    exact List.mem_map.2 ⟨e, hemem, by rw [hi, hj]⟩

/-- C127 for networks as constructed: the constructor called for the renumbered reference structure
sets up the same constants, and with the same weights the two networks predict the same.  Partial:
`hperm` (the order in which a set is traversed depends on its elements only) does not hold for all
sets of CPython; see `C127_types` for what is true without it and `C127_set_order_counterexample`. -/
theorem C127_constructor_partial {m : PotGNN dn de} (a : GnnArgs)
    (dimenet : List (ℕ × ℕ) → ℕ → Triplets)
    {swap : Bool} (hdim : ∀ edges, EdgesInRange n edges → edges.Nodup →
      (dimenet edges n).AllPaths swap n edges)
    (setOrder : List ℕ → List ℕ) (hset : SetOrder setOrder)
    (hperm : ∀ l l' : List ℕ, (∀ z, z ∈ l ↔ z ∈ l') → setOrder l = setOrder l')
    (lattice : Mat3 ℝ) (numbers : Fin n → ℕ) (positions : Pos n ℝ) (σ : Fin n ≃ Fin n)
    (s : GnnSetup) (hs : a.setup dimenet setOrder lattice numbers positions = .ok s) :
    ∃ s', a.setup dimenet setOrder lattice (fun i => numbers (σ i)) (fun i => positions (σ i)) =
        .ok s' ∧
      s'.atomTypeMap = s.atomTypeMap ∧ s'.numAtomTypes = s.numAtomTypes ∧
      s'.numBlocks = s.numBlocks ∧ HEq s'.filter s.filter ∧
      (m.refEdges = s.refEdges → ∀ samples : List (GSample n),
        (PotGNN.forward { m with refEdges := s'.refEdges } ⟨false, s'.triplets⟩
          (samples.map (renumber σ))).1 = (m.forward ⟨false, s.triplets⟩ samples).1) := by
  obtain ⟨hacc, hn⟩ := (C98_accepts a dimenet setOrder hset lattice numbers positions).1 ⟨s, hs⟩
  obtain ⟨s', hs'⟩ := (C98_accepts a dimenet setOrder hset lattice (fun i => numbers (σ i))
    (fun i => positions (σ i))).2 ⟨hacc, fun i => hn (σ i)⟩
  obtain ⟨hl, ht, hc, hmp, hb, hz, hf⟩ := setup_facts hs
  obtain ⟨hl', ht', hc', hmp', hb', hz', hf'⟩ := setup_facts hs'
  have hord : setOrder ((List.finRange n).map fun i => numbers (σ i)) =
      setOrder ((List.finRange n).map numbers) := by
    apply hperm
    intro z
    simp only [List.mem_map, List.mem_finRange, true_and]
    constructor
    · rintro ⟨i, rfl⟩
      exact ⟨σ i, rfl⟩
    · rintro ⟨i, rfl⟩
      exact ⟨σ.symm i, by simp⟩
  refine ⟨s', hs', ?_, by rw [hc', hc, hord], by rw [hb', hb], ?_, ?_⟩
  · rw [hord, hmp] at hmp'
    exact (Except.ok.inj hmp').symm
  · have := Except.ok.inj (hf'.symm.trans hf)
    have h1 : HEq s'.filter (hz' ▸ s'.filter : GaussianFilter a.sizeEdge.toNat) := by simp
    have h2 : HEq (hz ▸ s.filter : GaussianFilter a.sizeEdge.toNat) s.filter := by simp
    exact h1.trans ((heq_of_eq this).trans h2)
  · intro hme samples
    have hmem : ∀ i j : ℕ, (i, j) ∈ s.refEdges ↔ ∃ x y : Fin n, x ≠ y ∧ i = x.1 ∧ j = y.1 ∧
        Spec.InReach lattice a.cutoff (positions x) (positions y) := setup_edges hs
    have hmem' : ∀ i j : ℕ, (i, j) ∈ s'.refEdges ↔ ∃ x y : Fin n, x ≠ y ∧ i = x.1 ∧ j = y.1 ∧
        Spec.InReach lattice a.cutoff (positions (σ x)) (positions (σ y)) := setup_edges hs'
    have hr : EdgesInRange n s.refEdges := by
      rintro ⟨i, j⟩ hij
      obtain ⟨x, y, -, rfl, rfl, -⟩ := (hmem i j).1 hij
      exact ⟨x.2, y.2⟩
    have hr' : EdgesInRange n s'.refEdges := by
      rintro ⟨i, j⟩ hij
      obtain ⟨x, y, -, rfl, rfl, -⟩ := (hmem' i j).1 hij
      exact ⟨x.2, y.2⟩
    have hp := hdim _ hr hl
    have hp' := hdim _ hr' hl'
    rw [ht, ht']
    apply C127_numbering (swap := swap) (ref := dimenet s.refEdges n) (ref' := dimenet s'.refEdges n)
    · rw [hme]
      exact ⟨rfl, BatchTriplets.new_ready dimenet n _ hp.valid⟩
    · exact ⟨rfl, BatchTriplets.new_ready dimenet n _ hp'.valid⟩
    · rw [hme]; exact hp
    · exact hp'
    · rw [hme]; exact hl
    · exact hl'
    · intro x y
      rw [hme, hmem, hmem']
      simp only [Fin.val_inj]
      constructor
      · rintro ⟨x', y', hne, rfl, rfl, h⟩
        exact ⟨_, _, fun h => hne (σ.injective h), rfl, rfl, h⟩
      · rintro ⟨x', y', hne, hx, hy, h⟩
        subst hx hy
        exact ⟨x, y, fun h => hne (congrArg σ h), rfl, rfl, h⟩

/-! ### The contract can be met -/

/-- Pairs of edges that form a path. -/
def PathPair (swap : Bool) {e : ℕ} (ends : Fin e → Fin n × Fin n) (p q : Fin e) : Prop :=
  if swap then (ends p).2 = (ends q).1 ∧ (ends p).1 ≠ (ends q).2
  else (ends q).2 = (ends p).1 ∧ (ends q).1 ≠ (ends p).2

/-- There is a function that meets the contract of `triplets`. -/
theorem allPaths_exists (swap : Bool) (n : ℕ) (edges : List (ℕ × ℕ)) (hr : EdgesInRange n edges) :
    ∃ t : Triplets, t.AllPaths swap n edges := by
  classical
  let ends : Fin edges.length → Fin n × Fin n := fun e =>
    (⟨edges[e].1, (hr _ (List.getElem_mem _)).1⟩, ⟨edges[e].2, (hr _ (List.getElem_mem _)).2⟩)
  let P := {x : Fin edges.length × Fin edges.length // PathPair swap ends x.1 x.2}
  let φ := Fintype.equivFin P
  let near : Fin (Fintype.card P) → Fin edges.length := fun t => (φ.symm t).1.1
  let far : Fin (Fintype.card P) → Fin edges.length := fun t => (φ.symm t).1.2
  let G : Spec.Wiring (Fin n) (Fin edges.length) (Fin (Fintype.card P)) :=
    { fst := fun e => (ends e).2
      snd := fun e => (ends e).1
      nodeA := fun t => if swap then (ends (far t)).2 else (ends (near t)).2
      nodeB := fun t => if swap then (ends (near t)).2 else (ends (near t)).1
      nodeC := fun t => if swap then (ends (near t)).1 else (ends (far t)).1
      near := near
      far := far }
  refine ⟨⟨List.ofFn fun k => (G.fst k).1, List.ofFn fun k => (G.snd k).1,
    List.ofFn fun k => (G.nodeA k).1, List.ofFn fun k => (G.nodeB k).1,
    List.ofFn fun k => (G.nodeC k).1, List.ofFn fun k => (G.near k).1,
    List.ofFn fun k => (G.far k).1⟩, Fintype.card P, G, ends, fun e => rfl,
    ⟨rfl, rfl, rfl, rfl, rfl, rfl, rfl⟩, fun e => rfl, fun e => rfl, ?_, ?_, ?_⟩
  · intro t t' h1 h2
    apply φ.symm.injective
    exact Subtype.ext (Prod.ext h1 h2)
  · intro t
    have hpp : PathPair swap ends (near t) (far t) := (φ.symm t).2
    unfold PathPair at hpp
    cases swap
    · simp only [Bool.false_eq_true, if_false] at hpp ⊢
      exact ⟨rfl, Prod.ext rfl hpp.1⟩
    · simp only [if_true] at hpp ⊢
      exact ⟨rfl, Prod.ext hpp.1.symm rfl⟩
  · intro p q
    change _ ↔ PathPair swap ends p q
    constructor
    · rintro ⟨t, rfl, rfl⟩
      exact (φ.symm t).2
    · intro h
      refine ⟨φ ⟨(p, q), h⟩, ?_, ?_⟩
      · change (φ.symm (φ ⟨(p, q), h⟩)).1.1 = p
        rw [Equiv.symm_apply_apply]
      · change (φ.symm (φ ⟨(p, q), h⟩)).1.2 = q
        rw [Equiv.symm_apply_apply]

/-- C127, concrete: water molecules with the atoms listed as O, H, H or as H, O, H. -/
example (positions : Pos 3 ℝ) (m : PotGNN 5 3) : ∃ (dimenet : List (ℕ × ℕ) → ℕ → Triplets)
    (s s' : GnnSetup),
    GnnArgs.setup ⟨5, 5, 3, 2, 0, 4, [3, 3], [3, 3]⟩ dimenet (fun l => l.dedup.mergeSort) 1 ![8, 1, 1]
      positions = .ok s ∧
    GnnArgs.setup ⟨5, 5, 3, 2, 0, 4, [3, 3], [3, 3]⟩ dimenet (fun l => l.dedup.mergeSort) 1 ![1, 8, 1]
      ![positions 1, positions 0, positions 2] = .ok s' ∧
    (m.refEdges = s.refEdges → ∀ p : Pos 3 ℝ,
      (PotGNN.forward { m with refEdges := s'.refEdges } ⟨false, s'.triplets⟩
        [⟨1, ![1, 8, 1], ![p 1, p 0, p 2]⟩]).1 =
      (m.forward ⟨false, s.triplets⟩ [⟨1, ![8, 1, 1], p⟩]).1) := by
  classical
  have hd : ∃ dimenet : List (ℕ × ℕ) → ℕ → Triplets, ∀ edges, EdgesInRange 3 edges →
      (dimenet edges 3).AllPaths true 3 edges := by
    refine ⟨fun edges n => if h : EdgesInRange n edges then
      (allPaths_exists true n edges h).choose else ⟨[], [], [], [], [], [], []⟩, ?_⟩
    intro edges h
    dsimp only
    rw [dif_pos h]
    exact (allPaths_exists true 3 edges h).choose_spec
  obtain ⟨dimenet, hdim⟩ := hd
  have hset : SetOrder fun l => l.dedup.mergeSort := by
    intro l
    exact ⟨(List.mergeSort_perm _ _).nodup_iff.2 (List.nodup_dedup l), fun z => by simp⟩
  have hperm : ∀ l l' : List ℕ, (∀ z, z ∈ l ↔ z ∈ l') → l.dedup.mergeSort = l'.dedup.mergeSort := by
    intro l l' h
    have hp : l.dedup.Perm l'.dedup := by
      rw [List.perm_ext_iff_of_nodup (List.nodup_dedup l) (List.nodup_dedup l')]
      simpa using h
    apply List.Perm.eq_of_pairwise' (r := (· ≤ ·))
    · exact List.pairwise_mergeSort' _ _
    · exact List.pairwise_mergeSort' _ _
    · exact (List.mergeSort_perm _ _).trans (hp.trans (List.mergeSort_perm _ _).symm)
  obtain ⟨s, hs⟩ := (C98_accepts ⟨5, 5, 3, 2, 0, 4, [3, 3], [3, 3]⟩ dimenet _ hset 1 ![8, 1, 1]
    positions).2 ⟨⟨by norm_num, by norm_num, by norm_num, by norm_num, by norm_num, by norm_num, rfl,
      rfl⟩, by decide⟩
  obtain ⟨s', hs', -, -, -, -, h⟩ := C127_constructor_partial (m := m) _ dimenet (fun e h _ => hdim e h) _
    hset hperm 1 ![8, 1, 1] positions (Equiv.swap 0 1) s hs
  have hz : (fun i => (![8, 1, 1] : Fin 3 → ℕ) (Equiv.swap 0 1 i)) = ![1, 8, 1] := by decide
  have hq : ∀ p : Pos 3 ℝ, (fun i => p (Equiv.swap 0 1 i)) = ![p 1, p 0, p 2] := by
    intro p
    funext i
    fin_cases i
    · rfl
    · rfl
    · exact congrArg p (by decide)
  rw [hz, hq] at hs'
  refine ⟨dimenet, s, s', hs, hs', ?_⟩
  intro hm p
  have := h hm [⟨1, ![8, 1, 1], p⟩]
  rw [← this, List.map_singleton]
  unfold renumber
  dsimp only
  rw [hz, hq]

end Verif
