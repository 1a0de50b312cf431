import Verif.Model.Gnn
import Verif.Props.RadiusGraph

/-!
# Helper lemmas: operations on concatenated blocks
-/

namespace Verif

/-- Concatenation of `S` blocks. -/
def blocks {α : Type} (S : ℕ) (B : ℕ → List α) : List α := (List.range S).flatMap B

section
variable {α β γ : Type}

theorem blocks_succ (S : ℕ) (B : ℕ → List α) : blocks (S + 1) B = blocks S B ++ B S := by
  simp [blocks, List.range_succ, List.flatMap_append]

theorem blocks_one (B : ℕ → List α) : blocks 1 B = B 0 := by simp [blocks]

theorem blocks_congr {S : ℕ} {B C : ℕ → List α} (h : ∀ s < S, B s = C s) : blocks S B = blocks S C := by
  induction S with
  | zero => rfl
  | succ S ih => rw [blocks_succ, blocks_succ, ih fun s hs => h s (by omega), h S (by omega)]

theorem length_blocks {S n : ℕ} {B : ℕ → List α} (h : ∀ s < S, (B s).length = n) :
    (blocks S B).length = S * n := by
  induction S with
  | zero => simp [blocks]
  | succ S ih =>
    rw [blocks_succ, List.length_append, ih fun s hs => h s (by omega), h S (by omega)]
    ring

theorem map_blocks (f : α → β) (S : ℕ) (B : ℕ → List α) :
    (blocks S B).map f = blocks S fun s => (B s).map f := by
  simp [blocks, List.map_flatMap]

theorem filter_blocks (p : α → Bool) (S : ℕ) (B : ℕ → List α) :
    (blocks S B).filter p = blocks S fun s => (B s).filter p := by
  simp [blocks, List.filter_flatMap]

theorem zipWith_blocks (f : α → β → γ) {S : ℕ} {A : ℕ → List α} {B : ℕ → List β}
    (h : ∀ s < S, (A s).length = (B s).length) :
    List.zipWith f (blocks S A) (blocks S B) = blocks S fun s => List.zipWith f (A s) (B s) := by
  induction S with
  | zero => rfl
  | succ S ih =>
    have hlen : (blocks S A).length = (blocks S B).length := by
      clear ih
      induction S with
      | zero => rfl
      | succ S ih' =>
        rw [blocks_succ, blocks_succ, List.length_append, List.length_append, h S (by omega),
          ih' fun s hs => h s (by omega)]
    rw [blocks_succ, blocks_succ, blocks_succ, List.zipWith_append hlen, ih fun s hs => h s (by omega)]

theorem zip_blocks {S : ℕ} {A : ℕ → List α} {B : ℕ → List β}
    (h : ∀ s < S, (A s).length = (B s).length) :
    (blocks S A).zip (blocks S B) = blocks S fun s => (A s).zip (B s) := by
  rw [List.zip_eq_zipWith, zipWith_blocks _ h]
  rfl

theorem blocks_getElem? {S n : ℕ} {B : ℕ → List α} (h : ∀ s < S, (B s).length = n) {s y : ℕ}
    (hs : s < S) (hy : y < n) : (blocks S B)[y + s * n]? = (B s)[y]? := by
  induction S with
  | zero => omega
  | succ S ih =>
    have hlen := length_blocks (B := B) (S := S) fun s hs => h s (by omega)
    rw [blocks_succ]
    by_cases hsS : s < S
    · rw [List.getElem?_append_left, ih (fun s hs => h s (by omega)) hsS]
      rw [hlen]
      calc y + s * n < n + s * n := by omega
        _ = (s + 1) * n := by ring
        _ ≤ S * n := Nat.mul_le_mul_right _ hsS
    · obtain rfl : s = S := by omega
      rw [List.getElem?_append_right (by rw [hlen]; omega), hlen]
      congr 1
      omega

theorem blocks_replicate {S : ℕ} (l : List α) : repeatTimes S l = blocks S fun _ => l := by
  induction S with
  | zero => rfl
  | succ S ih => rw [repeatTimes_succ, blocks_succ, ih]

theorem shifted_eq_blocks (S n : ℕ) (l : List ℕ) :
    Spec.shifted S n l = blocks S fun s => l.map (· + s * n) := rfl

theorem mapM_blocks_ok {f : α → Py β} {S : ℕ} {A : ℕ → List α} {B : ℕ → List β}
    (h : ∀ s < S, (A s).mapM f = .ok (B s)) : (blocks S A).mapM f = .ok (blocks S B) := by
  induction S with
  | zero => rfl
  | succ S ih =>
    rw [blocks_succ, blocks_succ, List.mapM_append, ih fun s hs => h s (by omega), h S (by omega)]
    rfl

theorem range_mul (S n : ℕ) : List.range (S * n) = blocks S fun s => (List.range n).map (· + s * n) := by
  induction S with
  | zero => simp [blocks]
  | succ S ih =>
    rw [blocks_succ, ← ih, Nat.succ_mul, List.range_add]
    congr 1
    refine List.map_congr_left fun x _ => ?_
    omega

theorem sum_range_single {M : Type} [AddCommMonoid M] {S s : ℕ} (f : ℕ → M) (hs : s < S)
    (h : ∀ t < S, t ≠ s → f t = 0) : ((List.range S).map f).sum = f s := by
  induction S with
  | zero => omega
  | succ S ih =>
    rw [List.range_succ, List.map_append, List.sum_append]
    by_cases hsS : s < S
    · rw [ih hsS fun t ht => h t (by omega)]
      simp [h S (by omega) (by omega)]
    · obtain rfl : s = S := by omega
      have h0 : ((List.range s).map f).sum = 0 := by
        apply List.sum_eq_zero
        intro x hx
        obtain ⟨t, ht, rfl⟩ := List.mem_map.1 hx
        rw [List.mem_range] at ht
        exact h t (by omega) (by omega)
      simp [h0]

theorem sum_blocks {M : Type} [AddCommMonoid M] (S : ℕ) (B : ℕ → List M) :
    (blocks S B).sum = ((List.range S).map fun s => (B s).sum).sum := by
  induction S with
  | zero => simp [blocks]
  | succ S ih => rw [blocks_succ, List.sum_append, ih, List.range_succ]; simp

end

/-! ## Gather and scatter -/

theorem gather_ok {α : Type} {rows : List α} {index : List ℕ} (h : ∀ k ∈ index, k < rows.length) :
    ∃ r, gather rows index = .ok r ∧ r.length = index.length := by
  induction index with
  | nil => exact ⟨[], rfl, rfl⟩
  | cons k ks ih =>
    obtain ⟨r, hr, hl⟩ := ih fun x hx => h x (by simp [hx])
    refine ⟨rows[k]'(h k (by simp)) :: r, ?_, by simp [hl]⟩
    unfold gather at hr ⊢
    rw [List.mapM_cons, hr, List.getElem?_eq_getElem (h k (by simp))]
    rfl

theorem gather_blocks {α : Type} {S n : ℕ} {B R : ℕ → List α} {l : List ℕ}
    (hB : ∀ s < S, (B s).length = n) (hl : ∀ k ∈ l, k < n)
    (h : ∀ s < S, gather (B s) l = .ok (R s)) :
    gather (blocks S B) (Spec.shifted S n l) = .ok (blocks S R) := by
  rw [shifted_eq_blocks]
  unfold gather
  apply mapM_blocks_ok
  intro s hs
  rw [← h s hs]
  unfold gather
  clear h
  induction l with
  | nil => rfl
  | cons k ks ih =>
    rw [List.map_cons, List.mapM_cons, List.mapM_cons, ih fun x hx => hl x (by simp [hx]),
      blocks_getElem? hB hs (hl k (by simp))]

theorem length_scatterSum {d : ℕ} (values : List (Row d)) (index : List ℕ) (size : ℕ) :
    (scatterSum values index size).length = size := by simp [scatterSum]

theorem scatter_blocks {d S n : ℕ} {V : ℕ → List (Row d)} {l : List ℕ}
    (hV : ∀ s < S, (V s).length = l.length) (hl : ∀ k ∈ l, k < n) :
    scatterSum (blocks S V) (Spec.shifted S n l) (S * n) = blocks S fun s => scatterSum (V s) l n := by
  unfold scatterSum
  rw [range_mul, map_blocks]
  apply blocks_congr
  intro s hs
  rw [List.map_map]
  refine List.map_congr_left fun r hr => ?_
  rw [List.mem_range] at hr
  dsimp only [Function.comp]
  rw [shifted_eq_blocks, zip_blocks (fun s hs => by rw [hV s hs, List.length_map]), filter_blocks,
    map_blocks, sum_blocks, sum_range_single _ hs]
  · rw [List.zip_map_right, List.filter_map, List.map_map]
    congr 1
    have hf : ((fun v : Row d × ℕ => v.2 == r + s * n) ∘ Prod.map id (· + s * n)) =
        fun v : Row d × ℕ => v.2 == r := by
      funext v
      have : (v.2 + s * n = r + s * n) ↔ v.2 = r := by omega
      simp
    rw [hf]
    rfl
  · intro t ht hts
    have : ((V t).zip (l.map (· + t * n))).filter (fun v => v.2 == r + s * n) = [] := by
      rw [List.filter_eq_nil_iff]
      rintro ⟨v, k⟩ hmem
      have hk := (List.of_mem_zip hmem).2
      obtain ⟨k', hk', rfl⟩ := List.mem_map.1 hk
      have hk'n := hl k' hk'
      simp only [beq_iff_eq]
      intro heq
      have hn : 0 < n := by omega
      have h1 : (k' + t * n) / n = t := by
        rw [Nat.add_mul_div_right _ _ hn, Nat.div_eq_of_lt hk'n, Nat.zero_add]
      have h2 : (r + s * n) / n = s := by
        rw [Nat.add_mul_div_right _ _ hn, Nat.div_eq_of_lt hr, Nat.zero_add]
      rw [heq, h2] at h1
      exact hts h1.symm
    rw [this]
    rfl

/-! ## Message passing -/

variable {dn de : ℕ}

theorem nodeBlock_total (b : NodeBlock dn de) {nodes : List (Row dn)} {edges : List (Row de)}
    {i : List ℕ} {n : ℕ} (hn : nodes.length = n) (hi : ∀ k ∈ i, k < n) :
    ∃ r, b.forward nodes edges i = .ok r ∧ r.length = n := by
  obtain ⟨src, hsrc, -⟩ := gather_ok (rows := nodes) (index := i) (by rwa [hn])
  unfold NodeBlock.forward
  rw [hsrc]
  exact ⟨_, rfl, by simp [length_scatterSum, hn]⟩

theorem nodeBlock_blocks (b : NodeBlock dn de) {S n : ℕ} {Nd R : ℕ → List (Row dn)}
    {Ed : ℕ → List (Row de)} {i : List ℕ} (hN : ∀ s < S, (Nd s).length = n)
    (hE : ∀ s < S, (Ed s).length = i.length) (hi : ∀ k ∈ i, k < n)
    (h : ∀ s < S, b.forward (Nd s) (Ed s) i = .ok (R s)) :
    b.forward (blocks S Nd) (blocks S Ed) (Spec.shifted S n i) = .ok (blocks S R) := by
  have hg : ∀ s, ∃ r, s < S → gather (Nd s) i = .ok r ∧ r.length = i.length := by
    intro s
    by_cases hs : s < S
    · obtain ⟨r, hr, hl⟩ := gather_ok (rows := Nd s) (index := i) (by rw [hN s hs]; exact hi)
      exact ⟨r, fun _ => ⟨hr, hl⟩⟩
    · exact ⟨[], fun h => absurd h hs⟩
  choose src hsrc using hg
  unfold NodeBlock.forward
  rw [gather_blocks hN hi fun s hs => (hsrc s hs).1]
  change Except.ok _ = Except.ok _
  rw [zipWith_blocks _ (fun s hs => by rw [(hsrc s hs).2, hE s hs]), length_blocks hN,
    scatter_blocks (fun s hs => by rw [List.length_zipWith, (hsrc s hs).2, hE s hs, min_self]) hi,
    zipWith_blocks _ (fun s hs => by rw [hN s hs, length_scatterSum])]
  congr 1
  apply blocks_congr
  intro s hs
  have := h s hs
  unfold NodeBlock.forward at this
  rw [(hsrc s hs).1, hN s hs] at this
  exact Except.ok.inj this

theorem edgeBlock_total (b : EdgeBlock dn de) {nodes : List (Row dn)} {edges : List (Row de)}
    {t : Triplets} {n e : ℕ} (ht : t.Valid n e) (hn : nodes.length = n) (he : edges.length = e) :
    ∃ r, b.forward nodes edges t = .ok r ∧ r.length = e := by
  obtain ⟨a1, h1, l1⟩ := gather_ok (rows := nodes) (index := t.i)
    (by rw [hn]; exact fun k hk => ht.nodes k (by tauto))
  obtain ⟨a2, h2, l2⟩ := gather_ok (rows := nodes) (index := t.j)
    (by rw [hn]; exact fun k hk => ht.nodes k (by tauto))
  obtain ⟨a3, h3, l3⟩ := gather_ok (rows := nodes) (index := t.indexI)
    (by rw [hn]; exact fun k hk => ht.nodes k (by tauto))
  obtain ⟨a4, h4, l4⟩ := gather_ok (rows := nodes) (index := t.indexJ)
    (by rw [hn]; exact fun k hk => ht.nodes k (by tauto))
  obtain ⟨a5, h5, l5⟩ := gather_ok (rows := nodes) (index := t.indexK)
    (by rw [hn]; exact fun k hk => ht.nodes k (by tauto))
  obtain ⟨a6, h6, l6⟩ := gather_ok (rows := edges) (index := t.indexJi)
    (by rw [he]; exact fun k hk => ht.edges k (by tauto))
  obtain ⟨a7, h7, l7⟩ := gather_ok (rows := edges) (index := t.indexKj)
    (by rw [he]; exact fun k hk => ht.edges k (by tauto))
  unfold EdgeBlock.forward
  rw [h1, h2, h3, h4, h5, h6, h7]
  refine ⟨_, rfl, ?_⟩
  simp [length_scatterSum, l1, l2, ht.lenI, ht.lenJ, he]

theorem gather_choose {α : Type} {S n : ℕ} {B : ℕ → List α} {l : List ℕ}
    (hB : ∀ s < S, (B s).length = n) (hl : ∀ k ∈ l, k < n) :
    ∃ R : ℕ → List α, ∀ s < S, gather (B s) l = .ok (R s) ∧ (R s).length = l.length := by
  have hg : ∀ s, ∃ r, s < S → gather (B s) l = .ok r ∧ r.length = l.length := by
    intro s
    by_cases hs : s < S
    · obtain ⟨r, hr, hl'⟩ := gather_ok (rows := B s) (index := l) (by rw [hB s hs]; exact hl)
      exact ⟨r, fun _ => ⟨hr, hl'⟩⟩
    · exact ⟨[], fun h => absurd h hs⟩
  choose R hR using hg
  exact ⟨R, hR⟩

theorem edgeBlock_blocks (b : EdgeBlock dn de) {S n e : ℕ} {Nd : ℕ → List (Row dn)}
    {Ed R : ℕ → List (Row de)} {t : Triplets} (ht : t.Valid n e) (hN : ∀ s < S, (Nd s).length = n)
    (hE : ∀ s < S, (Ed s).length = e)
    (h : ∀ s < S, b.forward (Nd s) (Ed s) t = .ok (R s)) :
    b.forward (blocks S Nd) (blocks S Ed) (t.copies n e S) = .ok (blocks S R) := by
  have r1 : ∀ k ∈ t.i, k < n := fun k hk => ht.nodes k (by tauto)
  have r2 : ∀ k ∈ t.j, k < n := fun k hk => ht.nodes k (by tauto)
  have r3 : ∀ k ∈ t.indexI, k < n := fun k hk => ht.nodes k (by tauto)
  have r4 : ∀ k ∈ t.indexJ, k < n := fun k hk => ht.nodes k (by tauto)
  have r5 : ∀ k ∈ t.indexK, k < n := fun k hk => ht.nodes k (by tauto)
  have r6 : ∀ k ∈ t.indexJi, k < e := fun k hk => ht.edges k (by tauto)
  have r7 : ∀ k ∈ t.indexKj, k < e := fun k hk => ht.edges k (by tauto)
  obtain ⟨a1, h1⟩ := gather_choose hN r1
  obtain ⟨a2, h2⟩ := gather_choose hN r2
  obtain ⟨a3, h3⟩ := gather_choose hN r3
  obtain ⟨a4, h4⟩ := gather_choose hN r4
  obtain ⟨a5, h5⟩ := gather_choose hN r5
  obtain ⟨a6, h6⟩ := gather_choose hE r6
  obtain ⟨a7, h7⟩ := gather_choose hE r7
  unfold EdgeBlock.forward Triplets.copies
  dsimp only
  rw [gather_blocks hN r1 fun s hs => (h1 s hs).1, gather_blocks hN r2 fun s hs => (h2 s hs).1,
    gather_blocks hN r3 fun s hs => (h3 s hs).1, gather_blocks hN r4 fun s hs => (h4 s hs).1,
    gather_blocks hN r5 fun s hs => (h5 s hs).1, gather_blocks hE r6 fun s hs => (h6 s hs).1,
    gather_blocks hE r7 fun s hs => (h7 s hs).1]
  change Except.ok _ = Except.ok _
  have l2 : ∀ s < S, (a1 s).length = (a2 s).length := fun s hs => by
    rw [(h1 s hs).2, (h2 s hs).2, ht.lenI, ht.lenJ]
  have z1 : ∀ s < S, (a6 s).length = (a7 s).length := fun s hs => by
    rw [(h6 s hs).2, (h7 s hs).2, ht.lenIndexJi, ht.lenIndexKj]
  have z2 : ∀ s < S, (a5 s).length = ((a6 s).zip (a7 s)).length := fun s hs => by
    rw [List.length_zip, ← z1 s hs, min_self, (h5 s hs).2, (h6 s hs).2, ht.lenIndexJi, ht.lenIndexK]
  have z3 : ∀ s < S, (a4 s).length = ((a5 s).zip ((a6 s).zip (a7 s))).length := fun s hs => by
    rw [List.length_zip, ← z2 s hs, min_self, (h4 s hs).2, (h5 s hs).2, ht.lenIndexJ, ht.lenIndexK]
  have z4 : ∀ s < S, (a3 s).length = ((a4 s).zip ((a5 s).zip ((a6 s).zip (a7 s)))).length :=
    fun s hs => by
      rw [List.length_zip, ← z3 s hs, min_self, (h3 s hs).2, (h4 s hs).2, ht.lenIndexJ]
  rw [zipWith_blocks _ l2, zip_blocks z1, zip_blocks z2, zip_blocks z3, zip_blocks z4, map_blocks,
    length_blocks hE, zip_blocks, scatter_blocks _ r6, zipWith_blocks]
  · congr 1
    apply blocks_congr
    intro s hs
    have := h s hs
    unfold EdgeBlock.forward at this
    rw [(h1 s hs).1, (h2 s hs).1, (h3 s hs).1, (h4 s hs).1, (h5 s hs).1, (h6 s hs).1, (h7 s hs).1,
      hE s hs] at this
    exact Except.ok.inj this
  · intro s hs
    simp [length_scatterSum, hE s hs, (h1 s hs).2, (h2 s hs).2, ht.lenI, ht.lenJ]
  · intro s hs
    rw [List.length_map, List.length_zip, ← z4 s hs, min_self, (h3 s hs).2, ht.lenIndexJi]
  · intro s hs
    rw [hE s hs, List.length_zipWith, (h1 s hs).2, (h2 s hs).2, ht.lenI, ht.lenJ, min_self]

theorem messagePassing_total {t : Triplets} {n e : ℕ} (ht : t.Valid n e)
    (bs : List (NodeBlock dn de × EdgeBlock dn de)) {nodes : List (Row dn)} {edges : List (Row de)}
    (hn : nodes.length = n) (he : edges.length = e) :
    ∃ r, messagePassing t bs nodes edges = .ok r ∧ r.length = e := by
  induction bs generalizing nodes edges with
  | nil => exact ⟨edges, rfl, he⟩
  | cons b bs ih =>
    obtain ⟨nd, h1, l1⟩ := nodeBlock_total b.1 (edges := edges) (i := t.i) hn
      fun k hk => ht.nodes k (by tauto)
    obtain ⟨ed, h2, l2⟩ := edgeBlock_total b.2 ht l1 he
    obtain ⟨r, hr, hl⟩ := ih l1 l2
    refine ⟨r, ?_, hl⟩
    rw [messagePassing, h1]
    dsimp only [bind, Except.bind]
    rw [h2]
    exact hr

theorem messagePassing_blocks {t : Triplets} {S n e : ℕ} (ht : t.Valid n e)
    (bs : List (NodeBlock dn de × EdgeBlock dn de)) {Nd : ℕ → List (Row dn)}
    {Ed R : ℕ → List (Row de)} (hN : ∀ s < S, (Nd s).length = n) (hE : ∀ s < S, (Ed s).length = e)
    (h : ∀ s < S, messagePassing t bs (Nd s) (Ed s) = .ok (R s)) :
    messagePassing (t.copies n e S) bs (blocks S Nd) (blocks S Ed) = .ok (blocks S R) := by
  induction bs generalizing Nd Ed with
  | nil =>
    rw [messagePassing]
    congr 1
    exact blocks_congr fun s hs => Except.ok.inj (h s hs)
  | cons b bs ih =>
    have hg : ∀ s, ∃ nd ed, s < S → (b.1.forward (Nd s) (Ed s) t.i = .ok nd ∧ nd.length = n) ∧
        b.2.forward nd (Ed s) t = .ok ed ∧ ed.length = e := by
      intro s
      by_cases hs : s < S
      · obtain ⟨nd, h1, l1⟩ := nodeBlock_total b.1 (edges := Ed s) (i := t.i) (hN s hs)
          fun k hk => ht.nodes k (by tauto)
        obtain ⟨ed, h2, l2⟩ := edgeBlock_total b.2 ht l1 (hE s hs)
        exact ⟨nd, ed, fun _ => ⟨⟨h1, l1⟩, h2, l2⟩⟩
      · exact ⟨[], [], fun h => absurd h hs⟩
    choose nd ed hne using hg
    rw [messagePassing]
    have e1 : b.1.forward (blocks S Nd) (blocks S Ed) (t.copies n e S).i = .ok (blocks S nd) :=
      nodeBlock_blocks b.1 hN (fun s hs => by rw [hE s hs, ht.lenI]) (fun k hk => ht.nodes k (by tauto))
        fun s hs => (hne s hs).1.1
    have e2 : b.2.forward (blocks S nd) (blocks S Ed) (t.copies n e S) = .ok (blocks S ed) :=
      edgeBlock_blocks b.2 ht (fun s hs => (hne s hs).1.2) hE fun s hs => (hne s hs).2.1
    rw [e1]
    dsimp only [bind, Except.bind]
    rw [e2]
    apply ih (fun s hs => (hne s hs).1.2) fun s hs => (hne s hs).2.2
    intro s hs
    have := h s hs
    rw [messagePassing, (hne s hs).1.1] at this
    dsimp only [bind, Except.bind] at this
    rw [(hne s hs).2.1] at this
    exact this

end Verif
