import Verif.Props.GnnFormula

/-!
# Helper lemmas: networks on relabelled graphs
-/

namespace Verif

open Spec

section
variable {dn de : ℕ} {V E T V' E' T' : Type} [Fintype E] [Fintype T] [DecidableEq V] [DecidableEq E]
  [Fintype E'] [Fintype T'] [DecidableEq V'] [DecidableEq E']

theorem sum_filter_equiv {A A' B B' M : Type} [Fintype A] [Fintype A'] [DecidableEq B]
    [DecidableEq B'] [AddCommMonoid M] (τ : A' ≃ A) (σ : B' ≃ B) (g : A → B) (g' : A' → B')
    (h : ∀ e, g (τ e) = σ (g' e)) (v : B') (F : A → M) :
    ∑ e with g' e = v, F (τ e) = ∑ e with g e = σ v, F e := by
  rw [Finset.sum_filter, Finset.sum_filter, ← Equiv.sum_comp τ]
  apply Finset.sum_congr rfl
  intro e _
  rw [h]
  simp only [σ.apply_eq_iff_eq]

theorem nodes_relabel {G' : Wiring V' E' T'} {G : Wiring V E T} {σ : V' ≃ V} {τ : E' ≃ E}
    {ρ : T' ≃ T} (h : Relabelled G' G σ τ ρ) (r : Round dn de) (x : V → Fin dn → ℝ)
    (y : E → Fin de → ℝ) :
    r.nodes G' (fun v => x (σ v)) (fun e => y (τ e)) = fun v => r.nodes G x y (σ v) := by
  funext v
  unfold Round.nodes
  rw [sum_filter_equiv τ σ G.fst G'.fst h.fst v fun e => r.message (x (σ v)) (y e)]

theorem edges_relabel {G' : Wiring V' E' T'} {G : Wiring V E T} {σ : V' ≃ V} {τ : E' ≃ E}
    {ρ : T' ≃ T} (h : Relabelled G' G σ τ ρ) (r : Round dn de) (x : V → Fin dn → ℝ)
    (y : E → Fin de → ℝ) :
    r.edges G' (fun v => x (σ v)) (fun e => y (τ e)) = fun e => r.edges G x y (τ e) := by
  funext e
  unfold Round.edges
  rw [h.fst, h.snd]
  have := sum_filter_equiv ρ τ G.near G'.near h.near e fun t =>
    r.triple (x (G.nodeA t)) (x (G.nodeB t)) (x (G.nodeC t)) (y (τ e)) (y (G.far t))
  rw [← this]
  simp only [h.nodeA, h.nodeB, h.nodeC, h.far]

theorem embed_relabel {G' : Wiring V' E' T'} {G : Wiring V E T} {σ : V' ≃ V} {τ : E' ≃ E}
    {ρ : T' ≃ T} (h : Relabelled G' G σ τ ρ) (rs : List (Round dn de)) (x : V → Fin dn → ℝ)
    (y : E → Fin de → ℝ) :
    embed G' rs (fun v => x (σ v)) (fun e => y (τ e)) = fun e => embed G rs x y (τ e) := by
  induction rs generalizing x y with
  | nil => rfl
  | cons r rs ih =>
    unfold embed
    rw [nodes_relabel h, edges_relabel h, ih]

theorem predict_relabel {G' : Wiring V' E' T'} {G : Wiring V E T} {σ : V' ≃ V} {τ : E' ≃ E}
    {ρ : T' ≃ T} (h : Relabelled G' G σ τ ρ) (rs : List (Round dn de))
    (head : (Fin de → ℝ) → Fin 12 → ℝ) (x : V → Fin dn → ℝ) (y : E → Fin de → ℝ)
    (u : E → Fin 3 → ℝ) :
    predict G' rs head (fun v => x (σ v)) (fun e => y (τ e)) (fun e => u (τ e)) =
      predict G rs head x y u := by
  funext k
  unfold predict
  rw [embed_relabel h, Fintype.card_congr τ,
    Equiv.sum_comp τ fun e => edgeTensor (head (embed G rs x y e)) (u e) k]

end

theorem allTriplets_relabel {V E T V' E' T' : Type} {swap : Bool} {G' : Wiring V' E' T'}
    {G : Wiring V E T} {ends' : E' → V' × V'} {ends : E → V × V} (σ : V' ≃ V) (τ : E' ≃ E)
    (h' : AllTriplets swap ends' G') (h : AllTriplets swap ends G)
    (he : ∀ e, ends (τ e) = (σ (ends' e).1, σ (ends' e).2)) :
    ∃ ρ : T' ≃ T, Relabelled G' G σ τ ρ := by
  have hpath : ∀ p q, (∃ t, G'.near t = p ∧ G'.far t = q) ↔ ∃ t, G.near t = τ p ∧ G.far t = τ q := by
    intro p q
    rw [h'.paths, h.paths, he, he]
    cases swap <;> simp
  have hex : ∀ t', ∃ t, G.near t = τ (G'.near t') ∧ G.far t = τ (G'.far t') :=
    fun t' => (hpath _ _).1 ⟨t', rfl, rfl⟩
  choose ρ hn hf using hex
  have hbij : Function.Bijective ρ := by
    constructor
    · intro t1 t2 h12
      apply h'.once
      · exact τ.injective (by rw [← hn, ← hn, h12])
      · exact τ.injective (by rw [← hf, ← hf, h12])
    · intro t
      obtain ⟨t', h1, h2⟩ := (hpath (τ.symm (G.near t)) (τ.symm (G.far t))).2 ⟨t, by simp, by simp⟩
      refine ⟨t', h.once _ _ ?_ ?_⟩
      · rw [hn, h1]; simp
      · rw [hf, h2]; simp
  have hnodes : ∀ t', G.nodeA (ρ t') = σ (G'.nodeA t') ∧ G.nodeB (ρ t') = σ (G'.nodeB t') ∧
      G.nodeC (ρ t') = σ (G'.nodeC t') := by
    intro t'
    have h1 := h.nodes (ρ t')
    have h2 := h'.nodes t'
    rw [hn, hf, he, he] at h1
    cases swap
    · simp only [Bool.false_eq_true, if_false] at h1 h2
      rw [h2.1, h2.2] at h1
      simp only [Prod.mk.injEq] at h1
      exact ⟨h1.1.2.symm, h1.1.1.symm, h1.2.1.symm⟩
    · simp only [if_true] at h1 h2
      rw [h2.1, h2.2] at h1
      simp only [Prod.mk.injEq] at h1
      exact ⟨h1.2.2.symm, h1.1.2.symm, h1.1.1.symm⟩
  refine ⟨Equiv.ofBijective ρ hbij, ?_, ?_, ?_, ?_, ?_, ?_, ?_⟩
  · intro e; rw [h.fst, h'.fst, he]
  · intro e; rw [h.snd, h'.snd, he]
  · exact fun t => (hnodes t).1
  · exact fun t => (hnodes t).2.1
  · exact fun t => (hnodes t).2.2
  · exact hn
  · exact hf

/-- Two lists without repetitions with corresponding entries have corresponding positions. -/
theorem index_equiv {α β : Type} {l : List α} {l' : List β} (hl : l.Nodup) (hl' : l'.Nodup)
    (R : β → α → Prop) (h1 : ∀ b ∈ l', ∃ a ∈ l, R b a) (h2 : ∀ a ∈ l, ∃ b ∈ l', R b a)
    (hi : ∀ b a a', R b a → R b a' → a = a') (hi' : ∀ b b' a, R b a → R b' a → b = b') :
    ∃ τ : Fin l'.length ≃ Fin l.length, ∀ e, R l'[e] l[τ e] := by
  have hex : ∀ e : Fin l'.length, ∃ k : Fin l.length, R l'[e] l[k] := by
    intro e
    obtain ⟨a, ha, hR⟩ := h1 l'[e] (List.getElem_mem _)
    obtain ⟨k, hk, rfl⟩ := List.getElem_of_mem ha
    exact ⟨⟨k, hk⟩, hR⟩
  choose τ hτ using hex
  have hbij : Function.Bijective τ := by
    constructor
    · intro e e' hee
      have h := hτ e
      rw [hee] at h
      have := hi' _ _ _ h (hτ e')
      exact Fin.ext ((List.Nodup.getElem_inj_iff hl').1 this)
    · intro k
      obtain ⟨b, hb, hR⟩ := h2 l[k] (List.getElem_mem _)
      obtain ⟨e, he, rfl⟩ := List.getElem_of_mem hb
      refine ⟨⟨e, he⟩, ?_⟩
      have := hi _ _ _ (hτ ⟨e, he⟩) hR
      exact Fin.ext ((List.Nodup.getElem_inj_iff hl).1 this)
  exact ⟨Equiv.ofBijective τ hbij, hτ⟩

end Verif
