import Verif.Spec.OperationOrder
import Verif.Props.Equivariance
import Verif.Props.CallOrder

/-!
# C151: the order in which the symmetry library lists its operations
-/

namespace Verif

open Spec

variable {N : ℕ}

theorem SameDofs.append {l₁ l₂ l₁' l₂' : List (Pos N ℝ × ((ℝ → Mat3 ℝ) × Bool))}
    (h₁ : SameDofs l₁ l₁') (h₂ : SameDofs l₂ l₂') : SameDofs (l₁ ++ l₂) (l₁' ++ l₂') := by
  obtain ⟨a, p1, f1⟩ := h₁
  obtain ⟨b, p2, f2⟩ := h₂
  exact ⟨a ++ b, p1.append p2, List.rel_append f1 f2⟩

theorem ofFn_comp_bij {α : Type} {n m : ℕ} (φ : Fin n → Fin m) (h : Function.Bijective φ)
    (T : Fin m → α) : (List.ofFn (T ∘ φ)).Perm (List.ofFn T) := by
  have : n = m := by simpa using Fintype.card_of_bijective h
  subst this
  exact Equiv.Perm.ofFn_comp_perm (Equiv.ofBijective φ h) T

/-- Degrees of freedom that mean the same contribute the same. -/
theorem sum_same {l l' : List (Pos N ℝ × ((ℝ → Mat3 ℝ) × Bool))} (h : SameDofs l l') (D : Pos N ℝ) :
    (l'.map fun x => if x.2.2 then (0 : Mat3 ℝ) else x.2.1 (inner3 x.1 D)).sum
      = (l.map fun x => if x.2.2 then 0 else x.2.1 (inner3 x.1 D)).sum := by
  obtain ⟨l'', h1, h2⟩ := h
  rw [← (h1.map _).sum_eq]
  clear h1
  induction h2 with
  | nil => rfl
  | @cons x y _ _ hxy _ ih =>
    rw [List.map_cons, List.sum_cons, List.map_cons, List.sum_cons, ih]
    congr 1
    obtain ⟨ε, _, g1, g2, g3⟩ := hxy
    rw [g3]
    split_ifs
    · rfl
    · rw [← g2]
      congr 1
      have : y.1 = fun a j => ε * x.1 a j := by funext a j; exact g1 a j
      rw [this, inner3_smul_left]

/-- Models with the same cell, positions, reference value and degrees of freedom (up to order and
signs) predict the same. -/
theorem predictions_same (m m' : IModel N) (hi : m.interps.length = m.basis.length)
    (hk : m.mask.length = m.basis.length) (hi' : m'.interps.length = m'.basis.length)
    (hk' : m'.mask.length = m'.basis.length) (hL : m'.ref.lattice = m.ref.lattice)
    (hp : m'.ref.positions = m.ref.positions) (hpol : m'.refPol = m.refPol)
    (hd : SameDofs (m.basis.zip (m.interps.zip m.mask)) (m'.basis.zip (m'.interps.zip m'.mask)))
    (batch : List (Pos N ℝ)) : m'.calcPolarizabilities batch = m.calcPolarizabilities batch := by
  rw [calc_ok _ hi' hk', calc_ok _ hi hk]
  congr 1
  refine List.map_congr_left fun q _ => ?_
  unfold valueAt expansion
  rw [hL, hp, hpol, sum_same hd]

section images

variable {spglib : Mat3 ℝ → Pos N ℝ → (Fin N → ℕ) → Option SymDict}
    {nums : Fin N → ℕ} {lat : Mat3 ℝ} {p : Pos N ℝ} {s : RefStructure N}

/-- The images of the rescaled displacement are clean if those of the displacement are. -/
theorem clean_of_images
    (hsym : ∀ op ∈ s.ops, ∃ σ, IsSymmetry p op.rot op.trans σ)
    (hiso : ∀ op ∈ s.ops, op.rot * op.rot.transpose = 1) {w e : Pos N ℝ} {c : ℝ}
    (hclean : ∀ x ∈ s.ops, ∀ y ∈ s.ops, ∀ σ τ, IsSymmetry p x.rot x.trans σ →
      IsSymmetry p y.rot y.trans τ →
      (∃ κ : ℝ, (κ = 1 ∨ κ = -1) ∧ carried σ x.rot w = fun a i => κ * carried τ y.rot w a i) ∨
      inner3 (carried σ x.rot w) (carried τ y.rot w) = 0)
    (hec : e = fun a i => c * w a i) (hen : inner3 e e = 1 / 100) {new : List (SymOp × Pos N ℝ)}
    (hnew' : ∀ x ∈ new, x.1 ∈ s.ops ∧
        ∀ σ, IsSymmetry p x.1.rot x.1.trans σ → x.2 = carried σ x.1.rot e) : CleanList new := by
  have hsc : ∀ (τ : Equiv.Perm (Fin N)) (Q : Mat3 ℝ),
      carried τ Q e = fun a j => c * carried τ Q w a j :=
    fun τ Q => by rw [hec, carried_smul]
  have hinner : ∀ u v : Pos N ℝ, inner3 (fun a j => c * u a j) (fun a j => c * v a j)
      = c ^ 2 * inner3 u v := by
    intro u v
    unfold inner3
    simp only [Finset.mul_sum]
    exact Finset.sum_congr rfl fun a _ => Finset.sum_congr rfl fun j _ => by ring
  refine ⟨fun x hx => ?_, fun x hx y hy => ?_⟩
  · obtain ⟨h1, h2⟩ := hnew' x hx
    obtain ⟨τ, hτ⟩ := hsym _ h1
    rw [h2 τ hτ, inner3_carried _ (hiso _ h1), hen]
  · obtain ⟨h1, h2⟩ := hnew' x hx
    obtain ⟨h3, h4⟩ := hnew' y hy
    obtain ⟨τ, hτ⟩ := hsym _ h1
    obtain ⟨ρ, hρ⟩ := hsym _ h3
    rw [h2 τ hτ, h4 ρ hρ, hsc, hsc]
    rcases hclean _ h1 _ h3 τ ρ hτ hρ with ⟨κ, hκ, h⟩ | h
    · left
      refine ⟨κ, hκ, ?_⟩
      funext a i
      rw [h]; ring
    · right
      rw [hinner, h, mul_zero]

/-- The points collected for a group, in terms of all images (not only those the group kept). -/
theorem points_of_images (hN : N ≤ 10 ^ 8) {new : List (SymOp × Pos N ℝ)}
    {groups : List (EqGroup N)} {orth : List (Pos N ℝ)} (hI : EqInv new ⟨groups, orth⟩)
    (hC : CleanList new) (hrot : ∀ x ∈ new, x.1.rot * x.1.rot.transpose = 1)
    {m : IModel N} {inc : Bool} {data : List (ℝ × Mat3 ℝ)}
    (hdat : ∀ x ∈ new, ∀ y ∈ new, x.2 = y.2 → ∀ d ∈ data,
      turned x.1.rot (d.2 - m.refPol) = turned y.1.rot (d.2 - m.refPol))
    {recs : List (Pos N ℝ × List (ℝ × Mat3 ℝ))}
    (hF : List.Forall₂ (fun g r => GroupFacts m inc data g r.1 r.2) groups recs)
    (n : ℕ) (hn : n < groups.length) (h : Pos N ℝ) (rest : List (Pos N ℝ))
    (hh : groups[n].displacements = h :: rest) (z : ℝ × Mat3 ℝ) :
    z ∈ (recs[n]'(by rw [← hF.length_eq]; exact hn)).2 ↔
        (inc = true ∧ z = (0, 0)) ∨ ∃ y ∈ new, ∃ κ : ℝ, (κ = 1 ∨ κ = -1) ∧
          (y.2 = fun a i => κ * h a i) ∧
          ∃ d ∈ data, z = (κ * d.1, turned y.1.rot (d.2 - m.refPol)) := by
  have hlen : groups.length = recs.length := hF.length_eq
  have hG : GroupFacts m inc data groups[n] (recs[n]'(by omega)).1 (recs[n]'(by omega)).2 := by
    have := (List.forall₂_iff_get.1 hF).2 n hn (by omega)
    simpa using this
  have hg := List.getElem_mem hn
  rw [mem_points hI hC hrot hg hG hh]
  refine or_congr Iff.rfl ⟨?_, ?_⟩
  · rintro ⟨y, hy, κ, hκ, hyk, d, hd, rfl⟩
    exact ⟨y, pair_mem hI hg hy, κ, hκ, hyk, d, hd, rfl⟩
  · rintro ⟨y, hy, κ, hκ, hyk, d, hd, rfl⟩
    obtain ⟨g', hg', h', rest', hh', ⟨μ, hμ, hym⟩, y', hy', hyy⟩ := image_covered hN hI hC hy
    obtain ⟨n', hn', rfl⟩ := List.mem_iff_getElem.1 hg'
    obtain ⟨oh, hoh⟩ := head_mem hI hg hh
    have hμ2 : μ * μ = 1 := by rcases hμ with rfl | rfl <;> norm_num
    have hκ0 : κ ≠ 0 := by rcases hκ with rfl | rfl <;> norm_num
    have hμ0 : μ ≠ 0 := by rcases hμ with rfl | rfl <;> norm_num
    have := head_unique hI hn hn' hh hh' (κ := μ * κ) (mul_ne_zero hμ0 hκ0)
      (ne_zero_of_norm (hC.norm _ hoh)) (by
        funext a i
        have h7 := congrFun (congrFun (hyk.symm.trans hym) a) i
        rw [mul_assoc, h7, ← mul_assoc, hμ2, one_mul])
    subst this
    refine ⟨y', hy', κ, hκ, by rw [hyy, hyk], d, hd, ?_⟩
    rw [hdat y hy y' (pair_mem hI hg hy') hyy.symm d hd]

/-- Every head of a group of one run is, up to sign, a head of a group of another run with the same
images. -/
theorem heads_match (hN : N ≤ 10 ^ 8) {new new' : List (SymOp × Pos N ℝ)}
    {groups groups' : List (EqGroup N)} {orth orth' : List (Pos N ℝ)}
    (hI : EqInv new ⟨groups, orth⟩) (hI' : EqInv new' ⟨groups', orth'⟩)
    (hC : CleanList new) (hC' : CleanList new') (hsub : ∀ x ∈ new, x ∈ new')
    (H : Fin groups.length → Pos N ℝ) (H' : Fin groups'.length → Pos N ℝ)
    (hH : ∀ n, ∃ rest, groups[n].displacements = H n :: rest)
    (hH' : ∀ n, ∃ rest, groups'[n].displacements = H' n :: rest) :
    ∃ (φ : Fin groups.length → Fin groups'.length) (ε : Fin groups.length → ℝ),
      Function.Injective φ ∧ ∀ n, (ε n = 1 ∨ ε n = -1) ∧ H' (φ n) = fun a j => ε n * H n a j := by
  have hφ : ∀ n : Fin groups.length, ∃ n' : Fin groups'.length, ∃ ε : ℝ, (ε = 1 ∨ ε = -1) ∧
      H' n' = fun a j => ε * H n a j := by
    intro n
    obtain ⟨rest, hr⟩ := hH n
    obtain ⟨oh, hoh⟩ := head_mem hI (List.getElem_mem n.2) hr
    obtain ⟨g', hg', h', rest', hh', ⟨μ, hμ, hym⟩, _⟩ := image_covered hN hI' hC' (hsub _ hoh)
    obtain ⟨n', hn', rfl⟩ := List.mem_iff_getElem.1 hg'
    obtain ⟨rest'', h2⟩ := hH' ⟨n', hn'⟩
    simp only [Fin.getElem_fin] at h2
    rw [hh'] at h2
    refine ⟨⟨n', hn'⟩, μ, hμ, ?_⟩
    have hμ2 : μ * μ = 1 := by rcases hμ with rfl | rfl <;> norm_num
    rw [← (List.cons.inj h2).1]
    funext a j
    have h3 := congrFun (congrFun hym a) j
    dsimp only at h3
    rw [h3, ← mul_assoc, hμ2, one_mul]
  choose φ ε hε hφe using hφ
  refine ⟨φ, ε, ?_, fun n => ⟨hε n, hφe n⟩⟩
  intro n n' hnn
  have h1 := hφe n
  rw [hnn, hφe n'] at h1
  have hε2 : ∀ n, ε n * ε n = 1 := fun n => by rcases hε n with h | h <;> rw [h] <;> norm_num
  have hε0 : ∀ n, ε n ≠ 0 := fun n => by rcases hε n with h | h <;> rw [h] <;> norm_num
  obtain ⟨r, hr⟩ := hH n
  obtain ⟨r', hr'⟩ := hH n'
  obtain ⟨oh, hoh⟩ := head_mem hI (List.getElem_mem n.2) hr
  refine Fin.ext (head_unique hI n.2 n'.2 hr hr' (mul_ne_zero (hε0 n') (hε0 n))
    (ne_zero_of_norm (hC.norm _ hoh)) ?_)
  funext a j
  have := congrFun (congrFun h1 a) j
  rw [mul_assoc, ← this, ← mul_assoc, hε2, one_mul]

end images

/-- The degrees of freedom that one call adds, for two orders of the operations. -/
theorem records_same {spglib spglib' : Mat3 ℝ → Pos N ℝ → (Fin N → ℕ) → Option SymDict}
    {nums : Fin N → ℕ} {lat : Mat3 ℝ} {p : Pos N ℝ} {s s' : RefStructure N}
    (hs : RefStructure.init spglib nums lat p = .ok s)
    (hs' : RefStructure.init spglib' nums lat p = .ok s')
    (hops : ∀ op, op ∈ s.ops ↔ op ∈ s'.ops) (hN : N ≤ 10 ^ 8)
    (hsep : ∀ j k, j ≠ k → Apart (2 / 10 ^ 5) (p j) (p k))
    (hsym : ∀ op ∈ s.ops, ∃ σ, IsSymmetry p op.rot op.trans σ)
    (hiso : ∀ op ∈ s.ops, op.rot * op.rot.transpose = 1)
    (w : Pos N ℝ) (hbox : ∀ a i, InHalfBox (w a i)) (hw : w ≠ 0)
    (hclean : ∀ x ∈ s.ops, ∀ y ∈ s.ops, ∀ σ τ, IsSymmetry p x.rot x.trans σ →
      IsSymmetry p y.rot y.trans τ →
      (∃ κ : ℝ, (κ = 1 ∨ κ = -1) ∧ carried σ x.rot w = fun a i => κ * carried τ y.rot w a i) ∨
      inner3 (carried σ x.rot w) (carried τ y.rot w) = 0)
    (m m' : IModel N) (hm : m.ref = s) (hm' : m'.ref = s') (hpp : m'.refPol = m.refPol)
    (inc : Bool) (data : List (ℝ × Mat3 ℝ))
    (hdata : ∀ x ∈ s.ops, ∀ y ∈ s.ops, ∀ σ τ, IsSymmetry p x.rot x.trans σ →
      IsSymmetry p y.rot y.trans τ → carried σ x.rot w = carried τ y.rot w →
      ∀ d ∈ data, turned x.rot (d.2 - m.refPol) = turned y.rot (d.2 - m.refPol))
    (spline : SplineFn) (hsp : SplineEquivariant spline) (k : ℕ) (groups groups' : List (EqGroup N))
    (hgr : s.getEquivalentDisplacements w = .ok (some groups))
    (hgr' : s'.getEquivalentDisplacements w = .ok (some groups'))
    (recs recs' : List (Pos N ℝ × List (ℝ × Mat3 ℝ))) (fs fs' : List (ℝ → Mat3 ℝ))
    (hF : List.Forall₂ (fun g r => GroupFacts m inc data g r.1 r.2) groups recs)
    (hF' : List.Forall₂ (fun g r => GroupFacts m' inc data g r.1 r.2) groups' recs')
    (hS : List.Forall₂ (fun r f =>
        SplineReady k (r.2.insertionSort fun a b => a.1 ≤ b.1) ∧
        spline k (r.2.insertionSort fun a b => a.1 ≤ b.1) = .ok f) recs fs)
    (hS' : List.Forall₂ (fun r f =>
        SplineReady k (r.2.insertionSort fun a b => a.1 ≤ b.1) ∧
        spline k (r.2.insertionSort fun a b => a.1 ≤ b.1) = .ok f) recs' fs') :
    SameDofs ((recs.map Prod.fst).zip (fs.zip (List.replicate recs.length false)))
      ((recs'.map Prod.fst).zip (fs'.zip (List.replicate recs'.length false))) := by
  obtain ⟨_, hsl, _⟩ := init_facts hs
  obtain ⟨_, hsl', _⟩ := init_facts hs'
  have hsym' : ∀ op ∈ s'.ops, ∃ σ, IsSymmetry p op.rot op.trans σ :=
    fun op h => hsym op ((hops op).2 h)
  have hiso' : ∀ op ∈ s'.ops, op.rot * op.rot.transpose = 1 := fun op h => hiso op ((hops op).2 h)
  obtain ⟨e, c, groups₁, orth, new, hc, hec, hen, g1, hI, hnew, hnew'⟩ :=
    images_of_displacement hs hsep hsym hiso w hbox hw
  rw [hgr] at g1
  cases g1
  obtain ⟨e', c', groups₂, orth', new₂, hc', hec', hen', g2, hI', hnew₂, hnew₂'⟩ :=
    images_of_displacement hs' hsep hsym' hiso' w hbox hw
  rw [hgr'] at g2
  cases g2
  -- the two rescaled displacements agree
  have hcc : c' = c := by
    have i1 : ∀ c : ℝ, inner3 (fun a i => c * w a i) (fun a i => c * w a i) = c ^ 2 * inner3 w w := by
      intro c
      unfold inner3
      simp only [Finset.mul_sum]
      exact Finset.sum_congr rfl fun a _ => Finset.sum_congr rfl fun j _ => by ring
    have i2 := inner3_self_pos hw
    rw [hec, i1] at hen
    rw [hec', i1] at hen'
    have : c' ^ 2 = c ^ 2 := mul_right_cancel₀ i2.ne' (hen'.trans hen.symm)
    exact (pow_left_inj₀ hc'.le hc.le (by norm_num)).1 this
  have hee : e' = e := by rw [hec', hec, hcc]
  subst hee
  have hC := clean_of_images hsym hiso hclean hec hen hnew'
  have hC' : CleanList new₂ := clean_of_images hsym hiso hclean hec hen fun x hx =>
    ⟨(hops _).2 (hnew₂' x hx).1, (hnew₂' x hx).2⟩
  have hsub : ∀ x ∈ new, x ∈ new₂ := by
    intro x hx
    obtain ⟨h1, h2⟩ := hnew' x hx
    obtain ⟨τ, hτ⟩ := hsym _ h1
    obtain ⟨d, hd⟩ := hnew₂ _ ((hops _).1 h1)
    have h3 := (hnew₂' _ hd).2 τ hτ
    dsimp only at h3
    rw [h3, ← h2 τ hτ] at hd
    exact hd
  have hsub' : ∀ x ∈ new₂, x ∈ new := by
    intro x hx
    obtain ⟨h1, h2⟩ := hnew₂' x hx
    obtain ⟨τ, hτ⟩ := hsym' _ h1
    obtain ⟨d, hd⟩ := hnew _ ((hops _).2 h1)
    have h3 := (hnew' _ hd).2 τ hτ
    dsimp only at h3
    rw [h3, ← h2 τ hτ] at hd
    exact hd
  have hrot : ∀ x ∈ new, x.1.rot * x.1.rot.transpose = 1 := fun x hx => hiso _ (hnew' x hx).1
  have hdat : ∀ x ∈ new, ∀ y ∈ new, x.2 = y.2 → ∀ d ∈ data,
      turned x.1.rot (d.2 - m.refPol) = turned y.1.rot (d.2 - m.refPol) := by
    intro x hx y hy hxy d hd
    obtain ⟨h1, h2⟩ := hnew' x hx
    obtain ⟨h3, h4⟩ := hnew' y hy
    obtain ⟨τ, hτ⟩ := hsym _ h1
    obtain ⟨ρ, hρ⟩ := hsym _ h3
    refine hdata _ h1 _ h3 τ ρ hτ hρ ?_ d hd
    rw [h2 τ hτ, h4 ρ hρ, hec, carried_smul, carried_smul] at hxy
    funext a j
    have := congrFun (congrFun hxy a) j
    exact mul_left_cancel₀ hc.ne' this
  have hhead : ∀ n : Fin groups.length, ∃ h rest, groups[n].displacements = h :: rest := fun n =>
    group_head hI (List.getElem_mem n.2)
  choose H rest hH using hhead
  have hhead' : ∀ n : Fin groups'.length, ∃ h rest, groups'[n].displacements = h :: rest := fun n =>
    group_head hI' (List.getElem_mem n.2)
  choose H' rest' hH' using hhead'
  obtain ⟨φ, ε, hinj, hφ⟩ := heads_match hN hI hI' hC hC' hsub H H' (fun n => ⟨_, hH n⟩)
    (fun n => ⟨_, hH' n⟩)
  obtain ⟨ψ, _, hinj', _⟩ := heads_match hN hI' hI hC' hC hsub' H' H (fun n => ⟨_, hH' n⟩)
    (fun n => ⟨_, hH n⟩)
  have hcard : groups.length = groups'.length := by
    have h1 := Fintype.card_le_of_injective φ hinj
    have h2 := Fintype.card_le_of_injective ψ hinj'
    simp only [Fintype.card_fin] at h1 h2
    omega
  have hbij : Function.Bijective φ :=
    (Fintype.bijective_iff_injective_and_card φ).2 ⟨hinj, by simpa using hcard⟩
  have hlen : groups.length = recs.length := hF.length_eq
  have hlenf : recs.length = fs.length := hS.length_eq
  have hlen' : groups'.length = recs'.length := hF'.length_eq
  have hlenf' : recs'.length = fs'.length := hS'.length_eq
  let T : Fin groups.length → Pos N ℝ × ((ℝ → Mat3 ℝ) × Bool) := fun n =>
    ((recs[n]'(by omega)).1, (fs[n]'(by omega)), false)
  let T' : Fin groups'.length → Pos N ℝ × ((ℝ → Mat3 ℝ) × Bool) := fun n =>
    ((recs'[n]'(by omega)).1, (fs'[n]'(by omega)), false)
  have hT : (recs.map Prod.fst).zip (fs.zip (List.replicate recs.length false)) = List.ofFn T := by
    apply List.ext_getElem
    · simp [hlen, hlenf]
    · intro n h1 h2
      simp [T]
  have hT' : (recs'.map Prod.fst).zip (fs'.zip (List.replicate recs'.length false))
      = List.ofFn T' := by
    apply List.ext_getElem
    · simp [hlen', hlenf']
    · intro n h1 h2
      simp [T']
  rw [hT, hT']
  refine ⟨List.ofFn (T' ∘ φ), ofFn_comp_bij φ hbij T', ?_⟩
  rw [List.forall₂_iff_get]
  refine ⟨by simp, fun n h1 h2 => ?_⟩
  simp only [List.get_eq_getElem, List.getElem_ofFn, Function.comp_apply]
  have hn : n < groups.length := by simpa using h1
  generalize hnf : (⟨n, _⟩ : Fin groups.length) = f
  obtain ⟨hε, hφe⟩ := hφ f
  have hG := (List.forall₂_iff_get.1 hF).2 f f.2 (by have := f.2; omega)
  have hG' := (List.forall₂_iff_get.1 hF').2 (φ f) (φ f).2 (by have := (φ f).2; omega)
  simp only [List.get_eq_getElem] at hG hG'
  have g1 := hH f
  have g2 := hH' (φ f)
  simp only [Fin.getElem_fin] at g1 g2
  refine ⟨ε f, hε, ?_, ?_, rfl⟩
  · obtain ⟨c1, r1, d1, b1⟩ := hG.basis
    obtain ⟨c2, r2, d2, b2⟩ := hG'.basis
    rw [g1] at d1; rw [g2] at d2
    cases d1; cases d2
    obtain ⟨o1, ho1⟩ := head_mem hI (List.getElem_mem f.2) g1
    obtain ⟨o2, ho2⟩ := head_mem hI' (List.getElem_mem (φ f).2) g2
    have hid : ∀ D : Pos N ℝ, carried (Equiv.refl _) 1 D = D := by
      intro D
      funext a j
      simp [carried, Matrix.one_apply]
    have hcd : ∀ D, s'.getCartDisplacement D = s.getCartDisplacement D := by
      intro D
      unfold RefStructure.getCartDisplacement
      rw [hsl, hsl']
    rw [hm] at b1
    rw [hm', hcd] at b2
    have := basis_carried (R := 1) (σ := Equiv.refl _) (by simp) (by simp) hε (hC.norm _ ho1)
      (hC'.norm _ ho2) (by rw [hid]; exact hφe) b1 b2
    rw [hid] at this
    exact this
  · intro t
    have s1 := (List.forall₂_iff_get.1 hS).2 f (by have := f.2; omega) (by have := f.2; omega)
    have s2 := (List.forall₂_iff_get.1 hS').2 (φ f) (by have := (φ f).2; omega)
      (by have := (φ f).2; omega)
    simp only [List.get_eq_getElem] at s1 s2
    have hεε : ε f * ε f = 1 := by rcases hε with h | h <;> rw [h] <;> norm_num
    have hid : ∀ A : Mat3 ℝ, turned 1 A = A := fun A => by simp [turned]
    have P := points_of_images hN hI hC hrot hdat hF f f.2 (H f) (rest f) g1
    have P' := points_of_images hN hI' hC' (fun x hx => hrot x (hsub' x hx))
      (m := m') (inc := inc) (data := data)
      (fun x hx y hy => by rw [hpp]; exact hdat x (hsub' x hx) y (hsub' y hy)) hF' (φ f) (φ f).2
      (H' (φ f)) (rest' (φ f)) g2
    rw [hpp] at P'
    have key := spline_image hsp (Q := 1) (by simp) s1.1 s1.2 s2.1 s2.2 hε ?_ ?_ t
    · rw [hid] at key; exact key
    · intro u hu
      rw [hid]
      rw [P] at hu
      rw [P']
      rcases hu with ⟨hi, rfl⟩ | ⟨y, hy, κ, hκ, hyk, d, hd, rfl⟩
      · left; exact ⟨hi, by simp⟩
      · right
        refine ⟨y, hsub y hy, ε f * κ, ?_, ?_, d, hd, ?_⟩
        · rcases hε with h | h <;> rcases hκ with rfl | rfl <;> rw [h] <;> norm_num
        · rw [hyk, hφe]
          funext a j
          linear_combination (-κ * H f a j) * hεε
        · rw [mul_assoc]
    · intro z hz
      rw [P'] at hz
      rcases hz with ⟨hi, rfl⟩ | ⟨y, hy, κ, hκ, hyk, d, hd, rfl⟩
      · refine ⟨(0, 0), ?_, by simp [hid]⟩
        rw [P]
        exact Or.inl ⟨hi, rfl⟩
      · refine ⟨((ε f * κ) * d.1, turned y.1.rot (d.2 - m.refPol)), ?_, ?_⟩
        · rw [P]
          refine Or.inr ⟨y, hsub' y hy, ε f * κ, ?_, ?_, d, hd, rfl⟩
          · rcases hε with h | h <;> rcases hκ with rfl | rfl <;> rw [h] <;> norm_num
          · rw [hyk, hφe]
            funext a j
            ring
        · rw [hid]
          congr 1
          linear_combination (-κ * d.1) * hεε

/-- What a successful call of `add_dof` adds to a model. -/
theorem addDof_adds (spline : SplineFn) (we : Bool) (m : IModel N) (hdum : m.dummy = false)
    (cart w : Pos N ℝ) (hw : m.ref.getFracDisplacement cart = .ok w) (hw0 : w ≠ 0)
    (amps : List ℝ) (pols : List (Mat3 ℝ)) (order : ℤ) (inc : Bool)
    (groups : List (EqGroup N)) (hgr : m.ref.getEquivalentDisplacements w = .ok (some groups))
    (hok : (m.addDof spline we cart amps pols order inc).result = .ok ()) :
    ∃ (recs : List (Pos N ℝ × List (ℝ × Mat3 ℝ))) (fs : List (ℝ → Mat3 ℝ)),
      (m.addDof spline we cart amps pols order inc).state = { m with
        basis := m.basis ++ recs.map Prod.fst
        interps := m.interps ++ fs
        mask := m.mask ++ List.replicate recs.length false } ∧
      List.Forall₂ (fun r f =>
        SplineReady order.toNat (r.2.insertionSort fun a b => a.1 ≤ b.1) ∧
        spline order.toNat (r.2.insertionSort fun a b => a.1 ≤ b.1) = .ok f) recs fs ∧
      List.Forall₂ (fun g r => GroupFacts m inc (amps.zip pols) g r.1 r.2) groups recs := by
  obtain ⟨parent, recs, fs, h1, h2, h3, h4, h5, _, _, h6, h7⟩ :=
    addDofNan_facts spline we m (some cart) amps pols order inc _ rfl hok
  obtain ⟨q', c, _, g1, _, g2, _⟩ := (parent_facts m cart w hw).2 hw0
  have hcount := addDof_count spline we m cart amps pols order inc q' groups g1
    (by rw [g2]; exact hgr) hok
  have h5' : (m.addDof spline we cart amps pols order inc).state = { m with
        basis := m.basis ++ recs.map Prod.fst
        interps := m.interps ++ fs
        mask := m.mask ++ List.replicate recs.length false } := by
    have : (m.addDof spline we cart amps pols order inc).state
        = (m.addDofNan spline we (some cart) amps pols order inc).state := rfl
    rw [this, h5, hdum]; rfl
  refine ⟨recs, fs, h5', h6, ?_⟩
  rw [h5'] at hcount
  rcases h7 with rfl | ⟨q, groups', rfl, h8, h9⟩
  · simp only [List.map_nil, List.append_nil] at hcount
    have : groups = [] := List.length_eq_zero_iff.1 (by omega)
    subst this
    exact List.Forall₂.nil
  · rw [h1] at g1
    cases g1
    rw [g2, hgr] at h8
    cases h8
    have hu : usedPols m amps pols = pols := by unfold usedPols; rw [hdum]; rfl
    rw [hu] at h9
    exact h9

/-! ### C151 -/

/-- Two models over the same structure (`s`, `s'` may list operations differently) that hold the
same degrees of freedom up to order and signs. -/
structure Twins (s s' : RefStructure N) (m m' : IModel N) : Prop where
  ref : m.ref = s
  ref' : m'.ref = s'
  pol : m'.refPol = m.refPol
  real : m.dummy = false
  real' : m'.dummy = false
  interps : m.interps.length = m.basis.length
  mask : m.mask.length = m.basis.length
  interps' : m'.interps.length = m'.basis.length
  mask' : m'.mask.length = m'.basis.length
  dofs : SameDofs (m.basis.zip (m.interps.zip m.mask)) (m'.basis.zip (m'.interps.zip m'.mask))

/-- What the claim asks of a displacement and its data: the images of the displacement are pairwise
equal, opposite or orthogonal, and operations that lead to the same image turn the measured changes
alike. -/
def CleanCall (p : Pos N ℝ) (s : RefStructure N) (pol : Mat3 ℝ) (w : Pos N ℝ)
    (pols : List (Mat3 ℝ)) : Prop :=
  ∀ x ∈ s.ops, ∀ y ∈ s.ops, ∀ σ τ, IsSymmetry p x.rot x.trans σ → IsSymmetry p y.rot y.trans τ →
    ((∃ κ : ℝ, (κ = 1 ∨ κ = -1) ∧ carried σ x.rot w = fun a i => κ * carried τ y.rot w a i) ∨
      inner3 (carried σ x.rot w) (carried τ y.rot w) = 0) ∧
    (carried σ x.rot w = carried τ y.rot w →
      ∀ A ∈ pols, turned x.rot (A - pol) = turned y.rot (A - pol))

/-- C151, one `add_dof` call: the symmetry library lists the same operations in different orders
(or repeats some).  If two models hold the same degrees of freedom up to order and signs, they still
do after the same call, for displacements with clean images and consistent data. -/
theorem C151_add_dof (spglib spglib' : Mat3 ℝ → Pos N ℝ → (Fin N → ℕ) → Option SymDict)
    (nums : Fin N → ℕ) (lat : Mat3 ℝ) (p : Pos N ℝ) (s s' : RefStructure N)
    (hs : RefStructure.init spglib nums lat p = .ok s)
    (hs' : RefStructure.init spglib' nums lat p = .ok s')
    (hops : ∀ op, op ∈ s.ops ↔ op ∈ s'.ops) (hN : N ≤ 10 ^ 8)
    (hsep : ∀ j k, j ≠ k → Apart (2 / 10 ^ 5) (p j) (p k))
    (hsym : ∀ op ∈ s.ops, ∃ σ, IsSymmetry p op.rot op.trans σ)
    (hiso : ∀ op ∈ s.ops, op.rot * op.rot.transpose = 1)
    (spline : SplineFn) (hsp : SplineEquivariant spline) (we : Bool) (m m' : IModel N)
    (ht : Twins s s' m m') (cart w : Pos N ℝ) (hw : s.getFracDisplacement cart = .ok w)
    (hw0 : w ≠ 0) (amps : List ℝ) (pols : List (Mat3 ℝ)) (order : ℤ) (inc : Bool)
    (hcl : CleanCall p s m.refPol w pols)
    (hok : (m.addDof spline we cart amps pols order inc).result = .ok ())
    (hok' : (m'.addDof spline we cart amps pols order inc).result = .ok ()) :
    Twins s s' (m.addDof spline we cart amps pols order inc).state
      (m'.addDof spline we cart amps pols order inc).state := by
  obtain ⟨_, hsl, _⟩ := init_facts hs
  obtain ⟨_, hsl', _⟩ := init_facts hs'
  have hw' : s'.getFracDisplacement cart = .ok w := by
    unfold RefStructure.getFracDisplacement at hw ⊢
    rw [hsl', ← hsl]
    exact hw
  have hbox := (frac_ok _ _ _ hw).2.1
  obtain ⟨_, _, groups, _, _, _, _, _, hgr, _⟩ :=
    images_of_displacement hs hsep hsym hiso w hbox hw0
  obtain ⟨_, _, groups', _, _, _, _, _, hgr', _⟩ :=
    images_of_displacement hs' hsep (fun op h => hsym op ((hops op).2 h))
      (fun op h => hiso op ((hops op).2 h)) w hbox hw0
  obtain ⟨recs, fs, e1, hS, hF⟩ := addDof_adds spline we m ht.real cart w (by rw [ht.ref]; exact hw)
    hw0 amps pols order inc groups (by rw [ht.ref]; exact hgr) hok
  obtain ⟨recs', fs', e1', hS', hF'⟩ := addDof_adds spline we m' ht.real' cart w
    (by rw [ht.ref']; exact hw') hw0 amps pols order inc groups' (by rw [ht.ref']; exact hgr') hok'
  have l1 := hS.length_eq
  have l2 := hS'.length_eq
  have := ht.interps
  have := ht.mask
  have := ht.interps'
  have := ht.mask'
  rw [e1, e1']
  refine ⟨ht.ref, ht.ref', ht.pol, ht.real, ht.real', ?_, ?_, ?_, ?_, ?_⟩
  · simp; omega
  · simp; omega
  · simp; omega
  · simp; omega
  · dsimp only
    rw [List.zip_append (by omega), List.zip_append (by simp; omega), List.zip_append (by omega),
      List.zip_append (by simp; omega)]
    refine SameDofs.append ht.dofs ?_
    refine records_same hs hs' hops hN hsep hsym hiso w hbox hw0
      (fun x hx y hy σ τ hσ hτ => (hcl x hx y hy σ τ hσ hτ).1) m m' ht.ref ht.ref' ht.pol inc
      (amps.zip pols) ?_ spline hsp order.toNat groups groups' hgr hgr' recs recs' fs fs' hF hF' hS hS'
    intro x hx y hy σ τ hσ hτ he d hd
    exact (hcl x hx y hy σ τ hσ hτ).2 he d.2 (List.of_mem_zip hd).2

/-- C151: scripts of `add_dof` calls (displacement, amplitudes, polarizabilities, spline degree) with
clean images and consistent data give models with the same predictions for every batch of
configurations, in whatever order the symmetry library lists its operations. -/
theorem C151_partial (spglib spglib' : Mat3 ℝ → Pos N ℝ → (Fin N → ℕ) → Option SymDict)
    (nums : Fin N → ℕ) (lat : Mat3 ℝ) (p : Pos N ℝ) (s s' : RefStructure N)
    (hs : RefStructure.init spglib nums lat p = .ok s)
    (hs' : RefStructure.init spglib' nums lat p = .ok s')
    (hops : ∀ op, op ∈ s.ops ↔ op ∈ s'.ops) (hN : N ≤ 10 ^ 8)
    (hsep : ∀ j k, j ≠ k → Apart (2 / 10 ^ 5) (p j) (p k))
    (hsym : ∀ op ∈ s.ops, ∃ σ, IsSymmetry p op.rot op.trans σ)
    (hiso : ∀ op ∈ s.ops, op.rot * op.rot.transpose = 1)
    (spline : SplineFn) (hsp : SplineEquivariant spline) (we : Bool) (pol : Mat3 ℝ)
    (calls : List (Pos N ℝ × List ℝ × List (Mat3 ℝ) × ℤ))
    (hcalls : ∀ c ∈ calls, ∃ w, s.getFracDisplacement c.1 = .ok w ∧ w ≠ 0 ∧
      CleanCall p s pol w c.2.2.1)
    (ws ws' : List DofWarning) (m m' : IModel N)
    (hrun : runScript spline we (IModel.init s pol false)
      (calls.map fun c => .dof c.1 c.2.1 c.2.2.1 c.2.2.2) = .ok (ws, m))
    (hrun' : runScript spline we (IModel.init s' pol false)
      (calls.map fun c => .dof c.1 c.2.1 c.2.2.1 c.2.2.2) = .ok (ws', m'))
    (batch : List (Pos N ℝ)) : m'.calcPolarizabilities batch = m.calcPolarizabilities batch := by
  obtain ⟨hp, hsl, _⟩ := init_facts hs
  obtain ⟨hp', hsl', _⟩ := init_facts hs'
  have key : ∀ (calls : List (Pos N ℝ × List ℝ × List (Mat3 ℝ) × ℤ)) (m₀ m₀' : IModel N)
      (ws ws' : List DofWarning) (m m' : IModel N), Twins s s' m₀ m₀' → m₀.refPol = pol →
      (∀ c ∈ calls, ∃ w, s.getFracDisplacement c.1 = .ok w ∧ w ≠ 0 ∧ CleanCall p s pol w c.2.2.1) →
      runScript spline we m₀ (calls.map fun c => .dof c.1 c.2.1 c.2.2.1 c.2.2.2) = .ok (ws, m) →
      runScript spline we m₀' (calls.map fun c => .dof c.1 c.2.1 c.2.2.1 c.2.2.2) = .ok (ws', m') →
      Twins s s' m m' := by
    intro calls
    induction calls with
    | nil =>
      intro m₀ m₀' ws ws' m m' ht _ _ h1 h2
      cases h1
      cases h2
      exact ht
    | cons c cs ih =>
      intro m₀ m₀' ws ws' m m' ht hpol hc h1 h2
      rw [List.map_cons] at h1 h2
      unfold runScript at h1 h2
      obtain ⟨w, g1, g2, g3⟩ := hc c List.mem_cons_self
      cases r1 : (AddCall.run spline we m₀ (.dof c.1 c.2.1 c.2.2.1 c.2.2.2)).result with
      | error e => rw [r1] at h1; cases h1
      | ok u =>
        cases r2 : (AddCall.run spline we m₀' (.dof c.1 c.2.1 c.2.2.1 c.2.2.2)).result with
        | error e => rw [r2] at h2; cases h2
        | ok u' =>
          rw [r1] at h1
          rw [r2] at h2
          dsimp only at h1 h2
          have ht2 := C151_add_dof spglib spglib' nums lat p s s' hs hs' hops hN hsep hsym hiso
            spline hsp we m₀ m₀' ht c.1 w g1 g2 c.2.1 c.2.2.1 c.2.2.2 true (by rw [hpol]; exact g3) r1 r2
          have hpol2 : (m₀.addDof spline we c.1 c.2.1 c.2.2.1 c.2.2.2).state.refPol = pol := by
            obtain ⟨_, _, _, _, _, _, _, h5, _⟩ :=
              addDofNan_facts spline we m₀ (some c.1) c.2.1 c.2.2.1 c.2.2.2 true _ rfl r1
            have : (m₀.addDof spline we c.1 c.2.1 c.2.2.1 c.2.2.2).state
              = (m₀.addDofNan spline we (some c.1) c.2.1 c.2.2.1 c.2.2.2 true).state := rfl
            rw [this, h5]
            exact hpol
          split at h1
          · cases h1
          · split at h2
            · cases h2
            · rename_i e1 _ _ _ e2
              cases h1
              cases h2
              exact ih _ _ _ _ _ _ ht2 hpol2 (fun c hc' => hc c (List.mem_cons_of_mem _ hc')) e1 e2
  have h0 : Twins s s' (IModel.init s pol false) (IModel.init s' pol false) :=
    ⟨rfl, rfl, rfl, rfl, rfl, rfl, rfl, rfl, rfl, ⟨[], by simp [IModel.init], by simp [IModel.init]⟩⟩
  have ht := key calls _ _ _ _ _ _ h0 rfl hcalls hrun hrun'
  exact predictions_same m m' ht.interps ht.mask ht.interps' ht.mask'
    (by rw [ht.ref, ht.ref', hsl, hsl']) (by rw [ht.ref, ht.ref', hp, hp']) ht.pol ht.dofs batch

/-! ### Concrete: the mirror listed before the identity -/

/-- The operations of the mirror crystal in the other order. -/
def revSpglib : Mat3 ℝ → Pos 1 ℝ → (Fin 1 → ℕ) → Option SymDict :=
  fun _ _ _ => some ⟨mirOps.reverse, [0]⟩

theorem revInit (nums : Fin 1 → ℕ) : ∃ s,
    RefStructure.init revSpglib nums 1 (fun _ _ => 0) = .ok s ∧ s.ops = mirOps.reverse := by
  have hz : ∀ (a : Fin 1) (i : Fin 3), InClosedCell ((fun _ _ => 0 : Pos 1 ℝ) a i) :=
    fun _ _ => by norm_num [InClosedCell]
  obtain ⟨P, hP, _⟩ := C12_entry (fun _ _ => 0 : Pos 1 ℝ) ⟨1, 0⟩
    (mir_integer _ (by simp [mirOps])).1 hz
  obtain ⟨Q, hQ, _⟩ := C12_entry (fun _ _ => 0 : Pos 1 ℝ) ⟨mirRot, 0⟩
    (mir_integer _ (by simp [mirOps])).1 hz
  refine ⟨⟨nums, 1, fun _ _ => 0, mirOps.reverse, [Q, P], [0]⟩, ?_, rfl⟩
  unfold RefStructure.init revSpglib computePermutationMatrices mirOps
  simp only [List.reverse_cons, List.reverse_nil, List.nil_append, List.singleton_append,
    List.mapM_cons, hP, hQ, List.mapM_nil]
  rfl

theorem rev_groups (nums : Fin 1 → ℕ) (s : RefStructure 1)
    (hs : RefStructure.init revSpglib nums 1 (fun _ _ => 0) = .ok s)
    (hops : s.ops = mirOps.reverse) (w : Pos 1 ℝ) (u v : (Fin 3 → ℝ))
    (hw : scaleDisplacement w = some (one1 u))
    (hu : u 0 ^ 2 + u 1 ^ 2 + u 2 ^ 2 = (1 / 10) ^ 2)
    (hv : v 0 ^ 2 + v 1 ^ 2 + v 2 ^ 2 = (1 / 10) ^ 2)
    (hub : ∀ j, InHalfBox (u j)) (hvb : ∀ j, InHalfBox (v j))
    (hk : ∀ j, ∑ i, u i * mirRot i j = v j) :
    (cosine (flat (one1 u)) (flat (one1 v)) = 0 → s.getEquivalentDisplacements w
      = .ok (some [⟨[one1 v], [⟨mirRot, 0⟩]⟩, ⟨[one1 u], [⟨1, 0⟩]⟩])) ∧
    (1 / 10 < cosine (flat (one1 u)) (flat (one1 v)) →
      cosine (flat (one1 u)) (flat (one1 v)) < 9 / 10 → s.getEquivalentDisplacements w
      = .ok (some [⟨[one1 v], [⟨mirRot, 0⟩]⟩])) := by
  obtain ⟨hpos, hlat, hperm⟩ := init_facts hs
  have hrev : mirOps.reverse = [⟨mirRot, 0⟩, ⟨1, 0⟩] := rfl
  rw [hops, hrev] at hperm
  obtain ⟨Q, Qs, hQ, hperm, e1⟩ := List.forall₂_cons_left_iff.1 hperm
  obtain ⟨P, Ps, hP, hperm, e2⟩ := List.forall₂_cons_left_iff.1 hperm
  cases hperm
  subst e2
  unfold RefStructure.getEquivalentDisplacements
  rw [hw]
  dsimp only
  rw [hops, e1, hpos, hrev]
  have c0 := mir_candidate P ⟨1, 0⟩ (by simp [mirOps]) hP u u hub (fun j => by
    simp [Matrix.one_apply])
  have c1 := mir_candidate Q ⟨mirRot, 0⟩ (by simp [mirOps]) hQ u v hvb hk
  have i0 : eqInsert (⟨[], []⟩ : EqState 1) ⟨mirRot, 0⟩ (one1 v)
      = ⟨[⟨[one1 v], [⟨mirRot, 0⟩]⟩], [one1 v]⟩ := by
    unfold eqInsert isOrthogonalToAll
    simp [firstIndexFrom]
  have hun := one1_ne (vec_ne_zero hu)
  have hvn := one1_ne (vec_ne_zero hv)
  simp only [List.zip_cons_cons, List.zip_nil_left, eqLoop]
  rw [c1]
  change _ ∧ _
  refine ⟨fun hc => ?_, fun hc hc' => ?_⟩
  · have i1 : eqInsert (⟨[⟨[one1 v], [⟨mirRot, 0⟩]⟩], [one1 v]⟩ : EqState 1) ⟨1, 0⟩ (one1 u)
        = ⟨[⟨[one1 v], [⟨mirRot, 0⟩]⟩, ⟨[one1 u], [⟨1, 0⟩]⟩], [one1 v, one1 u]⟩ := by
      unfold eqInsert
      rw [if_pos]
      · rfl
      · rw [C08_all_orthogonal]
        intro x hx
        simp only [List.map_cons, List.map_nil, List.mem_singleton] at hx
        subst hx
        exact ⟨hun, hvn, by rw [hc]; norm_num [angTol]⟩
    change (do let c ← candidate _ _ _ _; _) >>= _ = _
    simp only [i0, c0]
    change (pure _ >>= _ : Py _) = _
    rw [i1]
    rfl
  · have i1 : eqInsert (⟨[⟨[one1 v], [⟨mirRot, 0⟩]⟩], [one1 v]⟩ : EqState 1) ⟨1, 0⟩ (one1 u)
        = ⟨[⟨[one1 v], [⟨mirRot, 0⟩]⟩], [one1 v]⟩ := by
      unfold eqInsert
      rw [if_neg]
      · dsimp only
        rw [if_neg]
        rw [not_not, (C09_neg_one _ _).2]
        intro x hx
        simp only [List.map_cons, List.map_nil, List.mem_singleton] at hx
        subst hx
        rintro ⟨_, _, h⟩
        rw [abs_of_pos (by linarith)] at h
        norm_num [angTol] at h
        linarith
      · rw [C08_all_orthogonal]
        intro h
        have := (h (flat (one1 v)) (by simp)).2.2
        rw [abs_of_pos (by linarith)] at this
        norm_num [angTol] at this
        linarith
    change (do let c ← candidate _ _ _ _; _) >>= _ = _
    simp only [i0, c0]
    change (pure _ >>= _ : Py _) = _
    rw [i1]
    rfl

/-- The call along `(0, 0.6, 0.8)` with the mirror listed first: the recorded direction is the mirror
image `(0.6, 0, 0.8)`. -/
theorem rev_add (nums : Fin 1 → ℕ) (s : RefStructure 1)
    (hs : RefStructure.init revSpglib nums 1 (fun _ _ => 0) = .ok s)
    (hops : s.ops = mirOps.reverse) (pol A B : Mat3 ℝ) : ∃ f : ℝ → Mat3 ℝ,
    (IModel.init s pol false).addDof lookupSpline true (one1 mirU)
      [-(1 / 10), 1 / 10] [A, B] 2 true
      = ⟨.ok (), [], { IModel.init s pol false with
          basis := [one1 fun i => 10 * mirU' i], interps := [f], mask := [false] }⟩ ∧
    f 0 = 0 := by
  obtain ⟨hpos, hlat, _⟩ := init_facts hs
  obtain ⟨b1, b2, _, _⟩ := mir_box
  obtain ⟨n1, n2, _, _⟩ := mir_norms
  have hgr := (rev_groups nums s hs hops _ mirU mirU' (mir_scale mirU n1 b1) n1 n2 b1 b2
    mir_images.1).2
    (by rw [cosine_one1 _ _ (1 / 10) (by norm_num) n1 n2]; norm_num [mirU, mirU', vec_two])
    (by rw [cosine_one1 _ _ (1 / 10) (by norm_num) n1 n2]; norm_num [mirU, mirU', vec_two])
  have hne : one1 mirU' ≠ 0 := fun h => one1_ne (vec_ne_zero n2) (by rw [h]; rfl)
  obtain ⟨f, hf, hf0, _⟩ := build_sym (1 / 10) (by norm_num) (by norm_num) 0
    (mirRot⁻¹ * (A - pol) * mirRot) (mirRot⁻¹ * (B - pol) * mirRot)
  refine ⟨f, ?_, hf0⟩
  unfold IModel.addDof IModel.addDofNan
  rw [prepareDof_eq _ _ _ _ _ _ (mir_parent (IModel.init s pol false) hlat mirU n1 b1)
    (by simp [usedPols, IModel.init]), getDof_eq _ _ _ _ _ _ (by rfl) hgr]
  have hu : usedPols (IModel.init s pol false) [-(1 / 10), 1 / 10] [A, B] = [A, B] := rfl
  have hr : (IModel.init s pol false).ref = s := rfl
  have hrp : (IModel.init s pol false).refPol = pol := rfl
  have d1 := dofGroup_eq (IModel.init s pol false) [-(1 / 10), 1 / 10] [A, B] true
    ⟨[one1 mirU'], [⟨mirRot, 0⟩]⟩ (one1 mirU') [] rfl (by simp; exact mir_det)
  simp only [List.zip_cons_cons, List.zip_nil_left, List.flatMap_cons, List.flatMap_nil,
    List.append_nil, multiplier_self _ hne, hr, hrp, mir_normalize s hlat mirU' n2 b2,
    List.map_cons, List.map_nil, imagePoint, refPoint, Option.map_some, one_mul, if_true,
    List.singleton_append] at d1
  rw [hu, List.mapM_cons, d1]
  change constructAndAdd _ _ _ [_] _ = _
  unfold constructAndAdd
  rw [if_neg (by norm_num)]
  have h2 : (2 : ℤ).toNat = 2 := rfl
  simp only [buildAll, h2] at hf ⊢
  simp only [hf]
  rfl

/-- C151, without clean images the claim is false: one atom, mirror plane `x ↔ y`, displacement along
`(0, 0.6, 0.8)`.  If the identity is listed first, the model responds along that direction and returns
the measured `B` at `(0, 1/6, 0)`; if the mirror is listed first, it responds along the mirror image
instead and returns the reference value there. -/
theorem C151_counterexample (nums : Fin 1 → ℕ) (pol A B : Mat3 ℝ) : ∃ s s' o o',
    RefStructure.init mirSpglib nums 1 (fun _ _ => 0) = .ok s ∧
    RefStructure.init revSpglib nums 1 (fun _ _ => 0) = .ok s' ∧
    s'.ops = s.ops.reverse ∧
    (∀ op ∈ s.ops, IsSymmetry s.positions op.rot op.trans (Equiv.refl _)) ∧
    o = (IModel.init s pol false).addDof lookupSpline true (one1 mirU)
      [-(1 / 10), 1 / 10] [A, B] 2 true ∧ o.result = .ok () ∧
    o' = (IModel.init s' pol false).addDof lookupSpline true (one1 mirU)
      [-(1 / 10), 1 / 10] [A, B] 2 true ∧ o'.result = .ok () ∧
    evalOne o.state.calcPolarizabilities (one1 ![0, 1 / 6, 0]) = .ok B ∧
    evalOne o'.state.calcPolarizabilities (one1 ![0, 1 / 6, 0]) = .ok pol := by
  obtain ⟨s, hs, hops⟩ := mirInit nums
  obtain ⟨s', hs', hops'⟩ := revInit nums
  obtain ⟨hpos, hlat, _⟩ := init_facts hs
  obtain ⟨hpos', hlat', _⟩ := init_facts hs'
  obtain ⟨f, h1, hf⟩ := mir_add₁ nums s hs hops pol A B
  obtain ⟨g, h2, hg⟩ := rev_add nums s' hs' hops' pol A B
  refine ⟨s, s', _, _, hs, hs', by rw [hops, hops'], ?_, rfl, by rw [h1], rfl, by rw [h2], ?_, ?_⟩
  · rw [hpos, hops]; exact mir_sym
  · have := (C120_not_equivariant nums pol A B lookupSpline lookupSpline_interpolates true s hs hops _
      rfl (by rw [h1])).2.1
    exact this
  · rw [h2, evalOne_expansion _ rfl rfl (one1 ![0, 1 / 6, 0]) (one1 ![0, 1 / 6, 0])]
    · congr 1
      simp only [IModel.init, expansion, hlat', toCart_one]
      simp only [List.zip_cons_cons, List.zip_nil_left, List.map_cons, List.map_nil,
        List.sum_cons, List.sum_nil, add_zero]
      have : inner3 (one1 fun i => 10 * mirU' i) (one1 ![0, 1 / 6, 0]) = 0 := by
        simp [inner3, one1, mirU', Fin.sum_univ_three]
      rw [this, hg]
      simp
    · intro a j
      refine ⟨?_, 0, ?_⟩
      · fin_cases j <;> norm_num [InHalfBox, one1]
      · simp [IModel.init, hpos', one1]

/-- The call along `x` with the mirror listed first records `y` and `x`. -/
theorem rev_addV (nums : Fin 1 → ℕ) (s : RefStructure 1)
    (hs : RefStructure.init revSpglib nums 1 (fun _ _ => 0) = .ok s)
    (hops : s.ops = mirOps.reverse) (C D : Mat3 ℝ) (m : IModel 1) (hr : m.ref = s)
    (hdum : m.dummy = false) (ho : orthCheck m (some (one1 mirV)) = -1) : ∃ g h : ℝ → Mat3 ℝ,
    m.addDof lookupSpline true (one1 mirV) [-(3 / 50), 3 / 50] [C, D] 2 true
      = ⟨.ok (), [], { m with
          basis := m.basis ++ [one1 mirY, one1 mirX], interps := m.interps ++ [h, g],
          mask := m.mask ++ [false, false] }⟩ := by
  obtain ⟨hpos, hlat, _⟩ := init_facts hs
  obtain ⟨_, _, b1, b2⟩ := mir_box
  obtain ⟨nu, _, n1, n2⟩ := mir_norms
  have hgr := (rev_groups nums s hs hops _ mirV mirV' (mir_scale mirV n1 b1) n1 n2 b1 b2
    mir_images.2).1
    (by rw [cosine_one1 _ _ (1 / 10) (by norm_num) n1 n2]; norm_num [mirV, mirV', vec_two])
  have hne : one1 mirV ≠ 0 := fun h => one1_ne (vec_ne_zero n1) (by rw [h]; rfl)
  have hne1 : one1 mirV' ≠ 0 := fun h => one1_ne (vec_ne_zero n2) (by rw [h]; rfl)
  obtain ⟨g, hg, hg0, _⟩ := build_sym (3 / 50) (by norm_num) (by norm_num) 0
    ((1 : Mat3 ℝ)⁻¹ * (C - m.refPol) * (1 : Mat3 ℝ)) ((1 : Mat3 ℝ)⁻¹ * (D - m.refPol) * (1 : Mat3 ℝ))
  obtain ⟨h, hh, _, hh2⟩ := build_sym (3 / 50) (by norm_num) (by norm_num) 0
    (mirRot⁻¹ * (C - m.refPol) * mirRot) (mirRot⁻¹ * (D - m.refPol) * mirRot)
  refine ⟨g, h, ?_⟩
  unfold IModel.addDof IModel.addDofNan
  have hu : usedPols m [-(3 / 50), 3 / 50] [C, D] = [C, D] := by unfold usedPols; rw [hdum]; rfl
  rw [prepareDof_eq _ _ _ _ _ _ (mir_parent m (by rw [hr]; exact hlat) mirV n1 b1)
    (by rw [hu]; rfl), getDof_eq _ _ _ _ _ _ ho (by rw [hr]; exact hgr)]
  have d1 := dofGroup_eq m [-(3 / 50), 3 / 50] [C, D] true
    ⟨[one1 mirV], [⟨1, 0⟩]⟩ (one1 mirV) [] rfl (by simp)
  have d2 := dofGroup_eq m [-(3 / 50), 3 / 50] [C, D] true
    ⟨[one1 mirV'], [⟨mirRot, 0⟩]⟩ (one1 mirV') [] rfl (by simpa using mir_det)
  simp only [List.zip_cons_cons, List.zip_nil_left, List.flatMap_cons, List.flatMap_nil,
    List.append_nil, multiplier_self _ hne, multiplier_self _ hne1, hr,
    mir_normalize s hlat mirV n1 b1, mir_normalize s hlat mirV' n2 b2,
    List.map_cons, List.map_nil, imagePoint, refPoint, Option.map_some, one_mul, if_true,
    List.singleton_append] at d1 d2
  rw [hu, List.mapM_cons, d2, List.mapM_cons, d1]
  change constructAndAdd _ _ _ [_, _] _ = _
  unfold constructAndAdd
  rw [if_neg (by norm_num)]
  have h2 : (2 : ℤ).toNat = 2 := rfl
  simp only [buildAll, h2, one_mul, mul_one, inv_one] at hg hh ⊢
  simp only [hg, hh, hdum]
  rfl

/-- C151, concrete: displacement along `x`, with images `x` and `y`; arbitrary data `C`, `D`.  The
calls run through for both orders, record `x, y` and `y, x`, and the models predict the same. -/
example (nums : Fin 1 → ℕ) (pol C D : Mat3 ℝ) (s s' : RefStructure 1)
    (hs : RefStructure.init mirSpglib nums 1 (fun _ _ => 0) = .ok s) (hops : s.ops = mirOps)
    (hs' : RefStructure.init revSpglib nums 1 (fun _ _ => 0) = .ok s')
    (hops' : s'.ops = mirOps.reverse) :
    (∃ ws m, runScript lookupSpline true (IModel.init s pol false)
      [.dof (one1 mirV) [-(3 / 50), 3 / 50] [C, D] 2] = .ok (ws, m)) ∧
    (∃ ws m, runScript lookupSpline true (IModel.init s' pol false)
      [.dof (one1 mirV) [-(3 / 50), 3 / 50] [C, D] 2] = .ok (ws, m)) ∧
    ∀ ws ws' m m', runScript lookupSpline true (IModel.init s pol false)
      [.dof (one1 mirV) [-(3 / 50), 3 / 50] [C, D] 2] = .ok (ws, m) →
    runScript lookupSpline true (IModel.init s' pol false)
      [.dof (one1 mirV) [-(3 / 50), 3 / 50] [C, D] 2] = .ok (ws', m') →
    ∀ batch, m'.calcPolarizabilities batch = m.calcPolarizabilities batch := by
  obtain ⟨hpos, hlat, _⟩ := init_facts hs
  obtain ⟨_, _, b1, b2⟩ := mir_box
  obtain ⟨_, _, n1, n2⟩ := mir_norms
  have hor : ∀ op ∈ s.ops, op = ⟨1, 0⟩ ∨ op = ⟨mirRot, 0⟩ := by
    intro op hop
    rw [hops] at hop
    simpa [mirOps] using hop
  have i1 : ∀ σ : Equiv.Perm (Fin 1), carried σ 1 (one1 mirV) = one1 mirV := fun σ => by
    rw [carried_one1]
    congr 1
    funext j
    simp [Matrix.one_apply]
  have i2 : ∀ σ : Equiv.Perm (Fin 1), carried σ mirRot (one1 mirV) = one1 mirV' := fun σ => by
    rw [carried_one1]
    congr 1
    funext j
    exact mir_images.2 j
  have hz : inner3 (one1 mirV) (one1 mirV') = 0 ∧ inner3 (one1 mirV') (one1 mirV) = 0 := by
    constructor <;> simp [inner3, one1, mirV, mirV', Fin.sum_univ_three]
  have hne : one1 mirV ≠ one1 mirV' := by
    intro hcon
    have := congrFun (congrFun hcon 0) 0
    norm_num [one1, mirV, mirV'] at this
  have hself : ∀ v : Pos 1 ℝ, ∃ κ : ℝ, (κ = 1 ∨ κ = -1) ∧ v = fun a i => κ * v a i :=
    fun v => ⟨1, Or.inl rfl, by funext a i; ring⟩
  have ho : ∀ s, orthCheck (IModel.init s pol false) (some (one1 mirV)) = -1 := by
    intro s
    unfold orthCheck
    dsimp only
    rw [C08_all_orthogonal]
    intro x hx
    simp [IModel.init] at hx
  refine ⟨?_, ?_, ?_⟩
  · obtain ⟨g, h, hgh, _⟩ := mir_addV nums s hs hops C D (IModel.init s pol false) rfl rfl (ho s)
    refine ⟨[], (IModel.addDof lookupSpline true (IModel.init s pol false) (one1 mirV)
      [-(3 / 50), 3 / 50] [C, D] 2).state, ?_⟩
    unfold runScript AddCall.run
    dsimp only
    rw [hgh]
    rfl
  · obtain ⟨g, h, hgh⟩ := rev_addV nums s' hs' hops' C D (IModel.init s' pol false) rfl rfl (ho s')
    refine ⟨[], (IModel.addDof lookupSpline true (IModel.init s' pol false) (one1 mirV)
      [-(3 / 50), 3 / 50] [C, D] 2).state, ?_⟩
    unfold runScript AddCall.run
    dsimp only
    rw [hgh]
    rfl
  · intro ws ws' m m' h1 h2 batch
    refine C151_partial mirSpglib revSpglib nums 1 (fun _ _ => 0) s s' hs hs'
      (fun op => by rw [hops, hops', List.mem_reverse]) (by norm_num) (one_apart _)
      (fun op hop => ⟨_, mir_sym op (hops ▸ hop)⟩) ?_ lookupSpline lookupSpline_equivariant true pol
      [(one1 mirV, [-(3 / 50), 3 / 50], [C, D], 2)] ?_ ws ws' m m' h1 h2 batch
    · intro op hop
      rcases hor op hop with rfl | rfl
      · simp
      · dsimp only; rw [mir_transpose, mir_sq]
    · intro c hc
      rw [List.mem_singleton] at hc
      subst hc
      refine ⟨one1 mirV, mir_frac s hlat mirV b1,
        fun h => one1_ne (vec_ne_zero n1) (by rw [h]; rfl), ?_⟩
      intro x hx y hy σ τ _ _
      rcases hor x hx with rfl | rfl <;> rcases hor y hy with rfl | rfl <;> dsimp only <;>
        simp only [i1, i2]
      · exact ⟨Or.inl (hself _), fun _ _ _ => trivial⟩
      · exact ⟨Or.inr hz.1, fun h => absurd h hne⟩
      · exact ⟨Or.inr hz.2, fun h => absurd h.symm hne⟩
      · exact ⟨Or.inl (hself _), fun _ _ _ => trivial⟩

end Verif
