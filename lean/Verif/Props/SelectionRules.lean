import Verif.Spec.Selection
import Verif.Props.Equivariance
import Verif.Props.Spectrum
import Verif.Props.Witnesses

/-!
# Property C146: selection rules
-/

namespace Verif
open Spec Matrix

variable {N : ℕ}

/-- C146: if an operation that acts on displacements by `R` and is the Cartesian isometry `Q` permutes
the degrees of freedom of a model, then the Raman tensor of the transformed vibration is the turned
Raman tensor. -/
theorem C146_tensor (m : IModel N) (hi : m.interps.length = m.basis.length)
    (hk : m.mask.length = m.basis.length) (R Q : Mat3 ℝ) (σ : Equiv.Perm (Fin N))
    (hQ : R * m.ref.lattice = m.ref.lattice * Q) (hiso : Q * Q.transpose = 1)
    (hperm : PermutedBy σ Q (m.basis.zip (m.interps.zip m.mask)))
    (d : Pos N ℝ) (hd : ∀ a i, |d a i| < 500) (hd' : ∀ a i, |carried σ R d a i| < 500) :
    ∃ T, ramanTensor m.calcPolarizabilities m.ref.positions d = .ok T ∧
      ramanTensor m.calcPolarizabilities m.ref.positions (carried σ R d) = .ok (turned Q T) := by
  refine ⟨_, C118_tensor m hi hk d hd, ?_⟩
  rw [C118_tensor m hi hk _ hd', toCart_carried _ _ _ hQ]
  congr 1
  obtain ⟨l', h1, h2⟩ := hperm
  have key : ∀ (l l' : List (Pos N ℝ × ((ℝ → Mat3 ℝ) × Bool))),
      List.Forall₂ (Corresponds σ Q) l l' → ∀ D : Pos N ℝ,
      (l'.map fun x => if x.2.2 then 0 else
            (1000 : ℝ) • (x.2.1 (1 / 1000 * inner3 x.1 (carried σ Q D))
              - x.2.1 (-(1 / 1000) * inner3 x.1 (carried σ Q D)))).sum
      = turned Q (l.map fun x => if x.2.2 then 0 else
            (1000 : ℝ) • (x.2.1 (1 / 1000 * inner3 x.1 D)
              - x.2.1 (-(1 / 1000) * inner3 x.1 D))).sum := by
    intro l l' h D
    induction h with
    | nil => simp [turned_zero]
    | @cons x y _ _ hxy _ ih =>
      rw [List.map_cons, List.sum_cons, List.map_cons, List.sum_cons, turned_add, ih]
      congr 1
      obtain ⟨ε, h1, h2, h3⟩ := hxy
      rw [h3]
      split_ifs
      · rw [turned_zero]
      · have : y.1 = fun a j => ε * carried σ Q x.1 a j := by funext a j; exact h1 a j
        rw [this, inner3_smul_left, inner3_carried _ hiso, turned_smul, turned_sub, ← h2, ← h2]
        congr 3 <;> ring_nf
  rw [← key _ _ h2]
  exact ((h1.map _).sum_eq).symm

/-- C146, general rule: a vibration that is multiplied by the character `χ` under such an operation has
a Raman tensor that is multiplied by `χ` when turned. -/
theorem C146_character (m : IModel N) (hi : m.interps.length = m.basis.length)
    (hk : m.mask.length = m.basis.length) (R Q : Mat3 ℝ) (σ : Equiv.Perm (Fin N))
    (hQ : R * m.ref.lattice = m.ref.lattice * Q) (hiso : Q * Q.transpose = 1)
    (hperm : PermutedBy σ Q (m.basis.zip (m.interps.zip m.mask)))
    (d : Pos N ℝ) (hd : ∀ a i, |d a i| < 500) (χ : ℝ) (hχ : χ = 1 ∨ χ = -1)
    (hc : HasCharacter σ R χ d) :
    ∃ T, ramanTensor m.calcPolarizabilities m.ref.positions d = .ok T ∧ turned Q T = χ • T := by
  have hd' : ∀ a i, |carried σ R d a i| < 500 := by
    intro a i
    rw [hc]
    rcases hχ with rfl | rfl <;> simpa using hd a i
  obtain ⟨T, h1, h2⟩ := C146_tensor m hi hk R Q σ hQ hiso hperm d hd hd'
  refine ⟨T, h1, ?_⟩
  rw [hc] at h2
  rcases hχ with rfl | rfl
  · have e : (fun a i => 1 * d a i) = d := by funext a i; rw [one_mul]
    rw [e, h1] at h2
    rw [one_smul]; exact (Except.ok.inj h2).symm
  · have e : (fun a i => -1 * d a i) = -d := by funext a i; simp
    rw [e, C46_tensor_sign _ _ _ _ h1] at h2
    rw [neg_one_smul]; exact (Except.ok.inj h2).symm

/-- C146, rotations and mirrors along the axes: if `Q` only changes signs of axes, the entries whose
sign does not agree with the character vanish.  For a mirror perpendicular to `z`, for instance, odd
vibrations only have `xz` and `yz` entries and even vibrations have none of these. -/
theorem C146_axes (m : IModel N) (hi : m.interps.length = m.basis.length)
    (hk : m.mask.length = m.basis.length) (R : Mat3 ℝ) (ε : Fin 3 → ℝ) (σ : Equiv.Perm (Fin N))
    (hε : ∀ i, ε i = 1 ∨ ε i = -1)
    (hQ : R * m.ref.lattice = m.ref.lattice * Matrix.diagonal ε)
    (hperm : PermutedBy σ (Matrix.diagonal ε) (m.basis.zip (m.interps.zip m.mask)))
    (d : Pos N ℝ) (hd : ∀ a i, |d a i| < 500) (χ : ℝ) (hχ : χ = 1 ∨ χ = -1)
    (hc : HasCharacter σ R χ d) :
    ∃ T, ramanTensor m.calcPolarizabilities m.ref.positions d = .ok T ∧
      ∀ i j, ε i * ε j ≠ χ → T i j = 0 := by
  have hiso : Matrix.diagonal ε * (Matrix.diagonal ε).transpose = 1 := by
    rw [Matrix.diagonal_transpose, Matrix.diagonal_mul_diagonal, ← Matrix.diagonal_one]
    congr 1
    funext i
    rcases hε i with h | h <;> rw [h] <;> norm_num
  obtain ⟨T, h1, h2⟩ := C146_character m hi hk R _ σ hQ hiso hperm d hd χ hχ hc
  refine ⟨T, h1, fun i j hij => ?_⟩
  have h3 := congrFun (congrFun h2 i) j
  unfold turned at h3
  rw [Matrix.diagonal_transpose, Matrix.mul_diagonal, Matrix.diagonal_mul, Matrix.smul_apply,
    smul_eq_mul] at h3
  have h4 : (ε i * ε j - χ) * T i j = 0 := by linear_combination h3
  rcases mul_eq_zero.1 h4 with h | h
  · exact absurd (sub_eq_zero.1 h) hij
  · exact h

/-- C146, mutual exclusion: with a centre of inversion, vibrations of odd parity have no Raman
tensor. -/
theorem C146_mutual_exclusion (m : IModel N) (hi : m.interps.length = m.basis.length)
    (hk : m.mask.length = m.basis.length) (σ : Equiv.Perm (Fin N))
    (hperm : PermutedBy σ (-1) (m.basis.zip (m.interps.zip m.mask)))
    (d : Pos N ℝ) (hd : ∀ a i, |d a i| < 500) (hu : Ungerade σ d) :
    ramanTensor m.calcPolarizabilities m.ref.positions d = .ok 0 := by
  have hc : HasCharacter σ (-1) (-1) d := by
    funext a i
    unfold carried
    have : d (σ.symm a) i = d a i := by have := hu (σ.symm a) i; simpa using this.symm
    simp [Matrix.neg_apply, Matrix.one_apply, this]
  obtain ⟨T, h1, h2⟩ := C146_character m hi hk (-1) (-1) σ (by simp) (by simp) hperm d hd (-1)
    (Or.inr rfl) hc
  rw [h1]
  congr 1
  have h3 : turned (-1) T = T := by simp [turned]
  rw [h3] at h2
  ext i j
  have h4 := congrFun (congrFun h2 i) j
  simp only [Matrix.smul_apply, smul_eq_mul] at h4
  simp only [Matrix.zero_apply]
  linarith

/-- C146: in particular rigid translations (acoustic vibrations) of a crystal with a centre of
inversion have none. -/
theorem C146_acoustic (m : IModel N) (hi : m.interps.length = m.basis.length)
    (hk : m.mask.length = m.basis.length) (σ : Equiv.Perm (Fin N))
    (hperm : PermutedBy σ (-1) (m.basis.zip (m.interps.zip m.mask)))
    (d : Pos N ℝ) (hd : ∀ a i, |d a i| < 500) (hr : Rigid d) :
    ramanTensor m.calcPolarizabilities m.ref.positions d = .ok 0 :=
  C146_mutual_exclusion m hi hk σ hperm d hd fun a i => hr _ _ i

theorem mapM_except_congr {α β : Type} {l : List α} {f : α → Py β} {g : α → β}
    (h : ∀ x ∈ l, f x = .ok (g x)) : l.mapM f = .ok (l.map g) := by
  rw [mapM_except_ok, List.forall₂_map_right_iff, List.forall₂_same]
  exact h

theorem spectrum_of_tensors {M : PolModel N} {ph : Phonons N} {g : Pos N ℝ → Mat3 ℝ}
    (hne : ph.displacements ≠ []) (hlen : ph.wavenumbers.length = ph.displacements.length)
    (h : ∀ d ∈ ph.displacements, ramanTensor M ph.refPositions d = .ok (g d)) :
    ph.getRamanSpectrum M = .ok ⟨ph.wavenumbers, ph.displacements.map g⟩ := by
  unfold Phonons.getRamanSpectrum
  rw [mapM_except_congr h]
  change (if (ph.displacements.map g).isEmpty then _ else _) = _
  rw [if_neg (by simpa using hne)]
  unfold PhononSpectrum.init
  rw [if_neg (by simp [hlen])]

theorem turned_symm {Q T : Mat3 ℝ} (h : T.IsSymm) : (turned Q T).IsSymm := by
  have := isSymm_conj Qᵀ T h
  rw [Matrix.transpose_transpose] at this
  exact this

theorem intensity_turned {Q T : Mat3 ℝ} (hQ : Q * Q.transpose = 1) (h : T.IsSymm) :
    rawIntensity (turned Q T) = rawIntensity T := by
  have h1 := turned_symm (Q := Q) h
  have e : turned Q T = Qᵀ * T * Qᵀᵀ := by rw [Matrix.transpose_transpose]; rfl
  have hO : Qᵀᵀ * Qᵀ = 1 := by rw [Matrix.transpose_transpose]; exact hQ
  rw [rawIntensity_invariants _ h1, rawIntensity_invariants _ h]
  unfold meanPol anisotropy
  rw [e, conj_mul _ _ _ hO, trace_conj _ _ hO, trace_conj _ _ hO]

theorem tensor_symm (m : IModel N) (hi : m.interps.length = m.basis.length)
    (hk : m.mask.length = m.basis.length) (hs : ∀ f ∈ m.interps, ∀ x, (f x).IsSymm)
    (d : Pos N ℝ) (hd : ∀ a i, |d a i| < 500) (T : Mat3 ℝ)
    (h : ramanTensor m.calcPolarizabilities m.ref.positions d = .ok T) : T.IsSymm := by
  rw [C118_tensor m hi hk d hd] at h
  rw [← Except.ok.inj h]
  have : ∀ l : List (Pos N ℝ × ((ℝ → Mat3 ℝ) × Bool)), (∀ x ∈ l, ∀ t, (x.2.1 t).IsSymm) →
      Matrix.IsSymm (l.map fun x => if x.2.2 then 0 else
            (1000 : ℝ) • (x.2.1 (1 / 1000 * inner3 x.1 (toCart m.ref.lattice d))
              - x.2.1 (-(1 / 1000) * inner3 x.1 (toCart m.ref.lattice d)))).sum := by
    intro l hl
    induction l with
    | nil => simp
    | cons x l ih =>
      rw [List.map_cons, List.sum_cons]
      refine Matrix.IsSymm.add ?_ (ih fun y hy => hl y (List.mem_cons_of_mem _ hy))
      split_ifs
      · simp
      · have := hl x List.mem_cons_self
        exact ((this _).sub (this _)).smul _
  refine this _ fun x hx t => ?_
  have h1 := (List.of_mem_zip hx).2
  exact hs _ (List.of_mem_zip (a := x.2.1) (b := x.2.2) h1).1 t

/-- C146: with symmetric polarizabilities, vibrations transformed by such an operation have the same
measured spectrum, for all options of `measure`. -/
theorem C146_equal_intensities (m : IModel N) (hi : m.interps.length = m.basis.length)
    (hk : m.mask.length = m.basis.length) (hs : ∀ f ∈ m.interps, ∀ x, (f x).IsSymm)
    (R Q : Mat3 ℝ) (σ : Equiv.Perm (Fin N))
    (hQ : R * m.ref.lattice = m.ref.lattice * Q) (hiso : Q * Q.transpose = 1)
    (hperm : PermutedBy σ Q (m.basis.zip (m.interps.zip m.mask)))
    (ph : Phonons N) (hp : ph.refPositions = m.ref.positions) (hne : ph.displacements ≠ [])
    (hlen : ph.wavenumbers.length = ph.displacements.length)
    (hd : ∀ d ∈ ph.displacements, ∀ a i, |d a i| < 500 ∧ |carried σ R d a i| < 500) :
    ∃ s s', ph.getRamanSpectrum m.calcPolarizabilities = .ok s ∧
      Phonons.getRamanSpectrum ⟨ph.refPositions, ph.wavenumbers, ph.displacements.map (carried σ R)⟩
        m.calcPolarizabilities = .ok s' ∧
      ∀ args, (s'.measure args).1 = (s.measure args).1 := by
  have hT := fun (d : Pos N ℝ) (h : d ∈ ph.displacements) =>
    C146_tensor m hi hk R Q σ hQ hiso hperm d (fun a i => (hd d h a i).1) fun a i => (hd d h a i).2
  classical
  let g : Pos N ℝ → Mat3 ℝ := fun d => if h : d ∈ ph.displacements then (hT d h).choose else 0
  have hg : ∀ d ∈ ph.displacements,
      ramanTensor m.calcPolarizabilities ph.refPositions d = .ok (g d) ∧
      ramanTensor m.calcPolarizabilities ph.refPositions (carried σ R d) = .ok (turned Q (g d)) := by
    intro d h
    rw [hp]
    simp only [g, dif_pos h]
    exact (hT d h).choose_spec
  have h1 := spectrum_of_tensors hne hlen fun d h => (hg d h).1
  have h2 : Phonons.getRamanSpectrum
      ⟨ph.refPositions, ph.wavenumbers, ph.displacements.map (carried σ R)⟩ m.calcPolarizabilities
      = .ok ⟨ph.wavenumbers, ph.displacements.map fun d => turned Q (g d)⟩ := by
    unfold Phonons.getRamanSpectrum
    dsimp only
    have : (ph.displacements.map (carried σ R)).mapM
        (ramanTensor m.calcPolarizabilities ph.refPositions)
        = .ok (ph.displacements.map fun d => turned Q (g d)) := by
      rw [mapM_except_ok, List.forall₂_map_right_iff, List.forall₂_map_left_iff, List.forall₂_same]
      exact fun d h => (hg d h).2
    rw [this]
    change (if (ph.displacements.map fun d => turned Q (g d)).isEmpty then _ else _) = _
    rw [if_neg (by simpa using hne)]
    unfold PhononSpectrum.init
    rw [if_neg (by simp [hlen])]
  refine ⟨_, _, h1, h2, fun args => ?_⟩
  have hraw : (ph.displacements.map fun d => turned Q (g d)).map (fun R => some (rawIntensity R))
      = (ph.displacements.map g).map fun R => some (rawIntensity R) := by
    rw [List.map_map, List.map_map]
    refine List.map_congr_left fun d h => ?_
    simp only [Function.comp]
    rw [intensity_turned hiso]
    have := (hg d h).1
    rw [hp] at this
    exact tensor_symm m hi hk hs d (fun a i => (hd d h a i).1) _ this
  unfold PhononSpectrum.measure
  dsimp only
  rw [hraw]
  split_ifs <;> rfl

/-- C146: in the measured spectrum of a crystal with a centre of inversion, every vibration of odd
parity has intensity zero. -/
theorem C146_silent (m : IModel N) (hi : m.interps.length = m.basis.length)
    (hk : m.mask.length = m.basis.length) (σ : Equiv.Perm (Fin N))
    (hperm : PermutedBy σ (-1) (m.basis.zip (m.interps.zip m.mask)))
    (ph : Phonons N) (hp : ph.refPositions = m.ref.positions) (hne : ph.displacements ≠ [])
    (hlen : ph.wavenumbers.length = ph.displacements.length)
    (hd : ∀ d ∈ ph.displacements, ∀ a i, |d a i| < 500) (args : MeasureArgs)
    (ho : args.orientation = polycrystalline) (hl : args.laserCorrection = false)
    (hb : args.boseEinstein = false) :
    ∃ s is, ph.getRamanSpectrum m.calcPolarizabilities = .ok s ∧
      (s.measure args).1 = .ok (ph.wavenumbers, is) ∧
      List.Forall₂ (fun d x => Ungerade σ d → x = some 0) ph.displacements is := by
  have hT := fun (d : Pos N ℝ) (h : d ∈ ph.displacements) => C118_tensor m hi hk d (hd d h)
  rw [← hp] at hT
  have h1 := spectrum_of_tensors hne hlen hT
  refine ⟨_, _, h1, measure_plain _ args ho hl hb, ?_⟩
  rw [List.forall₂_map_right_iff, List.forall₂_map_right_iff, List.forall₂_same]
  intro d h hu
  have h2 := C146_mutual_exclusion m hi hk σ hperm d (hd d h) hu
  rw [C118_tensor m hi hk d (hd d h)] at h2
  rw [Except.ok.inj h2]
  simp [rawIntensity, alphaSquared, gammaSquared]

/-- C146, end to end: a model built by one `add_dof` call under the assumptions of `C120_equivariant`
in a crystal with a centre of inversion gives no Raman tensor to vibrations of odd parity. -/
theorem C146_add_dof (spglib : Mat3 ℝ → Pos N ℝ → (Fin N → ℕ) → Option SymDict)
    (nums : Fin N → ℕ) (lat : Mat3 ℝ) (p : Pos N ℝ) (s : RefStructure N)
    (hs : RefStructure.init spglib nums lat p = .ok s) (hN : N ≤ 10 ^ 8)
    (hsep : ∀ j k, j ≠ k → Apart (2 / 10 ^ 5) (p j) (p k))
    (hsym : ∀ op ∈ s.ops, ∃ σ, IsSymmetry p op.rot op.trans σ)
    (hiso : ∀ op ∈ s.ops, op.rot * op.rot.transpose = 1)
    (hlat : ∀ op ∈ s.ops, op.rot * lat = lat * op.rot)
    (hmul : ∀ x ∈ s.ops, ∀ y ∈ s.ops, ∃ z ∈ s.ops,
      Composite x.rot x.trans y.rot y.trans z.rot z.trans)
    (hdiv : ∀ z ∈ s.ops, ∀ y ∈ s.ops, ∃ x ∈ s.ops,
      Composite x.rot x.trans y.rot y.trans z.rot z.trans)
    (spline : SplineFn) (hsp : SplineEquivariant spline) (we : Bool) (pol : Mat3 ℝ)
    (hpol : ∀ op ∈ s.ops, turned op.rot pol = pol)
    (cart w : Pos N ℝ) (hw : s.getFracDisplacement cart = .ok w) (hw0 : w ≠ 0)
    (hclean : ∀ x ∈ s.ops, ∀ y ∈ s.ops, ∀ σ τ, IsSymmetry p x.rot x.trans σ →
      IsSymmetry p y.rot y.trans τ →
      (∃ κ : ℝ, (κ = 1 ∨ κ = -1) ∧ carried σ x.rot w = fun a i => κ * carried τ y.rot w a i) ∨
      inner3 (carried σ x.rot w) (carried τ y.rot w) = 0)
    (amps : List ℝ) (pols : List (Mat3 ℝ)) (order : ℤ) (inc : Bool)
    (hdata : ∀ x ∈ s.ops, ∀ y ∈ s.ops, ∀ σ τ, IsSymmetry p x.rot x.trans σ →
      IsSymmetry p y.rot y.trans τ → carried σ x.rot w = carried τ y.rot w →
      ∀ A ∈ pols, turned x.rot A = turned y.rot A)
    (o : Outcome N) (ho : o = (IModel.init s pol false).addDof spline we cart amps pols order inc)
    (hok : o.result = .ok ())
    (t : Fin 3 → ℝ) (hop : (⟨-1, t⟩ : SymOp) ∈ s.ops) (σ : Equiv.Perm (Fin N))
    (hσ : IsSymmetry p (-1) t σ) (d : Pos N ℝ) (hd : ∀ a i, |d a i| < 500) (hu : Ungerade σ d) :
    ramanTensor o.state.calcPolarizabilities p d = .ok 0 := by
  obtain ⟨g1, g2, _, g4, g5, g6⟩ := C120_add_dof spglib nums lat p s hs hN hsep hsym hiso hlat hmul
    hdiv spline hsp we (IModel.init s pol false) rfl rfl rfl rfl hpol cart w hw hw0 hclean amps pols
    order inc hdata o ho hok _ hop σ hσ ⟨[], by simp [IModel.init], by simp [IModel.init]⟩
  have h := C146_mutual_exclusion o.state g4 g5 σ g6 d hd hu
  rw [g1, (init_facts hs).1] at h
  exact h

/-! ### Concrete cases -/

/-- Adding the displacement along `x` in the crystal with an inversion centre. -/
theorem inv_add (nums : Fin 1 → ℕ) (pol A : Mat3 ℝ) : ∃ s o,
    RefStructure.init invSpglib nums 1 (fun _ _ => 0) = .ok s ∧ s.lattice = 1 ∧
    s.ops = [⟨1, 0⟩, ⟨-1, 0⟩] ∧
    o = (IModel.init s pol false).addDof lookupSpline true (one1 mirV) [-(3 / 50)] [A] 2 true ∧
    o.result = .ok () ∧ o.state.basis = [one1 mirX] := by
  obtain ⟨s, hs, hlat, hops, hgr⟩ := inv_groups nums
  have n1 := mir_norms.2.2.1
  have b1 := mir_box.2.2.1
  have hne : one1 mirV ≠ 0 := fun h => one1_ne (vec_ne_zero n1) (by rw [h]; rfl)
  have ho : orthCheck (IModel.init s pol false) (some (one1 mirV)) = -1 :=
    plain_orth s hlat _ rfl _ mirV' n1 mir_norms.2.2.2 b1
      (by norm_num [mirV, mirV', vec_two]) (Or.inl rfl)
  obtain ⟨g, hg, -, -⟩ := build_sym (3 / 50) (by norm_num) (by norm_num) 0
    ((1 : Mat3 ℝ)⁻¹ * (A - pol) * (1 : Mat3 ℝ)) ((-1 : Mat3 ℝ)⁻¹ * (A - pol) * (-1 : Mat3 ℝ))
  have hm := multiplier_smul (one1 mirV) hne (-1) (by norm_num)
  have he : (fun a i => -1 * one1 mirV a i) = one1 fun i => -mirV i := by
    funext a i
    simp [one1]
  rw [he] at hm
  have d1 := dofGroup_eq (IModel.init s pol false) [-(3 / 50)] [A] true
    ⟨[one1 mirV, one1 fun i => -mirV i], [⟨1, 0⟩, ⟨-1, 0⟩]⟩ (one1 mirV) [one1 fun i => -mirV i] rfl
    (by simp [Matrix.det_neg])
  have hr : (IModel.init s pol false).ref = s := rfl
  have hp : (IModel.init s pol false).refPol = pol := rfl
  simp only [List.zip_cons_cons, List.zip_nil_left, List.flatMap_cons, List.flatMap_nil,
    List.append_nil, multiplier_self _ hne, hm, hr, hp,
    mir_normalize s hlat mirV n1 b1,
    List.map_cons, List.map_nil, imagePoint, refPoint, Option.map_some, one_mul, if_true,
    List.singleton_append] at d1
  have hadd : (IModel.init s pol false).addDof lookupSpline true (one1 mirV) [-(3 / 50)] [A] 2 true
      = ⟨.ok (), [], { IModel.init s pol false with
          basis := [one1 mirX], interps := [g], mask := [false] }⟩ := by
    unfold IModel.addDof IModel.addDofNan
    have hu : usedPols (IModel.init s pol false) [-(3 / 50)] [A] = [A] := rfl
    rw [prepareDof_eq _ _ _ _ _ _ (mir_parent (IModel.init s pol false) hlat mirV n1 b1)
      (by rw [hu]; rfl), getDof_eq _ _ _ _ _ _ ho hgr, hu, List.mapM_cons, d1]
    change constructAndAdd _ _ _ [_] _ = _
    unfold constructAndAdd
    rw [if_neg (by norm_num)]
    have h2 : (2 : ℤ).toNat = 2 := rfl
    simp only [buildAll, h2, one_mul, mul_one, inv_one] at hg ⊢
    norm_num at hg ⊢
    simp only [hg]
    rfl
  exact ⟨s, _, hs, hlat, hops, rfl, by rw [hadd], by rw [hadd]⟩

/-- C146, concrete, end to end: one atom at an inversion centre, one measurement `A` at amplitude
-0.06 along `x`.  No vibration is visible. -/
example (nums : Fin 1 → ℕ) (pol A : Mat3 ℝ) (d : Pos 1 ℝ) (hd : ∀ a i, |d a i| < 500) : ∃ s o,
    RefStructure.init invSpglib nums 1 (fun _ _ => 0) = .ok s ∧
    o = (IModel.init s pol false).addDof lookupSpline true (one1 mirV) [-(3 / 50)] [A] 2 true ∧
    o.result = .ok () ∧ o.state.basis = [one1 mirX] ∧
    ramanTensor o.state.calcPolarizabilities (fun _ _ => 0) d = .ok 0 := by
  obtain ⟨s, o, hs, hlat, hops, ho, hok, hb⟩ := inv_add nums pol A
  refine ⟨s, o, hs, ho, hok, hb, ?_⟩
  have n1 := mir_norms.2.2.1
  have b1 := mir_box.2.2.1
  have hor : ∀ op ∈ s.ops, op = ⟨1, 0⟩ ∨ op = ⟨-1, 0⟩ := by
    intro op hop
    rw [hops] at hop
    simpa using hop
  have hin1 : (⟨1, 0⟩ : SymOp) ∈ s.ops := by rw [hops]; simp
  have hin2 : (⟨-1, 0⟩ : SymOp) ∈ s.ops := by rw [hops]; simp
  have hcomp : ∀ A B : Mat3 ℝ, Composite A 0 B 0 (A * B) 0 := fun A B =>
    ⟨rfl, fun j => ⟨0, by simp⟩⟩
  have i1 : ∀ σ : Equiv.Perm (Fin 1), carried σ 1 (one1 mirV) = one1 mirV := fun σ => by
    rw [carried_one1]
    congr 1
    funext j
    simp [Matrix.one_apply]
  have i2 : ∀ σ : Equiv.Perm (Fin 1), carried σ (-1) (one1 mirV) = one1 fun i => -mirV i := fun σ => by
    rw [carried_one1]
    congr 1
    funext j
    simp [Matrix.one_apply]
  have htr : ∀ op ∈ s.ops, ∀ A : Mat3 ℝ, turned op.rot A = A := by
    intro op hop A
    rcases hor op hop with rfl | rfl <;> simp [turned]
  refine C146_add_dof invSpglib nums 1 (fun _ _ => 0) s hs (by norm_num) (one_apart _) ?_ ?_
    (fun op _ => by simp) ?_ ?_ lookupSpline lookupSpline_equivariant true pol
    (fun op hop => htr op hop pol) (one1 mirV) (one1 mirV) (mir_frac s hlat mirV b1)
    (fun h => one1_ne (vec_ne_zero n1) (by rw [h]; rfl)) ?_ _ _ 2 true ?_ o ho hok 0 hin2
    (Equiv.refl _) (one_sym _ integer_one.2) d hd fun _ _ => rfl
  · intro op hop
    rcases hor op hop with rfl | rfl
    · exact ⟨_, one_sym _ integer_one.1⟩
    · exact ⟨_, one_sym _ integer_one.2⟩
  · intro op hop
    rcases hor op hop with rfl | rfl <;> simp
  · intro x hx y hy
    rcases hor x hx with rfl | rfl <;> rcases hor y hy with rfl | rfl
    · exact ⟨_, hin1, by simpa using hcomp 1 1⟩
    · exact ⟨_, hin2, by simpa using hcomp 1 (-1)⟩
    · exact ⟨_, hin2, by simpa using hcomp (-1) 1⟩
    · exact ⟨_, hin1, by simpa using hcomp (-1) (-1)⟩
  · intro x hx y hy
    rcases hor x hx with rfl | rfl <;> rcases hor y hy with rfl | rfl
    · exact ⟨_, hin1, by simpa using hcomp 1 1⟩
    · exact ⟨_, hin2, by simpa using hcomp (-1) (-1)⟩
    · exact ⟨_, hin2, by simpa using hcomp (-1) 1⟩
    · exact ⟨_, hin1, by simpa using hcomp 1 (-1)⟩
  · intro x hx y hy σ τ _ _
    left
    rcases hor x hx with rfl | rfl <;> rcases hor y hy with rfl | rfl <;> dsimp only <;>
      simp only [i1, i2]
    · exact ⟨1, Or.inl rfl, by funext a i; ring⟩
    · exact ⟨-1, Or.inr rfl, by funext a i; simp [one1]⟩
    · exact ⟨-1, Or.inr rfl, by funext a i; simp [one1]⟩
    · exact ⟨1, Or.inl rfl, by funext a i; ring⟩
  · intro x hx y hy σ τ _ _ _ B _
    rw [htr x hx, htr y hy]

/-- A model of a molecule of two equal atoms along `z` in a cubic box, the bond length being the only
degree of freedom. -/
noncomputable def bondModel (f : ℝ → Mat3 ℝ) : IModel 2 :=
  ⟨⟨fun _ => 8, 1, ![![0, 0, 2 / 5], ![0, 0, 3 / 5]], [⟨1, 0⟩, ⟨-1, 0⟩], [], []⟩, 1, false,
    [![![0, 0, -1], ![0, 0, 1]]], [f], [false]⟩

theorem bond_permuted (f : ℝ → Mat3 ℝ) (Q : Mat3 ℝ) (hQ : ∀ j, Q 2 j = if j = 2 then -1 else 0)
    (hf : ∀ t, turned Q (f t) = f t) :
    PermutedBy (Equiv.swap 0 1) Q ((bondModel f).basis.zip ((bondModel f).interps.zip
      (bondModel f).mask)) := by
  refine ⟨_, List.Perm.refl _, ?_⟩
  refine List.Forall₂.cons ⟨1, ?_, fun t => ?_, rfl⟩ List.Forall₂.nil
  · intro a j
    dsimp only
    fin_cases a <;> fin_cases j <;> simp [carried, Fin.sum_univ_three, hQ, vec_two]
  · rw [one_mul]; exact (hf t).symm

/-- C146, concrete: whatever the response of the bond is, translations of the molecule are silent, and
the stretching vibration is not if the response is linear. -/
example (f : ℝ → Mat3 ℝ) (B : Mat3 ℝ) (x : Fin 3 → ℝ) (hx : ∀ i, |x i| < 500) :
    ramanTensor (bondModel f).calcPolarizabilities (bondModel f).ref.positions (fun _ => x) = .ok 0 ∧
    ramanTensor (bondModel fun t => t • B).calcPolarizabilities (bondModel f).ref.positions
      ![![0, 0, -1], ![0, 0, 1]] = .ok ((4 : ℝ) • B) := by
  constructor
  · exact C146_acoustic (bondModel f) rfl rfl (Equiv.swap 0 1)
      (bond_permuted f (-1) (fun j => by fin_cases j <;> simp [Matrix.one_apply])
        fun t => by simp [turned]) _ (fun _ i => hx i) fun _ _ _ => rfl
  · have := C118_tensor (bondModel fun t => t • B) rfl rfl ![![0, 0, -1], ![0, 0, 1]]
      (fun a i => by fin_cases a <;> fin_cases i <;> simp)
    refine this.trans ?_
    congr 1
    simp only [bondModel, List.zip_cons_cons, List.zip_nil_left, List.map_cons, List.map_nil,
      List.sum_cons, List.sum_nil, add_zero, Bool.false_eq_true, if_false]
    have hin : inner3 ![![0, 0, -1], ![0, 0, 1]]
        (toCart 1 (![![0, 0, -1], ![0, 0, 1]] : Pos 2 ℝ)) = 2 := by
      simp [inner3, toCart, Fin.sum_univ_three, Fin.sum_univ_two, Matrix.one_apply, vec_two]
      norm_num
    rw [hin, ← sub_smul, smul_smul]
    congr 1
    norm_num

/-- C146, concrete: the mirror perpendicular to the bond.  The stretching vibration is even, so its
tensor has no `xz` and `yz` entries. -/
example (g : ℝ → ℝ) : ∃ T, ramanTensor (bondModel fun t => Matrix.diagonal fun _ => g t).calcPolarizabilities
      (bondModel fun t => Matrix.diagonal fun _ => g t).ref.positions ![![0, 0, -1], ![0, 0, 1]] = .ok T ∧
    T 0 2 = 0 ∧ T 1 2 = 0 := by
  obtain ⟨T, h1, h2⟩ := C146_axes (bondModel fun t => Matrix.diagonal fun _ => g t) rfl rfl
    (Matrix.diagonal ![1, 1, -1]) ![1, 1, -1] (Equiv.swap 0 1)
    (fun i => by fin_cases i <;> simp) (by simp [bondModel])
    (bond_permuted _ _ (fun j => by fin_cases j <;> simp) fun t => by
      unfold turned
      rw [Matrix.diagonal_transpose, Matrix.diagonal_mul_diagonal, Matrix.diagonal_mul_diagonal]
      congr 1
      funext i
      fin_cases i <;> simp)
    ![![0, 0, -1], ![0, 0, 1]] (fun a i => by fin_cases a <;> fin_cases i <;> simp) 1 (Or.inl rfl) (by
      funext a j
      fin_cases a <;> fin_cases j <;> simp [carried, Fin.sum_univ_three])
  exact ⟨T, h1, h2 0 2 (by simp; norm_num), h2 1 2 (by simp; norm_num)⟩

end Verif
