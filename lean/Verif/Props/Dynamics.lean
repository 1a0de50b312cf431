import Verif.Proofs.Slice
import Verif.Proofs.Pbc
import Verif.Proofs.Index
import Verif.Proofs.Spectrum

/-!
# Properties C46-C48: phonons and trajectories (`dynamics/`)
-/

namespace Verif
open Spec

variable {N : ℕ}

/-! ## C46 -/

/-- The model that adds a constant tensor to another one. -/
def addOffset (M : PolModel N) (A0 : Mat3 ℝ) : PolModel N := fun batch =>
  (M batch).map fun l => l.map (· + A0)

theorem evalOne_addOffset (M : PolModel N) (A0 : Mat3 ℝ) (p : Pos N ℝ) :
    evalOne (addOffset M A0) p = (evalOne M p).map (· + A0) := by
  unfold evalOne addOffset
  cases h : M [p] with
  | error e => rfl
  | ok l => cases l <;> rfl

theorem asIncompatible_id {α : Type} (r : Py α) : asIncompatible r = r := by
  unfold asIncompatible
  cases r with
  | ok a => rfl
  | error e => cases e <;> rfl

/-- C46, first part: a constant offset of the polarizability model has no effect on the phonon
Raman spectrum, exceptions included. -/
theorem C46_offset (ph : Phonons N) (M : PolModel N) (A0 : Mat3 ℝ) :
    ph.getRamanSpectrum (addOffset M A0) = ph.getRamanSpectrum M := by
  have h : ∀ d, ramanTensor (addOffset M A0) ph.refPositions d
      = ramanTensor M ph.refPositions d := by
    intro d
    unfold ramanTensor
    simp only [asIncompatible_id, evalOne_addOffset]
    cases evalOne M (fun a i => ph.refPositions a i + d a i * centralDifference) with
    | error e => rfl
    | ok A =>
      cases evalOne M (fun a i => ph.refPositions a i - d a i * centralDifference) with
      | error e => rfl
      | ok B =>
        change Except.ok ((1 / centralDifference) • ((A + A0) - (B + A0))) = Except.ok _
        rw [add_sub_add_right_eq_sub]
  unfold Phonons.getRamanSpectrum
  rw [show ramanTensor (addOffset M A0) ph.refPositions = ramanTensor M ph.refPositions from
    funext h]

theorem ramanTensor_ok {M : PolModel N} {ref d : Pos N ℝ} {R : Mat3 ℝ}
    (h : ramanTensor M ref d = .ok R) : ∃ A B,
      evalOne M (fun a i => ref a i + d a i * centralDifference) = .ok A ∧
      evalOne M (fun a i => ref a i - d a i * centralDifference) = .ok B ∧
      R = (1 / centralDifference) • (A - B) := by
  unfold ramanTensor at h
  simp only [asIncompatible_id] at h
  cases hA : evalOne M (fun a i => ref a i + d a i * centralDifference) with
  | error e => rw [hA] at h; cases h
  | ok A =>
    rw [hA] at h
    cases hB : evalOne M (fun a i => ref a i - d a i * centralDifference) with
    | error e =>
      change (evalOne M (fun a i => ref a i - d a i * centralDifference) >>= _) = _ at h
      rw [hB] at h; cases h
    | ok B =>
      change (evalOne M (fun a i => ref a i - d a i * centralDifference) >>= _) = _ at h
      rw [hB] at h
      exact ⟨A, B, rfl, rfl, (Except.ok.inj h).symm⟩

theorem ramanTensor_of_ok {M : PolModel N} {ref d : Pos N ℝ} {A B : Mat3 ℝ}
    (hA : evalOne M (fun a i => ref a i + d a i * centralDifference) = .ok A)
    (hB : evalOne M (fun a i => ref a i - d a i * centralDifference) = .ok B) :
    ramanTensor M ref d = .ok ((1 / centralDifference) • (A - B)) := by
  unfold ramanTensor
  simp only [asIncompatible_id]
  rw [hA]
  change (evalOne M (fun a i => ref a i - d a i * centralDifference) >>= _) = _
  rw [hB]; rfl

/-- C46, second part: reversing a displacement reverses its Raman tensor. -/
theorem C46_tensor_sign (M : PolModel N) (ref d : Pos N ℝ) (R : Mat3 ℝ)
    (h : ramanTensor M ref d = .ok R) : ramanTensor M ref (-d) = .ok (-R) := by
  obtain ⟨A, B, hA, hB, rfl⟩ := ramanTensor_ok h
  have e1 : (fun a i => ref a i + (-d) a i * centralDifference)
      = fun a i => ref a i - d a i * centralDifference := by
    funext a i; simp only [Pi.neg_apply]; ring
  have e2 : (fun a i => ref a i - (-d) a i * centralDifference)
      = fun a i => ref a i + d a i * centralDifference := by
    funext a i; simp only [Pi.neg_apply]; ring
  rw [ramanTensor_of_ok (d := -d) (e1 ▸ hB) (e2 ▸ hA), ← smul_neg, neg_sub]

theorem rawIntensity_neg (R : Mat3 ℝ) : rawIntensity (-R) = rawIntensity R := by
  unfold rawIntensity alphaSquared gammaSquared
  simp only [Matrix.neg_apply]; ring

/-- C46, second part for whole spectra: with any of the displacements reversed the
spectrum is still computed, its tensors agree up to sign and every measurement is the same. -/
theorem C46_spectrum_sign (M : PolModel N) (ph ph' : Phonons N) (s : PhononSpectrum)
    (href : ph'.refPositions = ph.refPositions) (hw : ph'.wavenumbers = ph.wavenumbers)
    (hd : List.Forall₂ (fun d d' => d' = d ∨ d' = -d) ph.displacements ph'.displacements)
    (h : ph.getRamanSpectrum M = .ok s) :
    ∃ s', ph'.getRamanSpectrum M = .ok s' ∧
      List.Forall₂ (fun R R' => R' = R ∨ R' = -R) s.tensors s'.tensors ∧
      ∀ args, (s'.measure args).1 = (s.measure args).1 := by
  unfold Phonons.getRamanSpectrum at h
  cases hm : ph.displacements.mapM (ramanTensor M ph.refPositions) with
  | error e => rw [hm] at h; cases h
  | ok ts =>
    rw [hm] at h
    change (if ts.isEmpty then _ else _) = _ at h
    split_ifs at h with he
    unfold PhononSpectrum.init at h
    split_ifs at h with hl
    obtain rfl := Except.ok.inj h
    -- tensors of the other phonons
    have hf := (mapM_except_ok _ _ _).1 hm
    obtain ⟨ts', hts', hrel⟩ : ∃ ts', ph'.displacements.mapM (ramanTensor M ph.refPositions) = .ok ts'
        ∧ List.Forall₂ (fun R R' => R' = R ∨ R' = -R) ts ts' := by
      clear h he hl hm
      generalize ph.displacements = ds at hd hf
      generalize ph'.displacements = ds' at hd
      induction hd generalizing ts with
      | nil => cases hf; exact ⟨[], rfl, List.Forall₂.nil⟩
      | @cons d d' ds ds' hdd' _ ih =>
        cases hf with
        | @cons _ R _ rs hR hrs =>
          obtain ⟨rs', hrs', hrel⟩ := ih _ hrs
          obtain ⟨R', hR', hs⟩ : ∃ R', ramanTensor M ph.refPositions d' = .ok R' ∧ (R' = R ∨ R' = -R) := by
            rcases hdd' with rfl | rfl
            · exact ⟨R, hR, Or.inl rfl⟩
            · exact ⟨-R, C46_tensor_sign M _ d R hR, Or.inr rfl⟩
          refine ⟨R' :: rs', ?_, List.Forall₂.cons hs hrel⟩
          rw [mapM_except_ok]
          exact List.Forall₂.cons hR' ((mapM_except_ok _ _ _).1 hrs')
    have hlen := hrel.length_eq
    refine ⟨⟨ph.wavenumbers, ts'⟩, ?_, hrel, ?_⟩
    · unfold Phonons.getRamanSpectrum
      rw [href, hts']
      change (if ts'.isEmpty then _ else _) = _
      rw [if_neg (by cases ts' <;> simp_all)]
      unfold PhononSpectrum.init
      rw [hw, if_neg (by rw [← hlen]; exact hl)]
    · intro args
      have hraw : ts'.map (fun R => some (rawIntensity R)) = ts.map fun R => some (rawIntensity R) := by
        clear hts' hlen h he hl hm hf
        induction hrel with
        | nil => rfl
        | cons hs _ ih =>
          rw [List.map_cons, List.map_cons, ih]
          rcases hs with rfl | rfl
          · rfl
          · rw [rawIntensity_neg]
      unfold PhononSpectrum.measure
      dsimp only
      rw [hraw]
      split_ifs <;> rfl

/-- A model evaluating configurations one at a time. -/
def pointwise (α : Pos N ℝ → Mat3 ℝ) : PolModel N := fun batch => .ok (batch.map α)

/-- C46, third part: when the polarizability along the displacement is a polynomial of
degree at most two, `α(ref + t d) = A + t B + t² C`, the Raman tensor is exactly `2 B`. -/
theorem C46_quadratic (α : Pos N ℝ → Mat3 ℝ) (ref d : Pos N ℝ) (A B C : Mat3 ℝ)
    (h : ∀ t : ℝ, α (ref + t • d) = A + t • B + t ^ 2 • C) :
    ramanTensor (pointwise α) ref d = .ok (2 • B) := by
  have e1 : evalOne (pointwise α) (fun a i => ref a i + d a i * centralDifference)
      = .ok (A + centralDifference • B + centralDifference ^ 2 • C) := by
    rw [← h centralDifference]
    have : (fun a i => ref a i + d a i * centralDifference) = ref + centralDifference • d := by
      funext a i; simp [mul_comm]
    rw [this]; rfl
  have e2 : evalOne (pointwise α) (fun a i => ref a i - d a i * centralDifference)
      = .ok (A + (-centralDifference) • B + (-centralDifference) ^ 2 • C) := by
    rw [← h (-centralDifference)]
    have : (fun a i => ref a i - d a i * centralDifference) = ref + (-centralDifference) • d := by
      funext a i; simp [mul_comm, sub_eq_add_neg]
    rw [this]; rfl
  rw [ramanTensor_of_ok e1 e2]
  congr 1
  ext i j
  simp only [Matrix.smul_apply, Matrix.sub_apply, Matrix.add_apply, smul_eq_mul, centralDifference]
  norm_num
  ring

/-- C46, third part: for a model affine in the displacement from the reference, with linear
part `L`, the Raman tensor of `d` is twice the directional derivative `L d`. -/
theorem C46_affine (A0 : Mat3 ℝ) (L : Pos N ℝ →ₗ[ℝ] Mat3 ℝ) (ref d : Pos N ℝ) :
    ramanTensor (pointwise fun p => A0 + L (p - ref)) ref d = .ok (2 • L d) := by
  refine C46_quadratic _ ref d A0 (L d) 0 fun t => ?_
  simp

/-- The spectrum of phonons in an affine model: the tensors are twice the directional
derivatives, in the order of the phonons. -/
theorem C46_affine_spectrum (A0 : Mat3 ℝ) (L : Pos N ℝ →ₗ[ℝ] Mat3 ℝ) (ph : Phonons N)
    (hne : ph.displacements ≠ []) (hlen : ph.displacements.length = ph.wavenumbers.length) :
    ∃ s, ph.getRamanSpectrum (pointwise fun p => A0 + L (p - ph.refPositions)) = .ok s ∧
      s.wavenumbers = ph.wavenumbers ∧ s.tensors = ph.displacements.map fun d => 2 • L d := by
  refine ⟨⟨ph.wavenumbers, ph.displacements.map fun d => 2 • L d⟩, ?_, rfl, rfl⟩
  unfold Phonons.getRamanSpectrum
  have : ph.displacements.mapM (ramanTensor (pointwise fun p => A0 + L (p - ph.refPositions))
      ph.refPositions) = .ok (ph.displacements.map fun d => 2 • L d) := by
    rw [mapM_except_ok, List.forall₂_map_right_iff, List.forall₂_same]
    exact fun d _ => C46_affine A0 L _ d
  rw [this]
  change (if (ph.displacements.map fun d => 2 • L d).isEmpty then _ else _) = _
  rw [if_neg (by simpa using hne)]
  unfold PhononSpectrum.init
  rw [if_neg (by simpa using hlen)]

/-- C46, edge case: without phonons there is no spectrum but a `ValueError`. -/
theorem C46_no_phonons (ph : Phonons N) (M : PolModel N) (h : ph.displacements = []) :
    ph.getRamanSpectrum M = .error .valueError := by
  unfold Phonons.getRamanSpectrum
  rw [h]; rfl

/-- C46, concrete case: one atom, polarizability equal to the squared and the plain `x`
coordinate; displacement along `x`; the tensor at `x = 3` is `2·6` and `2·1`. -/
example : ramanTensor (N := 1)
    (pointwise fun p => Matrix.of fun i j => if i = j then p 0 0 ^ 2 else p 0 0)
    (fun _ => ![3, 0, 0]) (fun _ => ![1, 0, 0])
    = .ok (2 • Matrix.of fun i j : Fin 3 => if i = j then (6 : ℝ) else 1) := by
  refine C46_quadratic _ _ _ (Matrix.of fun i j => if i = j then 9 else 3) _
    (Matrix.of fun i j => if i = j then 1 else 0) fun t => ?_
  ext i j
  simp only [Matrix.add_apply, Matrix.smul_apply, Matrix.of_apply, Pi.add_apply, Pi.smul_apply,
    Matrix.cons_val_zero, smul_eq_mul]
  split_ifs <;> ring

/-! ## C47 -/

/-- C47: construction succeeds exactly for positive timesteps and otherwise raises
`ValueError`; the number of configurations is kept, all coordinates are in the cell and are
images of the given ones. -/
theorem C47_trajectory (ps : List (Pos N ℝ)) (dt : ℝ) :
    (dt ≤ 0 → Trajectory.init ps dt = .error .valueError) ∧
    (0 < dt → ∃ t, Trajectory.init ps dt = .ok t) ∧
    ∀ t, Trajectory.init ps dt = .ok t → 0 < t.timestep ∧ t.timestep = dt ∧
      t.len = ps.length ∧
      List.Forall₂ (fun p q => ∀ a i, InCell (q a i) ∧ SameImage (p a i) (q a i)) ps t.positionsTs := by
  refine ⟨fun h => ?_, fun h => ?_, fun t ht => ?_⟩
  · unfold Trajectory.init; rw [if_pos h]
  · exact ⟨_, by unfold Trajectory.init; rw [if_neg (not_le.2 h)]⟩
  · unfold Trajectory.init at ht
    split_ifs at ht with h
    obtain rfl := Except.ok.inj ht
    refine ⟨not_le.1 h, rfl, by simp [Trajectory.len], ?_⟩
    rw [List.forall₂_map_right_iff, List.forall₂_same]
    exact fun p _ a i => ⟨pbc1_inCell _, pbc1_sameImage _⟩

/-- C47: shifting coordinates of the input by integers does not change the trajectory. -/
theorem C47_shift_invariant (ps qs : List (Pos N ℝ)) (dt : ℝ)
    (h : List.Forall₂ (fun p q => ∀ a i, SameImage (p a i) (q a i)) ps qs) :
    Trajectory.init qs dt = Trajectory.init ps dt := by
  unfold Trajectory.init
  have : qs.map applyPbc = ps.map applyPbc := by
    induction h with
    | nil => rfl
    | cons hd _ ih =>
      rw [List.map_cons, List.map_cons, ih]
      congr 1
      funext a i
      exact (pbc1_unique ((hd a i).trans (pbc1_sameImage _)) (pbc1_inCell _))
  rw [this]

/-- C47, concrete case: a two-step trajectory of one atom crossing the cell boundary. -/
example : ∃ t, Trajectory.init (N := 1) [fun _ => ![0.9, 0, 0], fun _ => ![1.1, 0, -0.1]] 0.5 = .ok t ∧
    t.len = 2 ∧ 0 < t.timestep := by
  obtain ⟨t, ht⟩ := (C47_trajectory (N := 1) [fun _ => ![0.9, 0, 0], fun _ => ![1.1, 0, -0.1]] 0.5).2.1
    (by norm_num)
  have := (C47_trajectory _ _).2.2 t ht
  exact ⟨t, ht, this.2.2.1, this.1⟩

/-! ## C48 -/

/-- C48, integers: `t[i]` is configuration `k` if `i` addresses `k` (directly or from the end)
and raises `IndexError` if it addresses none. -/
theorem C48_index (t : Trajectory N) (i : ℤ) :
    (∀ k : Fin t.len, Addresses t.len i k → t.getItem i = .ok (t.positionsTs[k])) ∧
    ((i < -(t.len : ℤ) ∨ (t.len : ℤ) ≤ i) → t.getItem i = .error .indexError) := by
  constructor
  · intro k hk
    unfold Trajectory.getItem
    have := (pyIndex_some_iff _ _ _).2 hk
    unfold Trajectory.len at this
    rw [this]
    rfl
  · intro h
    unfold Trajectory.getItem
    have := (pyIndex_none_iff _ _).2 h
    unfold Trajectory.len at this
    rw [this]

/-- A zero step is refused. -/
theorem C48_zero_step (t : Trajectory N) (start stop : Option ℤ) :
    t.getSlice ⟨start, stop, some 0⟩ = .error .valueError := rfl

/-- C48, slices: for a non-zero step (omitted means 1) the slice succeeds and consists of the
configurations at a list `l` of indexes, which are exactly those selected by the rule for
slices, in increasing order for positive and decreasing order for negative steps. -/
theorem C48_slice (t : Trajectory N) (start stop step : Option ℤ) (hs : step.getD 1 ≠ 0) :
    ∃ (l : List ℤ) (r : List (Pos N ℝ)), t.getSlice ⟨start, stop, step⟩ = .ok r ∧
      (∀ i, i ∈ l ↔ Selects t.len start stop (step.getD 1) i) ∧
      (0 < step.getD 1 → l.Pairwise (· < ·)) ∧ (step.getD 1 < 0 → l.Pairwise (· > ·)) ∧
      r.length = l.length ∧ List.Forall₂ (fun i p => t.getItem i = .ok p) l r := by
  obtain ⟨l, hl, hmem, hp, hn⟩ := selected_spec ⟨start, stop, step⟩ t.len hs
  have hall : ∀ i ∈ l, ∃ p, t.getItem i = .ok p := by
    intro i hi
    obtain ⟨h0, hlt, -⟩ := (hmem i).1 hi
    have hk : i.toNat < t.len := by omega
    exact ⟨_, (C48_index t i).1 ⟨i.toNat, hk⟩ (Or.inl (by simp; omega))⟩
  obtain ⟨r, hr⟩ : ∃ r, List.Forall₂ (fun i p => t.getItem i = .ok p) l r := by
    clear hl hmem hp hn
    induction l with
    | nil => exact ⟨[], List.Forall₂.nil⟩
    | cons a l ih =>
      obtain ⟨r, hr⟩ := ih fun i hi => hall i (List.mem_cons_of_mem _ hi)
      obtain ⟨p, hp⟩ := hall a List.mem_cons_self
      exact ⟨p :: r, List.Forall₂.cons hp hr⟩
  refine ⟨l, r, ?_, hmem, hp, hn, hr.length_eq.symm, hr⟩
  unfold Trajectory.getSlice
  unfold Trajectory.len at hl
  rw [hl]
  exact (mapM_except_ok _ _ _).2 hr

/-- C48, concrete cases: `t[-1]`, `t[1:]`, `t[::-1]` of a trajectory of three configurations
of one atom. -/
example (p q r : Pos 1 ℝ) :
    Trajectory.getItem ⟨[p, q, r], 1⟩ (-1) = .ok r ∧
    Trajectory.getItem ⟨[p, q, r], 1⟩ 3 = .error .indexError ∧
    Trajectory.getSlice ⟨[p, q, r], 1⟩ ⟨some 1, none, none⟩ = .ok [q, r] ∧
    Trajectory.getSlice ⟨[p, q, r], 1⟩ ⟨none, none, some (-1)⟩ = .ok [r, q, p] := by
  refine ⟨rfl, rfl, ?_, ?_⟩
  · unfold Trajectory.getSlice
    have h : PySlice.selected ⟨some 1, none, none⟩ 3 = .ok [1, 2] := by rfl
    change (PySlice.selected ⟨some 1, none, none⟩ 3 >>= _) = _
    rw [h]
    rfl
  · unfold Trajectory.getSlice
    have h : PySlice.selected ⟨none, none, some (-1)⟩ 3 = .ok [2, 1, 0] := by rfl
    change (PySlice.selected ⟨none, none, some (-1)⟩ 3 >>= _) = _
    rw [h]
    rfl

end Verif
