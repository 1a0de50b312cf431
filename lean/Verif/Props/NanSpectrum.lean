import Verif.Proofs.NanSpectrum
import Verif.Props.GnnModel

/-!
# Property C178: spectra of predictions that are NaN
(`dynamics/_phonon.py` L82-108, `dynamics/_trajectory.py` L71-90, `spectrum/_raman.py` L122-194 and
L241-309, `pmodel/torch/_gnn.py` L667-721)
-/

namespace Verif

open Spec

noncomputable section

variable {dn de n : ℕ}

/-! ## Corrections -/

theorem mulInPlace_none (w : List ℝ) (f : ℝ → Option ℝ) :
    mulInPlace (w.map fun _ => none) (w.map f) = w.map fun _ => none := by
  unfold mulInPlace
  induction w with
  | nil => rfl
  | cons x w ih =>
    rw [List.map_cons, List.map_cons, List.zipWith_cons_cons, ih]
    rfl

theorem applyLaser_none (args : MeasureArgs) (w : List ℝ) (I : List (Option ℝ)) :
    applyLaser args w (w.map fun _ => none) = (applyLaser args w I).map fun _ => w.map fun _ => none := by
  unfold applyLaser
  cases args.laserCorrection with
  | false => rfl
  | true =>
    simp only [if_true]
    cases laserWavenumber args.laserWavelength with
    | error e => rfl
    | ok l =>
      dsimp only [bind, Except.bind]
      unfold laserCorrection
      by_cases h : l ≤ 0
      · rw [if_pos h]; rfl
      · rw [if_neg h]
        exact congrArg Except.ok (mulInPlace_none w _)

theorem applyBose_none (args : MeasureArgs) (w : List ℝ) (I : List (Option ℝ)) :
    applyBose args w (w.map fun _ => none) = (applyBose args w I).map fun _ => w.map fun _ => none := by
  unfold applyBose
  cases args.boseEinstein with
  | false => rfl
  | true =>
    simp only [if_true]
    unfold boseEinsteinCorrection
    by_cases h : args.temperature ≤ 0
    · rw [if_pos h]; rfl
    · rw [if_neg h]
      exact congrArg Except.ok (mulInPlace_none w _)

/-! ## Trajectories -/

theorem map_tail_none (w : List ℝ) :
    (w.map fun _ => (none : Option ℝ)).tail = w.tail.map fun _ => none := by
  cases w <;> rfl

theorem mdRawN_nan {corr : CorrelateFn} (hc : Correlates corr) (s : MDSpectrumN)
    (h2 : 2 ≤ s.polarizabilityTs.length) (h : ∃ T ∈ s.polarizabilityTs, Spoiled T) (s' : MDSpectrum)
    (hl : s'.polarizabilityTs.length = s.polarizabilityTs.length) (ht : s'.timestep = s.timestep) :
    mdRawN corr s = AllNan (mdRaw s') := by
  obtain ⟨T, hT, i, j, hij, hn⟩ := h
  obtain ⟨D, hD, hDn⟩ := npDiffN_none _ h2 i j ⟨T, hT, hn⟩
  have hlen : (npDiff s'.polarizabilityTs).length = (npDiffN s.polarizabilityTs).length := by
    rw [npDiff_length', npDiffN_length, hl]
  unfold mdRawN mdRaw
  dsimp only
  rw [ht]
  generalize s.timestep = dt
  generalize npDiffN s.polarizabilityTs = ad at hD hlen ⊢
  generalize npDiff s'.polarizabilityTs = ad' at hlen ⊢
  have hly : ∀ (f : Mat3 ℝ → ℝ) (g : NTensor → Option ℝ), (ad'.map f).length = (ad.map g).length := by
    intro f g
    rw [List.length_map, List.length_map, hlen]
  generalize hy0 : (ad'.map fun A => A 0 0) = y0
  have hly0 : ∀ g : NTensor → Option ℝ, y0.length = (ad.map g).length := fun g => hy0 ▸ hly _ g
  cases h0 : calcSignalSpectrum y0 dt with
  | error e =>
    have hE := signalN_error hc (ad.map fun A => A 0 0) (hly0 _) dt h0
    generalize calcSignalSpectrumN corr (ad.map fun A => A 0 0) dt = q at hE
    subst hE
    rfl
  | ok wv =>
    obtain ⟨w, v⟩ := wv
    have hN : ∀ f : NTensor → Option ℝ, ∃ z, calcSignalSpectrumN corr (ad.map f) dt = .ok (w, z) ∧
        z.length = w.length ∧ (f D = none → ∀ x ∈ z, x = none) := by
      intro f
      obtain ⟨z, h1, h2, h3⟩ := signalN_cases hc (ad.map f) (hly0 f) dt (w := w) (by rw [h0]; rfl)
      refine ⟨z, h1, h2, fun hf => ?_⟩
      rw [h3 (List.mem_map.2 ⟨D, hD, hf⟩)]
      simp
    have hR : ∀ f : Mat3 ℝ → ℝ, ∃ z, calcSignalSpectrum (ad'.map f) dt = .ok (w, z) := by
      intro f
      have := signal_common (y := ad'.map f) (y' := y0)
        (by rw [← hy0, List.length_map, List.length_map]) dt
      rw [h0] at this
      cases hz : calcSignalSpectrum (ad'.map f) dt with
      | error e => rw [hz] at this; cases this
      | ok p =>
        rw [hz] at this
        refine ⟨p.2, ?_⟩
        have h1 : p.1 = w := by
          cases this
          rfl
        rw [← h1]
    obtain ⟨z0, e0, -, -⟩ := hN fun A => A 0 0
    obtain ⟨z1, e1, l1, n1⟩ := hN fun A =>
      Option.map₂ (· + ·) (Option.map₂ (· + ·) (A 0 0) (A 1 1)) (A 2 2)
    obtain ⟨z2, e2, l2, -⟩ := hN fun A => Option.map₂ (· - ·) (A 0 0) (A 1 1)
    obtain ⟨z3, e3, l3, -⟩ := hN fun A => Option.map₂ (· - ·) (A 1 1) (A 2 2)
    obtain ⟨z4, e4, l4, -⟩ := hN fun A => Option.map₂ (· - ·) (A 2 2) (A 0 0)
    obtain ⟨z5, e5, l5, n5⟩ := hN fun A => A 0 1
    obtain ⟨z6, e6, l6, n6⟩ := hN fun A => A 1 2
    obtain ⟨z7, e7, l7, n7⟩ := hN fun A => A 0 2
    obtain ⟨y1, f1⟩ := hR fun A => A 0 0 + A 1 1 + A 2 2
    obtain ⟨y2, f2⟩ := hR fun A => A 0 0 - A 1 1
    obtain ⟨y3, f3⟩ := hR fun A => A 1 1 - A 2 2
    obtain ⟨y4, f4⟩ := hR fun A => A 2 2 - A 0 0
    obtain ⟨y5, f5⟩ := hR fun A => A 0 1
    obtain ⟨y6, f6⟩ := hR fun A => A 1 2
    obtain ⟨y7, f7⟩ := hR fun A => A 0 2
    rw [e0, e1, e2, e3, e4, e5, e6, e7, f1, f2, f3, f4, f5, f6, f7]
    dsimp only [bind, Except.bind, pure, Except.pure, AllNan, Except.map]
    rw [eq_map_none (w := w) (a := addLN (scaleLN 45 (scaleLN (1 / 9) z1)) _), map_tail_none]
    · exact addLN_length (scaleLN_length _ (scaleLN_length _ l1)) (scaleLN_length _
        (addLN_length (addLN_length (addLN_length (addLN_length (addLN_length (scaleLN_length _ l2)
          (scaleLN_length _ l3)) (scaleLN_length _ l4)) (scaleLN_length _ l5)) (scaleLN_length _ l6))
          (scaleLN_length _ l7)))
    · have hdiag : D 0 0 = none ∨ D 1 1 = none ∨ D 2 2 = none → ∀ x ∈ z1, x = none := by
        intro hd
        apply n1
        rcases hd with hd | hd | hd <;> rw [hd]
        · rfl
        · cases D 0 0 <;> rfl
        · cases D 0 0 <;> cases D 1 1 <;> rfl
      have hcases : (∀ x ∈ z1, x = none) ∨ (∀ x ∈ z5, x = none) ∨ (∀ x ∈ z6, x = none) ∨
          ∀ x ∈ z7, x = none := by
        revert hij hDn
        fin_cases i <;> fin_cases j <;> intro hij hDn
        · exact Or.inl (hdiag (Or.inl hDn))
        · exact Or.inr (Or.inl (n5 hDn))
        · exact Or.inr (Or.inr (Or.inr (n7 hDn)))
        · exact absurd hij (by decide)
        · exact Or.inl (hdiag (Or.inr (Or.inl hDn)))
        · exact Or.inr (Or.inr (Or.inl (n6 hDn)))
        · exact absurd hij (by decide)
        · exact absurd hij (by decide)
        · exact Or.inl (hdiag (Or.inr (Or.inr hDn)))
      rcases hcases with h | h | h | h
      · exact addLN_left (scaleLN_none _ (scaleLN_none _ h))
      · exact addLN_right (scaleLN_none _ (addLN_left (addLN_left (addLN_right (scaleLN_none _ h)))))
      · exact addLN_right (scaleLN_none _ (addLN_left (addLN_right (scaleLN_none _ h))))
      · exact addLN_right (scaleLN_none _ (addLN_right (scaleLN_none _ h)))

/-- C178 (trajectories): one NaN in the diagonal or the upper triangle of one polarizability makes every
intensity of the trajectory's spectrum NaN.  The wavenumbers and exceptions are those of any trajectory
without NaN that has as many steps of the same length. -/
theorem C178_trajectory {corr : CorrelateFn} (hc : Correlates corr) (s : MDSpectrumN)
    (h2 : 2 ≤ s.polarizabilityTs.length) (h : ∃ T ∈ s.polarizabilityTs, Spoiled T) (s' : MDSpectrum)
    (hl : s'.polarizabilityTs.length = s.polarizabilityTs.length) (ht : s'.timestep = s.timestep)
    (args : MeasureArgs) : s.measure corr args = AllNan (s'.measure args).1 := by
  unfold MDSpectrumN.measure MDSpectrum.measure
  by_cases ho : args.orientation ≠ polycrystalline
  · rw [if_pos ho, if_pos ho]; rfl
  rw [if_neg ho, if_neg ho, mdRawN_nan hc s h2 h s' hl ht]
  cases mdRaw s' with
  | error e => rfl
  | ok x =>
    obtain ⟨w, I⟩ := x
    dsimp only [AllNan, Except.map, bind, Except.bind]
    rw [applyLaser_none args w (I.map some)]
    cases applyLaser args w (I.map some) with
    | error e => rfl
    | ok J =>
      dsimp only [Except.map]
      rw [applyBose_none args w J]
      cases applyBose args w J with
      | error e => rfl
      | ok K => rfl

/-- C178 (trajectories without NaN): the spectrum is the one that the other properties speak about. -/
theorem C178_trajectory_finite {corr : CorrelateFn} (hc : Correlates corr) (s : MDSpectrum)
    (args : MeasureArgs) :
    (MDSpectrumN.measure corr ⟨s.polarizabilityTs.map liftN, s.timestep⟩ args) = (s.measure args).1 := by
  have hraw : mdRawN corr ⟨s.polarizabilityTs.map liftN, s.timestep⟩
      = (mdRaw s).map fun x => (x.1, x.2.map some) := by
    unfold mdRawN mdRaw
    dsimp only
    rw [npDiffN_some]
    generalize npDiff s.polarizabilityTs = ad
    generalize s.timestep = dt
    have hS : ∀ (f : NTensor → Option ℝ) (g : Mat3 ℝ → ℝ), (∀ A, f (liftN A) = some (g A)) →
        calcSignalSpectrumN corr ((ad.map liftN).map f) dt
          = (calcSignalSpectrum (ad.map g) dt).map fun x => (x.1, x.2.map some) := by
      intro f g hfg
      rw [← signalN_finite hc, List.map_map, List.map_map]
      congr 1
      exact List.map_congr_left fun A _ => hfg A
    rw [hS (fun A => A 0 0) (fun A => A 0 0) fun _ => rfl,
      hS (fun A => Option.map₂ (· + ·) (Option.map₂ (· + ·) (A 0 0) (A 1 1)) (A 2 2))
        (fun A => A 0 0 + A 1 1 + A 2 2) fun _ => rfl,
      hS (fun A => Option.map₂ (· - ·) (A 0 0) (A 1 1)) (fun A => A 0 0 - A 1 1) fun _ => rfl,
      hS (fun A => Option.map₂ (· - ·) (A 1 1) (A 2 2)) (fun A => A 1 1 - A 2 2) fun _ => rfl,
      hS (fun A => Option.map₂ (· - ·) (A 2 2) (A 0 0)) (fun A => A 2 2 - A 0 0) fun _ => rfl,
      hS (fun A => A 0 1) (fun A => A 0 1) fun _ => rfl,
      hS (fun A => A 1 2) (fun A => A 1 2) fun _ => rfl,
      hS (fun A => A 0 2) (fun A => A 0 2) fun _ => rfl]
    generalize calcSignalSpectrum (ad.map fun A => A 0 0) dt = r0
    generalize calcSignalSpectrum (ad.map fun A => A 0 0 + A 1 1 + A 2 2) dt = r1
    generalize calcSignalSpectrum (ad.map fun A => A 0 0 - A 1 1) dt = r2
    generalize calcSignalSpectrum (ad.map fun A => A 1 1 - A 2 2) dt = r3
    generalize calcSignalSpectrum (ad.map fun A => A 2 2 - A 0 0) dt = r4
    generalize calcSignalSpectrum (ad.map fun A => A 0 1) dt = r5
    generalize calcSignalSpectrum (ad.map fun A => A 1 2) dt = r6
    generalize calcSignalSpectrum (ad.map fun A => A 0 2) dt = r7
    rcases r0 with e | r0; · rfl
    rcases r1 with e | r1; · rfl
    rcases r2 with e | r2; · rfl
    rcases r3 with e | r3; · rfl
    rcases r4 with e | r4; · rfl
    rcases r5 with e | r5; · rfl
    rcases r6 with e | r6; · rfl
    rcases r7 with e | r7; · rfl
    dsimp only [Except.map, bind, Except.bind, pure, Except.pure]
    simp only [scaleLN_some, addLN_some, List.map_tail]
  unfold MDSpectrumN.measure MDSpectrum.measure
  by_cases ho : args.orientation ≠ polycrystalline
  · rw [if_pos ho, if_pos ho]
  rw [if_neg ho, if_neg ho, hraw]
  cases mdRaw s with
  | error e => rfl
  | ok x => rfl

/-! ## Phonons -/

open Classical in
theorem rawIntensityN_eq (T : NTensor) (R : Mat3 ℝ)
    (h : ¬ Spoiled T → ∀ i j, i ≤ j → T i j = some (R i j)) :
    rawIntensityN T = if Spoiled T then none else some (rawIntensity R) := by
  by_cases hs : Spoiled T
  · rw [if_pos hs]
    obtain ⟨i, j, hij, hn⟩ := hs
    unfold rawIntensityN
    cases h00 : T 0 0 with
    | none => rfl
    | some a =>
    cases h11 : T 1 1 with
    | none => rfl
    | some b =>
    cases h22 : T 2 2 with
    | none => rfl
    | some c =>
    cases h01 : T 0 1 with
    | none => rfl
    | some d =>
    cases h02 : T 0 2 with
    | none => rfl
    | some e =>
    cases h12 : T 1 2 with
    | none => rfl
    | some f =>
      exfalso
      revert hij hn
      fin_cases i <;> fin_cases j <;> intro hij hn <;> first
        | exact absurd hij (by decide)
        | (dsimp only [Fin.zero_eta, Fin.mk_one, Fin.reduceFinMk] at hn
           simp_all)
  · rw [if_neg hs]
    have h' := h hs
    unfold rawIntensityN
    rw [h' 0 0 (by decide), h' 1 1 (by decide), h' 2 2 (by decide), h' 0 1 (by decide),
      h' 0 2 (by decide), h' 1 2 (by decide)]
    rfl

open Classical in
/-- Remove the lines of spoiled tensors. -/
def dropSpoiled (Ts : List NTensor) (I : List (Option ℝ)) : List (Option ℝ) :=
  List.zipWith (fun T x => if Spoiled T then none else x) Ts I

theorem dropSpoiled_mul (Ts : List NTensor) (I f : List (Option ℝ)) :
    mulInPlace (dropSpoiled Ts I) f = dropSpoiled Ts (mulInPlace I f) := by
  unfold mulInPlace dropSpoiled
  induction Ts generalizing I f with
  | nil => rfl
  | cons T Ts ih =>
    cases I with
    | nil => rfl
    | cons x I =>
      cases f with
      | nil => rfl
      | cons y f =>
        simp only [List.zipWith_cons_cons, ih]
        congr 1
        split_ifs <;> rfl

theorem applyLaser_drop (args : MeasureArgs) (w : List ℝ) (Ts : List NTensor) (I : List (Option ℝ)) :
    applyLaser args w (dropSpoiled Ts I) = (applyLaser args w I).map (dropSpoiled Ts) := by
  unfold applyLaser
  cases args.laserCorrection with
  | false => rfl
  | true =>
    simp only [if_true]
    cases laserWavenumber args.laserWavelength with
    | error e => rfl
    | ok l =>
      dsimp only [bind, Except.bind]
      cases laserCorrection w l with
      | error e => rfl
      | ok f => exact congrArg Except.ok (dropSpoiled_mul Ts I f)

theorem applyBose_drop (args : MeasureArgs) (w : List ℝ) (Ts : List NTensor) (I : List (Option ℝ)) :
    applyBose args w (dropSpoiled Ts I) = (applyBose args w I).map (dropSpoiled Ts) := by
  unfold applyBose
  cases args.boseEinstein with
  | false => rfl
  | true =>
    simp only [if_true]
    dsimp only [bind, Except.bind]
    cases boseEinsteinCorrection w args.temperature with
    | error e => rfl
    | ok f => exact congrArg Except.ok (dropSpoiled_mul Ts I f)

open Classical in
/-- C178 (phonons): in the spectrum of phonons exactly the lines of spoiled Raman tensors are NaN; the
other lines, the wavenumbers and the exceptions are those of tensors without NaN. -/
theorem C178_phonons (w : List ℝ) (Ts : List NTensor) (Rs : List (Mat3 ℝ))
    (h : List.Forall₂ (fun T R => ¬ Spoiled T → ∀ i j, i ≤ j → T i j = some (R i j)) Ts Rs)
    (args : MeasureArgs) :
    PhononSpectrumN.measure ⟨w, Ts⟩ args = (PhononSpectrum.measure ⟨w, Rs⟩ args).1.map fun x =>
      (x.1, List.zipWith (fun T y => if Spoiled T then none else y) Ts x.2) := by
  have hraw : Ts.map rawIntensityN = dropSpoiled Ts (Rs.map fun R => some (rawIntensity R)) := by
    unfold dropSpoiled
    induction h with
    | nil => rfl
    | cons h _ ih =>
      rw [List.map_cons, List.map_cons, List.zipWith_cons_cons, ← ih, rawIntensityN_eq _ _ h]
  unfold PhononSpectrumN.measure PhononSpectrum.measure
  by_cases ho : args.orientation ≠ polycrystalline
  · rw [if_pos ho, if_pos ho]; rfl
  rw [if_neg ho, if_neg ho]
  dsimp only
  rw [hraw, applyLaser_drop]
  cases applyLaser args w (Rs.map fun R => some (rawIntensity R)) with
  | error e => rfl
  | ok J =>
    dsimp only [Except.map, bind, Except.bind]
    rw [applyBose_drop]
    cases applyBose args w J with
    | error e => rfl
    | ok K => rfl

/-! ## Graph networks -/

/-- One batch: all predictions are NaN if two bonded atoms coincide in one structure of the batch, else
none is. -/
theorem forward_status {m : PotGNN dn de} {ref : Triplets} (hm : m.Fits n ref) (hne : m.refEdges ≠ [])
    {st : GnnState} (hst : st.Eval ref n m.refEdges.length) (samples : List (GSample n))
    (hk : ∀ x ∈ samples, ∀ a, m.Knows (x.numbers a)) :
    ∃ preds, (m.forward st samples).1 = .ok preds ∧ preds.length = samples.length ∧
      (∀ p ∈ preds, p = none ↔ ∃ x ∈ samples, Degenerate m x) ∧
      (m.forward st samples).2.Eval ref n m.refEdges.length := by
  have hs := (forward_state hm samples hst hst).2
  by_cases hd : ∃ x ∈ samples, Degenerate m x
  · refine ⟨_, (C84_nan_spreads hm hst samples hk hd).1, List.length_replicate, ?_, hs⟩
    intro p hp
    exact ⟨fun _ => hd, fun _ => List.eq_of_mem_replicate hp⟩
  · push Not at hd
    obtain ⟨preds, h1, h2, h3⟩ := C84_partial hm hst samples hk hd
    refine ⟨preds, h1, h2.length_eq.symm, fun p hp => ⟨fun h => absurd h (h3 hne p hp), ?_⟩, hs⟩
    rintro ⟨x, hx, hxd⟩
    exact absurd hxd (hd x hx)

theorem predictLoop_status {m : PotGNN dn de} {ref : Triplets} (hm : m.Fits n ref)
    (hne : m.refEdges ≠ []) (lattice : Mat3 ℝ) (numbers : Fin n → ℕ) (hk : ∀ a, m.Knows (numbers a)) :
    ∀ (bs : List (List (Pos n ℝ))) (st : GnnState), st.Eval ref n m.refEdges.length →
    (∀ b ∈ bs, b.length ≤ 100) → (∀ b ∈ bs.dropLast, b.length = 100) →
    ∃ ps, (m.predictLoop lattice numbers st bs).1 = .ok ps ∧ ps.length = bs.flatten.length ∧
      ∀ k T i j, ps[k]? = some T → (T i j = none ↔ ∃ l q, l / 100 = k / 100 ∧
        bs.flatten[l]? = some q ∧ Degenerate m ⟨lattice, numbers, q⟩) := by
  intro bs
  induction bs with
  | nil =>
    intro st _ _ _
    refine ⟨[], rfl, rfl, ?_⟩
    intro k T i j h
    simp at h
  | cons b bs ih =>
    intro st hst h1 h2
    obtain ⟨preds, e1, e2, e3, e4⟩ := forward_status hm hne hst
      (b.map fun p => (⟨lattice, numbers, p⟩ : GSample n)) (by
        intro x hx a
        obtain ⟨p, -, rfl⟩ := List.mem_map.1 hx
        exact hk a)
    obtain ⟨ps, f1, f2, f3⟩ := ih _ e4 (fun b' hb' => h1 b' (List.mem_cons_of_mem _ hb')) (by
      intro b' hb'
      apply h2
      cases bs with
      | nil => cases hb'
      | cons c bs => exact List.mem_cons_of_mem _ hb')
    rw [List.length_map] at e2
    refine ⟨(preds.map fun v => vectorToTensor (optVector v)) ++ ps, ?_, ?_, ?_⟩
    · rw [PotGNN.predictLoop]
      generalize m.forward st (b.map fun p => ⟨lattice, numbers, p⟩) = F at e1 f1
      obtain ⟨F1, F2⟩ := F
      dsimp only at e1 f1
      subst e1
      dsimp only
      generalize m.predictLoop lattice numbers F2 bs = G at f1
      obtain ⟨G1, G2⟩ := G
      dsimp only at f1
      subst f1
      rfl
    · rw [List.length_append, List.length_map, List.flatten_cons, List.length_append, e2, f2]
    · intro k T i j hT
      have hb : b.length ≤ 100 := h1 b List.mem_cons_self
      have hfull : bs.flatten ≠ [] → b.length = 100 := by
        intro hbs
        apply h2
        cases bs with
        | nil => exact absurd rfl hbs
        | cons c bs => exact List.mem_cons_self
      rw [List.flatten_cons]
      by_cases hkb : k < b.length
      · rw [List.getElem?_append_left (by rw [List.length_map, e2]; exact hkb), List.getElem?_map,
          Option.map_eq_some_iff] at hT
        obtain ⟨v, hv, rfl⟩ := hT
        have hv' := e3 v (List.mem_of_getElem? hv)
        have hT : vectorToTensor (optVector v) i j = none ↔ v = none := by
          unfold vectorToTensor optVector
          exact Option.map_eq_none_iff
        rw [hT, hv']
        constructor
        · rintro ⟨x, hx, hxd⟩
          obtain ⟨p, hp, rfl⟩ := List.mem_map.1 hx
          obtain ⟨l, hl, rfl⟩ := List.getElem_of_mem hp
          refine ⟨l, b[l], ?_, ?_, hxd⟩
          · rw [Nat.div_eq_of_lt (by omega), Nat.div_eq_of_lt (by omega)]
          · rw [List.getElem?_append_left hl, List.getElem?_eq_getElem hl]
        · rintro ⟨l, q, hl, hq, hqd⟩
          have hl0 : l < 100 := by omega
          have hlb : l < b.length := by
            by_contra hlb
            rw [List.getElem?_append_right (by omega)] at hq
            have hbs : bs.flatten ≠ [] := by
              intro h0
              rw [h0] at hq
              cases hq
            have := hfull hbs
            omega
          rw [List.getElem?_append_left hlb] at hq
          exact ⟨_, List.mem_map.2 ⟨q, List.mem_of_getElem? hq, rfl⟩, hqd⟩
      · rw [List.getElem?_append_right (by rw [List.length_map, e2]; omega), List.length_map, e2] at hT
        have hps : k - b.length < ps.length := by
          by_contra h0
          rw [List.getElem?_eq_none (by omega)] at hT
          cases hT
        have hb100 : b.length = 100 := by
          apply hfull
          intro h0
          rw [f2, h0] at hps
          cases hps
        rw [f3 _ T i j hT]
        constructor
        · rintro ⟨l, q, hl, hq, hqd⟩
          refine ⟨l + 100, q, by omega, ?_, hqd⟩
          rw [List.getElem?_append_right (by omega), hb100, Nat.add_sub_cancel, hq]
        · rintro ⟨l, q, hl, hq, hqd⟩
          have hl100 : 100 ≤ l := by omega
          rw [List.getElem?_append_right (by omega), hb100] at hq
          exact ⟨l - 100, q, by omega, hq, hqd⟩

/-- C178 (which predictions are NaN): a network that knows all elements predicts NaN, in all entries, for
exactly those structures that share a block of 100 with a structure in which two bonded atoms coincide. -/
theorem C178_predictions {m : PotGNN dn de} {ref : Triplets} (hm : m.Fits n ref)
    (hne : m.refEdges ≠ []) (lattice : Mat3 ℝ) (numbers : Fin n → ℕ) (hk : ∀ a, m.Knows (numbers a))
    (st : GnnState) (hst : st.triplets.Ready ref n m.refEdges.length) (positions : List (Pos n ℝ)) :
    ∃ Ts, (m.calcPolarizabilities lattice numbers st positions).1 = .ok Ts ∧
      Ts.length = positions.length ∧
      ∀ k T i j, Ts[k]? = some T → (T i j = none ↔ ∃ l q, l / 100 = k / 100 ∧
        positions[l]? = some q ∧ Degenerate m ⟨lattice, numbers, q⟩) := by
  obtain ⟨bs, h1, rfl, h3, h4⟩ := C81_batches positions 100 (by norm_num)
  obtain ⟨ps, f1, f2, f3⟩ := predictLoop_status hm hne lattice numbers hk bs { st with training := false }
    ⟨rfl, hst⟩ (fun b hb => by have := (h3 b hb).2; omega) (fun b hb => by have := h4 b hb; omega)
  refine ⟨ps.map (unscale m.mean m.stddev), ?_, ?_, ?_⟩
  · unfold PotGNN.calcPolarizabilities
    dsimp only
    rw [h1]
    dsimp only
    generalize m.predictLoop lattice numbers { st with training := false } bs = G at f1
    obtain ⟨G1, G2⟩ := G
    dsimp only at f1
    subst f1
    rfl
  · rw [List.length_map, f2]
  · intro k T i j hT
    rw [List.getElem?_map, Option.map_eq_some_iff] at hT
    obtain ⟨T', hT', rfl⟩ := hT
    rw [← f3 k T' i j hT']
    unfold unscale
    exact Option.map_eq_none_iff

/-- C178 (a collision during a trajectory): if two bonded atoms coincide in one of at least two snapshots,
the network's spectrum of the trajectory has no intensity, whatever the options of the measurement. -/
theorem C178_collision {m : PotGNN dn de} {ref : Triplets} (hm : m.Fits n ref) (lattice : Mat3 ℝ)
    (numbers : Fin n → ℕ) (hk : ∀ a, m.Knows (numbers a)) (st : GnnState)
    (hst : st.triplets.Ready ref n m.refEdges.length) (t : Trajectory n) (h2 : 2 ≤ t.positionsTs.length)
    (hd : ∃ p ∈ t.positionsTs, Degenerate m ⟨lattice, numbers, p⟩) :
    ∃ s, t.getRamanSpectrumN (m.asModelN lattice numbers st) = .ok s ∧
      ∀ {corr : CorrelateFn}, Correlates corr → ∀ args (s' : MDSpectrum),
        s'.polarizabilityTs.length = t.positionsTs.length → s'.timestep = t.timestep →
        s.measure corr args = AllNan (s'.measure args).1 := by
  obtain ⟨p, hp, hpd⟩ := hd
  have hne : m.refEdges ≠ [] := by
    obtain ⟨a, b, hab, -⟩ := hpd
    exact List.ne_nil_of_mem hab
  obtain ⟨Ts, h1, h3, h4⟩ := C178_predictions hm hne lattice numbers hk st hst t.positionsTs
  refine ⟨⟨Ts, t.timestep⟩, ?_, ?_⟩
  · unfold Trajectory.getRamanSpectrumN PotGNN.asModelN
    rw [h1]
    rfl
  · intro corr hc args s' hl ht
    obtain ⟨l, hl', rfl⟩ := List.getElem_of_mem hp
    refine C178_trajectory hc _ (by rw [h3]; exact h2) ?_ s' (hl.trans h3.symm) ht args
    have hlT : l < Ts.length := by rw [h3]; exact hl'
    exact ⟨Ts[l], List.getElem_mem hlT, 0, 0, le_rfl,
      (h4 l _ 0 0 (List.getElem?_eq_getElem hlT)).2 ⟨l, _, rfl, List.getElem?_eq_getElem hl', hpd⟩⟩

/-- C178 (a collision in a vibration): the Raman tensor of a vibration is NaN, in all entries, exactly
when two bonded atoms coincide in one of its two displaced structures. -/
theorem C178_vibration {m : PotGNN dn de} {ref : Triplets} (hm : m.Fits n ref)
    (hne : m.refEdges ≠ []) (lattice : Mat3 ℝ) (numbers : Fin n → ℕ) (hk : ∀ a, m.Knows (numbers a))
    (st : GnnState) (hst : st.triplets.Ready ref n m.refEdges.length) (p d : Pos n ℝ) :
    ∃ T, ramanTensorN (m.asModelN lattice numbers st) p d = .ok T ∧ ∀ i j, T i j = none ↔
      (Degenerate m ⟨lattice, numbers, fun a i => p a i + d a i / 1000⟩ ∨
        Degenerate m ⟨lattice, numbers, fun a i => p a i - d a i / 1000⟩) := by
  have hone : ∀ q : Pos n ℝ, ∃ T, evalOneN (m.asModelN lattice numbers st) q = .ok T ∧
      ∀ i j, T i j = none ↔ Degenerate m ⟨lattice, numbers, q⟩ := by
    intro q
    obtain ⟨Ts, h1, h3, h4⟩ := C178_predictions hm hne lattice numbers hk st hst [q]
    obtain ⟨T, rfl⟩ := List.length_eq_one_iff.1 h3
    refine ⟨T, ?_, ?_⟩
    · unfold evalOneN PotGNN.asModelN
      rw [h1]
      rfl
    · intro i j
      rw [h4 0 T i j rfl]
      constructor
      · rintro ⟨l, q', -, hq, hd⟩
        have := List.mem_of_getElem? hq
        rw [List.mem_singleton.1 this] at hd
        exact hd
      · intro hd
        exact ⟨0, q, rfl, rfl, hd⟩
  have hdiv : ∀ x : ℝ, x * centralDifference = x / 1000 := by
    intro x
    unfold centralDifference
    ring
  obtain ⟨A, a1, a2⟩ := hone fun a i => p a i + d a i / 1000
  obtain ⟨B, b1, b2⟩ := hone fun a i => p a i - d a i / 1000
  unfold ramanTensorN
  simp only [hdiv]
  rw [a1, b1]
  refine ⟨_, rfl, fun i j => ?_⟩
  change Option.map₂ _ (A i j) (B i j) = none ↔ _
  rw [← a2 i j, ← b2 i j]
  cases A i j <;> cases B i j <;> simp

/-! ## Models without NaN -/

/-- C178 (models without NaN): the Raman tensors and spectra are those of the other properties. -/
theorem C178_finite_model (model : PolModel n) (modelN : PolModelN n)
    (h : ∀ ps, modelN ps = (model ps).map (List.map liftN)) :
    (∀ p d, ramanTensorN modelN p d = (ramanTensor model p d).map liftN) ∧
    (∀ ph : Phonons n, ph.getRamanSpectrumN modelN
      = (ph.getRamanSpectrum model).map fun s => ⟨s.wavenumbers, s.tensors.map liftN⟩) ∧
    ∀ t : Trajectory n, t.getRamanSpectrumN modelN
      = (t.getRamanSpectrum model).map fun s => ⟨s.polarizabilityTs.map liftN, s.timestep⟩ := by
  have h1 : ∀ p, evalOneN modelN p = (evalOne model p).map liftN := by
    intro p
    unfold evalOneN evalOne
    rw [h]
    cases model [p] with
    | error e => rfl
    | ok l => cases l <;> rfl
  have h2 : ∀ p d, ramanTensorN modelN p d = (ramanTensor model p d).map liftN := by
    intro p d
    unfold ramanTensorN ramanTensor
    dsimp only
    rw [h1, h1]
    cases evalOne model fun a i => p a i + d a i * centralDifference with
    | error e => cases e <;> rfl
    | ok A =>
      cases evalOne model fun a i => p a i - d a i * centralDifference with
      | error e => cases e <;> rfl
      | ok B => rfl
  refine ⟨h2, ?_, ?_⟩
  · intro ph
    have h3 : ∀ ds : List (Pos n ℝ), ds.mapM (ramanTensorN modelN ph.refPositions)
        = (ds.mapM (ramanTensor model ph.refPositions)).map (List.map liftN) := by
      intro ds
      induction ds with
      | nil => rfl
      | cons d ds ih =>
        rw [List.mapM_cons, List.mapM_cons, ih, h2]
        cases ramanTensor model ph.refPositions d with
        | error e => rfl
        | ok R =>
          cases ds.mapM (ramanTensor model ph.refPositions) <;> rfl
    unfold Phonons.getRamanSpectrumN Phonons.getRamanSpectrum
    rw [h3]
    cases ph.displacements.mapM (ramanTensor model ph.refPositions) with
    | error e => rfl
    | ok Rs =>
      dsimp only [Except.map, bind, Except.bind]
      rw [List.isEmpty_map]
      cases hR : Rs.isEmpty with
      | true => rfl
      | false =>
        unfold PhononSpectrum.init
        rw [List.length_map]
        by_cases hl : Rs.length ≠ ph.wavenumbers.length
        · simp only [if_pos hl]; rfl
        · simp only [if_neg hl]; rfl
  · intro t
    unfold Trajectory.getRamanSpectrumN Trajectory.getRamanSpectrum
    rw [h]
    cases model t.positionsTs with
    | error e => cases e <;> rfl
    | ok l => rfl

/-! ## Concrete cases -/

open Classical in
/-- Direct summation: the entries whose sums touch a NaN are NaN. -/
def directCorrelate : CorrelateFn := fun x =>
  (List.range (2 * x.length - 1)).map fun k : ℕ =>
    if ∃ l i : ℕ, (i : ℤ) = (l : ℤ) - k + x.length - 1 ∧ l < x.length ∧ i < x.length ∧
      (x[l]? = some none ∨ x[i]? = some none) then none
    else ((correlateFull (x.map (·.getD 0)) (x.map (·.getD 0)))[k]?)

/-- Fourier transforms: one NaN spreads to all entries. -/
def fourierCorrelate : CorrelateFn := fun x =>
  match x.mapM id with
  | some y => (correlateFull y y).map some
  | none => List.replicate (2 * x.length - 1) none

/-- Both ways of SciPy to correlate meet the assumption of C178. -/
theorem C178_correlates : Correlates directCorrelate ∧ Correlates fourierCorrelate := by
  refine ⟨⟨?_, ?_, ?_⟩, ⟨?_, ?_, ?_⟩⟩
  · intro x
    unfold directCorrelate
    have hx : (x.map some).map (·.getD 0) = x := by
      rw [List.map_map]
      exact List.map_id _
    rw [hx]
    have hlen : (correlateFull x x).length = 2 * x.length - 1 := by
      unfold correlateFull
      simp
    refine List.ext_getElem (by simp [hlen]) ?_
    intro k hk1 hk2
    rw [List.getElem_map, List.getElem_map, List.getElem_range, if_neg, List.getElem?_eq_getElem]
    rintro ⟨l, i, -, -, -, h | h⟩ <;> simp at h
  · intro x
    unfold directCorrelate
    simp
  · intro x hx
    obtain ⟨l, hl, he⟩ := List.getElem_of_mem hx
    unfold directCorrelate
    rw [List.getElem?_map, List.getElem?_range (by omega)]
    refine congrArg some (if_pos ⟨l, l, ?_, hl, hl, Or.inl ?_⟩)
    · have : 1 ≤ x.length := by omega
      push_cast [Nat.cast_sub this]
      ring
    · rw [List.getElem?_eq_getElem hl, he]
  · intro x
    unfold fourierCorrelate
    rw [mapM_id_some]
  · intro x
    unfold fourierCorrelate
    cases h : x.mapM id with
    | none => simp
    | some y =>
      have : y.length = x.length := by
        clear * - h
        induction x generalizing y with
        | nil => cases h; rfl
        | cons a x ih =>
          rw [List.mapM_cons] at h
          cases a with
          | none => cases h
          | some a =>
            cases hx : x.mapM id with
            | none => rw [hx] at h; cases h
            | some z =>
              rw [hx] at h
              cases h
              rw [List.length_cons, List.length_cons, ih z hx]
      dsimp only
      unfold correlateFull
      rw [List.length_map, List.length_map, List.length_range, this]
  · intro x hx
    unfold fourierCorrelate
    rw [mapM_id_none x hx]
    have : 0 < x.length := List.length_pos_of_mem hx
    exact List.getElem?_replicate_of_lt (by omega)

/-- C178, concrete: a trajectory of the pair of hydrogen atoms whose second snapshot has both atoms at
the same place modulo the lattice; three snapshots, 1 fs apart. -/
example (args : MeasureArgs) : ∃ s,
    (⟨[(pairSample (1 / 4)).positions, (pairSample 1).positions, (pairSample (1 / 4)).positions], 1⟩ :
      Trajectory 2).getRamanSpectrumN (sampleGnn.asModelN 1 (fun _ => 1) sampleState) = .ok s ∧
    s.measure directCorrelate args = AllNan ((⟨[0, 0, 0], 1⟩ : MDSpectrum).measure args).1 := by
  obtain ⟨s, h1, h2⟩ := C178_collision sampleGnn_fits 1 (fun _ => 1) (fun a => sampleGnn_knows a 0)
    sampleState sampleState_eval.ready
    (⟨[(pairSample (1 / 4)).positions, (pairSample 1).positions, (pairSample (1 / 4)).positions], 1⟩ :
      Trajectory 2) (by simp)
    ⟨(pairSample 1).positions, by simp, (pairSample_degenerate 1).2 ⟨-1, by norm_num⟩⟩
  exact ⟨s, h1, h2 C178_correlates.1 args _ rfl rfl⟩

/-- A tensor with one NaN above the diagonal. -/
def halfNan : NTensor := fun i j => if i = 0 ∧ j = 2 then none else some 1

/-- C178, concrete: the first of two Raman tensors is NaN in one place above the diagonal. -/
example (laser temperature : ℝ) : PhononSpectrumN.measure ⟨[100, 200], [halfNan, liftN 1]⟩
    ⟨polycrystalline, false, laser, false, temperature⟩ = .ok ([100, 200], [none, some 45]) := by
  have hs : Spoiled halfNan := ⟨0, 2, by decide, if_pos ⟨rfl, rfl⟩⟩
  have hl : ¬ Spoiled (liftN 1) := by
    rintro ⟨i, j, -, h⟩
    cases h
  rw [C178_phonons [100, 200] [halfNan, liftN 1] [0, 1]
    (.cons (fun h => absurd hs h) (.cons (fun _ _ _ _ => rfl) .nil))]
  unfold PhononSpectrum.measure applyLaser applyBose
  rw [if_neg (not_not.2 rfl)]
  change Except.ok ([100, 200], List.zipWith _ [halfNan, liftN 1] [_, _]) = _
  rw [List.zipWith_cons_cons, List.zipWith_cons_cons, if_pos hs, if_neg hl]
  dsimp only
  have : rawIntensity 1 = 45 := by
    simp [rawIntensity, alphaSquared, gammaSquared]
    norm_num
  rw [this]
  rfl

end

end Verif
