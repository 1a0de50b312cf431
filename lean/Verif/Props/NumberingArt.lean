import Verif.Props.Numbering
import Verif.Props.ArtWorkflow

/-!
# C145: the numbering of the atoms, `add_art_from_files`
-/

namespace Verif

open Spec

noncomputable section

variable {N : ℕ}

/-- If two atoms move furthest, they move by more than √3 · 1e-6 (fractional coordinates). -/
def Spec.TiesLarge (d : Pos N ℝ) : Prop :=
  ∀ a b, a ≠ b → (∀ c, ∑ i, d c i ^ 2 ≤ ∑ i, d a i ^ 2) → (∀ c, ∑ i, d c i ^ 2 ≤ ∑ i, d b i ^ 2) →
    3 / 10 ^ 12 < ∑ i, d a i ^ 2

theorem large_component {v : Vec3} (h : 3 / 10 ^ 12 < ∑ i, v i ^ 2) : ∃ i, 1 / 10 ^ 6 < |v i| := by
  by_contra hc
  push Not at hc
  have key : ∀ i, v i ^ 2 ≤ 1 / 10 ^ 12 := fun i => by
    have h1 : v i ^ 2 = |v i| ^ 2 := (sq_abs _).symm
    have h2 : |v i| ^ 2 ≤ (1 / 10 ^ 6) ^ 2 := pow_le_pow_left₀ (abs_nonneg _) (hc i) 2
    calc v i ^ 2 = |v i| ^ 2 := h1
      _ ≤ (1 / 10 ^ 6) ^ 2 := h2
      _ = 1 / 10 ^ 12 := by norm_num
  have := Finset.sum_le_sum fun i (_ : i ∈ Finset.univ) => key i
  simp only [Finset.sum_const, Finset.card_univ, Fintype.card_fin] at this
  norm_num at this h
  linarith

/-- The largest atom is left out, all others are compared with `1e-6`. -/
theorem multiple_iff (d : Pos N ℝ) [NeZero N] : ∃ k, (∀ c, rowSq d c ≤ rowSq d k) ∧
    (multipleAtomsDisplaced d = true ↔ ∃ b, b ≠ k ∧ ∃ i, 1 / 10 ^ 6 < |d b i|) := by
  unfold multipleAtomsDisplaced
  cases hl : List.finRange N with
  | nil =>
    have := List.mem_finRange (0 : Fin N)
    rw [hl] at this; simp at this
  | cons x xs =>
    refine ⟨argmaxFrom (rowSq d) x xs, fun c => ?_, ?_⟩
    · exact (argmaxFrom_max (rowSq d) x xs).1 c (by rw [← hl]; exact List.mem_finRange c)
    · dsimp only
      rw [Bool.not_eq_true', decide_eq_false_iff_not]
      constructor
      · intro h
        push Not at h
        obtain ⟨b, i, h⟩ := h
        by_cases hb : b = argmaxFrom (rowSq d) x xs
        · rw [if_pos hb, abs_zero] at h
          norm_num at h
        · rw [if_neg hb] at h
          exact ⟨b, hb, i, h⟩
      · rintro ⟨b, hb, i, h⟩ hc
        have := hc b i
        rw [if_neg hb] at this
        linarith

theorem multiple_renum (σ : Equiv.Perm (Fin N)) (d : Pos N ℝ) (h : TiesLarge d) :
    multipleAtomsDisplaced (renum σ d) = multipleAtomsDisplaced d := by
  cases N with
  | zero => rfl
  | succ n =>
    obtain ⟨k, hk, hk2⟩ := multiple_iff d
    obtain ⟨k', hk', hk2'⟩ := multiple_iff (renum σ d)
    rw [Bool.eq_iff_iff]
    by_cases he : σ k' = k
    · rw [hk2, hk2']
      constructor
      · rintro ⟨b, hb, i, hi⟩
        exact ⟨σ b, fun e => hb (σ.injective (e.trans he.symm)), i, hi⟩
      · rintro ⟨b, hb, i, hi⟩
        refine ⟨σ.symm b, fun e => hb ?_, i, ?_⟩
        · rw [← he, ← e, σ.apply_symm_apply]
        · unfold renum
          rw [σ.apply_symm_apply]
          exact hi
    · have hmax : ∀ c, rowSq d c ≤ rowSq d (σ k') := fun c => by
        have := hk' (σ.symm c)
        unfold rowSq renum at this
        rw [σ.apply_symm_apply] at this
        exact this
      have h1 := large_component (h (σ k') k he hmax hk)
      have h2 := large_component (h k (σ k') (Ne.symm he) hk hmax)
      obtain ⟨i, hi⟩ := h1
      obtain ⟨j, hj⟩ := h2
      rw [hk2, hk2']
      have hne : σ.symm k ≠ k' := fun e => he (by rw [← e, σ.apply_symm_apply])
      refine ⟨fun _ => ⟨σ k', he, i, hi⟩, fun _ => ⟨σ.symm k, hne, j, ?_⟩⟩
      unfold renum
      rw [σ.apply_symm_apply]
      exact hj

/-- The first displacement read from files: that of the first file, and not zero. -/
theorem readDof_head {m : IModel N} {files : List (DofFile N)} {d0 : Pos N ℝ} {ds : List (Pos N ℝ)}
    {amps : List ℝ} {pols : List (Mat3 ℝ)} (h : readDof m files = .ok (d0 :: ds, amps, pols)) :
    ∃ p pol fs, files = .ok (some p, pol) :: fs ∧ d0 = calcDisplacement m.ref.positions p ∧ d0 ≠ 0 := by
  unfold readDof at h
  cases files with
  | nil => cases h
  | cons f fs =>
    rcases f with e | ⟨p, pol⟩
    · cases h
    · cases p with
      | none => cases h
      | some p =>
        refine ⟨p, pol, fs, rfl, ?_⟩
        rw [readDofFiles] at h
        dsimp only [bind, Except.bind] at h
        cases hr : readDofFiles m fs with
        | error e => rw [hr] at h; cases h
        | ok l =>
          rw [hr] at h
          generalize (if m.dummy then (0 : Mat3 ℝ) else pol) = q at h
          change (if isCollinearWithAll (flat (calcDisplacement m.ref.positions p)) _ ≠ -1 then _ else
            match normalizePos (m.ref.getCartDisplacement (calcDisplacement m.ref.positions p)) with
            | none => _
            | some b => _) = _ at h
          split_ifs at h
          cases hn : normalizePos (m.ref.getCartDisplacement
            (calcDisplacement m.ref.positions p)) with
          | none => rw [hn] at h; cases h
          | some b =>
            rw [hn] at h
            cases h
            refine ⟨rfl, fun h0 => ?_⟩
            change calcDisplacement m.ref.positions p = 0 at h0
            rw [h0] at hn
            have hz : m.ref.getCartDisplacement 0 = 0 := by
              funext a i
              unfold RefStructure.getCartDisplacement matMulPos
              refine Finset.sum_eq_zero fun l _ => ?_
              rw [show applyPbcDisplacement (0 : Pos N ℝ) a l = 0 from
                wrap1_of_inHalfBox (by norm_num [InHalfBox]), zero_mul]
            rw [hz] at hn
            unfold normalizePos at hn
            rw [if_pos (by unfold norm2 dot flat; simp)] at hn
            cases hn

/-- C145: atoms displaced one at a time, from files that list the atoms in the new order: same outcome,
same warnings, and the reordered model.  The first file must not move two atoms equally far by less than
√3 · 1e-6 (`C145_tied_atoms`), and images taken for collinear must have proportional largest
components. -/
theorem C145_art_files_partial (σ : Equiv.Perm (Fin N)) (eqs : List ℕ) (spline : SplineFn) (we : Bool)
    (m : IModel N) (hs : Sound m.ref) (files : List (DofFile N))
    (h : ∀ d0 ds amps pols, readDof m files = .ok (d0 :: ds, amps, pols) →
      TiesLarge d0 ∧ TiesConsistent m.ref d0)
    (o : Outcome N) (ho : o = m.addArtFromFiles spline we files) :
    (m.renumbered σ eqs).addArtFromFiles spline we
        (files.map (Except.map fun x => (x.1.map fun p a => p (σ a), x.2))) =
      ⟨o.result, o.warnings, o.state.renumbered σ eqs⟩ := by
  subst ho
  have hr := readDof_renum σ eqs m files
  unfold IModel.addArtFromFiles
  change (match readDof (m.renumbered σ eqs) (files.map (DofFile.renumbered σ)) with
    | .error e => _
    | .ok ([], _, _) => _
    | .ok (d0 :: _, amps, pols) => _) = _
  rw [hr]
  cases hd : readDof m files with
  | error e => rfl
  | ok r =>
    obtain ⟨ds, amps, pols⟩ := r
    cases ds with
    | nil => rfl
    | cons d0 ds =>
      obtain ⟨h1, h2⟩ := h d0 ds amps pols hd
      have hst : StableUnder m.ref d0 := by
        obtain ⟨p, pol, fs, -, hp, -⟩ := readDof_head hd
        have hb : applyPbcDisplacement d0 = d0 := by
          funext a i
          exact wrap1_of_inHalfBox (by rw [hp]; exact (calcDisplacement_nearest m.ref.positions p a i).1)
        exact hs.stable (by rw [hb]; exact h2)
      have hg := getDof_renum σ eqs m (some d0) amps pols false (by rintro d ⟨rfl⟩; exact hst)
      rw [Option.map_some] at hg
      dsimp only [Except.map]
      rw [List.map_cons]
      dsimp only
      rw [multiple_renum σ d0 h1, hg]
      by_cases hm : multipleAtomsDisplaced d0 = true
      · rw [if_pos hm, if_pos hm]
      · rw [if_neg hm, if_neg hm]
        cases getDof m (some d0) amps pols false with
        | error e => rfl
        | ok gs =>
          cases gs with
          | nil => rfl
          | cons g gs =>
            dsimp only [Except.map]
            rw [List.map_cons]
            change (if g.pts.length ≠ 2 then _ else _) = _
            by_cases hl : g.pts.length ≠ 2
            · rw [if_pos hl, if_pos hl]
            · rw [if_neg hl, if_neg hl]
              exact constructAndAdd_renum σ eqs spline we m (g :: gs) 1

/-- C145: if the files displace exactly one atom, nothing else is needed. -/
theorem C145_art_files_single (σ : Equiv.Perm (Fin N)) (eqs : List ℕ) (spline : SplineFn) (we : Bool)
    (m : IModel N) (hs : Sound m.ref) (files : List (DofFile N)) (k : Fin N)
    (h : ∀ f ∈ files, ∀ p pol, f = .ok (some p, pol) → ∀ a, a ≠ k → ∀ i,
      SameImage (m.ref.positions a i) (p a i))
    (o : Outcome N) (ho : o = m.addArtFromFiles spline we files) :
    (m.renumbered σ eqs).addArtFromFiles spline we
        (files.map (Except.map fun x => (x.1.map fun p a => p (σ a), x.2))) =
      ⟨o.result, o.warnings, o.state.renumbered σ eqs⟩ := by
  refine C145_art_files_partial σ eqs spline we m hs files (fun d0 ds amps pols hd => ?_) o ho
  obtain ⟨p, pol, fs, hf, hp, h0⟩ := readDof_head hd
  have hz : ∀ a, a ≠ k → ∀ i, d0 a i = 0 := by
    intro a ha i
    obtain ⟨h1, h2⟩ := calcDisplacement_nearest m.ref.positions p a i
    obtain ⟨n, hn⟩ := h _ (by rw [hf]; simp) p pol rfl a ha i
    rw [← hp] at h1 h2
    refine ((SameImage.trans ⟨n, ?_⟩ h2).eq_of_inHalfBox (by norm_num [InHalfBox]) h1).symm
    rw [hn]; ring
  refine ⟨fun a b hab ha hb => ?_, single_consistent hz⟩
  exfalso
  have key : ∀ c, c ≠ k → (∀ e, ∑ i, d0 e i ^ 2 ≤ ∑ i, d0 c i ^ 2) → False := by
    intro c hc hmax
    refine h0 (funext fun e => funext fun i => ?_)
    have h1 := hmax e
    rw [show ∑ i, d0 c i ^ 2 = 0 from Finset.sum_eq_zero fun i _ => by rw [hz c hc i]; norm_num] at h1
    have h2 := Finset.single_le_sum (f := fun i => d0 e i ^ 2) (fun _ _ => sq_nonneg _)
      (Finset.mem_univ i)
    have h3 : d0 e i ^ 2 ≤ 0 := h2.trans h1
    exact pow_eq_zero_iff (two_ne_zero) |>.1 (le_antisymm h3 (sq_nonneg _))
  by_cases hak : a = k
  · exact key b (fun e => hab (hak.trans e.symm)) hb
  · exact key a hak ha

/-- C145: the restriction on atoms that move equally far.  The code leaves out the first of the atoms
that move furthest, so exchanging the two atoms changes whether it finds a second displaced atom. -/
theorem C145_tied_atoms : ∃ d : Pos 2 ℝ, multipleAtomsDisplaced d = false ∧
    multipleAtomsDisplaced (fun a => d (Equiv.swap 0 1 a)) = true := by
  refine ⟨fun a => if a = 0 then ![5 / 4000000, 0, 0] else ![3 / 4000000, 1 / 1000000, 0], ?_, ?_⟩
  · rw [Bool.eq_false_iff]
    unfold multipleAtomsDisplaced
    simp [List.finRange, argmaxFrom, rowSq, Fin.sum_univ_three, Fin.forall_fin_succ]
    norm_num
  · unfold multipleAtomsDisplaced
    simp [List.finRange, argmaxFrom, rowSq, Fin.sum_univ_three, Fin.forall_fin_succ]
    norm_num

/-- C145, concrete: two files that displace the first atom of the body-centred cell. -/
example (nums : Fin 2 → ℕ) : ∃ s, RefStructure.init bccSpglib nums 1 csCl = .ok s ∧ Sound s ∧
    ∀ (spline : SplineFn) (we : Bool) (pol A B : Mat3 ℝ) (v : Vec3),
      ((IModel.init s pol false).renumbered (Equiv.swap 0 1) [0, 0]).addArtFromFiles spline we
          [.ok (some fun a i => csCl (Equiv.swap 0 1 a) i + if a = 1 then v i else 0, A),
            .ok (some fun a i => csCl (Equiv.swap 0 1 a) i - if a = 1 then v i else 0, B)] =
        ((IModel.init s pol false).addArtFromFiles spline we
          [.ok (some fun a i => csCl a i + if a = 0 then v i else 0, A),
            .ok (some fun a i => csCl a i - if a = 0 then v i else 0, B)]).renumbered (Equiv.swap 0 1)
          [0, 0] := by
  obtain ⟨s, hs, hops, hsound, hlat⟩ := bcc_init nums
  refine ⟨s, hs, hsound, fun spline we pol A B v => ?_⟩
  have hsw : ∀ a : Fin 2, (Equiv.swap 0 1 a = 0) = (a = 1) := by decide
  have := C145_art_files_single (Equiv.swap 0 1) [0, 0] spline we (IModel.init s pol false) hsound
    [.ok (some fun a i => csCl a i + if a = 0 then v i else 0, A),
      .ok (some fun a i => csCl a i - if a = 0 then v i else 0, B)] 0 (by
      have hp : (IModel.init s pol false).ref.positions = csCl := (init_facts hs).1
      rw [hp]
      intro f hf p q he a ha i
      simp only [List.mem_cons, List.not_mem_nil, or_false] at hf
      rcases hf with rfl | rfl <;> cases he <;> exact ⟨0, by dsimp only; rw [if_neg ha]; simp⟩) _ rfl
  rw [List.map_cons, List.map_cons, List.map_nil] at this
  simp only [Except.map, Option.map_some, hsw] at this
  exact this

end

end Verif
