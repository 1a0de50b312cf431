import Verif.Props.VasprunFile
import Verif.Props.OutcarSeries

/-!
# C138: exactly which `vasprun.xml` files hold phonons
-/

namespace Verif

namespace Spec

/-- The wavenumbers listed: square roots of the moduli of the numbers below
`calculation/dynmat/v[@name='eigenvalues']`, divided by a constant. -/
def VasprunWavenumbers (root : Elem) (ws : List (Option ℝ)) : Prop :=
  ∃ e xs, FirstChain [Tag "calculation", Tag "dynmat", TagNamed "v" "eigenvalues"] root e ∧
    NumbersOf e xs ∧
    ws = xs.map fun x => x.map fun q : ℚ => Real.sqrt |(q : ℝ)| / 0.0299792458

/-- The eigenvectors listed, each with `3 n` numbers. -/
def VasprunVectors (root : Elem) (n : ℕ) (vectors : List (List (Fin 3 → Num))) : Prop :=
  ∃ e, FirstChain [Tag "calculation", Tag "dynmat", TagNamed "varray" "eigenvectors"] root e ∧
    List.Forall₂ (fun v xs => NumbersOf v (xs.flatMap fun x => [x 0, x 1, x 2]) ∧ xs.length = n)
      e.children vectors

end Spec

open Spec

theorem find_eigenvalues (root e : Elem) :
    root.find [plain "calculation", plain "dynmat", named "v" "eigenvalues"] = some e ↔
      FirstChain [Tag "calculation", Tag "dynmat", TagNamed "v" "eigenvalues"] root e := by
  rw [find_chain_iff]
  simp only [List.map_cons, List.map_nil, plain_pred, named_pred]

theorem find_eigenvectors (root e : Elem) :
    root.find [plain "calculation", plain "dynmat", named "varray" "eigenvectors"] = some e ↔
      FirstChain [Tag "calculation", Tag "dynmat", TagNamed "varray" "eigenvectors"] root e := by
  rw [find_chain_iff]
  simp only [List.map_cons, List.map_nil, plain_pred, named_pred]

theorem vasprunEigenvalues_iff (root : Elem) (ws : List (Option ℝ)) :
    vasprunEigenvalues root = .ok ws ↔ VasprunWavenumbers root ws := by
  unfold vasprunEigenvalues VasprunWavenumbers
  simp only [← find_eigenvalues, ← C71_formula, ← varrayRow_iff]
  cases root.find [plain "calculation", plain "dynmat", named "v" "eigenvalues"] with
  | none =>
    constructor
    · intro h; cases h
    · rintro ⟨e, xs, h, -⟩; cases h
  | some e =>
    dsimp only
    unfold varrayRow
    constructor
    · intro h
      cases ht : e.text with
      | none => rw [ht] at h; cases h
      | some t =>
        rw [ht] at h
        dsimp only at h
        cases hp : parseFloats (splitWs t) with
        | none => rw [hp] at h; cases h
        | some xs =>
          rw [hp] at h
          refine ⟨e, xs, rfl, ?_, (Except.ok.inj h).symm⟩
          rw [ht]
          dsimp only
          rw [hp]
    · rintro ⟨e', xs, h, h1, rfl⟩
      obtain rfl := Option.some.inj h
      cases ht : e.text with
      | none => rw [ht] at h1; cases h1
      | some t =>
        rw [ht] at h1
        dsimp only at h1 ⊢
        cases hp : parseFloats (splitWs t) with
        | none => rw [hp] at h1; cases h1
        | some xs' =>
          rw [hp] at h1
          rw [Except.ok.inj h1]

theorem vasprunEigenvector_iff (ext : NumMat → Py NumMat) (lattice : List (List Num)) (n : ℕ)
    (v : Elem) (d : List NumVec) : vasprunEigenvector ext lattice n v = .ok d ↔
      ∃ (xs : List NumVec) (inv : NumMat), NumbersOf v (xs.flatMap fun x => [x 0, x 1, x 2]) ∧
        xs.length = n ∧ arrayInv ext lattice = .ok inv ∧ d = xs.map (numVecMul · inv) := by
  unfold vasprunEigenvector
  rw [bind_ok_iff]
  constructor
  · rintro ⟨row, h1, h⟩
    obtain ⟨xs, h2, h5⟩ := (bind_ok_iff _ _ _).1 h
    obtain ⟨inv, h3, h6⟩ := (bind_ok_iff _ _ _).1 h5
    obtain ⟨h4, h7⟩ := reshape3_ok h2
    exact ⟨xs, inv, h7 ▸ (varrayRow_iff _ _).1 h1, h4, h3, (Except.ok.inj h6).symm⟩
  · rintro ⟨xs, inv, h1, rfl, h3, rfl⟩
    exact ⟨_, (varrayRow_iff _ _).2 h1, (bind_ok_iff _ _ _).2 ⟨xs, reshape3_flatMap xs,
      (bind_ok_iff _ _ _).2 ⟨inv, h3, rfl⟩⟩⟩

theorem vasprunEigenvectors_iff (ext : NumMat → Py NumMat) (root : Elem) (symbols : List Word)
    (hs : vasprunSymbols root = .ok symbols) (lattice : List (List Num))
    (hl : vasprunLattice root = .ok lattice) (eig : List (List NumVec)) :
    vasprunEigenvectors ext root = .ok eig ↔
      ∃ vectors, VasprunVectors root symbols.length vectors ∧
        List.Forall₂ (fun xs d => ∃ inv, arrayInv ext lattice = .ok inv ∧
          d = xs.map (numVecMul · inv)) vectors eig := by
  have hrun : vasprunEigenvectors ext root =
      (match root.find [plain "calculation", plain "dynmat", named "varray" "eigenvectors"] with
        | none => .error .invalidFile
        | some e => e.children.mapM (vasprunEigenvector ext lattice symbols.length)) := by
    unfold vasprunEigenvectors
    rw [hl]
    change (vasprunSymbols root >>= _) = _
    rw [hs]
    rfl
  rw [hrun]
  unfold VasprunVectors
  simp only [← find_eigenvectors]
  cases root.find [plain "calculation", plain "dynmat", named "varray" "eigenvectors"] with
  | none =>
    constructor
    · intro h; cases h
    · rintro ⟨_, ⟨e, h, -⟩, -⟩; cases h
  | some e =>
    dsimp only
    rw [mapM_except_ok]
    simp only [vasprunEigenvector_iff]
    constructor
    · intro h
      have : ∃ vectors : List (List NumVec),
          List.Forall₂ (fun v (xs : List NumVec) => NumbersOf v (xs.flatMap fun x => [x 0, x 1, x 2]) ∧
            xs.length = symbols.length) e.children vectors ∧
          List.Forall₂ (fun (xs : List NumVec) d => ∃ inv, arrayInv ext lattice = .ok inv ∧
            d = xs.map (numVecMul · inv)) vectors eig := by
        generalize e.children = cs at h
        induction h with
        | nil => exact ⟨[], .nil, .nil⟩
        | cons hx _ ih =>
          obtain ⟨xs, inv, h1, h2, h3, h4⟩ := hx
          obtain ⟨vectors, h5, h6⟩ := ih
          exact ⟨xs :: vectors, .cons ⟨h1, h2⟩ h5, .cons ⟨inv, h3, h4⟩ h6⟩
      obtain ⟨vectors, h1, h2⟩ := this
      exact ⟨vectors, ⟨e, rfl, h1⟩, h2⟩
    · rintro ⟨vectors, ⟨e', he, h1⟩, h2⟩
      obtain rfl := Option.some.inj he
      generalize e.children = cs at h1
      induction h1 generalizing eig with
      | nil => cases h2; exact .nil
      | cons hx _ ih =>
        cases h2 with
        | cons hy h2 =>
          obtain ⟨inv, h3, h4⟩ := hy
          exact .cons ⟨_, inv, hx.1, hx.2, h3, h4⟩ (ih _ h2)

theorem numbers_of_weights {symbols : List Word} {ws : List ℚ}
    (h : symbols.mapM weightOf = .ok ws) : ∃ numbers, List.Forall₂ IsNumber symbols numbers := by
  have h1 := weights_of_ok h
  clear h
  induction h1 with
  | nil => exact ⟨[], .nil⟩
  | cons hs _ ih =>
    obtain ⟨ns, hns⟩ := ih
    obtain ⟨n, hn⟩ := (C90_weights _).1.1 ⟨_, hs.1⟩
    exact ⟨n :: ns, .cons hn hns⟩

/-- C138: from a file with a finite lattice, `read_phonons` returns `ph` iff the file lists atoms of
known elements, a position for each, as many wavenumbers as eigenvectors, at least one, each with three
numbers for each atom, and the lattice is invertible; then `ph` holds the positions, the wavenumbers
without sign and the eigenvectors in fractional coordinates divided by the square roots of the
masses. -/
theorem C138_phonons (ext : NumMat → Py NumMat) (root : Elem) (a : Matrix (Fin 3) (Fin 3) ℚ)
    (hl : InitialLattice root (List.ofFn fun i => List.ofFn fun j => some (a i j)))
    (ph : VasprunPhonons) :
    vasprunReadPhonons ext root = .ok ph ↔
      a.det ≠ 0 ∧ ∃ numbers vectors, AtomsAre IsNumber root numbers ∧ numbers ≠ [] ∧
        InitialPositions root (rowsList ph.refPositions) ∧
        ph.refPositions.length = numbers.length ∧
        VasprunWavenumbers root ph.wavenumbers ∧
        VasprunVectors root numbers.length vectors ∧ vectors ≠ [] ∧
        ph.wavenumbers.length = vectors.length ∧
        List.Forall₂ (fun xs ds =>
          List.Forall₂ (fun x d => ∃ w, IsWeight x.2 w ∧ MassScaled a w x.1 d)
            (xs.zip numbers) ds) vectors ph.displacements := by
  have hl' : vasprunLattice root = .ok (rowsList (latticeRows a)) := (initialLattice_iff _ _).2 hl
  unfold vasprunReadPhonons
  constructor
  · intro h
    obtain ⟨symbols, hs, h⟩ := (bind_ok_iff _ _ _).1 h
    obtain ⟨ws, hw, h⟩ := (bind_ok_iff _ _ _).1 h
    obtain ⟨positions, hp, h⟩ := (bind_ok_iff _ _ _).1 h
    obtain ⟨wn, he, h⟩ := (bind_ok_iff _ _ _).1 h
    obtain ⟨eig, hv, h⟩ := (bind_ok_iff _ _ _).1 h
    obtain ⟨numbers, hsn⟩ := numbers_of_weights hw
    obtain ⟨ws', hw', hwn⟩ := weights_of_numbers hsn
    obtain rfl : ws' = ws := Except.ok.inj (hw'.symm.trans hw)
    have hatoms : AtomsAre IsNumber root numbers := (vasprunAtoms_iff _ _).1
      ⟨symbols, hs, (mapM_except_ok _ _ _).2 (hsn.imp fun _ _ h => numberOf_eq_ok.2 h)⟩
    unfold makeVasprunPhonons at h
    cases hm : positions.mapM toVec with
    | none => rw [hm] at h; cases h
    | some ps =>
      rw [hm] at h
      dsimp only at h
      split_ifs at h with hc
      push Not at hc
      obtain ⟨hps, heig, hwl, hel⟩ := hc
      obtain rfl := Except.ok.inj h
      obtain rfl := rows_of_mapM hm
      obtain ⟨vectors, h1, h2⟩ := (vasprunEigenvectors_iff ext root symbols hs _ hl' eig).1 hv
      rw [hsn.length_eq] at h1
      have hpl : ps.length = numbers.length := by rw [← hwl, hwn.length_eq]
      have hvne : vectors ≠ [] := by
        rintro rfl
        cases h2
        exact heig rfl
      obtain ⟨inv, hinv⟩ : ∃ inv, arrayInv ext (rowsList (latticeRows a)) = .ok inv := by
        cases h2 with
        | nil => exact absurd rfl hvne
        | cons hx _ =>
          obtain ⟨inv, hi, -⟩ := hx
          exact ⟨inv, hi⟩
      rcases arrayInv_cases ext a with ⟨-, h3⟩ | ⟨hdet, b, hba, h3⟩
      · rw [h3] at hinv; cases hinv
      refine ⟨hdet, numbers, vectors, hatoms, ?_, (vasprunInitialPositions_iff _ _).1 hp, hpl,
        (vasprunEigenvalues_iff _ _).1 he, h1, hvne, by rw [h2.length_eq, ← hel], ?_⟩
      · rintro rfl
        exact hps (List.length_eq_zero_iff.1 hpl)
      · dsimp only
        rw [List.forall₂_map_right_iff]
        refine h2.imp ?_
        rintro xs d ⟨inv', hi', rfl⟩
        rw [h3] at hi'
        rw [massScale_iff hba hwn, ← Except.ok.inj hi']
  · rintro ⟨hdet, numbers, vectors, hatoms, hn, hp, hpl, hw, hv, hvne, hlen, hd⟩
    obtain ⟨symbols, hs, hsn⟩ := (vasprunAtoms_iff _ _).2 hatoms
    have hsn := ((mapM_except_ok _ _ _).1 hsn).imp fun _ _ h => numberOf_eq_ok.1 h
    obtain ⟨ws, hws, hwn⟩ := weights_of_numbers hsn
    rcases arrayInv_cases ext a with ⟨h, -⟩ | ⟨-, b, hba, hinv⟩
    · exact absurd h hdet
    refine (bind_ok_iff _ _ _).2 ⟨symbols, hs, (bind_ok_iff _ _ _).2 ⟨ws, hws, (bind_ok_iff _ _ _).2
      ⟨_, (vasprunInitialPositions_iff _ _).2 hp, (bind_ok_iff _ _ _).2
      ⟨_, (vasprunEigenvalues_iff _ _).2 hw, (bind_ok_iff _ _ _).2
      ⟨vectors.map fun xs => xs.map (numVecMul · fun i j => some (b i j)),
        (vasprunEigenvectors_iff ext root symbols hs _ hl' _).2 ⟨vectors, ?_, ?_⟩, ?_⟩⟩⟩⟩⟩
    · rw [hsn.length_eq]; exact hv
    · rw [List.forall₂_map_right_iff]
      exact List.forall₂_same.2 fun xs _ => ⟨_, hinv, rfl⟩
    · unfold makeVasprunPhonons
      have : (rowsList ph.refPositions).mapM toVec = some ph.refPositions :=
        mapM_toVec_rows ph.refPositions
      rw [this]
      dsimp only
      rw [if_neg]
      · obtain ⟨rp, wn, ds⟩ := ph
        dsimp only at hd ⊢
        have hds : ds = vectors.map fun xs =>
            massScale ws (xs.map (numVecMul · fun i j => some (b i j))) :=
          forall₂_eq_map.1 (hd.imp fun xs d h => (massScale_iff hba hwn xs d).1 h)
        rw [hds, List.map_map]
        rfl
      · rintro (h | h | h | h)
        · rw [h] at hpl
          exact hn (List.length_eq_zero_iff.1 hpl.symm)
        · exact hvne (List.map_eq_nil_iff.1 h)
        · exact h (by rw [← hwn.length_eq, hpl])
        · exact h (by rw [List.length_map, hlen])

/-- C138, concrete: the wavenumber of a file with the eigenvalue `-4` is `2` in units of the constant,
without sign; the displacement is `1/2` divided by the square root of the mass. -/
example (ext : NumMat → Py NumMat) : ∃ ph,
    vasprunReadPhonons ext (sampleRoot (el "rc" none [el "c" (some "O ") []])) = .ok ph ∧
      ph.wavenumbers = [some (2 / 0.0299792458)] ∧ ph.displacements.length = 1 := by
  have hq : Real.sqrt |((-4 : ℚ) : ℝ)| = 2 := by
    push_cast
    rw [abs_neg, abs_of_pos (by norm_num : (0 : ℝ) < 4), show (4 : ℝ) = 2 ^ 2 by norm_num,
      Real.sqrt_sq (by norm_num)]
  have h1 : ∃ x, vasprunRefArgs (sampleRoot (el "rc" none [el "c" (some "O ") []])) = .ok x ∧
      x = ([8], [[some 2, some 0, some 0], [some 0, some 2, some 0], [some 0, some 0, some 2]],
        [[some (1 / 4), some (1 / 2), some 0]]) :=
    projOr_ok id ([], [], []) _ (by decide +kernel) (by simp)
  obtain ⟨x, h1, rfl⟩ := h1
  obtain ⟨ha, hl, hp⟩ := (C135_reference _ _ _ _).1 h1
  have hl' : InitialLattice (sampleRoot (el "rc" none [el "c" (some "O ") []]))
      (List.ofFn fun i => List.ofFn fun j =>
        some ((Matrix.diagonal fun _ => 2 : Matrix (Fin 3) (Fin 3) ℚ) i j)) := by
    simpa [Matrix.diagonal] using hl
  have hdet : (Matrix.diagonal fun _ => 2 : Matrix (Fin 3) (Fin 3) ℚ).det ≠ 0 := by
    simp [Matrix.det_diagonal]
  obtain ⟨symbols, -, hsn⟩ := (vasprunAtoms_iff _ _).2 ha
  obtain ⟨ws, -, hws⟩ := weights_of_numbers
    (((mapM_except_ok _ _ _).1 hsn).imp fun _ _ h => numberOf_eq_ok.1 h)
  rcases arrayInv_cases ext (Matrix.diagonal fun _ => 2) with ⟨h, -⟩ | ⟨-, b, hba, -⟩
  · exact absurd h hdet
  refine ⟨⟨[![some (1 / 4), some (1 / 2), some 0]], [some (2 / 0.0299792458)],
    [[![some 1, some 0, some 0]]].map fun xs =>
      massScale ws (xs.map (numVecMul · fun i j => some (b i j)))⟩,
    (C138_phonons ext _ _ hl' _).2 ⟨hdet, [8], [[![some 1, some 0, some 0]]], ha, by simp, hp, rfl,
      ⟨eln "v" "eigenvalues" (some "-4") [], [some (-4)], ?_, ⟨"-4".toList, rfl, ?_⟩, ?_⟩,
      ⟨eln "varray" "eigenvectors" none [el "v" (some "1 0 0") []], ?_,
        .cons ⟨⟨"1 0 0".toList, rfl, ?_⟩, rfl⟩ .nil⟩, by simp, rfl, ?_⟩, rfl, rfl⟩
  · exact (find_eigenvalues _ _).1 rfl
  · exact .cons (by decide +kernel) .nil
  · change [some _] = [some (Real.sqrt |((-4 : ℚ) : ℝ)| / _)]
    rw [hq]
  · exact (find_eigenvectors _ _).1 rfl
  · exact .cons (by decide +kernel) (.cons (by decide +kernel) (.cons (by decide +kernel) .nil))
  · dsimp only
    rw [List.forall₂_map_right_iff]
    exact List.forall₂_same.2 fun xs _ => (massScale_iff hba hws xs _).2 rfl

end Verif
