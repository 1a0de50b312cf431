import Verif.Props.Vasprun

/-!
# Properties C96, C97: phonons in `vasprun.xml` files, errors on arbitrary trees
-/

namespace Verif

/-! ## C96: phonons -/

/-- The atomic symbols of a file. -/
def SymbolsOf (root : Elem) (symbols : List Word) : Prop :=
  ∃ s, Spec.FirstChain [Spec.Tag "atominfo", Spec.Tag "array", Spec.Tag "set"] root s ∧
    List.Forall₂ (fun (child : Elem) sym => ∃ c rest t, child.children = c :: rest ∧
      c.text = some t ∧ sym = strip t) s.children symbols

theorem atomEntry_iff (child : Elem) (sym : Word) :
    atomEntry child = .ok sym ↔
      ∃ c rest t, child.children = c :: rest ∧ c.text = some t ∧ sym = strip t := by
  unfold atomEntry
  cases child.children with
  | nil =>
    constructor
    · intro h; cases h
    · rintro ⟨c, rest, t, h, -⟩; cases h
  | cons c rest =>
    dsimp only
    cases ht : c.text with
    | none =>
      constructor
      · intro h; cases h
      · rintro ⟨c', rest', t, h, h', -⟩
        obtain ⟨rfl, rfl⟩ := List.cons.inj h
        rw [ht] at h'; cases h'
    | some t =>
      constructor
      · intro h
        exact ⟨c, rest, t, rfl, ht, (Except.ok.inj h).symm⟩
      · rintro ⟨c', rest', t', h, h', rfl⟩
        obtain ⟨rfl, rfl⟩ := List.cons.inj h
        rw [ht] at h'
        rw [Option.some.inj h']

theorem vasprunSymbols_iff (root : Elem) (symbols : List Word) :
    vasprunSymbols root = .ok symbols ↔ SymbolsOf root symbols := by
  unfold vasprunSymbols SymbolsOf
  have hfind : ∀ e, root.find [plain "atominfo", plain "array", plain "set"] = some e ↔
      Spec.FirstChain [Spec.Tag "atominfo", Spec.Tag "array", Spec.Tag "set"] root e := by
    intro e
    rw [find_chain_iff]
    simp only [List.map_cons, List.map_nil, plain_pred]
  simp only [← hfind]
  cases root.find [plain "atominfo", plain "array", plain "set"] with
  | none =>
    constructor
    · intro h; cases h
    · rintro ⟨s, h, -⟩; cases h
  | some s =>
    dsimp only
    rw [mapM_except_ok]
    simp only [atomEntry_iff]
    constructor
    · intro h; exact ⟨s, rfl, h⟩
    · rintro ⟨s', h, h'⟩; rw [Option.some.inj h]; exact h'

theorem reshape3_ok {n : ℕ} {xs : List Num} {vs : List NumVec} (h : reshape3 n xs = .ok vs) :
    vs.length = n ∧ xs = vs.flatMap fun v => [v 0, v 1, v 2] := by
  induction n generalizing xs vs with
  | zero =>
    cases xs with
    | nil => rw [← Except.ok.inj h]; exact ⟨rfl, rfl⟩
    | cons x xs => cases h
  | succ n ih =>
    rcases xs with _ | ⟨x, _ | ⟨y, _ | ⟨z, rest⟩⟩⟩
    · cases h
    · cases h
    · cases h
    · rw [reshape3] at h
      cases hr : reshape3 n rest with
      | error e => rw [hr] at h; cases h
      | ok ws =>
        rw [hr] at h
        obtain ⟨h1, h2⟩ := ih hr
        rw [← Except.ok.inj h]
        refine ⟨by rw [List.length_cons, h1], ?_⟩
        rw [List.flatMap_cons, ← h2]
        rfl

theorem reshape3_flatMap (vs : List NumVec) :
    reshape3 vs.length (vs.flatMap fun v => [v 0, v 1, v 2]) = .ok vs := by
  induction vs with
  | nil => rfl
  | cons v vs ih =>
    rw [List.length_cons, List.flatMap_cons]
    change (reshape3 vs.length (vs.flatMap fun v => [v 0, v 1, v 2]) >>= _) = _
    rw [ih]
    change Except.ok _ = Except.ok _
    congr 2
    funext i
    fin_cases i <;> rfl

theorem massScale_num {symbols : List Word} {ws : List ℚ}
    (hws : List.Forall₂ (fun s w => dictGet atomicWeights s = some w ∧ 0 < w) symbols ws)
    {a b : Matrix (Fin 3) (Fin 3) ℚ} (hba : b * a = 1) {vs : List NumVec}
    (hlen : vs.length = symbols.length) :
    List.Forall₂ (fun (r : NumVec × Word) d => ∃ w, dictGet atomicWeights r.2 = some w ∧
        ∀ x : Fin 3 → ℚ, (r.1 = fun i => some (x i)) → ∃ y : Fin 3 → ℝ, (d = fun i => some (y i)) ∧
          ∀ k, ∑ i, (y i * Real.sqrt w) * a i k = x k)
      (vs.zip symbols)
      (massScale ws (vs.map fun v => numVecMul v fun i j => some (b i j))) := by
  induction vs generalizing symbols ws with
  | nil => exact List.Forall₂.nil
  | cons v vs ih =>
    cases hws with
    | nil => cases hlen
    | @cons s w symbols ws hs hws =>
      refine List.Forall₂.cons ?_ (ih hws (by simpa using hlen))
      refine ⟨w, hs.1, ?_⟩
      rintro x rfl
      refine ⟨fun i => ((∑ j, x j * b j i : ℚ) : ℝ) / Real.sqrt w, ?_, ?_⟩
      · dsimp only
        rw [numVecMul_finite]
        rfl
      · intro k
        have hw : Real.sqrt (w : ℝ) ≠ 0 := by
          rw [Real.sqrt_ne_zero']
          exact_mod_cast hs.2
        have := vecMul_inv hba x k
        rw [← this]
        push_cast
        refine Finset.sum_congr rfl fun i _ => ?_
        rw [div_mul_cancel₀ _ hw]

/-- The elements holding the lattice and the eigenvectors. -/
def LatticeOf (root : Elem) (rows : List (List Num)) : Prop :=
  ∃ v, Spec.FirstChain [Spec.TagNamed "structure" "initialpos", Spec.Tag "crystal",
    Spec.TagNamed "varray" "basis"] root v ∧ Spec.RowsOf v rows

theorem vasprunLattice_iff (root : Elem) (rows : List (List Num)) :
    vasprunLattice root = .ok rows ↔ LatticeOf root rows := by
  unfold vasprunLattice LatticeOf
  rw [findVarray_iff]
  refine exists_congr fun v => and_congr ?_ Iff.rfl
  rw [find_chain_iff]
  simp only [List.map_cons, List.map_nil, plain_pred, named_pred]

theorem weights_of_ok {symbols : List Word} {ws : List ℚ} (h : symbols.mapM weightOf = .ok ws) :
    List.Forall₂ (fun s w => dictGet atomicWeights s = some w ∧ 0 < w) symbols ws := by
  refine ((mapM_except_ok _ _ _).1 h).imp fun s w hs => ?_
  unfold weightOf at hs
  cases hd : dictGet atomicWeights s with
  | none => rw [hd] at hs; cases hs
  | some w' =>
    rw [hd] at hs
    obtain rfl := Except.ok.inj hs
    exact ⟨rfl, (C90_weights s).2 w' hd⟩

/-- C96: whatever the file (with a finite lattice), the phonons returned are complete and the
displacements, multiplied by the square root of the mass and the lattice, are the eigenvectors
listed. -/
theorem C96_phonons (ext : NumMat → Py NumMat) (root : Elem) (ph : VasprunPhonons)
    (h : vasprunReadPhonons ext root = .ok ph) (a : Matrix (Fin 3) (Fin 3) ℚ)
    (ha : LatticeOf root (List.ofFn fun i => List.ofFn fun j => some (a i j))) :
    a.det ≠ 0 ∧ ∃ symbols e, SymbolsOf root symbols ∧ symbols ≠ [] ∧
      Spec.FirstChain [Spec.Tag "calculation", Spec.Tag "dynmat",
        Spec.TagNamed "varray" "eigenvectors"] root e ∧
      ph.refPositions.length = symbols.length ∧
      ph.wavenumbers.length = ph.displacements.length ∧ ph.displacements ≠ [] ∧
      List.Forall₂ (fun (v : Elem) d => ∃ xs : List NumVec,
        Spec.NumbersOf v (xs.flatMap fun x => [x 0, x 1, x 2]) ∧ xs.length = symbols.length ∧
        List.Forall₂ (fun (r : NumVec × Word) d => ∃ w, dictGet atomicWeights r.2 = some w ∧
          ∀ x : Fin 3 → ℚ, (r.1 = fun i => some (x i)) →
            ∃ y : Fin 3 → ℝ, (d = fun i => some (y i)) ∧
              ∀ k, ∑ i, (y i * Real.sqrt w) * a i k = x k) (xs.zip symbols) d)
        e.children ph.displacements := by
  unfold vasprunReadPhonons at h
  cases hs : vasprunSymbols root with
  | error e => rw [hs] at h; cases h
  | ok symbols =>
  rw [hs] at h
  change (symbols.mapM weightOf >>= _) = _ at h
  cases hw : symbols.mapM weightOf with
  | error e => rw [hw] at h; cases h
  | ok ws =>
  have hws := weights_of_ok hw
  rw [hw] at h
  change (vasprunInitialPositions root >>= _) = _ at h
  cases hp : vasprunInitialPositions root with
  | error e => rw [hp] at h; cases h
  | ok positions =>
  rw [hp] at h
  change (vasprunEigenvalues root >>= _) = _ at h
  cases he : vasprunEigenvalues root with
  | error e => rw [he] at h; cases h
  | ok wn =>
  rw [he] at h
  change (vasprunEigenvectors ext root >>= _) = _ at h
  cases hv : vasprunEigenvectors ext root with
  | error e => rw [hv] at h; cases h
  | ok eig =>
  rw [hv] at h
  change makeVasprunPhonons ws positions wn eig = _ at h
  unfold makeVasprunPhonons at h
  cases hm : positions.mapM toVec with
  | none => rw [hm] at h; cases h
  | some ps =>
  rw [hm] at h
  dsimp only at h
  split_ifs at h with hc
  push Not at hc
  obtain ⟨hps, heig, hwl, hel⟩ := hc
  obtain rfl := Except.ok.inj h
  have hsl : symbols.length = ps.length := by rw [hws.length_eq, hwl]
  unfold vasprunEigenvectors at hv
  rw [(vasprunLattice_iff root _).2 ha] at hv
  change (vasprunSymbols root >>= _) = _ at hv
  rw [hs] at hv
  cases hf : root.find [plain "calculation", plain "dynmat", named "varray" "eigenvectors"] with
  | none =>
    have : (Except.error PyErr.invalidFile : Py (List (List NumVec))) = .ok eig := by
      rw [← hv]
      change _ = (match root.find [plain "calculation", plain "dynmat",
        named "varray" "eigenvectors"] with
        | none => Except.error PyErr.invalidFile
        | some e => _)
      rw [hf]
    cases this
  | some e =>
  have hv2 : e.children.mapM (vasprunEigenvector ext
      (List.ofFn fun i => List.ofFn fun j => some (a i j)) symbols.length) = .ok eig := by
    rw [← hv]
    change _ = (match root.find [plain "calculation", plain "dynmat",
      named "varray" "eigenvectors"] with
      | none => Except.error PyErr.invalidFile
      | some e => _)
    rw [hf]
  have hall := (mapM_except_ok _ _ _).1 hv2
  have hone : ∀ v d, vasprunEigenvector ext
      (List.ofFn fun i => List.ofFn fun j => some (a i j)) symbols.length v = .ok d →
      ∃ (xs : List NumVec) (inv : NumMat),
        Spec.NumbersOf v (xs.flatMap fun x => [x 0, x 1, x 2]) ∧
        xs.length = symbols.length ∧
        arrayInv ext (List.ofFn fun i => List.ofFn fun j => some (a i j)) = .ok inv ∧
        d = xs.map (numVecMul · inv) := by
    intro v d hd
    unfold vasprunEigenvector at hd
    cases h1 : varrayRow v with
    | error e => rw [h1] at hd; cases hd
    | ok row =>
      rw [h1] at hd
      change (reshape3 symbols.length row >>= _) = _ at hd
      cases h2 : reshape3 symbols.length row with
      | error e => rw [h2] at hd; cases hd
      | ok xs =>
        rw [h2] at hd
        change (arrayInv ext _ >>= _) = _ at hd
        cases h3 : arrayInv ext (List.ofFn fun i => List.ofFn fun j => some (a i j)) with
        | error e => rw [h3] at hd; cases hd
        | ok inv =>
          rw [h3] at hd
          obtain ⟨hl, hx⟩ := reshape3_ok h2
          refine ⟨xs, inv, ?_, hl, rfl, (Except.ok.inj hd).symm⟩
          rw [← hx]
          exact (varrayRow_iff _ _).1 h1
  have hdet : a.det ≠ 0 := by
    intro h0
    generalize e.children = cs at hall
    cases hall with
    | nil => exact heig rfl
    | cons hd _ =>
      obtain ⟨xs, inv, -, -, hinv, -⟩ := hone _ _ hd
      have hto : toMat (List.ofFn fun i => List.ofFn fun j => some (a i j)) =
          some fun i j => some (a i j) := by
        change some (![![some (a 0 0), some (a 0 1), some (a 0 2)],
          ![some (a 1 0), some (a 1 1), some (a 1 2)],
          ![some (a 2 0), some (a 2 1), some (a 2 2)]] : NumMat) = _
        congr 1
        funext i j
        fin_cases i <;> fin_cases j <;> rfl
      unfold arrayInv at hinv
      rw [hto] at hinv
      dsimp only at hinv
      rcases numInv_finite ext a with ⟨-, h⟩ | ⟨h, -⟩
      · rw [h] at hinv; cases hinv
      · exact h h0
  obtain ⟨b, hba, hb⟩ := arrayInv_of_mat ext a hdet
  refine ⟨hdet, symbols, e, (vasprunSymbols_iff _ _).1 hs, ?_, ?_, hsl.symm, ?_, ?_, ?_⟩
  · rintro rfl
    exact hps (List.length_eq_zero_iff.1 hsl.symm)
  · rw [find_chain_iff] at hf
    simpa only [List.map_cons, List.map_nil, plain_pred, named_pred] using hf
  · rw [List.length_map, hel]
  · intro hn
    exact heig (List.map_eq_nil_iff.1 hn)
  · rw [List.forall₂_map_right_iff]
    refine hall.imp fun v d hd => ?_
    obtain ⟨xs, inv, hx, hl, hinv, rfl⟩ := hone v d hd
    rw [hb] at hinv
    obtain rfl := Except.ok.inj hinv
    exact ⟨xs, hx, hl, massScale_num hws hba hl⟩

/-! ## C97: errors -/

/-- `InvalidFileException`, `ValueError`, `IndexError` or `KeyError`. -/
def TreeErr (e : PyErr) : Prop := FileErr e ∨ e = .indexError ∨ e = .keyError

/-- These or `LinAlgError`. -/
def TreeLatticeErr (e : PyErr) : Prop := TreeErr e ∨ e = .linAlgError

theorem onlyErr_vasprunSymbols (root : Elem) : OnlyErr TreeErr (vasprunSymbols root) := by
  unfold vasprunSymbols
  cases root.find [plain "atominfo", plain "array", plain "set"] with
  | none => exact .err (Or.inl (Or.inl rfl))
  | some s =>
    refine onlyErr_mapM fun c _ => ?_
    unfold atomEntry
    cases c.children with
    | nil => exact .err (Or.inr (Or.inl rfl))
    | cons x _ =>
      dsimp only
      cases x.text with
      | none => exact .err (Or.inl (Or.inl rfl))
      | some t => exact .ok _

theorem onlyErr_numberOf (symbols : List Word) : OnlyErr TreeErr (symbols.mapM numberOf) := by
  refine onlyErr_mapM fun s _ => ?_
  unfold numberOf
  cases dictGet atomicNumbers s with
  | none => exact .err (Or.inr (Or.inr rfl))
  | some n => exact .ok _

theorem onlyErr_vasprunTimestep (root : Elem) : OnlyErr FileErr (vasprunTimestep root) := by
  unfold vasprunTimestep
  cases root.find [plain "parameters", named "separator" "ionic", named "i" "POTIM"] with
  | none => exact .err (Or.inl rfl)
  | some e =>
    dsimp only
    cases e.text with
    | none => exact .err (Or.inl rfl)
    | some t =>
      dsimp only
      cases parseFloat (strip t) with
      | none => exact .err (Or.inr rfl)
      | some x => exact .ok _

/-- C97: on any tree, positions and polarizabilities are returned or `InvalidFileException` or
`ValueError` is raised; reading structures may also raise `IndexError` or `KeyError`. -/
theorem C97_structures (root : Elem) :
    OnlyErr FileErr (vasprunPositions root) ∧
    OnlyErr FileErr (vasprunPositionsAndPolarizability root) ∧
    OnlyErr TreeErr (vasprunStructureAndPolarizability root) ∧
    OnlyErr TreeErr (vasprunRefArgs root) := by
  have hl : ∀ {α : Type} {x : Py α}, OnlyErr FileErr x → OnlyErr TreeErr x :=
    fun h => h.mono fun _ h => Or.inl h
  refine ⟨onlyErr_findVarray _ _, ?_, ?_, ?_⟩
  · exact .bind (onlyErr_findVarray _ _) fun _ _ => .bind (onlyErr_findVarray _ _) fun _ _ => .ok _
  · exact .bind (onlyErr_vasprunSymbols _) fun _ _ => .bind (onlyErr_numberOf _) fun _ _ =>
      .bind (hl (onlyErr_findVarray _ _)) fun _ _ => .bind (hl (onlyErr_findVarray _ _)) fun _ _ =>
      .bind (hl (onlyErr_findVarray _ _)) fun _ _ => .ok _
  · exact .bind (onlyErr_vasprunSymbols _) fun _ _ => .bind (onlyErr_numberOf _) fun _ _ =>
      .bind (hl (onlyErr_findVarray _ _)) fun _ _ => .bind (hl (onlyErr_findVarray _ _)) fun _ _ =>
      .ok _

/-- C97: trajectories are returned or refused with `InvalidFileException` or `ValueError` (the model
leaves out only time steps that are not finite). -/
theorem C97_trajectory (root : Elem) (hfin : vasprunTimestep root ≠ .ok none) :
    OnlyErr FileErr (vasprunTrajectory root) := by
  refine .bind (onlyErr_mapM fun s _ => onlyErr_findVarray _ _) fun frames _ => ?_
  split_ifs
  · exact .err (Or.inl rfl)
  · refine .bind (onlyErr_vasprunTimestep root) fun t ht => .bind ?_ fun ps _ => ?_
    · unfold stackPositions
      split
      · exact .err (Or.inr rfl)
      · exact .ok _
      · split_ifs
        · exact .ok _
        · exact .err (Or.inr rfl)
    · cases t with
      | none => exact absurd ht hfin
      | some t =>
        unfold makeTrajectory
        dsimp only
        split_ifs
        · exact .err (Or.inr rfl)
        · exact .ok _

/-- C97: phonons are returned or one of these errors is raised, or `LinAlgError`. -/
theorem C97_phonons (ext : NumMat → Py NumMat) (hext : ∀ m, OnlyErr LatticeErr (ext m))
    (root : Elem) : OnlyErr TreeLatticeErr (vasprunReadPhonons ext root) := by
  have hl : ∀ {α : Type} {x : Py α}, OnlyErr FileErr x → OnlyErr TreeLatticeErr x :=
    fun h => h.mono fun _ h => Or.inl (Or.inl h)
  have hl2 : ∀ {α : Type} {x : Py α}, OnlyErr TreeErr x → OnlyErr TreeLatticeErr x :=
    fun h => h.mono fun _ h => Or.inl h
  have hl3 : ∀ {α : Type} {x : Py α}, OnlyErr LatticeErr x → OnlyErr TreeLatticeErr x :=
    fun h => h.mono fun _ h => h.elim (fun h => Or.inl (Or.inl h)) Or.inr
  have hr : ∀ n xs, OnlyErr FileErr (reshape3 n xs) := by
    intro n
    induction n with
    | zero =>
      intro xs
      cases xs with
      | nil => exact .ok _
      | cons x xs => exact .err (Or.inr rfl)
    | succ n ih =>
      intro xs
      rcases xs with _ | ⟨x, _ | ⟨y, _ | ⟨z, rest⟩⟩⟩
      · exact .err (Or.inr rfl)
      · exact .err (Or.inr rfl)
      · exact .err (Or.inr rfl)
      · exact .bind (ih rest) fun _ _ => .ok _
  refine .bind (hl2 (onlyErr_vasprunSymbols _)) fun symbols _ => .bind (hl2 ?_) fun ws _ =>
    .bind (hl (onlyErr_findVarray _ _)) fun positions _ => .bind (hl ?_) fun wn _ =>
    .bind ?_ fun eig _ => ?_
  · refine onlyErr_mapM fun s _ => ?_
    unfold weightOf
    cases dictGet atomicWeights s with
    | none => exact .err (Or.inr (Or.inr rfl))
    | some n => exact .ok _
  · unfold vasprunEigenvalues
    cases root.find [plain "calculation", plain "dynmat", named "v" "eigenvalues"] with
    | none => exact .err (Or.inl rfl)
    | some e =>
      dsimp only
      cases e.text with
      | none => exact .err (Or.inl rfl)
      | some t =>
        dsimp only
        cases parseFloats (splitWs t) with
        | none => exact .err (Or.inr rfl)
        | some xs => exact .ok _
  · refine .bind (hl (onlyErr_findVarray _ _)) fun lattice _ =>
      .bind (hl2 (onlyErr_vasprunSymbols _)) fun symbols _ => ?_
    cases root.find [plain "calculation", plain "dynmat", named "varray" "eigenvectors"] with
    | none => exact .err (Or.inl (Or.inl (Or.inl rfl)))
    | some e =>
      refine onlyErr_mapM fun v _ => ?_
      exact .bind (hl (onlyErr_varrayRow _)) fun _ _ => .bind (hl (hr _ _)) fun _ _ =>
        .bind (hl3 (onlyErr_arrayInv hext _)) fun _ _ => .ok _
  · unfold makeVasprunPhonons
    split
    · exact .err (Or.inl (Or.inl (Or.inr rfl)))
    · split_ifs
      · exact .err (Or.inl (Or.inl (Or.inr rfl)))
      · exact .ok _

/-- An element without attributes. -/
def el (tag : String) (text : Option String) (children : List Elem) : Elem :=
  .mk tag.toList [] (text.map String.toList) children

/-- An element with a name. -/
def eln (tag name : String) (text : Option String) (children : List Elem) : Elem :=
  .mk tag.toList [("name".toList, name.toList)] (text.map String.toList) children

/-- A file with one atom, a cubic cell and one mode. -/
def sampleRoot (symbol : Elem) : Elem :=
  el "modeling" none [
    el "parameters" none [eln "separator" "ionic" none [eln "i" "POTIM" (some " 0.5 ") []]],
    el "atominfo" none [el "array" none [el "set" none [symbol]]],
    eln "structure" "initialpos" none [
      el "crystal" none [eln "varray" "basis" none [el "v" (some "2 0 0") [],
        el "v" (some "0 2 0") [], el "v" (some "0 0 2") []]],
      eln "varray" "positions" none [el "v" (some "0.25 0.5 0") []]],
    el "structure" none [eln "varray" "positions" none [el "v" (some "0.5 1.5 0") []]],
    el "structure" none [eln "varray" "positions" none [el "v" (some "-0.25 0 0") []]],
    el "calculation" none [el "dynmat" none [eln "v" "eigenvalues" (some "-4") [],
      eln "varray" "eigenvectors" none [el "v" (some "1 0 0") []]]]]

/-- C97: entries without children give `IndexError`, unknown symbols `KeyError`: neither is reported
as an invalid file. -/
theorem C97_other_errors :
    vasprunRefArgs (sampleRoot (el "rc" none [])) = .error .indexError ∧
    vasprunRefArgs (sampleRoot (el "rc" none [el "c" (some "Xx ") []])) = .error .keyError := by
  constructor
  · rfl
  · have h2 : ["Xx".toList].mapM numberOf = .error .keyError := by decide +kernel
    have h : vasprunSymbols (sampleRoot (el "rc" none [el "c" (some "Xx ") []])) =
        .ok ["Xx".toList] := rfl
    unfold vasprunRefArgs
    rw [h]
    dsimp only [bind, Except.bind]
    rw [h2]

/-- C72, concrete: the trajectory has the two unnamed structures, wrapped. -/
example : (match vasprunTrajectory (sampleRoot (el "rc" none [el "c" (some "O ") []])) with
    | .ok t => some (t.timestep, t.positionsTs.map (·.map fun p => [p 0, p 1, p 2]))
    | .error _ => none) =
    some (1 / 2, [[[some (1 / 2), some (1 / 2), some 0]], [[some (3 / 4), some 0, some 0]]]) := by
  decide +kernel

/-- C96, concrete: eigenvectors in lattice coordinates. -/
example : (match vasprunEigenvectors (fun _ => .error .linAlgError)
      (sampleRoot (el "rc" none [el "c" (some "O ") []])) with
    | .ok t => t.map (·.map fun p => [p 0, p 1, p 2])
    | .error _ => []) = [[[some (1 / 2), some 0, some 0]]] := by
  decide +kernel

end Verif
