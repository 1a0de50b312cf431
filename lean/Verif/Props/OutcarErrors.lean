import Verif.Props.OutcarSteps

/-!
# Properties C68, C69, C70, C95: parts of OUTCAR files, and errors on arbitrary texts
-/

namespace Verif

/-! ## Parts of the file -/

/-- C68: the time step is the third word of the first line that mentions it. -/
theorem C68_timestep (pre rest : List (List Char)) (line : List Char)
    (hp : ∀ l ∈ pre, ¬ "time-step for ionic-motion".toList <:+: l)
    (hl : "time-step for ionic-motion".toList <:+: line) (a b w : Word) (ws : List Word)
    (hw : splitWs line = a :: b :: w :: ws) (t : Num) (ht : parseFloat w = some t) :
    readTimestep (pre ++ line :: rest) = .ok (t, rest) := by
  unfold readTimestep
  rw [orInvalid_skip_append hp hl]
  change (match (splitWs line)[2]? with
    | none => Except.error PyErr.invalidFile
    | some w => match parseFloat w with
      | none => Except.error PyErr.valueError
      | some x => Except.ok (x, rest) : Py (Num × List (List Char))) = _
  rw [hw]
  change (match parseFloat w with
      | none => Except.error PyErr.valueError
      | some x => Except.ok (x, rest) : Py (Num × List (List Char))) = _
  rw [ht]

/-- C69: the lattice consists of the three rows after the first heading of direct lattice vectors
that follows the line `Write flags`. -/
theorem C69_lattice (pre mid rest : List (List Char)) (flags header l0 l1 l2 : List Char)
    (hp : ∀ l ∈ pre, ¬ "Write flags".toList <:+: l) (hf : "Write flags".toList <:+: flags)
    (hm : ∀ l ∈ mid, ¬ "direct lattice vectors      ".toList <:+: l)
    (hh : "direct lattice vectors      ".toList <:+: header)
    (a : Matrix (Fin 3) (Fin 3) ℚ) (h0 : Spec.RowOf l0 fun j => some (a 0 j))
    (h1 : Spec.RowOf l1 fun j => some (a 1 j)) (h2 : Spec.RowOf l2 fun j => some (a 2 j)) :
    outcarReadLattice (pre ++ flags :: (mid ++ header :: l0 :: l1 :: l2 :: rest)) =
      .ok (List.ofFn fun i => List.ofFn fun j => some (a i j), rest) := by
  unfold outcarReadLattice
  rw [orInvalid_skip_append hp hf]
  change (orInvalid (skipUntil _ (mid ++ header :: l0 :: l1 :: l2 :: rest)) >>= _) = _
  rw [orInvalid_skip_append hm hh]
  exact readArray_append
    (List.Forall₂.cons h0 (List.Forall₂.cons h1 (List.Forall₂.cons h2 List.Forall₂.nil))) rest

/-- C70: the polarizability consists of the three rows after the line that follows the heading. -/
theorem C70_polarizability (pre rest : List (List Char)) (header sep l0 l1 l2 : List Char)
    (hp : ∀ l ∈ pre,
      ¬ "MACROSCOPIC STATIC DIELECTRIC TENSOR (including local field effects".toList <:+: l)
    (hh : "MACROSCOPIC STATIC DIELECTRIC TENSOR (including local field effects".toList <:+: header)
    (v0 v1 v2 : NumVec) (h0 : Spec.RowOf l0 v0) (h1 : Spec.RowOf l1 v1) (h2 : Spec.RowOf l2 v2) :
    outcarReadPolarizability (pre ++ header :: sep :: l0 :: l1 :: l2 :: rest) =
      .ok ([v0, v1, v2].map fun v => [v 0, v 1, v 2], rest) := by
  unfold outcarReadPolarizability
  rw [orInvalid_skip_append hp hh]
  exact readArray_append
    (List.Forall₂.cons h0 (List.Forall₂.cons h1 (List.Forall₂.cons h2 List.Forall₂.nil))) rest

/-! ## C95: errors -/

/-- Every error of the result is in `S`. -/
def OnlyErr {α : Type} (S : PyErr → Prop) (x : Py α) : Prop := ∀ e, x = .error e → S e

theorem OnlyErr.ok {α : Type} {S : PyErr → Prop} (a : α) : OnlyErr S (Except.ok a : Py α) := by
  intro e h; cases h

theorem OnlyErr.err {α : Type} {S : PyErr → Prop} {e : PyErr} (h : S e) :
    OnlyErr S (Except.error e : Py α) := by
  intro e' h'; rw [← Except.error.inj h']; exact h

theorem OnlyErr.bind {α β : Type} {S : PyErr → Prop} {x : Py α} {f : α → Py β}
    (hx : OnlyErr S x) (hf : ∀ a, x = .ok a → OnlyErr S (f a)) : OnlyErr S (x >>= f) := by
  cases x with
  | error e => intro e' h; exact hx e' (congrArg Except.error (Except.error.inj h))
  | ok a => exact hf a rfl

theorem OnlyErr.mono {α : Type} {S T : PyErr → Prop} {x : Py α} (h : OnlyErr S x)
    (hST : ∀ e, S e → T e) : OnlyErr T x := fun e he => hST e (h e he)

/-- `InvalidFileException` or `ValueError`. -/
def FileErr (e : PyErr) : Prop := e = .invalidFile ∨ e = .valueError

/-- These or `LinAlgError`. -/
def LatticeErr (e : PyErr) : Prop := FileErr e ∨ e = .linAlgError

theorem onlyErr_skip (c : List Char) (f : List (List Char)) :
    OnlyErr FileErr (orInvalid (skipUntil c f)) := by
  rcases orInvalid_skip_cases c f with ⟨h, -⟩ | ⟨_, _, _, h, -⟩
  · rw [h]; exact .err (Or.inl rfl)
  · rw [h]; exact .ok _

theorem onlyErr_readArray (n : ℕ) (f : List (List Char)) : OnlyErr FileErr (readArray n f) := by
  rcases readArray_cases n f with h | h | ⟨_, _, h, -⟩
  · rw [h]; exact .err (Or.inl rfl)
  · rw [h]; exact .err (Or.inr rfl)
  · rw [h]; exact .ok _

theorem onlyErr_symbols (f : List (List Char)) : OnlyErr FileErr (outcarSymbols f) := by
  rcases C67_errors f with ⟨_, _, h, -⟩ | h | ⟨h, -⟩
  · rw [h]; exact .ok _
  · rw [h]; exact .err (Or.inl rfl)
  · rw [h]; exact .err (Or.inr rfl)

theorem onlyErr_positions (f : List (List Char)) (n : ℕ) :
    OnlyErr FileErr (outcarReadPositions f n) :=
  .bind (onlyErr_skip _ _) fun _ _ => onlyErr_readArray _ _

theorem onlyErr_polarizability (f : List (List Char)) :
    OnlyErr FileErr (outcarReadPolarizability f) :=
  .bind (onlyErr_skip _ _) fun _ _ => onlyErr_readArray _ _

theorem onlyErr_lattice (f : List (List Char)) : OnlyErr FileErr (outcarReadLattice f) :=
  .bind (onlyErr_skip _ _) fun _ _ => .bind (onlyErr_skip _ _) fun _ _ => onlyErr_readArray _ _

theorem onlyErr_timestep (f : List (List Char)) : OnlyErr FileErr (readTimestep f) := by
  refine .bind (onlyErr_skip _ _) fun a _ => ?_
  obtain ⟨line, g⟩ := a
  dsimp only
  cases (splitWs line)[2]? with
  | none => exact .err (Or.inl rfl)
  | some w =>
    dsimp only
    cases parseFloat w with
    | none => exact .err (Or.inr rfl)
    | some x => exact .ok _

theorem onlyErr_numbers {f g : List (List Char)} {symbols : List Word}
    (h : outcarSymbols f = .ok (symbols, g)) (S : PyErr → Prop) :
    OnlyErr S (symbols.mapM numberOf) := by
  have hk := symbols_known h
  clear h
  induction symbols with
  | nil => exact .ok _
  | cons s ss ih =>
    rw [List.mapM_cons]
    obtain ⟨n, hn⟩ := hk s (by simp)
    refine .bind ?_ fun _ _ => .bind (ih fun x hx => hk x (by simp [hx])) fun _ _ => .ok _
    unfold numberOf
    rw [hn]
    exact .ok _

theorem onlyErr_arrayInv {ext : NumMat → Py NumMat} (hext : ∀ m, OnlyErr LatticeErr (ext m))
    (a : List (List Num)) : OnlyErr LatticeErr (arrayInv ext a) := by
  unfold arrayInv
  cases toMat a with
  | none => exact .err (Or.inr rfl)
  | some m =>
    dsimp only
    unfold numInv
    split_ifs with h
    · dsimp only
      split_ifs
      · exact .err (Or.inr rfl)
      · exact .ok _
    · exact hext m

theorem onlyErr_cartToFrac {ext : NumMat → Py NumMat} (hext : ∀ m, OnlyErr LatticeErr (ext m))
    (lattice cart : List (List Num)) : OnlyErr LatticeErr (cartToFrac ext lattice cart) := by
  refine .bind (onlyErr_arrayInv hext lattice) fun inv _ => ?_
  cases cart.mapM toVec with
  | none => exact .err (Or.inl (Or.inr rfl))
  | some vs =>
    dsimp only
    split_ifs
    · exact .err (Or.inl (Or.inr rfl))
    · exact .ok _

theorem onlyErr_stepLoop {ext : NumMat → Py NumMat} (hext : ∀ m, OnlyErr LatticeErr (ext m))
    (lattice : List (List Num)) (n fuel : ℕ) (ml : Bool) (f : List (List Char))
    (hf : f.length < fuel) : OnlyErr LatticeErr (stepLoop ext lattice n fuel ml f) := by
  induction fuel generalizing ml f with
  | zero => omega
  | succ fuel ih =>
    rw [stepLoop]
    rcases skipUntil_cases stepHeader f with ⟨h, -⟩ | ⟨l, g, h, hg⟩
    · rw [h]; exact .ok _
    · rw [h]
      dsimp only
      split_ifs
      · exact ih _ _ (by omega)
      · have hlen : (nextLine g).2.length ≤ g.length := by
          cases g with
          | nil => exact Nat.le_refl _
          | cons x g => exact Nat.le_succ _
        refine .bind ((onlyErr_readArray _ _).mono fun _ h => Or.inl h) fun x hx => ?_
        have hx' : x.2.length ≤ g.length := by
          rcases readArray_cases n (nextLine g).2 with h | h | ⟨_, _, h, -, -, h', -⟩
          · exact absurd (hx.symm.trans h) (by simp)
          · exact absurd (hx.symm.trans h) (by simp)
          · rw [Except.ok.inj (hx.symm.trans h)]
            exact h'.trans hlen
        exact .bind (onlyErr_cartToFrac hext lattice _) fun _ _ =>
          .bind (ih _ _ (by omega)) fun _ _ => .ok _

/-- C95: on any text, the readers of positions, structures and polarizabilities return or raise
`InvalidFileException` or `ValueError`. -/
theorem C95_structures (content : List Char) :
    OnlyErr FileErr (outcarPositions content) ∧
    OnlyErr FileErr (outcarPositionsAndPolarizability content) ∧
    OnlyErr FileErr (outcarStructureAndPolarizability content) ∧
    OnlyErr FileErr (outcarRefArgs content) := by
  refine ⟨?_, ?_, ?_, ?_⟩
  · exact .bind (onlyErr_symbols _) fun _ _ => .bind (onlyErr_positions _ _) fun _ _ => .ok _
  · exact .bind (onlyErr_symbols _) fun _ _ => .bind (onlyErr_positions _ _) fun _ _ =>
      .bind (onlyErr_polarizability _) fun _ _ => .ok _
  · exact .bind (onlyErr_symbols _) fun _ h => .bind (onlyErr_numbers h _) fun _ _ =>
      .bind (onlyErr_lattice _) fun _ _ => .bind (onlyErr_positions _ _) fun _ _ =>
      .bind (onlyErr_polarizability _) fun _ _ => .ok _
  · exact .bind (onlyErr_symbols _) fun _ h => .bind (onlyErr_numbers h _) fun _ _ =>
      .bind (onlyErr_lattice _) fun _ _ => .bind (onlyErr_positions _ _) fun _ _ => .ok _

/-- C95: on any text, `read_trajectory` terminates: it returns or raises `InvalidFileException`,
`ValueError` or `LinAlgError` (the model leaves out only time steps that are not finite). -/
theorem C95_trajectory (ext : NumMat → Py NumMat) (hext : ∀ m, OnlyErr LatticeErr (ext m))
    (content : List Char) :
    OnlyErr LatticeErr (outcarReadTrajectory ext content) ∨
      ∃ symbols f g, outcarSymbols (fileLines content) = .ok (symbols, f) ∧
        readTimestep f = .ok (none, g) := by
  by_cases hn : ∃ symbols f g, outcarSymbols (fileLines content) = .ok (symbols, f) ∧
    readTimestep f = .ok (none, g)
  · exact Or.inr hn
  refine Or.inl ?_
  have hl : ∀ {α : Type} {x : Py α}, OnlyErr FileErr x → OnlyErr LatticeErr x :=
    fun h => h.mono fun _ h => Or.inl h
  refine .bind (hl (onlyErr_symbols _)) fun a ha => .bind (hl (onlyErr_timestep _)) fun t ht =>
    .bind (hl (onlyErr_lattice _)) fun b _ =>
    .bind (onlyErr_stepLoop hext _ _ _ _ _ (Nat.lt_succ_self _)) fun ps _ => ?_
  split_ifs
  · exact .err (Or.inl (Or.inl rfl))
  · unfold makeTrajectory
    obtain ⟨t, g⟩ := t
    cases t with
    | none => exact absurd ⟨_, _, _, ha, ht⟩ hn
    | some t =>
      dsimp only
      split_ifs
      · exact .err (Or.inl (Or.inr rfl))
      · exact .ok _

theorem onlyErr_readEigenvector {ext : NumMat → Py NumMat}
    (hext : ∀ m, OnlyErr LatticeErr (ext m)) (b : Bool) (lattice : List (List Num)) (n : ℕ)
    (f : List (List Char)) : OnlyErr LatticeErr (readEigenvector b ext lattice n f) := by
  induction f generalizing n with
  | nil => cases n <;> exact .ok _
  | cons l f ih =>
    cases n with
    | zero => exact .ok _
    | succ n =>
      rw [readEigenvector]
      split_ifs
      · exact ih _
      · refine .bind ?_ fun _ _ => .bind (ih _) fun _ _ => .ok _
        have : OnlyErr LatticeErr (eigenRow ext lattice l) := by
          unfold eigenRow
          cases parseFloats ((splitWs l).drop 3) with
          | none => exact .err (Or.inl (Or.inr rfl))
          | some xs =>
            refine .bind (onlyErr_arrayInv hext _) fun _ _ => ?_
            cases toVec xs with
            | none => exact .err (Or.inl (Or.inr rfl))
            | some v => exact .ok _
        cases he : eigenRow ext lattice l with
        | ok v => exact .ok _
        | error e =>
          rcases this e he with (rfl | rfl) | rfl
          · exact .err (Or.inl (Or.inl rfl))
          · exact .err (Or.inl (Or.inl rfl))
          · cases b
            · exact .err (Or.inr rfl)
            · exact .err (Or.inl (Or.inl rfl))

theorem onlyErr_readModes {ext : NumMat → Py NumMat}
    (hext : ∀ m, OnlyErr LatticeErr (ext m)) (b : Bool) (lattice : List (List Num)) (n k : ℕ)
    (f : List (List Char)) : OnlyErr LatticeErr (readModes b ext lattice n k f) := by
  induction k generalizing f with
  | zero => exact .ok _
  | succ k ih =>
    refine .bind ((onlyErr_skip _ _).mono fun _ h => Or.inl h) fun x _ => .bind ?_ fun _ _ =>
      .bind (onlyErr_readEigenvector hext _ _ _ _) fun _ _ => .bind (ih _) fun _ _ => .ok _
    unfold eigenvalue
    split_ifs
    · cases (splitWs x.1)[6]? with
      | none => exact .err (Or.inl (Or.inl rfl))
      | some w =>
        dsimp only
        cases parseFloat w with
        | none => exact .err (Or.inl (Or.inr rfl))
        | some x => exact .ok _
    · cases (splitWs x.1)[7]? with
      | none => exact .err (Or.inl (Or.inl rfl))
      | some w =>
        dsimp only
        cases parseFloat w with
        | none => exact .err (Or.inl (Or.inr rfl))
        | some x => exact .ok _

/-- C95: on any text, `read_phonons` returns or raises `InvalidFileException`, `ValueError` or
`LinAlgError`; atomic weights are never missing. -/
theorem C95_phonons (linAlgIsValue : Bool) (ext : NumMat → Py NumMat)
    (hext : ∀ m, OnlyErr LatticeErr (ext m)) (content : List Char) :
    OnlyErr LatticeErr (outcarReadPhonons linAlgIsValue ext content) := by
  have hl : ∀ {α : Type} {x : Py α}, OnlyErr FileErr x → OnlyErr LatticeErr x :=
    fun h => h.mono fun _ h => Or.inl h
  refine .bind (hl (onlyErr_symbols _)) fun a ha => .bind ?_ fun _ _ =>
    .bind (hl (onlyErr_lattice _)) fun b _ => .bind (hl (onlyErr_positions _ _)) fun _ _ =>
    .bind (hl (onlyErr_skip _ _)) fun _ _ => .bind (onlyErr_readModes hext _ _ _ _ _)
    fun ms _ => ?_
  · obtain ⟨ws, hws, -⟩ := weights_of_symbols (symbols_known ha)
    rw [hws]
    exact .ok _
  · unfold makePhonons
    split
    · exact .err (Or.inl (Or.inr rfl))
    · split_ifs
      · exact .err (Or.inl (Or.inr rfl))
      · exact .ok _

/-- C95: `ValueError` does occur: counts that are not integers are not reported as an invalid
file. -/
theorem C95_value_error : ∃ content, (match outcarPositions content with
    | .error .valueError => true
    | _ => false) = true := by
  refine ⟨(" POTCAR:    PAW_PBE O 08Apr2002\n\n\n ions per type = 1 x\n").toList, ?_⟩
  decide +kernel

/-- C95, concrete: a trajectory of one atom in a cubic cell, two steps. -/
example : (match outcarReadTrajectory (fun _ => .error .linAlgError)
    (" POTCAR:    PAW_PBE O 08Apr2002\n\n\n ions per type = 1\n POTIM = 0.5 time-step for ionic-motion\n"
    ++ " Write flags\n direct lattice vectors      \n 2 0 0\n 0 2 0\n 0 0 2\n"
    ++ " POSITION                                       TOTAL-FORCE (eV/Angst)\n ---\n 1 3 0 0 0 0\n"
    ++ " POSITION                                       TOTAL-FORCE (eV/Angst)\n ---\n -1 0 1\n").toList
    with
    | .ok t => some (t.timestep, t.positionsTs.map (·.map fun p => [p 0, p 1, p 2]))
    | .error _ => none) =
    some (1 / 2, [[[some (1 / 2), some (1 / 2), some 0]], [[some (1 / 2), some 0, some (1 / 2)]]]) := by
  decide +kernel

end Verif
