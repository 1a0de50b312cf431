import Verif.Proofs.Undecodable

/-!
# Reading functions on files that end regularly
-/

namespace Verif

variable {α β : Type}

/-- Class of an exception, `none` for `UnboundLocalError`. -/
def ReadErr.cls : ReadErr → Option PyErr
  | .raised e _ => some e
  | .unbound => none

/-- Same value or same class of exception. -/
def Seen (r : Except ReadErr α) (o : Py α) : Prop := r.mapError ReadErr.cls = o.mapError some

theorem seen_ok {x : α} : Seen (.ok x) (.ok x) := rfl

theorem seen_error {e : PyErr} {msg : List Char} :
    Seen (.error (.raised e msg) : Except ReadErr α) (.error e) := rfl

theorem seen_cases {r : Except ReadErr α} {o : Py α} (h : Seen r o) :
    (∃ x, r = .ok x ∧ o = .ok x) ∨ ∃ e msg, r = .error (.raised e msg) ∧ o = .error e := by
  unfold Seen at h
  cases r with
  | ok x =>
    cases o with
    | ok y => cases h; exact .inl ⟨x, rfl, rfl⟩
    | error e => cases h
  | error e =>
    cases o with
    | ok y => cases h
    | error e' =>
      cases e with
      | raised e msg => cases h; exact .inr ⟨_, msg, rfl, rfl⟩
      | unbound => cases h

theorem seen_bind {m : Rd α} {k : α → Rd β} {γ : Type} {o : Py (α × γ)} {g : α × γ → Py (β × γ)}
    {lines : γ → List (List Char)} {ls : List (List Char)}
    (h : Seen (m false ls) (o.map fun p => (p.1, lines p.2)))
    (hk : ∀ x f, Seen (k x false (lines f)) ((g (x, f)).map fun p => (p.1, lines p.2))) :
    Seen ((m >>= k) false ls) ((o >>= g).map fun p => (p.1, lines p.2)) := by
  have hb : (m >>= k) false ls = match m false ls with
    | .error e => .error e
    | .ok (x, ls) => k x false ls := rfl
  rw [hb]
  cases o with
  | error e =>
    rcases seen_cases h with ⟨x, _, h2⟩ | ⟨e', msg, h1, h2⟩
    · cases h2
    · rw [h1]; cases h2; rfl
  | ok p =>
    rcases seen_cases h with ⟨x, h1, h2⟩ | ⟨e', msg, h1, h2⟩
    · rw [h1]; cases h2; exact hk _ _
    · cases h2

/-- The same for the last step of a reader, which gives up the file. -/
theorem seen_last {m : Rd α} {k : α → Rd β} {γ : Type} {o : Py (α × γ)} {g : α × γ → Py β}
    {lines : γ → List (List Char)} {ls : List (List Char)}
    (h : Seen (m false ls) (o.map fun p => (p.1, lines p.2)))
    (hk : ∀ x f, Seen ((k x false (lines f)).map Prod.fst) (g (x, f))) :
    Seen (((m >>= k) false ls).map Prod.fst) (o >>= g) := by
  have hb : (m >>= k) false ls = match m false ls with
    | .error e => .error e
    | .ok (x, ls) => k x false ls := rfl
  rw [hb]
  cases o with
  | error e =>
    rcases seen_cases h with ⟨x, _, h2⟩ | ⟨e', msg, h1, h2⟩
    · cases h2
    · rw [h1]; cases h2; rfl
  | ok p =>
    rcases seen_cases h with ⟨x, h1, h2⟩ | ⟨e', msg, h1, h2⟩
    · rw [h1]; cases h2; exact hk _ _
    · cases h2

/-- A computation that does not read. -/
theorem seen_compute {k : α → Rd β} {o : Py α} {g : α → Py β} {ls : List (List Char)}
    (hk : ∀ x, Seen ((k x false ls).map Prod.fst) (g x)) :
    Seen (((Rd.ofPy o >>= k) false ls).map Prod.fst) (o >>= g) := by
  cases o with
  | error e => rfl
  | ok x => exact hk x

theorem seen_ofPy {o : Py α} {ls : List (List Char)} : Seen ((Rd.ofPy o false ls).map Prod.fst) o := by
  cases o with
  | error e => rfl
  | ok x => rfl

theorem map_id_pair {γ : Type} (o : Py (α × γ)) : (o.map fun p => (p.1, id p.2)) = o := by
  cases o <;> rfl

/-! ### OUTCAR -/

theorem seen_skip (content : List Char) (ls : List (List Char)) :
    Seen (((Rd.skip content).onError noMatch) false ls)
      ((orInvalid (skipUntil content ls)).map fun p => (p.1, id p.2)) := by
  rw [map_id_pair]
  induction ls with
  | nil => rfl
  | cons l ls ih =>
    unfold Rd.onError at ih ⊢
    rw [Rd.skip, skipUntil]
    by_cases h : contains content l = true
    · rw [if_pos h, if_pos h]; rfl
    · rw [if_neg h, if_neg h]; exact ih

theorem seen_skip' (content : List Char) (ls : List (List Char)) :
    Seen (((Rd.skip content).onError (noMatch ∘ catching false)) false ls)
      ((orInvalid (skipUntil content ls)).map fun p => (p.1, id p.2)) := by
  rw [map_id_pair]
  induction ls with
  | nil => rfl
  | cons l ls ih =>
    unfold Rd.onError at ih ⊢
    rw [Rd.skip, skipUntil]
    by_cases h : contains content l = true
    · rw [if_pos h, if_pos h]; rfl
    · rw [if_neg h, if_neg h]; exact ih

theorem line_regular (ls : List (List Char)) : Rd.line false ls = .ok (nextLine ls) := by
  cases ls <;> rfl

theorem line_regular' (h : ReadErr → ReadErr) (ls : List (List Char)) :
    Rd.line.onError h false ls = .ok (nextLine ls) := by
  cases ls <;> rfl

theorem bind_line {k : List Char → Rd β} (ls : List (List Char)) :
    (Rd.line >>= k) false ls = k (nextLine ls).1 false (nextLine ls).2 := by
  cases ls <;> rfl

theorem bind_line' {k : List Char → Rd β} (h : ReadErr → ReadErr) (ls : List (List Char)) :
    (Rd.line.onError h >>= k) false ls = k (nextLine ls).1 false (nextLine ls).2 := by
  cases ls <;> rfl

theorem seen_potcarLoop (ls : List (List Char)) :
    Seen (rdPotcarLoop false ls) ((potcarLoop ls).map fun p => (p.1, id p.2)) := by
  rw [map_id_pair]
  induction ls with
  | nil => rfl
  | cons l ls ih =>
    rw [rdPotcarLoop, potcarLoop]
    by_cases h : contains "POTCAR".toList l = true
    · rw [if_neg (not_not.2 h), if_neg (not_not.2 h)]
      cases potcarSymbol l with
      | none => rfl
      | some s =>
        dsimp only
        rcases seen_cases ih with ⟨x, h1, h2⟩ | ⟨e, msg, h1, h2⟩
        · rw [h1, h2]; rfl
        · rw [h1, h2]; rfl
    · rw [if_pos h, if_pos h]; rfl

theorem seen_potcar (ls : List (List Char)) :
    Seen (rdPotcar false ls) ((readPotcar ls).map fun p => (p.1, id p.2)) := by
  unfold rdPotcar readPotcar
  refine seen_bind (seen_skip' _ _) fun line f => ?_
  dsimp only
  cases potcarSymbol line with
  | none => rfl
  | some s =>
    refine seen_bind (seen_potcarLoop _) fun ss f => ?_
    rw [bind_line']
    rfl

theorem seen_ionCounts (ls : List (List Char)) :
    Seen (rdIonCounts false ls) ((readIonCounts ls).map fun p => (p.1, id p.2)) := by
  unfold rdIonCounts readIonCounts
  refine seen_bind (seen_skip _ _) fun line f => ?_
  dsimp only
  cases ((splitWs line).drop 4).mapM parseInt with
  | none => rfl
  | some c => rfl

theorem seen_symbols (ls : List (List Char)) :
    Seen (rdSymbols false ls) ((outcarSymbols ls).map fun p => (p.1, id p.2)) := by
  unfold rdSymbols outcarSymbols
  exact seen_bind (seen_potcar _) fun _ _ => seen_bind (seen_ionCounts _) fun _ _ => rfl

theorem seen_rows (bound : Bool) (n : ℕ) (ls : List (List Char)) :
    Seen (rdRows bound n false ls) ((readRows n ls).map fun p => (p.1, id p.2)) := by
  induction n generalizing bound ls with
  | zero => rfl
  | succ n ih =>
    rw [rdRows, readRows, bind_line']
    cases readRow (nextLine ls).1 with
    | none => rfl
    | some r => exact seen_bind (ih true _) fun _ _ => rfl

theorem seen_array (n : ℕ) (ls : List (List Char)) :
    Seen (rdArray n false ls) ((readArray n ls).map fun p => (p.1, id p.2)) := by
  unfold rdArray readArray
  refine seen_bind (seen_rows _ _ _) fun rows f => ?_
  dsimp only
  cases npArray rows <;> rfl

theorem seen_positions (n : ℕ) (ls : List (List Char)) :
    Seen (rdPositions n false ls) ((outcarReadPositions ls n).map fun p => (p.1, id p.2)) := by
  unfold rdPositions outcarReadPositions
  exact seen_bind (seen_skip _ _) fun _ _ => seen_array _ _

theorem seen_cartPositions (n : ℕ) (ls : List (List Char)) :
    Seen (rdCartPositions n false ls) ((outcarReadCartPositions ls n).map fun p => (p.1, id p.2)) := by
  unfold rdCartPositions outcarReadCartPositions
  exact seen_bind (seen_skip _ _) fun _ _ => seen_array _ _

theorem seen_polarizability (ls : List (List Char)) :
    Seen (rdPolarizability false ls) ((outcarReadPolarizability ls).map fun p => (p.1, id p.2)) := by
  unfold rdPolarizability outcarReadPolarizability
  refine seen_bind (seen_skip _ _) fun _ f => ?_
  rw [bind_line]
  exact seen_array _ _

theorem seen_lattice (ls : List (List Char)) :
    Seen (rdLattice false ls) ((outcarReadLattice ls).map fun p => (p.1, id p.2)) := by
  unfold rdLattice outcarReadLattice
  exact seen_bind (seen_skip _ _) fun _ _ => seen_bind (seen_skip _ _) fun _ _ => seen_array _ _

theorem seen_eigenvector (v : Bool) (ext : NumMat → Py NumMat) (lattice : List (List Num))
    (bound : Bool) (n : ℕ) (ls : List (List Char)) :
    Seen (rdEigenvector v ext lattice bound n false ls)
      ((readEigenvector v ext lattice n ls).map fun p => (p.1, id p.2)) := by
  rw [map_id_pair]
  induction ls generalizing n bound with
  | nil => cases n <;> rfl
  | cons l ls ih =>
    cases n with
    | zero => rfl
    | succ n =>
      rw [rdEigenvector, readEigenvector]
      by_cases hx : contains ['X'] l = true
      · rw [if_pos hx, if_pos hx]; exact ih true (n + 1)
      · rw [if_neg hx, if_neg hx]
        cases valueAsInvalid v (eigenRow ext lattice l) with
        | error e => rfl
        | ok w =>
          dsimp only [bind, Except.bind]
          rcases seen_cases (ih true n) with ⟨x, h1, h2⟩ | ⟨e, msg, h1, h2⟩
          · rw [h1, h2]; rfl
          · rw [h1, h2]; rfl

theorem seen_then {m : Rd α} {k : α → Rd β} {o : Py α} {g : α → Py β} {ls : List (List Char)}
    (h : Seen ((m false ls).map Prod.fst) o) (hk : ∀ x f, Seen ((k x false f).map Prod.fst) (g x)) :
    Seen (((m >>= k) false ls).map Prod.fst) (o >>= g) := by
  have hb : (m >>= k) false ls = match m false ls with
    | .error e => .error e
    | .ok (x, ls) => k x false ls := rfl
  rw [hb]
  cases hm : m false ls with
  | error er =>
    rw [hm] at h
    rcases seen_cases h with ⟨x, h1, _⟩ | ⟨e', msg, h1, h2⟩
    · cases h1
    · cases h1; rw [h2]; rfl
  | ok p =>
    rw [hm] at h
    rcases seen_cases h with ⟨x, h1, h2⟩ | ⟨e', msg, h1, h2⟩
    · cases h1; rw [h2]; exact hk _ _
    · cases h1

theorem seen_modes (v : Bool) (ext : NumMat → Py NumMat) (lattice : List (List Num))
    (numAtoms k : ℕ) (ls : List (List Char)) :
    Seen ((rdModes v ext lattice numAtoms k false ls).map Prod.fst)
      (readModes v ext lattice numAtoms k ls) := by
  induction k generalizing ls with
  | zero => rfl
  | succ k ih =>
    rw [rdModes, readModes]
    exact seen_last (seen_skip _ _) fun line f => seen_compute fun w =>
      seen_last (seen_eigenvector _ _ _ _ _ _) fun e f => seen_then (ih _) fun _ _ => rfl

theorem seen_phonons (v : Bool) (ext : NumMat → Py NumMat) (content : List Char) :
    Seen ((rdPhonons v ext false (fileLines content)).map Prod.fst) (outcarReadPhonons v ext content) := by
  unfold rdPhonons outcarReadPhonons
  exact seen_last (seen_symbols _) fun symbols f => seen_compute fun weights =>
    seen_last (seen_lattice _) fun lattice f => seen_last (seen_positions _ _) fun positions f =>
      seen_last (seen_skip _ _) fun _ f => seen_then (seen_modes _ _ _ _ _ _) fun _ _ => seen_ofPy

theorem seen_positionsAndPolarizability (content : List Char) :
    Seen ((rdPositionsAndPolarizability false (fileLines content)).map Prod.fst)
      (outcarPositionsAndPolarizability content) := by
  unfold rdPositionsAndPolarizability outcarPositionsAndPolarizability
  exact seen_last (seen_symbols _) fun symbols f => seen_last (seen_positions _ _) fun positions f =>
    seen_last (seen_polarizability _) fun _ f => rfl

theorem seen_outcarPositions (content : List Char) :
    Seen ((rdOutcarPositions false (fileLines content)).map Prod.fst) (outcarPositions content) := by
  unfold rdOutcarPositions outcarPositions
  refine seen_last (seen_symbols _) fun symbols f => ?_
  have h := seen_positions symbols.length f
  dsimp only [id]
  rw [map_id_pair] at h
  rcases seen_cases h with ⟨x, h1, h2⟩ | ⟨e, msg, h1, h2⟩
  · rw [h1, h2]; rfl
  · rw [h1, h2]; rfl

theorem seen_structureAndPolarizability (content : List Char) :
    Seen ((rdStructureAndPolarizability false (fileLines content)).map Prod.fst)
      (outcarStructureAndPolarizability content) := by
  unfold rdStructureAndPolarizability outcarStructureAndPolarizability
  exact seen_last (seen_symbols _) fun symbols f => seen_compute fun numbers =>
    seen_last (seen_lattice _) fun lattice f => seen_last (seen_positions _ _) fun positions f =>
      seen_last (seen_polarizability _) fun _ f => rfl

theorem seen_refArgs (content : List Char) :
    Seen ((rdRefArgs false (fileLines content)).map Prod.fst) (outcarRefArgs content) := by
  unfold rdRefArgs outcarRefArgs
  exact seen_last (seen_symbols _) fun symbols f => seen_compute fun numbers =>
    seen_last (seen_lattice _) fun lattice f => seen_last (seen_positions _ _) fun positions f => rfl

theorem seen_timestep (ls : List (List Char)) :
    Seen (rdTimestep false ls) ((readTimestep ls).map fun p => (p.1, id p.2)) := by
  unfold rdTimestep readTimestep
  refine seen_bind (seen_skip _ _) fun line f => ?_
  dsimp only
  cases (splitWs line)[2]? with
  | none => rfl
  | some w =>
    dsimp only
    cases parseFloat w <;> rfl

theorem skip_regular (content : List Char) (ls : List (List Char)) :
    (∃ l f, Rd.skip content false ls = .ok (l, f) ∧ skipUntil content ls = .ok (l, f)) ∨
    (Rd.skip content false ls = .error (.raised .noMatchingLine []) ∧
      skipUntil content ls = .error .noMatchingLine) := by
  induction ls with
  | nil => exact .inr ⟨rfl, rfl⟩
  | cons l ls ih =>
    rw [Rd.skip, skipUntil]
    by_cases h : contains content l = true
    · rw [if_pos h, if_pos h]; exact .inl ⟨l, ls, rfl, rfl⟩
    · rw [if_neg h, if_neg h]; exact ih

theorem seen_stepLoop (ext : NumMat → Py NumMat) (lattice : List (List Num)) (numAtoms fuel : ℕ)
    (ml : Bool) (f : List (List Char)) :
    Seen ((rdStepLoop ext lattice numAtoms fuel ml false f).map Prod.fst)
      (stepLoop ext lattice numAtoms fuel ml f) := by
  induction fuel generalizing ml f with
  | zero => rfl
  | succ fuel ih =>
    rw [rdStepLoop, stepLoop]
    dsimp only
    rcases skip_regular stepHeader f with ⟨l, g, h1, h2⟩ | ⟨h1, h2⟩
    · rw [h1, h2]
      dsimp only
      by_cases hc : (ml = true ∧ ¬ contains "(ML)".toList l = true)
      · rw [if_pos hc, if_pos hc]; exact ih _ _
      · rw [if_neg hc, if_neg hc]
        refine seen_last (lines := id) ?_ fun cart f => seen_compute fun p => seen_then (ih _ _) fun _ _ => rfl
        unfold rdNextCart readNextCart
        rw [bind_line]
        exact seen_array _ _
    · rw [h1, h2]; rfl

theorem seen_trajectory (ext : NumMat → Py NumMat) (content : List Char) :
    Seen ((rdTrajectory ext false (fileLines content)).map Prod.fst)
      (outcarReadTrajectory ext content) := by
  unfold rdTrajectory outcarReadTrajectory
  refine seen_last (seen_symbols _) fun symbols f => seen_last (seen_timestep _) fun t f =>
    seen_last (seen_lattice _) fun lattice f => seen_then (seen_stepLoop _ _ _ _ _ _) fun ps g => ?_
  by_cases h : ps = []
  · rw [if_pos h, if_pos h]; rfl
  · rw [if_neg h, if_neg h]; exact seen_ofPy

/-- The reader of trajectories never returns anything for a file that cannot be decoded: it reads until
the end. -/
theorem stepLoop_bad (ext : NumMat → Py NumMat) (lattice : List (List Num)) (numAtoms fuel : ℕ)
    (ml : Bool) (f : List (List Char)) :
    ∃ e, rdStepLoop ext lattice numAtoms fuel ml true f = .error e := by
  induction fuel generalizing ml f with
  | zero => exact ⟨_, rfl⟩
  | succ fuel ih =>
    rw [rdStepLoop]
    dsimp only
    cases hs : Rd.skip stepHeader true f with
    | error e =>
      have : e ≠ .raised .noMatchingLine [] ∧ ∃ p m, e = .raised p m ∧ p = .unicodeError := by
        clear ih
        induction f with
        | nil => cases hs; exact ⟨(fun h => by cases h), _, _, rfl, rfl⟩
        | cons l ls ih =>
          rw [Rd.skip] at hs
          split_ifs at hs
          exact ih hs
      obtain ⟨_, p, m, rfl, rfl⟩ := this
      exact ⟨_, rfl⟩
    | ok x =>
      obtain ⟨l, g⟩ := x
      dsimp only
      by_cases hc : (ml = true ∧ ¬ contains "(ML)".toList l = true)
      · rw [if_pos hc]; exact ih _ _
      · rw [if_neg hc]
        dsimp only [bind]
        split
        · exact ⟨_, rfl⟩
        · split
          · exact ⟨_, rfl⟩
          · rename_i y _ _ p h _
            obtain ⟨e, he⟩ := ih (contains "(ML)".toList l) h
            rw [he]
            exact ⟨_, rfl⟩

theorem trajectory_bad (ext : NumMat → Py NumMat) (f : List (List Char)) :
    ∃ e, rdTrajectory ext true f = .error e := by
  unfold rdTrajectory
  dsimp only [bind]
  split
  · exact ⟨_, rfl⟩
  split
  · exact ⟨_, rfl⟩
  split
  · exact ⟨_, rfl⟩
  rename_i symbols _ _ _ _ _ _ _ lattice g _
  obtain ⟨e, he⟩ := stepLoop_bad ext lattice symbols.length (g.length + 1) false g
  rw [he]
  exact ⟨_, rfl⟩

/-! ### POSCAR and XDATCAR -/

theorem bind_readline {k : List Char → Rd β} (f : List Char) :
    (Rd.line >>= k) false (linesOf f) = k (readline f).1 false (linesOf (readline f).2) := by
  rw [bind_line, linesOf_readline]

theorem bind_readline' {k : List Char → Rd β} (h : ReadErr → ReadErr) (f : List Char) :
    (Rd.line.onError h >>= k) false (linesOf f) = k (readline f).1 false (linesOf (readline f).2) := by
  rw [bind_line', linesOf_readline]

theorem seen_latticeRow (f : List Char) :
    Seen (rdLatticeRow false (linesOf f)) ((latticeRow f).map fun p => (p.1, linesOf p.2)) := by
  unfold rdLatticeRow latticeRow
  rw [bind_readline']
  dsimp only
  cases readVec (readline f).1 <;> rfl

theorem seen_poscarLattice (f : List Char) :
    Seen (rdPoscarLattice false (linesOf f)) ((readLattice f).map fun p => (p.1, linesOf p.2)) := by
  unfold rdPoscarLattice readLattice
  rw [bind_readline', bind_readline']
  dsimp only
  cases parseFloat (readline (readline f).2).1 with
  | none => rfl
  | some scale =>
    exact seen_bind (seen_latticeRow _) fun _ _ => seen_bind (seen_latticeRow _) fun _ _ =>
      seen_bind (seen_latticeRow _) fun _ _ => rfl

theorem seen_poscarSymbols (f : List Char) :
    Seen (rdPoscarSymbols false (linesOf f)) ((readAtomicSymbols f).map fun p => (p.1, linesOf p.2)) := by
  unfold rdPoscarSymbols readAtomicSymbols
  rw [bind_readline]
  dsimp only
  by_cases h1 : (splitWs (readline f).1).length = 0
  · rw [if_pos h1, if_pos h1]; rfl
  rw [if_neg h1, if_neg h1]
  by_cases h2 : ¬ (splitWs (readline f).1).all knownSymbol = true
  · rw [if_pos h2, if_pos h2]; rfl
  rw [if_neg h2, if_neg h2, bind_readline]
  by_cases h3 : (splitWs (readline (readline f).2).1).length ≠ (splitWs (readline f).1).length
  · rw [if_pos h3, if_pos h3]; rfl
  rw [if_neg h3, if_neg h3]
  cases (splitWs (readline (readline f).2).1).mapM parseInt <;> rfl

/-- The exception with its message. -/
def withMsg : Except Raised α → Except ReadErr α
  | .error r => .error (.raised r.err r.msg)
  | .ok x => .ok x

theorem vectors_regular (prev : Option (List Char)) (n : ℕ) (f : List Char) :
    rdVectors prev n false (linesOf f)
      = withMsg ((readVectors n f).map fun p => (p.1, linesOf p.2)) := by
  induction n generalizing prev f with
  | zero => rfl
  | succ n ih =>
    rw [rdVectors, readVectors, bind_readline']
    dsimp only
    cases readVec (readline f).1 with
    | none => rfl
    | some v =>
      dsimp only [bind, Except.bind]
      rw [ih]
      cases readVectors n (readline f).2 <;> rfl

theorem coordinates_regular (ext : NumMat → Py NumMat) (cart : Bool) (lattice : NumMat) (n : ℕ)
    (f : List Char) : rdCoordinates ext cart lattice n false (linesOf f)
      = withMsg ((readCoordinates ext cart f lattice n).map fun p => (p.1, linesOf p.2)) := by
  unfold rdCoordinates readCoordinates
  dsimp only [bind, Except.bind]
  rw [vectors_regular]
  cases readVectors n f with
  | error r => rfl
  | ok p =>
    obtain ⟨vs, g⟩ := p
    cases cart with
    | false => rfl
    | true =>
      change Rd.ofPy _ false (linesOf g) = withMsg ((toFractional ext lattice vs g).map _)
      unfold toFractional
      cases numInv ext lattice with
      | error e => rfl
      | ok inv =>
        dsimp only
        by_cases h : vs = []
        · rw [if_pos h, if_pos h]; rfl
        · rw [if_neg h, if_neg h]; rfl

theorem format_regular (ext : NumMat → Py NumMat) (label : List Char) (lattice : NumMat) (n : ℕ)
    (f : List Char) : rdFormat ext label lattice n false (linesOf f)
      = withMsg ((readFormat ext label f lattice n).map fun p => (p.1, linesOf p.2)) := by
  unfold rdFormat readFormat
  cases label.head? with
  | none => rfl
  | some c =>
    dsimp only
    by_cases h1 : c.toLower = 'c'
    · rw [if_pos h1, if_pos h1]; exact coordinates_regular ..
    rw [if_neg h1, if_neg h1]
    by_cases h2 : c.toLower ≠ 'd'
    · rw [if_pos h2, if_pos h2]; rfl
    · rw [if_neg h2, if_neg h2]; exact coordinates_regular ..

theorem positions_regular (ext : NumMat → Py NumMat) (lattice : NumMat) (n : ℕ) (f : List Char) :
    rdPoscarPositions ext lattice n false (linesOf f)
      = withMsg ((readPositions ext f lattice n).map fun p => (p.1, linesOf p.2)) := by
  unfold rdPoscarPositions readPositions
  rw [bind_readline]
  dsimp only
  cases (readline f).1.head? with
  | none => rfl
  | some c =>
    dsimp only
    by_cases h1 : strip (readline f).1 = [] ∨ isSpace c = true
    · rw [if_pos h1, if_pos h1]; rfl
    rw [if_neg h1, if_neg h1]
    by_cases h2 : c.toLower = 's'
    · rw [if_pos h2, if_pos h2, bind_readline]; exact format_regular ..
    · rw [if_neg h2, if_neg h2]; exact format_regular ..

theorem seen_poscarPositions (ext : NumMat → Py NumMat) (lattice : NumMat) (n : ℕ) (f : List Char) :
    Seen (rdPoscarPositions ext lattice n false (linesOf f))
      ((dropMsg (readPositions ext f lattice n)).map fun p => (p.1, linesOf p.2)) := by
  rw [positions_regular]
  cases readPositions ext f lattice n <;> rfl

theorem seen_structure (ext : NumMat → Py NumMat) (content : List Char) :
    Seen ((rdStructure ext false (fileLines content)).map Prod.fst) (readStructure ext content) := by
  unfold rdStructure readStructure fileLines
  exact seen_last (seen_poscarLattice _) fun _ _ => seen_last (seen_poscarSymbols _) fun _ _ =>
    seen_compute fun _ => seen_last (seen_poscarPositions _ _ _ _) fun _ _ => rfl

theorem seen_readPositions (ext : NumMat → Py NumMat) (content : List Char) :
    Seen ((rdReadPositions ext false (fileLines content)).map Prod.fst)
      (readPoscarPositions ext content) := by
  unfold rdReadPositions readPoscarPositions fileLines
  refine seen_last (seen_poscarLattice _) fun _ _ => seen_last (seen_poscarSymbols _) fun symbols f => ?_
  rw [positions_regular]
  dsimp only
  cases readPositions ext f _ symbols.length <;> rfl

theorem seen_tsLoop (ext : NumMat → Py NumMat) (lattice : NumMat) (n fuel : ℕ) (f : List Char) :
    Seen ((rdTsLoop ext lattice n fuel false (linesOf f)).map Prod.fst)
      (readTsLoop ext lattice n fuel f) := by
  induction fuel generalizing f with
  | zero => rfl
  | succ fuel ih =>
    rw [rdTsLoop, readTsLoop]
    dsimp only
    rw [positions_regular]
    cases readPositions ext f lattice n with
    | error r =>
      dsimp only [withMsg, Except.map]
      by_cases h : r.err = .invalidFile ∧ contains missingMsg r.msg = true
      · rw [if_pos h, if_pos h]; rfl
      · rw [if_neg h, if_neg h]; rfl
    | ok p =>
      obtain ⟨ps, g⟩ := p
      dsimp only [withMsg, Except.map, bind, Except.bind]
      have := ih g
      cases hm : rdTsLoop ext lattice n fuel false (linesOf g) with
      | error er =>
        rw [hm] at this
        rcases seen_cases this with ⟨x, h1, _⟩ | ⟨e', msg, h1, h2⟩
        · cases h1
        · cases h1; rw [h2]; rfl
      | ok q =>
        rw [hm] at this
        rcases seen_cases this with ⟨x, h1, h2⟩ | ⟨e', msg, h1, h2⟩
        · cases h1; rw [h2]; rfl
        · cases h1

theorem seen_positionsTs (ext : NumMat → Py NumMat) (content : List Char) :
    Seen ((rdPositionsTs ext false (fileLines content)).map Prod.fst) (readPositionsTs ext content) := by
  unfold rdPositionsTs readPositionsTs fileLines
  refine seen_last (seen_poscarLattice _) fun _ _ => seen_last (seen_poscarSymbols _) fun symbols f => ?_
  dsimp only
  rw [linesOf_flatten]
  exact seen_tsLoop ..

end Verif
