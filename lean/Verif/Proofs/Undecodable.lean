import Verif.Model.Undecodable
import Verif.Proofs.Outcar

/-!
# Lemmas about reading functions on files that cannot be decoded
-/

namespace Verif

variable {α β : Type}

/-- Exceptions caused by undecodable bytes. -/
def Blames (e : ReadErr) : Prop :=
  e = .unbound ∨ (∃ m, e = .raised .unicodeError m) ∨ ∃ m, e = .raised .invalidFile m

/-- Either the lines decide the outcome whatever follows them, or the undecodable bytes are reached and
raise. -/
def Settled (m : Rd α) : Prop := ∀ ls,
  (∃ r rest, ∀ bad more, m bad (ls ++ more) = .ok (r, rest ++ more)) ∨
  (∃ e, ∀ bad more, m bad (ls ++ more) = .error e) ∨
  ∃ e, Blames e ∧ m true ls = .error e

namespace Settled

theorem pure (x : α) : Settled (Pure.pure x : Rd α) := fun ls => .inl ⟨x, ls, fun _ _ => rfl⟩

theorem fail (e : PyErr) : Settled (Rd.fail e : Rd α) := fun _ => .inr (.inl ⟨_, fun _ _ => rfl⟩)

theorem failMsg (e : PyErr) (msg : List Char) : Settled (Rd.failMsg e msg : Rd α) :=
  fun _ => .inr (.inl ⟨_, fun _ _ => rfl⟩)

theorem ofPy (r : Py α) : Settled (Rd.ofPy r) := fun ls => by
  cases r with
  | error e => exact .inr (.inl ⟨_, fun _ _ => rfl⟩)
  | ok x => exact .inl ⟨x, ls, fun _ _ => rfl⟩

theorem line : Settled Rd.line := fun ls => by
  cases ls with
  | nil => exact .inr (.inr ⟨_, .inr (.inl ⟨[], rfl⟩), rfl⟩)
  | cons l ls => exact .inl ⟨l, ls, fun _ _ => rfl⟩

theorem skip (content : List Char) : Settled (Rd.skip content) := fun ls => by
  induction ls with
  | nil => exact .inr (.inr ⟨_, .inr (.inl ⟨[], rfl⟩), rfl⟩)
  | cons l ls ih =>
    by_cases h : contains content l = true
    · exact .inl ⟨l, ls, fun bad more => by
        rw [List.cons_append, Rd.skip, if_pos h]⟩
    · have e : ∀ bad rest, Rd.skip content bad (l :: rest) = Rd.skip content bad rest :=
        fun bad rest => by rw [Rd.skip, if_neg h]
      simp only [List.cons_append, e]
      exact ih

theorem bind {m : Rd α} {f : α → Rd β} (hm : Settled m) (hf : ∀ x, Settled (f x)) :
    Settled (m >>= f) := fun ls => by
  have hb : ∀ bad g, (m >>= f) bad g = match m bad g with
    | .error e => .error e
    | .ok (x, ls) => f x bad ls := fun _ _ => rfl
  rcases hm ls with ⟨r, rest, h⟩ | ⟨e, h⟩ | ⟨e, he, h⟩
  · have hr : ∀ bad more, (m >>= f) bad (ls ++ more) = f r bad (rest ++ more) :=
      fun bad more => by rw [hb, h]
    rcases hf r rest with ⟨r', rest', h'⟩ | ⟨e, h'⟩ | ⟨e, he, h'⟩
    · exact .inl ⟨r', rest', fun bad more => by rw [hr, h']⟩
    · exact .inr (.inl ⟨e, fun bad more => by rw [hr, h']⟩)
    · refine .inr (.inr ⟨e, he, ?_⟩)
      have := hr true []
      rw [List.append_nil, List.append_nil] at this
      rw [this, h']
  · exact .inr (.inl ⟨e, fun bad more => by rw [hb, h]⟩)
  · exact .inr (.inr ⟨e, he, by rw [hb, h]⟩)

theorem onError {m : Rd α} {h : ReadErr → ReadErr} (hm : Settled m)
    (hh : ∀ e, Blames e → Blames (h e)) : Settled (m.onError h) := fun ls => by
  rcases hm ls with ⟨r, rest, hr⟩ | ⟨e, hr⟩ | ⟨e, he, hr⟩
  · exact .inl ⟨r, rest, fun bad more => by rw [Rd.onError, hr]⟩
  · exact .inr (.inl ⟨h e, fun bad more => by rw [Rd.onError, hr]⟩)
  · exact .inr (.inr ⟨h e, hh e he, by rw [Rd.onError, hr]⟩)

theorem ite {c : Prop} [Decidable c] {m m' : Rd α} (h : Settled m) (h' : Settled m') :
    Settled (if c then m else m') := by
  split_ifs
  · exact h
  · exact h'

/-- A value returned despite undecodable bytes was decided by the lines before them. -/
theorem decided {m : Rd α} (hm : Settled m) {ls : List (List Char)} {r : α} {rest : List (List Char)}
    (h : m true ls = .ok (r, rest)) (bad : Bool) (more : List (List Char)) :
    m bad (ls ++ more) = .ok (r, rest ++ more) := by
  rcases hm ls with ⟨r', rest', hr⟩ | ⟨e, hr⟩ | ⟨e, _, hr⟩
  · have := hr true []
    rw [List.append_nil, List.append_nil, h] at this
    cases this
    exact hr bad more
  · have := hr true []
    rw [List.append_nil, h] at this
    cases this
  · rw [h] at hr
    cases hr

end Settled

theorem blames_noMatch {e : ReadErr} (h : Blames e) : Blames (noMatch e) := by
  rcases h with rfl | ⟨m, rfl⟩ | ⟨m, rfl⟩
  · exact .inl rfl
  · exact .inr (.inl ⟨m, rfl⟩)
  · exact .inr (.inr ⟨m, rfl⟩)

theorem blames_catching (bound : Bool) {e : ReadErr} (h : Blames e) : Blames (catching bound e) := by
  rcases h with rfl | ⟨m, rfl⟩ | ⟨m, rfl⟩
  · exact .inl rfl
  · cases bound
    · exact .inl rfl
    · exact .inr (.inr ⟨[], rfl⟩)
  · exact .inr (.inr ⟨m, rfl⟩)

theorem blames_quoting (text : List Char) (prev : Option (List Char)) {e : ReadErr} (h : Blames e) :
    Blames (quoting text prev e) := by
  rcases h with rfl | ⟨m, rfl⟩ | ⟨m, rfl⟩
  · exact .inl rfl
  · cases prev
    · exact .inl rfl
    · exact .inr (.inr ⟨_, rfl⟩)
  · exact .inr (.inr ⟨m, rfl⟩)

/-! ### OUTCAR -/

theorem settled_potcarLoop : Settled rdPotcarLoop := fun ls => by
  induction ls with
  | nil => exact .inr (.inr ⟨_, .inr (.inr ⟨[], rfl⟩), rfl⟩)
  | cons l ls ih =>
    by_cases h : contains "POTCAR".toList l = true
    · cases hs : potcarSymbol l with
      | none =>
        exact .inr (.inl ⟨_, fun bad more => by
          rw [List.cons_append, rdPotcarLoop, if_neg (not_not.2 h), hs]⟩)
      | some s =>
        have e : ∀ bad rest, rdPotcarLoop bad (l :: rest) = match rdPotcarLoop bad rest with
            | .error e => .error e
            | .ok (ss, f) => .ok (s :: ss, f) := fun bad rest => by
          rw [rdPotcarLoop, if_neg (not_not.2 h), hs]
          rfl
        rcases ih with ⟨r, rest, hr⟩ | ⟨er, hr⟩ | ⟨er, he, hr⟩
        · exact .inl ⟨s :: r, rest, fun bad more => by rw [List.cons_append, e, hr]⟩
        · exact .inr (.inl ⟨er, fun bad more => by rw [List.cons_append, e, hr]⟩)
        · exact .inr (.inr ⟨er, he, by rw [e, hr]⟩)
    · exact .inl ⟨[], ls, fun bad more => by
        rw [List.cons_append, rdPotcarLoop, if_pos h]⟩

theorem settled_skip_noMatch (content : List Char) : Settled ((Rd.skip content).onError noMatch) :=
  (Settled.skip content).onError fun _ => blames_noMatch

theorem settled_potcar : Settled rdPotcar := by
  unfold rdPotcar
  refine ((Settled.skip _).onError fun e h => blames_noMatch (blames_catching _ h)).bind fun line => ?_
  cases potcarSymbol line with
  | none => exact Settled.fail _
  | some s =>
    exact settled_potcarLoop.bind fun ss =>
      (Settled.line.onError fun _ => blames_catching _).bind fun line => Settled.pure _

theorem settled_ionCounts : Settled rdIonCounts := by
  unfold rdIonCounts
  refine (settled_skip_noMatch _).bind fun line => ?_
  cases ((splitWs line).drop 4).mapM parseInt with
  | none => exact Settled.fail _
  | some c => exact Settled.pure _

theorem settled_symbols : Settled rdSymbols :=
  settled_potcar.bind fun _ => settled_ionCounts.bind fun _ => Settled.pure _

theorem settled_rows (bound : Bool) (n : ℕ) : Settled (rdRows bound n) := by
  induction n generalizing bound with
  | zero => exact Settled.pure _
  | succ n ih =>
    rw [rdRows]
    refine (Settled.line.onError fun _ => blames_catching _).bind fun line => ?_
    cases readRow line with
    | none => exact Settled.fail _
    | some r => exact (ih true).bind fun rs => Settled.pure _

theorem settled_array (n : ℕ) : Settled (rdArray n) :=
  (settled_rows false n).bind fun _ => Settled.ofPy _

theorem settled_positions (n : ℕ) : Settled (rdPositions n) :=
  (settled_skip_noMatch _).bind fun _ => settled_array n

theorem settled_cartPositions (n : ℕ) : Settled (rdCartPositions n) :=
  (settled_skip_noMatch _).bind fun _ => settled_array n

theorem settled_polarizability : Settled rdPolarizability :=
  (settled_skip_noMatch _).bind fun _ => Settled.line.bind fun _ => settled_array 3

theorem settled_lattice : Settled rdLattice :=
  (settled_skip_noMatch _).bind fun _ => (settled_skip_noMatch _).bind fun _ => settled_array 3

theorem settled_eigenvector (v : Bool) (ext : NumMat → Py NumMat) (lattice : List (List Num))
    (bound : Bool) (n : ℕ) : Settled (rdEigenvector v ext lattice bound n) := fun ls => by
  induction ls generalizing n bound with
  | nil =>
    refine .inr (.inr ⟨if bound then .raised .invalidFile [] else .unbound, ?_, ?_⟩)
    · cases bound
      · exact .inl rfl
      · exact .inr (.inr ⟨[], rfl⟩)
    · rw [rdEigenvector, if_pos rfl]
  | cons l ls ih =>
    cases n with
    | zero => exact .inl ⟨[], ls, fun bad more => by rw [List.cons_append, rdEigenvector]⟩
    | succ n =>
      by_cases hx : contains ['X'] l = true
      · have e : ∀ bad rest, rdEigenvector v ext lattice bound (n + 1) bad (l :: rest)
            = rdEigenvector v ext lattice true (n + 1) bad rest := fun bad rest => by
          rw [rdEigenvector, if_pos hx]
        simp only [List.cons_append, e]
        exact ih true (n + 1)
      · cases hv : valueAsInvalid v (eigenRow ext lattice l) with
        | error er =>
          exact .inr (.inl ⟨_, fun bad more => by
            rw [List.cons_append, rdEigenvector, if_neg hx, hv]⟩)
        | ok w =>
          have e : ∀ bad rest, rdEigenvector v ext lattice bound (n + 1) bad (l :: rest)
              = match rdEigenvector v ext lattice true n bad rest with
                | .error e => .error e
                | .ok (vs, f) => .ok (w :: vs, f) := fun bad rest => by
            rw [rdEigenvector, if_neg hx, hv]
            rfl
          rcases ih true n with ⟨r, rest, hr⟩ | ⟨er, hr⟩ | ⟨er, he, hr⟩
          · exact .inl ⟨w :: r, rest, fun bad more => by rw [List.cons_append, e, hr]⟩
          · exact .inr (.inl ⟨er, fun bad more => by rw [List.cons_append, e, hr]⟩)
          · exact .inr (.inr ⟨er, he, by rw [e, hr]⟩)

theorem settled_modes (v : Bool) (ext : NumMat → Py NumMat) (lattice : List (List Num))
    (numAtoms k : ℕ) : Settled (rdModes v ext lattice numAtoms k) := by
  induction k with
  | zero => exact Settled.pure _
  | succ k ih =>
    rw [rdModes]
    exact (settled_skip_noMatch _).bind fun line => (Settled.ofPy _).bind fun w =>
      (settled_eigenvector v ext lattice false numAtoms).bind fun e => ih.bind fun ms => Settled.pure _

theorem settled_phonons (v : Bool) (ext : NumMat → Py NumMat) : Settled (rdPhonons v ext) :=
  settled_symbols.bind fun _ => (Settled.ofPy _).bind fun _ => settled_lattice.bind fun _ =>
    (settled_positions _).bind fun _ => (settled_skip_noMatch _).bind fun _ =>
      (settled_modes v ext _ _ _).bind fun _ => Settled.ofPy _

theorem settled_positionsAndPolarizability : Settled rdPositionsAndPolarizability :=
  settled_symbols.bind fun _ => (settled_positions _).bind fun _ =>
    settled_polarizability.bind fun _ => Settled.pure _

theorem settled_outcarPositions : Settled rdOutcarPositions :=
  settled_symbols.bind fun _ => settled_positions _

theorem settled_structureAndPolarizability : Settled rdStructureAndPolarizability :=
  settled_symbols.bind fun _ => (Settled.ofPy _).bind fun _ => settled_lattice.bind fun _ =>
    (settled_positions _).bind fun _ => settled_polarizability.bind fun _ => Settled.pure _

theorem settled_refArgs : Settled rdRefArgs :=
  settled_symbols.bind fun _ => (Settled.ofPy _).bind fun _ => settled_lattice.bind fun _ =>
    (settled_positions _).bind fun _ => Settled.pure _

theorem settled_timestep : Settled rdTimestep := by
  unfold rdTimestep
  refine (settled_skip_noMatch _).bind fun line => ?_
  cases (splitWs line)[2]? with
  | none => exact Settled.fail _
  | some w =>
    dsimp only
    cases parseFloat w with
    | none => exact Settled.fail _
    | some x => exact Settled.pure _

/-! ### POSCAR -/

theorem settled_latticeRow : Settled rdLatticeRow := by
  unfold rdLatticeRow
  refine (Settled.line.onError fun _ => blames_catching _).bind fun line => ?_
  cases readVec line with
  | none => exact Settled.fail _
  | some v => exact Settled.pure _

theorem settled_poscarLattice : Settled rdPoscarLattice := by
  unfold rdPoscarLattice
  refine (Settled.line.onError fun _ => blames_catching _).bind fun _ =>
    (Settled.line.onError fun _ => blames_catching _).bind fun line => ?_
  cases parseFloat line with
  | none => exact Settled.fail _
  | some v =>
    exact settled_latticeRow.bind fun _ => settled_latticeRow.bind fun _ =>
      settled_latticeRow.bind fun _ => Settled.pure _

theorem settled_poscarSymbols : Settled rdPoscarSymbols := by
  unfold rdPoscarSymbols
  refine Settled.line.bind fun line => Settled.ite (Settled.fail _) (Settled.ite (Settled.fail _)
    (Settled.line.bind fun line' => Settled.ite (Settled.fail _) ?_))
  cases (splitWs line').mapM parseInt with
  | none => exact Settled.fail _
  | some v => exact Settled.pure _

theorem settled_vectors (prev : Option (List Char)) (n : ℕ) : Settled (rdVectors prev n) := by
  induction n generalizing prev with
  | zero => exact Settled.pure _
  | succ n ih =>
    rw [rdVectors]
    refine (Settled.line.onError fun _ => blames_quoting _ _).bind fun line => ?_
    cases readVec line with
    | none => exact Settled.failMsg _ _
    | some r => exact (ih _).bind fun rs => Settled.pure _

theorem settled_coordinates (ext : NumMat → Py NumMat) (cart : Bool) (lattice : NumMat) (n : ℕ) :
    Settled (rdCoordinates ext cart lattice n) :=
  (settled_vectors _ _).bind fun _ => Settled.ite (Settled.ofPy _) (Settled.pure _)

theorem settled_format (ext : NumMat → Py NumMat) (label : List Char) (lattice : NumMat) (n : ℕ) :
    Settled (rdFormat ext label lattice n) := by
  unfold rdFormat
  cases label.head? with
  | none => exact Settled.fail _
  | some c =>
    exact Settled.ite (settled_coordinates _ _ _ _) (Settled.ite (Settled.failMsg _ _)
      (settled_coordinates _ _ _ _))

theorem settled_poscarPositions (ext : NumMat → Py NumMat) (lattice : NumMat) (n : ℕ) :
    Settled (rdPoscarPositions ext lattice n) := by
  unfold rdPoscarPositions
  refine Settled.line.bind fun label => ?_
  cases label.head? with
  | none => exact Settled.failMsg _ _
  | some c =>
    exact Settled.ite (Settled.failMsg _ _) (Settled.ite
      (Settled.line.bind fun label => settled_format _ _ _ _) (settled_format _ _ _ _))

theorem settled_structure (ext : NumMat → Py NumMat) : Settled (rdStructure ext) :=
  settled_poscarLattice.bind fun _ => settled_poscarSymbols.bind fun _ =>
    (Settled.ofPy _).bind fun _ => (settled_poscarPositions _ _ _).bind fun _ => Settled.pure _

theorem settled_readPositions (ext : NumMat → Py NumMat) : Settled (rdReadPositions ext) :=
  settled_poscarLattice.bind fun _ => settled_poscarSymbols.bind fun _ => settled_poscarPositions _ _ _

end Verif
