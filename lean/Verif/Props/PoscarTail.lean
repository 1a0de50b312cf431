import Verif.Props.CutPoscar

/-!
# C184: text appended to POSCAR and XDATCAR files
-/

namespace Verif

open Spec

/-- The text consists of complete lines. -/
def FullLines (f : List Char) : Prop := f = [] ∨ f.getLast? = some '\n'

theorem fullLines_cons {c : Char} {cs : List Char} (h : FullLines (c :: cs)) : FullLines cs := by
  rcases h with h | h
  · cases h
  · cases cs with
    | nil => exact .inl rfl
    | cons d ds => exact .inr (by rwa [List.getLast?_cons_cons] at h)

theorem readline_tail {f : List Char} (h : FullLines f) (hf : f ≠ []) (t : List Char) :
    readline (f ++ t) = ((readline f).1, (readline f).2 ++ t) ∧ FullLines (readline f).2 := by
  induction f with
  | nil => exact absurd rfl hf
  | cons c cs ih =>
    by_cases hc : c = '\n'
    · rw [List.cons_append, readline, if_pos hc, readline, if_pos hc]
      exact ⟨rfl, fullLines_cons h⟩
    · have hcs : cs ≠ [] := by
        rintro rfl
        rcases h with h | h
        · cases h
        · exact hc (Option.some.inj h)
      obtain ⟨h1, h2⟩ := ih (fullLines_cons h) hcs
      rw [List.cons_append, readline, if_neg hc, readline, if_neg hc]
      dsimp only
      rw [h1]
      exact ⟨rfl, h2⟩

theorem universalNewlines_tail (x t : List Char) :
    universalNewlines (x ++ ['\n'] ++ t) = universalNewlines (x ++ ['\n']) ++ universalNewlines t := by
  induction x using universalNewlines.induct with
  | case1 => simp [universalNewlines]
  | case2 cs ih => simpa [universalNewlines] using ih
  | case3 cs h ih =>
    cases cs with
    | nil => simp [universalNewlines]
    | cons d ds =>
      have hd : d ≠ '\n' := by
        rintro rfl
        exact h ds rfl
      have e : ∀ r, universalNewlines ('\r' :: (d :: ds ++ r)) = '\n' :: universalNewlines (d :: ds ++ r) := by
        intro r
        rw [List.cons_append, universalNewlines]
        intro _ h
        exact hd (List.cons.inj h).1
      have e1 := e (['\n'] ++ t)
      have e2 := e ['\n']
      simp only [List.cons_append, List.append_assoc] at e1 e2 ih ⊢
      rw [e1, e2, ih]
      rfl
  | case4 c cs h1 h2 ih =>
    have hc : c ≠ '\r' := by
      rintro rfl
      exact h2 rfl
    have e : ∀ r, universalNewlines (c :: r) = c :: universalNewlines r := by
      intro r
      rw [universalNewlines]
      · intro _ h; exact absurd h hc
      · exact hc
    simp only [List.cons_append] at ih ⊢
    rw [e, e, ih]
    rfl

theorem fullLines_content (a : List Char) : FullLines (universalNewlines (a ++ ['\n'])) :=
  .inr (universalNewlines_last a)

theorem latticeRow_tail {f : List Char} (h : FullLines f) {x : NumVec × List Char}
    (hx : latticeRow f = .ok x) (t : List Char) :
    latticeRow (f ++ t) = .ok (x.1, x.2 ++ t) ∧ FullLines x.2 := by
  have hf : f ≠ [] := fun h0 => latticeRow_nil (h0 ▸ hx)
  obtain ⟨h1, h2⟩ := readline_tail h hf t
  unfold latticeRow at hx ⊢
  rw [h1]
  dsimp only at hx ⊢
  cases hv : readVec (readline f).1 with
  | none => rw [hv] at hx; cases hx
  | some v =>
    rw [hv] at hx
    cases hx
    exact ⟨rfl, h2⟩

theorem readLattice_tail {f : List Char} (h : FullLines f) {x : NumMat × List Char}
    (hx : readLattice f = .ok x) (t : List Char) :
    readLattice (f ++ t) = .ok (x.1, x.2 ++ t) ∧ FullLines x.2 := by
  have hp : parseFloat ([] : List Char) = none := by decide +kernel
  have h2 : (readline f).2 ≠ [] := by
    intro h0
    unfold readLattice at hx
    dsimp only at hx
    rw [h0, show (readline ([] : List Char)).1 = [] from rfl, hp] at hx
    cases hx
  have hf : f ≠ [] := by
    rintro rfl
    exact h2 rfl
  obtain ⟨h3, h4⟩ := readline_tail h hf t
  obtain ⟨h5, h6⟩ := readline_tail h4 h2 t
  unfold readLattice at hx ⊢
  rw [h3]
  dsimp only at hx ⊢
  rw [h5]
  dsimp only
  cases hs : parseFloat (readline (readline f).2).1 with
  | none => rw [hs] at hx; cases hx
  | some s =>
    rw [hs] at hx
    dsimp only at hx ⊢
    obtain ⟨x0, hx0, hx⟩ := (bind_ok_iff _ _ _).1 hx
    obtain ⟨x1, hx1, hx⟩ := (bind_ok_iff _ _ _).1 hx
    obtain ⟨x2, hx2, hx⟩ := (bind_ok_iff _ _ _).1 hx
    cases hx
    obtain ⟨e0, f0⟩ := latticeRow_tail h6 hx0 t
    obtain ⟨e1, f1⟩ := latticeRow_tail f0 hx1 t
    obtain ⟨e2, f2⟩ := latticeRow_tail f1 hx2 t
    rw [e0]
    dsimp only [bind, Except.bind]
    rw [e1]
    dsimp only
    rw [e2]
    exact ⟨rfl, f2⟩

theorem readAtomicSymbols_tail {f : List Char} (h : FullLines f) {x : List Word × List Char}
    (hx : readAtomicSymbols f = .ok x) (t : List Char) :
    readAtomicSymbols (f ++ t) = .ok (x.1, x.2 ++ t) ∧ FullLines x.2 := by
  obtain ⟨counts, h1, h2, h3, rfl⟩ := readAtomicSymbols_ok hx
  have hf : f ≠ [] := by
    rintro rfl
    exact h1 rfl
  have hf' : (readline f).2 ≠ [] := by
    intro h0
    rw [h0] at h2
    exact h1 (List.length_eq_zero_iff.1 h2.symm)
  obtain ⟨h3', h4⟩ := readline_tail h hf t
  obtain ⟨h5, h6⟩ := readline_tail h4 hf' t
  refine ⟨?_, h6⟩
  unfold readAtomicSymbols at hx ⊢
  rw [h3']
  dsimp only at hx ⊢
  rw [h5]
  dsimp only
  rw [if_neg (by simpa using h1)] at hx ⊢
  split at hx
  · cases hx
  · rename_i hk
    rw [if_neg hk, if_neg (by simpa using h2), h3]

theorem readVectors_tail {n : ℕ} {f : List Char} (h : FullLines f) {x : List NumVec × List Char}
    (hx : readVectors n f = .ok x) (t : List Char) :
    readVectors n (f ++ t) = .ok (x.1, x.2 ++ t) ∧ FullLines x.2 := by
  induction n generalizing f x with
  | zero => cases hx; exact ⟨rfl, h⟩
  | succ n ih =>
    have hf : f ≠ [] := by
      rintro rfl
      cases hx
    obtain ⟨h1, h2⟩ := readline_tail h hf t
    unfold readVectors at hx ⊢
    rw [h1]
    dsimp only at hx ⊢
    cases hv : readVec (readline f).1 with
    | none => rw [hv] at hx; cases hx
    | some v =>
      rw [hv] at hx
      dsimp only at hx ⊢
      obtain ⟨y, hy, hx⟩ := ebind_ok hx
      cases hx
      obtain ⟨e, he⟩ := ih h2 hy
      rw [e]
      exact ⟨rfl, he⟩

theorem readCoordinates_tail {ext : NumMat → Py NumMat} {cart : Bool} {lattice : NumMat} {n : ℕ}
    {f : List Char} (h : FullLines f) {x : List NumVec × List Char}
    (hx : readCoordinates ext cart f lattice n = .ok x) (t : List Char) :
    readCoordinates ext cart (f ++ t) lattice n = .ok (x.1, x.2 ++ t) ∧ FullLines x.2 := by
  unfold readCoordinates at hx ⊢
  obtain ⟨y, hy, hx⟩ := ebind_ok hx
  obtain ⟨e, he⟩ := readVectors_tail h hy t
  rw [e]
  dsimp only [bind, Except.bind] at hx ⊢
  cases cart with
  | false =>
    cases hx
    exact ⟨rfl, he⟩
  | true =>
    rw [if_pos rfl] at hx ⊢
    unfold toFractional at hx ⊢
    cases hi : numInv ext lattice with
    | error e => rw [hi] at hx; cases hx
    | ok inv =>
      rw [hi] at hx
      dsimp only at hx ⊢
      split at hx
      · cases hx
      · rename_i hv
        cases hx
        rw [if_neg hv]
        exact ⟨rfl, he⟩

theorem readFormat_tail {ext : NumMat → Py NumMat} {label : List Char} {lattice : NumMat} {n : ℕ}
    {f : List Char} (h : FullLines f) {x : List NumVec × List Char}
    (hx : readFormat ext label f lattice n = .ok x) (t : List Char) :
    readFormat ext label (f ++ t) lattice n = .ok (x.1, x.2 ++ t) ∧ FullLines x.2 := by
  unfold readFormat at hx ⊢
  cases hl : label.head? with
  | none => rw [hl] at hx; cases hx
  | some c =>
    rw [hl] at hx
    dsimp only at hx ⊢
    split at hx
    · rename_i h1
      rw [if_pos h1]
      exact readCoordinates_tail h hx t
    · rename_i h1
      rw [if_neg h1]
      split at hx
      · cases hx
      · rename_i h2
        rw [if_neg h2]
        exact readCoordinates_tail h hx t

theorem readPositions_tail {ext : NumMat → Py NumMat} {lattice : NumMat} {n : ℕ}
    {f : List Char} (h : FullLines f) {x : List NumVec × List Char}
    (hx : readPositions ext f lattice n = .ok x) (t : List Char) :
    readPositions ext (f ++ t) lattice n = .ok (x.1, x.2 ++ t) ∧ FullLines x.2 := by
  have hf : f ≠ [] := by
    rintro rfl
    cases hx
  obtain ⟨h1, h2⟩ := readline_tail h hf t
  unfold readPositions at hx ⊢
  rw [h1]
  dsimp only at hx ⊢
  cases hl : (readline f).1.head? with
  | none => rw [hl] at hx; cases hx
  | some c =>
    rw [hl] at hx
    dsimp only at hx ⊢
    split at hx
    · cases hx
    · rename_i h3
      rw [if_neg h3]
      split at hx
      · rename_i h4
        rw [if_pos h4]
        have hf' : (readline f).2 ≠ [] := by
          intro h0
          rw [h0] at hx
          cases hx
        obtain ⟨h5, h6⟩ := readline_tail h2 hf' t
        rw [h5]
        dsimp only
        exact readFormat_tail h6 hx t
      · rename_i h4
        rw [if_neg h4]
        exact readFormat_tail h2 hx t

/-! ## Errors -/

theorem readVectors_error_tail {n : ℕ} {f : List Char} (h : FullLines f) {r : Raised}
    (hx : readVectors n f = .error r) (hm : contains missingMsg r.msg = true) (t : List Char) :
    readVectors n (f ++ t) = .error r := by
  induction n generalizing f with
  | zero => cases hx
  | succ n ih =>
    by_cases hf : f = []
    · subst hf
      cases hx
      exact absurd hm (by decide +kernel)
    obtain ⟨h1, h2⟩ := readline_tail h hf t
    unfold readVectors at hx ⊢
    rw [h1]
    dsimp only at hx ⊢
    cases hv : readVec (readline f).1 with
    | none => rw [hv] at hx; exact hx
    | some v =>
      rw [hv] at hx
      dsimp only [bind, Except.bind] at hx ⊢
      cases hy : readVectors n (readline f).2 with
      | error e =>
        rw [hy] at hx
        cases hx
        rw [ih h2 hy]
      | ok y => rw [hy] at hx; cases hx

theorem readCoordinates_error_tail {ext : NumMat → Py NumMat} {cart : Bool} {lattice : NumMat} {n : ℕ}
    {f : List Char} (h : FullLines f) {r : Raised}
    (hx : readCoordinates ext cart f lattice n = .error r) (hm : contains missingMsg r.msg = true)
    (t : List Char) : readCoordinates ext cart (f ++ t) lattice n = .error r := by
  have hne : contains missingMsg ([] : List Char) = false := by decide +kernel
  unfold readCoordinates at hx ⊢
  dsimp only [bind, Except.bind] at hx ⊢
  cases hy : readVectors n f with
  | error e =>
    rw [hy] at hx
    cases hx
    rw [readVectors_error_tail h hy hm t]
  | ok y =>
    rw [hy] at hx
    dsimp only at hx
    cases cart with
    | false => cases hx
    | true =>
      rw [if_pos rfl] at hx
      unfold toFractional at hx
      cases hi : numInv ext lattice with
      | error e =>
        rw [hi] at hx
        cases hx
        rw [hne] at hm
        cases hm
      | ok inv =>
        rw [hi] at hx
        dsimp only at hx
        split at hx
        · cases hx
          rw [hne] at hm
          cases hm
        · cases hx

theorem readFormat_error_tail {ext : NumMat → Py NumMat} {label : List Char} {lattice : NumMat} {n : ℕ}
    {f : List Char} (h : FullLines f) {r : Raised}
    (hx : readFormat ext label f lattice n = .error r) (hm : contains missingMsg r.msg = true)
    (t : List Char) : readFormat ext label (f ++ t) lattice n = .error r := by
  unfold readFormat at hx ⊢
  cases hl : label.head? with
  | none => rw [hl] at hx; exact hx
  | some c =>
    rw [hl] at hx
    dsimp only at hx ⊢
    split at hx
    · rename_i h1
      rw [if_pos h1]
      exact readCoordinates_error_tail h hx hm t
    · rename_i h1
      rw [if_neg h1]
      split at hx
      · rename_i h2
        rw [if_pos h2]
        exact hx
      · rename_i h2
        rw [if_neg h2]
        exact readCoordinates_error_tail h hx hm t

theorem readPositions_error_tail {ext : NumMat → Py NumMat} {lattice : NumMat} {n : ℕ}
    {f : List Char} (h : FullLines f) (hf : f ≠ []) {r : Raised}
    (hx : readPositions ext f lattice n = .error r) (hm : contains missingMsg r.msg = true)
    (t : List Char) : readPositions ext (f ++ t) lattice n = .error r := by
  obtain ⟨h1, h2⟩ := readline_tail h hf t
  unfold readPositions at hx ⊢
  rw [h1]
  dsimp only at hx ⊢
  cases hl : (readline f).1.head? with
  | none => rw [hl] at hx; exact hx
  | some c =>
    rw [hl] at hx
    dsimp only at hx ⊢
    split at hx
    · rename_i h3
      rw [if_pos h3]
      exact hx
    · rename_i h3
      rw [if_neg h3]
      split at hx
      · rename_i h4
        rw [if_pos h4]
        by_cases hf' : (readline f).2 = []
        · rw [hf'] at hx
          cases hx
          exact absurd hm (by decide +kernel)
        obtain ⟨h5, h6⟩ := readline_tail h2 hf' t
        rw [h5]
        dsimp only
        exact readFormat_error_tail h6 hx hm t
      · rename_i h4
        rw [if_neg h4]
        exact readFormat_error_tail h2 hx hm t

/-- The loop over configurations, continued by a text at which no configuration can be read. -/
theorem readTsLoop_tail {ext : NumMat → Py NumMat} {lattice : NumMat} {n : ℕ} {t : List Char}
    (ht : ∀ x, readPositions ext t lattice n ≠ .ok x) (fuel fuel' : ℕ) {f : List Char}
    (h : FullLines f) {ps qs : List (List NumVec)}
    (hps : readTsLoop ext lattice n fuel f = .ok ps)
    (hqs : readTsLoop ext lattice n fuel' (f ++ t) = .ok qs) : qs = ps := by
  induction fuel generalizing f fuel' ps qs with
  | zero => cases hps
  | succ fuel ih =>
    cases fuel' with
    | zero => cases hqs
    | succ fuel' =>
      unfold readTsLoop at hps hqs
      cases hr : readPositions ext f lattice n with
      | error r =>
        rw [hr] at hps
        dsimp only at hps
        split at hps
        · rename_i hm
          cases hps
          by_cases hf : f = []
          · subst hf
            rw [List.nil_append] at hqs
            cases ht' : readPositions ext t lattice n with
            | ok x => exact absurd ht' (ht x)
            | error r' =>
              rw [ht'] at hqs
              dsimp only at hqs
              split at hqs
              · cases hqs; rfl
              · cases hqs
          · rw [readPositions_error_tail h hf hr hm.2 t] at hqs
            dsimp only at hqs
            rw [if_pos hm] at hqs
            cases hqs
            rfl
        · cases hps
      | ok x =>
        obtain ⟨e, he⟩ := readPositions_tail h hr t
        rw [hr] at hps
        rw [e] at hqs
        dsimp only at hps hqs
        obtain ⟨ps', hps', hps⟩ := (bind_ok_iff _ _ _).1 hps
        obtain ⟨qs', hqs', hqs⟩ := (bind_ok_iff _ _ _).1 hqs
        cases hps
        cases hqs
        rw [ih fuel' he hps' hqs']

/-- The same for a text that begins with white space: the loop ends there. -/
theorem readTsLoop_blank {ext : NumMat → Py NumMat} {lattice : NumMat} {n : ℕ} {t : List Char}
    (ht : ∃ r, readPositions ext t lattice n = .error r ∧ r.err = .invalidFile ∧
      contains missingMsg r.msg = true) (fuel fuel' : ℕ) (hfuel : fuel ≤ fuel') {f : List Char}
    (h : FullLines f) {ps : List (List NumVec)} (hps : readTsLoop ext lattice n fuel f = .ok ps) :
    readTsLoop ext lattice n fuel' (f ++ t) = .ok ps := by
  induction fuel generalizing f fuel' ps with
  | zero => cases hps
  | succ fuel ih =>
    obtain ⟨fuel', rfl⟩ : ∃ k, fuel' = k + 1 := ⟨fuel' - 1, by omega⟩
    unfold readTsLoop at hps ⊢
    cases hr : readPositions ext f lattice n with
    | error r =>
      rw [hr] at hps
      dsimp only at hps
      split at hps
      · rename_i hm
        cases hps
        by_cases hf : f = []
        · subst hf
          rw [List.nil_append]
          obtain ⟨r', hr', h'⟩ := ht
          rw [hr']
          dsimp only
          rw [if_pos h']
        · rw [readPositions_error_tail h hf hr hm.2 t]
          dsimp only
          rw [if_pos hm]
      · cases hps
    | ok x =>
      obtain ⟨e, he⟩ := readPositions_tail h hr t
      rw [hr] at hps
      rw [e]
      dsimp only at hps ⊢
      obtain ⟨ps', hps', hps⟩ := (bind_ok_iff _ _ _).1 hps
      cases hps
      rw [ih fuel' (by omega) he hps']
      rfl

/-- A configuration read has as many rows as asked for. -/
theorem readVectors_count {n : ℕ} {f : List Char} {x : List NumVec × List Char}
    (hx : readVectors n f = .ok x) : x.1.length = n := by
  induction n generalizing f x with
  | zero => cases hx; rfl
  | succ n ih =>
    unfold readVectors at hx
    dsimp only at hx
    cases hv : readVec (readline f).1 with
    | none => rw [hv] at hx; cases hx
    | some v =>
      rw [hv] at hx
      dsimp only at hx
      obtain ⟨y, hy, hx⟩ := ebind_ok hx
      cases hx
      simp [ih hy]

theorem readCoordinates_zero {ext : NumMat → Py NumMat} {cart : Bool} {lattice : NumMat}
    {f : List Char} {x : List NumVec × List Char}
    (hx : readCoordinates ext cart f lattice 0 = .ok x) : x.1 = [] := by
  unfold readCoordinates at hx
  obtain ⟨y, hy, hx⟩ := ebind_ok hx
  have h0 := List.length_eq_zero_iff.1 (readVectors_count hy)
  cases cart with
  | false => cases hx; exact h0
  | true =>
    dsimp only at hx
    rw [if_pos rfl] at hx
    unfold toFractional at hx
    cases hi : numInv ext lattice with
    | error e => rw [hi] at hx; cases hx
    | ok inv =>
      rw [hi] at hx
      dsimp only at hx
      rw [if_pos h0] at hx
      cases hx

theorem readFormat_zero {ext : NumMat → Py NumMat} {label : List Char} {lattice : NumMat}
    {f : List Char} {x : List NumVec × List Char}
    (hx : readFormat ext label f lattice 0 = .ok x) : x.1 = [] := by
  unfold readFormat at hx
  cases hl : label.head? with
  | none => rw [hl] at hx; cases hx
  | some c =>
    rw [hl] at hx
    dsimp only at hx
    split at hx
    · exact readCoordinates_zero hx
    · split at hx
      · cases hx
      · exact readCoordinates_zero hx

theorem readPositions_zero {ext : NumMat → Py NumMat} {lattice : NumMat}
    {f : List Char} {x : List NumVec × List Char}
    (hx : readPositions ext f lattice 0 = .ok x) : x.1 = [] := by
  unfold readPositions at hx
  dsimp only at hx
  cases hl : (readline f).1.head? with
  | none => rw [hl] at hx; cases hx
  | some c =>
    rw [hl] at hx
    dsimp only at hx
    split at hx
    · cases hx
    · split at hx
      · exact readFormat_zero hx
      · exact readFormat_zero hx

/-- The first configuration is empty if there are no atoms. -/
theorem readTsLoop_zero {ext : NumMat → Py NumMat} {lattice : NumMat} {fuel : ℕ} {f : List Char}
    {ps : List (List NumVec)} (hps : readTsLoop ext lattice 0 fuel f = .ok ps) (h : ps ≠ []) :
    [] ∈ ps := by
  cases fuel with
  | zero => cases hps
  | succ fuel =>
    unfold readTsLoop at hps
    cases hr : readPositions ext f lattice 0 with
    | error r =>
      rw [hr] at hps
      dsimp only at hps
      split at hps
      · cases hps
        exact absurd rfl h
      · cases hps
    | ok x =>
      rw [hr] at hps
      dsimp only at hps
      obtain ⟨ps', -, hps⟩ := (bind_ok_iff _ _ _).1 hps
      cases hps
      rw [readPositions_zero hr]
      exact List.mem_cons_self

/-! ## C184 -/

/-- C184: a POSCAR file that ends with a complete line and gives a structure gives the same structure
whatever is appended to it. -/
theorem C184_structure (ext : NumMat → Py NumMat) (a t : List Char) (s : ReadStructure)
    (hs : readStructure ext (a ++ ['\n']) = .ok s) : readStructure ext (a ++ ['\n'] ++ t) = .ok s := by
  unfold readStructure at hs ⊢
  rw [universalNewlines_tail]
  obtain ⟨x1, h1, hs⟩ := (bind_ok_iff _ _ _).1 hs
  obtain ⟨x2, h2, hs⟩ := (bind_ok_iff _ _ _).1 hs
  obtain ⟨ns, h3, hs⟩ := (bind_ok_iff _ _ _).1 hs
  obtain ⟨x4, h4, hs⟩ := (bind_ok_iff _ _ _).1 hs
  cases hs
  obtain ⟨e1, f1⟩ := readLattice_tail (fullLines_content a) h1 (universalNewlines t)
  obtain ⟨e2, f2⟩ := readAtomicSymbols_tail f1 h2 (universalNewlines t)
  obtain ⟨e4, -⟩ := readPositions_tail f2 (dropMsg_ok h4) (universalNewlines t)
  dsimp only
  rw [e1]
  dsimp only [bind, Except.bind]
  rw [e2]
  dsimp only
  rw [h3]
  dsimp only
  rw [e4]
  rfl

/-- C184: the same for `read_positions`. -/
theorem C184_positions (ext : NumMat → Py NumMat) (a t : List Char) (ps : List NumVec)
    (hs : readPoscarPositions ext (a ++ ['\n']) = .ok ps) :
    readPoscarPositions ext (a ++ ['\n'] ++ t) = .ok ps := by
  unfold readPoscarPositions at hs ⊢
  rw [universalNewlines_tail]
  obtain ⟨x1, h1, hs⟩ := (bind_ok_iff _ _ _).1 hs
  obtain ⟨x2, h2, hs⟩ := (bind_ok_iff _ _ _).1 hs
  obtain ⟨x4, h4, hs⟩ := (bind_ok_iff _ _ _).1 hs
  cases hs
  obtain ⟨e1, f1⟩ := readLattice_tail (fullLines_content a) h1 (universalNewlines t)
  obtain ⟨e2, f2⟩ := readAtomicSymbols_tail f1 h2 (universalNewlines t)
  obtain ⟨e4, -⟩ := readPositions_tail f2 (dropMsg_ok h4) (universalNewlines t)
  dsimp only
  rw [e1]
  dsimp only [bind, Except.bind]
  rw [e2]
  dsimp only
  rw [e4]
  rfl

theorem universalNewlines_blank {c : Char} (hc : Blank c) (t : List Char) :
    ∃ d r, universalNewlines (c :: t) = d :: r ∧ Blank d := by
  by_cases h : c = '\r'
  · subst h
    cases t with
    | nil => exact ⟨'\n', [], rfl, by unfold Blank; decide⟩
    | cons d ds =>
      by_cases hd : d = '\n'
      · subst hd
        exact ⟨'\n', _, by rw [universalNewlines], by unfold Blank; decide⟩
      · refine ⟨'\n', universalNewlines (d :: ds), ?_, by unfold Blank; decide⟩
        rw [universalNewlines]
        intro _ h
        exact hd (List.cons.inj h).1
  · refine ⟨c, universalNewlines t, ?_, hc⟩
    rw [universalNewlines]
    · intro _ h'; exact absurd h' h
    · exact h

/-- Text that begins with white space counts as the end of a trajectory. -/
theorem readPositions_blank (ext : NumMat → Py NumMat) (lattice : NumMat) (n : ℕ) {c : Char}
    (hc : Blank c) (t : List Char) : ∃ r, readPositions ext (c :: t) lattice n = .error r ∧
      r.err = .invalidFile ∧ contains missingMsg r.msg = true := by
  have hh : (readline (c :: t)).1.head? = some c := by
    rw [readline]
    split <;> rfl
  unfold readPositions
  dsimp only
  rw [hh]
  dsimp only
  rw [if_pos (.inr ((isSpace_iff c).2 hc))]
  refine ⟨_, rfl, rfl, ?_⟩
  unfold contains
  rw [decide_eq_true_iff]
  exact ⟨[], " '".toList ++ (readline (c :: t)).1 ++ ['\''], by simp⟩

/-- C184: appending an empty line, or any line that begins with white space, to an XDATCAR file hides
everything after it: the configurations are those before, without any message. -/
theorem C184_blank (ext : NumMat → Py NumMat) (a t : List Char) (c : Char) (hc : Blank c)
    (ps : List (List NumVec)) (hps : readPositionsTs ext (a ++ ['\n']) = .ok ps) :
    readPositionsTs ext (a ++ ['\n'] ++ c :: t) = .ok ps := by
  obtain ⟨d, r, hd, hb⟩ := universalNewlines_blank hc t
  unfold readPositionsTs at hps ⊢
  rw [universalNewlines_tail, hd]
  obtain ⟨x1, h1, hps⟩ := (bind_ok_iff _ _ _).1 hps
  obtain ⟨x2, h2, hps⟩ := (bind_ok_iff _ _ _).1 hps
  obtain ⟨e1, f1⟩ := readLattice_tail (fullLines_content a) h1 (d :: r)
  obtain ⟨e2, f2⟩ := readAtomicSymbols_tail f1 h2 (d :: r)
  dsimp only
  rw [e1]
  dsimp only [bind, Except.bind]
  rw [e2]
  dsimp only
  exact readTsLoop_blank (readPositions_blank ext _ _ hb r) _ _
    (by rw [List.length_append]; omega) f2 hps

/-- No configuration begins with a title and a line with fewer than three words. -/
theorem readPositions_header (ext : NumMat → Py NumMat) (lattice : NumMat) (n : ℕ) (hn : n ≠ 0)
    (title scale u : List Char) (h1 : '\n' ∉ title) (h2 : '\n' ∉ scale) (ws : List (List Char))
    (hw : Words scale ws) (hws : ws.length < 3) (hd : ¬ Begins scale 'd' 'D')
    (hc : ¬ Begins scale 'c' 'C') (x : List NumVec × List Char) :
    readPositions ext (title ++ '\n' :: (scale ++ '\n' :: u)) lattice n ≠ .ok x := by
  obtain ⟨m, rfl⟩ : ∃ m, n = m + 1 := ⟨n - 1, by omega⟩
  have hv : readVec (scale ++ ['\n']) = none := by
    have hl : (splitWs (scale ++ ['\n'])).length < 3 := by
      rw [splitWs_newline, words_split hw]
      exact hws
    unfold readVec
    cases hr : readRow (scale ++ ['\n']) with
    | none => rfl
    | some r =>
      have : r.length < 3 := by
        unfold readRow parseFloats at hr
        have := (mapM_option_iff _ _ _).1 hr
        rw [← this.length_eq, List.length_take]
        omega
      show toVec r = none
      match r, this with
      | [], _ => rfl
      | [_], _ => rfl
      | [_, _], _ => rfl
  have hrows : ∀ cart y, readCoordinates ext cart (scale ++ '\n' :: u) lattice (m + 1) ≠ .ok y := by
    intro cart y hy
    unfold readCoordinates at hy
    obtain ⟨z, hz, -⟩ := ebind_ok hy
    unfold readVectors at hz
    rw [readline_line h2] at hz
    dsimp only at hz
    rw [hv] at hz
    cases hz
  intro hx
  unfold readPositions at hx
  rw [readline_line h1] at hx
  dsimp only at hx
  cases hl : (title ++ ['\n']).head? with
  | none => rw [hl] at hx; cases hx
  | some c =>
    rw [hl] at hx
    dsimp only at hx
    split at hx
    · cases hx
    · split at hx
      · rw [readline_line h2] at hx
        dsimp only at hx
        unfold readFormat at hx
        cases hl2 : (scale ++ ['\n']).head? with
        | none => rw [hl2] at hx; cases hx
        | some e =>
          rw [hl2] at hx
          dsimp only at hx
          have he : e = '\n' ∨ scale.head? = some e := by
            cases scale with
            | nil => left; simpa using hl2.symm
            | cons b bs => right; simpa using hl2
          split at hx
          · rename_i hcc
            rcases he with rfl | he
            · revert hcc; decide
            · rcases (lower_iff e 'c' 'C' (by decide) (by decide)).1 hcc with rfl | rfl
              · exact hc (.inl he)
              · exact hc (.inr he)
          · split at hx
            · cases hx
            · rename_i hdd
              rw [not_not] at hdd
              rcases he with rfl | he
              · revert hdd; decide
              · rcases (lower_iff e 'd' 'D' (by decide) (by decide)).1 hdd with rfl | rfl
                · exact hd (.inl he)
                · exact hd (.inr he)
      · unfold readFormat at hx
        rw [hl] at hx
        dsimp only at hx
        split at hx
        · exact hrows _ _ hx
        · split at hx
          · cases hx
          · exact hrows _ _ hx

/-- C184: a trajectory in which the cell changes has the header, a title line and a line with the scale
factor first, again before the next configuration.  Such a file is refused or gives only the
configurations before the second header, whatever follows. -/
theorem C184_second_header (ext : NumMat → Py NumMat) (a title scale u : List Char)
    (h1 : '\n' ∉ title) (h1' : '\r' ∉ title) (h2 : '\n' ∉ scale) (h2' : '\r' ∉ scale)
    (ws : List (List Char)) (hw : Words scale ws) (hws : ws.length < 3) (hd : ¬ Begins scale 'd' 'D')
    (hc : ¬ Begins scale 'c' 'C') (ps qs : List (List NumVec))
    (hps : readPositionsTs ext (a ++ ['\n']) = .ok ps) (hne : ps ≠ []) (hat : [] ∉ ps)
    (hqs : readPositionsTs ext (a ++ ['\n'] ++ (title ++ '\n' :: (scale ++ '\n' :: u))) = .ok qs) :
    qs = ps := by
  have hu : universalNewlines (title ++ '\n' :: (scale ++ '\n' :: u))
      = title ++ '\n' :: (scale ++ '\n' :: universalNewlines u) := by
    have nl : ∀ r, universalNewlines ('\n' :: r) = '\n' :: universalNewlines r := by
      intro r
      have := universalNewlines_append (l := ['\n']) (by decide) r
      simpa using this
    rw [universalNewlines_append h1', nl, universalNewlines_append h2', nl]
  unfold readPositionsTs at hps hqs
  rw [universalNewlines_tail, hu] at hqs
  obtain ⟨x1, g1, hps⟩ := (bind_ok_iff _ _ _).1 hps
  obtain ⟨x2, g2, hps⟩ := (bind_ok_iff _ _ _).1 hps
  obtain ⟨e1, f1⟩ := readLattice_tail (fullLines_content a) g1
    (title ++ '\n' :: (scale ++ '\n' :: universalNewlines u))
  obtain ⟨e2, f2⟩ := readAtomicSymbols_tail f1 g2
    (title ++ '\n' :: (scale ++ '\n' :: universalNewlines u))
  dsimp only at hqs
  rw [e1] at hqs
  dsimp only [bind, Except.bind] at hqs
  rw [e2] at hqs
  dsimp only at hqs
  have hn : x2.1.length ≠ 0 := by
    intro h0
    dsimp only at hps
    rw [h0] at hps
    exact hat (readTsLoop_zero hps hne)
  exact readTsLoop_tail (readPositions_header ext _ _ hn title scale _ h1 h2 ws hw hws hd hc) _ _ f2
    hps hqs

/-- C184: the same for `read_trajectory`. -/
theorem C184_trajectory (ext : NumMat → Py NumMat) (timestep : Num) (a title scale u : List Char)
    (h1 : '\n' ∉ title) (h1' : '\r' ∉ title) (h2 : '\n' ∉ scale) (h2' : '\r' ∉ scale)
    (ws : List (List Char)) (hw : Words scale ws) (hws : ws.length < 3) (hd : ¬ Begins scale 'd' 'D')
    (hc : ¬ Begins scale 'c' 'C') (s r : OutcarTrajectory)
    (hs : xdatcarReadTrajectory ext (a ++ ['\n']) timestep = .ok s)
    (hr : xdatcarReadTrajectory ext (a ++ ['\n'] ++ (title ++ '\n' :: (scale ++ '\n' :: u))) timestep
      = .ok r) : r = s := by
  unfold xdatcarReadTrajectory at hs hr
  obtain ⟨ps, hps, hs⟩ := (bind_ok_iff _ _ _).1 hs
  obtain ⟨qs, hqs, hr⟩ := (bind_ok_iff _ _ _).1 hr
  by_cases hp : ps = [] ∨ [] ∈ ps
  · rw [if_pos hp] at hs; cases hs
  · push Not at hp
    have := C184_second_header ext a title scale u h1 h1' h2 h2' ws hw hws hd hc ps qs hps hp.1 hp.2 hqs
    subst this
    rw [hs] at hr
    exact (Except.ok.inj hr).symm

/-! ## Concrete cases -/

/-- One configuration of the atom. -/
def carbonStep : List Char := carbonHead ++ chars! "Direct\n0 0 0.5"

/-- The header with a larger cell and a second configuration; the title is missing. -/
def carbonNext : List Char := chars! "1.0\n2 0 0\n0 2 0\n0 0 2\nC\n1\nDirect\n0 0.5 0\n"

theorem carbonStep_read : ∃ ps, readPositionsTs (fun _ => .error .linAlgError) (carbonStep ++ ['\n']) = .ok ps ∧
    ps.map rowTriples = [[[some 0, some 0, some (1 / 2)]]] := by
  refine projOr_ok (List.map rowTriples) [] _ ?_ (by simp)
  decide +kernel

/-- C184, concrete: velocities, or anything else, after the positions. -/
example (t : List Char) : ∃ s, readStructure (fun _ => .error .linAlgError) (carbonStep ++ ['\n'] ++ t) = .ok s ∧
    rowTriples s.positions = [[some 0, some 0, some (1 / 2)]] := by
  obtain ⟨s, hs, es⟩ : ∃ s, readStructure (fun _ => .error .linAlgError) (carbonStep ++ ['\n']) = .ok s ∧
      rowTriples s.positions = [[some 0, some 0, some (1 / 2)]] := by
    refine projOr_ok (fun s : ReadStructure => rowTriples s.positions) [] _ ?_ (by simp)
    decide +kernel
  exact ⟨s, C184_structure _ _ t s hs, es⟩

/-- C184, concrete: an empty line hides a perfectly good second configuration. -/
example : ∃ ps, readPositionsTs (fun _ => .error .linAlgError)
    (carbonStep ++ ['\n'] ++ '\n' :: chars! "Direct\n0 0.5 0\n") = .ok ps ∧ ps.length = 1 := by
  obtain ⟨ps, hps, ep⟩ := carbonStep_read
  refine ⟨ps, C184_blank _ _ _ '\n' (by unfold Blank; decide) ps hps, ?_⟩
  have := congrArg List.length ep
  simpa using this

/-- C184, concrete: a second header whose title is empty is taken for the end of the file; the
configuration in the larger cell is lost silently. -/
theorem C184_lost : ∃ ps, readPositionsTs (fun _ => .error .linAlgError)
      (carbonStep ++ ['\n'] ++ ([] ++ '\n' :: carbonNext)) = .ok ps ∧ ps.length = 1 := by
  obtain ⟨ps, hps, ep⟩ := carbonStep_read
  refine ⟨ps, C184_blank _ _ carbonNext '\n' (by unfold Blank; decide) ps hps, ?_⟩
  have := congrArg List.length ep
  simpa using this

/-- C184, concrete: a second header with the title of the first is refused. -/
theorem C184_refused (qs : List (List NumVec)) :
    readPositionsTs (fun _ => .error .linAlgError)
      (carbonStep ++ ['\n'] ++ (['l'] ++ '\n' :: carbonNext)) ≠ .ok qs := by
  have : (match readPositionsTs (fun _ => .error .linAlgError)
      (carbonStep ++ ['\n'] ++ (['l'] ++ '\n' :: carbonNext)) with | .ok _ => false | .error _ => true) = true := by
    decide +kernel
  intro h
  rw [h] at this
  cases this

/-- C184, concrete: the hypotheses about the line after the title, for the line "1.0". -/
example (ps qs : List (List NumVec)) (title u : List Char) (h : '\n' ∉ title) (h' : '\r' ∉ title)
    (hps : readPositionsTs (fun _ => .error .linAlgError) (carbonStep ++ ['\n']) = .ok ps)
    (hqs : readPositionsTs (fun _ => .error .linAlgError)
      (carbonStep ++ ['\n'] ++ (title ++ '\n' :: (chars! "1.0" ++ '\n' :: u))) = .ok qs) :
    qs = ps ∧ ps.length = 1 := by
  obtain ⟨ps', hps', ep⟩ := carbonStep_read
  obtain rfl : ps' = ps := Except.ok.inj (hps'.symm.trans hps)
  have hl : ps'.length = 1 := by
    have := congrArg List.length ep
    simpa using this
  refine ⟨C184_second_header _ _ title _ u h h' (by decide) (by decide) [chars! "1.0"]
    ((splitWs_iff _ _).1 (by decide)) (by decide) (by unfold Begins; decide) (by unfold Begins; decide) ps' qs hps
    (by rintro rfl; simp at hl) ?_ hqs, hl⟩
  intro h0
  have := List.mem_map_of_mem (f := rowTriples) h0
  rw [ep] at this
  simp [rowTriples] at this

end Verif
