import Verif.Proofs.UndecodableEnd
import Verif.Props.LayoutTs

/-!
# C171: files that are not valid UTF-8

A file is given by the lines that can be decoded; reading on raises `UnicodeDecodeError`.
-/

namespace Verif
open Spec

variable {α : Type}

/-- What the caller of a reader sees: a value, or the class of an exception (`none` for
`UnboundLocalError`). -/
def Spec.seenByCaller (rd : Rd α) (undecodable : Bool) (lines : List (List Char)) :
    Except (Option PyErr) α :=
  match rd undecodable lines with
  | .ok (x, _) => .ok x
  | .error (.raised e _) => .error (some e)
  | .error .unbound => .error none

/-- The reader of decodable files. -/
def Spec.Regular (rd : Rd α) (read : List Char → Py α) : Prop :=
  ∀ content, seenByCaller rd false (fileLines content) =
    match read content with
    | .ok x => .ok x
    | .error e => .error (some e)

/-- What is returned for a file with undecodable bytes is what every decodable file with the same first
lines gives. -/
def Spec.NeverWrong (rd : Rd α) (read : List Char → Py α) : Prop :=
  ∀ lines x, seenByCaller rd true lines = .ok x →
    ∀ content, lines <+: fileLines content → read content = .ok x

/-- An exception is due to the undecodable bytes, or every decodable file with the same first lines
raises it, too. -/
def Spec.Blamed (rd : Rd α) (read : List Char → Py α) : Prop :=
  ∀ lines e, seenByCaller rd true lines = .error e →
    e = none ∨ e = some .unicodeError ∨ e = some .invalidFile ∨
    ∀ content, lines <+: fileLines content → ∃ err, e = some err ∧ read content = .error err

theorem regular_of_seen {rd : Rd α} {read : List Char → Py α}
    (h : ∀ content, Seen ((rd false (fileLines content)).map Prod.fst) (read content)) :
    Regular rd read := by
  intro content
  have h := h content
  unfold seenByCaller
  cases hr : rd false (fileLines content) with
  | ok p =>
    rw [hr] at h
    rcases seen_cases h with ⟨x, h1, h2⟩ | ⟨e, msg, h1, h2⟩
    · cases h1; rw [h2]
    · cases h1
  | error e =>
    rw [hr] at h
    rcases seen_cases h with ⟨x, h1, h2⟩ | ⟨e, msg, h1, h2⟩
    · cases h1
    · cases h1; rw [h2]

theorem never_wrong {rd : Rd α} {read : List Char → Py α} (hs : Settled rd) (hr : Regular rd read) :
    NeverWrong rd read := by
  rintro lines x h content ⟨more, hm⟩
  have hok : ∃ rest, rd true lines = .ok (x, rest) := by
    unfold seenByCaller at h
    split at h
    · cases h; exact ⟨_, by assumption⟩
    · cases h
    · cases h
  obtain ⟨rest, hok⟩ := hok
  have h1 := hs.decided hok false more
  rw [hm] at h1
  have h2 := hr content
  unfold seenByCaller at h2
  rw [h1] at h2
  cases hc : read content with
  | ok y => rw [hc] at h2; cases h2; rfl
  | error e => rw [hc] at h2; cases h2

theorem blamed {rd : Rd α} {read : List Char → Py α} (hs : Settled rd) (hr : Regular rd read) :
    Blamed rd read := by
  intro lines e h
  have herr : ∃ er, rd true lines = .error er ∧ e = er.cls := by
    unfold seenByCaller at h
    split at h
    · cases h
    · cases h; exact ⟨_, by assumption, rfl⟩
    · cases h; exact ⟨_, by assumption, rfl⟩
  obtain ⟨er, her, rfl⟩ := herr
  rcases hs lines with ⟨r, rest, h1⟩ | ⟨e', h1⟩ | ⟨e', hb, h1⟩
  · have := h1 true []
    rw [List.append_nil, her] at this
    cases this
  · have h0 := h1 true []
    rw [List.append_nil, her] at h0
    cases h0
    refine .inr (.inr (.inr ?_))
    rintro content ⟨more, hm⟩
    have h2 := h1 false more
    rw [hm] at h2
    have h3 := hr content
    unfold seenByCaller at h3
    rw [h2] at h3
    cases er with
    | unbound =>
      dsimp only at h3
      cases hc : read content with
      | ok y => rw [hc] at h3; cases h3
      | error e => rw [hc] at h3; cases h3
    | raised e msg =>
      dsimp only at h3
      cases hc : read content with
      | ok y => rw [hc] at h3; cases h3
      | error e' => rw [hc] at h3; cases h3; exact ⟨_, rfl, rfl⟩
  · rw [her] at h1
    cases h1
    rcases hb with rfl | ⟨m, rfl⟩ | ⟨m, rfl⟩
    · exact .inl rfl
    · exact .inr (.inl rfl)
    · exact .inr (.inr (.inl rfl))

/-- C171: on files that can be decoded, the readers of this model are those of the other properties. -/
theorem C171_regular (linAlgIsValue : Bool) (ext : NumMat → Py NumMat) :
    Regular (rdPhonons linAlgIsValue ext) (outcarReadPhonons linAlgIsValue ext) ∧
    Regular rdPositionsAndPolarizability outcarPositionsAndPolarizability ∧
    Regular rdOutcarPositions outcarPositions ∧
    Regular rdStructureAndPolarizability outcarStructureAndPolarizability ∧
    Regular rdRefArgs outcarRefArgs ∧
    Regular (rdTrajectory ext) (outcarReadTrajectory ext) ∧
    Regular (rdStructure ext) (readStructure ext) ∧
    Regular (rdReadPositions ext) (readPoscarPositions ext) ∧
    Regular (rdPositionsTs ext) (readPositionsTs ext) :=
  ⟨regular_of_seen (seen_phonons _ _), regular_of_seen seen_positionsAndPolarizability,
    regular_of_seen seen_outcarPositions, regular_of_seen seen_structureAndPolarizability,
    regular_of_seen seen_refArgs, regular_of_seen (seen_trajectory _),
    regular_of_seen (seen_structure _), regular_of_seen (seen_readPositions _),
    regular_of_seen (seen_positionsTs _)⟩

/-- C171: undecodable bytes never change what OUTCAR and POSCAR readers return. -/
theorem C171_never_wrong (linAlgIsValue : Bool) (ext : NumMat → Py NumMat) :
    NeverWrong (rdPhonons linAlgIsValue ext) (outcarReadPhonons linAlgIsValue ext) ∧
    NeverWrong rdPositionsAndPolarizability outcarPositionsAndPolarizability ∧
    NeverWrong rdOutcarPositions outcarPositions ∧
    NeverWrong rdStructureAndPolarizability outcarStructureAndPolarizability ∧
    NeverWrong rdRefArgs outcarRefArgs ∧
    NeverWrong (rdStructure ext) (readStructure ext) ∧
    NeverWrong (rdReadPositions ext) (readPoscarPositions ext) := by
  obtain ⟨h1, h2, h3, h4, h5, _, h7, h8, _⟩ := C171_regular linAlgIsValue ext
  exact ⟨never_wrong (settled_phonons _ _) h1, never_wrong settled_positionsAndPolarizability h2,
    never_wrong settled_outcarPositions h3, never_wrong settled_structureAndPolarizability h4,
    never_wrong settled_refArgs h5, never_wrong (settled_structure _) h7,
    never_wrong (settled_readPositions _) h8⟩

/-- C171: which exceptions undecodable bytes cause. -/
theorem C171_blamed (linAlgIsValue : Bool) (ext : NumMat → Py NumMat) :
    Blamed (rdPhonons linAlgIsValue ext) (outcarReadPhonons linAlgIsValue ext) ∧
    Blamed rdPositionsAndPolarizability outcarPositionsAndPolarizability ∧
    Blamed rdOutcarPositions outcarPositions ∧
    Blamed rdStructureAndPolarizability outcarStructureAndPolarizability ∧
    Blamed rdRefArgs outcarRefArgs ∧
    Blamed (rdStructure ext) (readStructure ext) ∧
    Blamed (rdReadPositions ext) (readPoscarPositions ext) := by
  obtain ⟨h1, h2, h3, h4, h5, _, h7, h8, _⟩ := C171_regular linAlgIsValue ext
  exact ⟨blamed (settled_phonons _ _) h1, blamed settled_positionsAndPolarizability h2,
    blamed settled_outcarPositions h3, blamed settled_structureAndPolarizability h4,
    blamed settled_refArgs h5, blamed (settled_structure _) h7, blamed (settled_readPositions _) h8⟩

/-- C171: no trajectory is ever read from an OUTCAR with undecodable bytes. -/
theorem C171_trajectory (ext : NumMat → Py NumMat) (lines : List (List Char)) :
    ∃ e, seenByCaller (rdTrajectory ext) true lines = .error e := by
  obtain ⟨e, he⟩ := trajectory_bad ext lines
  unfold seenByCaller
  rw [he]
  cases e
  · exact ⟨_, rfl⟩
  · exact ⟨_, rfl⟩

/-- C171, the documented `InvalidFileException` is not what a user sees: if the very first read fails
(as for every short file that is not UTF-8), all readers raise `UnboundLocalError`. -/
theorem C171_first_read (linAlgIsValue : Bool) (ext : NumMat → Py NumMat) :
    seenByCaller (rdPhonons linAlgIsValue ext) true [] = .error none ∧
    seenByCaller rdPositionsAndPolarizability true [] = .error none ∧
    seenByCaller rdOutcarPositions true [] = .error none ∧
    seenByCaller rdStructureAndPolarizability true [] = .error none ∧
    seenByCaller rdRefArgs true [] = .error none ∧
    seenByCaller (rdTrajectory ext) true [] = .error none ∧
    seenByCaller (rdStructure ext) true [] = .error none ∧
    seenByCaller (rdReadPositions ext) true [] = .error none ∧
    seenByCaller (rdPositionsTs ext) true [] = .error none :=
  ⟨rfl, rfl, rfl, rfl, rfl, rfl, rfl, rfl, rfl⟩

/-- C171: rows of numbers in an OUTCAR.  Without any row before the undecodable bytes, the exception is
`UnboundLocalError`, else `InvalidFileException`. -/
theorem C171_rows (n : ℕ) (rows : List (List Char)) (hn : rows.length < n)
    (hrows : ∀ l ∈ rows, (readRow l).isSome) :
    rdArray n true rows = .error (if rows = [] then .unbound else .raised .invalidFile []) := by
  have h : ∀ (rows : List (List Char)) (n : ℕ) (bound : Bool), rows.length < n →
      (∀ l ∈ rows, (readRow l).isSome) → rdRows bound n true rows
        = .error (if rows = [] ∧ bound = false then .unbound else .raised .invalidFile []) := by
    intro rows
    induction rows with
    | nil =>
      intro n bound hn _
      obtain ⟨m, rfl⟩ : ∃ m, n = m + 1 := ⟨n - 1, by simp at hn; omega⟩
      cases bound <;> rfl
    | cons l ls ih =>
      intro n bound hn hl
      obtain ⟨m, rfl⟩ : ∃ m, n = m + 1 := ⟨n - 1, by simp at hn; omega⟩
      obtain ⟨r, hr⟩ := Option.isSome_iff_exists.1 (hl l (by simp))
      have e : rdRows bound (m + 1) true (l :: ls) = match rdRows true m true ls with
          | .error e => .error e
          | .ok (x, f) => .ok (r :: x, f) := by
        rw [rdRows]
        change (match readRow l with
          | none => Rd.fail .invalidFile
          | some r => rdRows true m >>= fun rs => pure (r :: rs)) true ls = _
        rw [hr]
        dsimp only [bind]
        cases rdRows true m true ls <;> rfl
      rw [e, ih m true (by simp at hn; omega) fun x hx => hl x (by simp [hx])]
      simp
  unfold rdArray
  dsimp only [bind]
  rw [h rows n false hn hrows]
  simp

/-- C171: the searched headers.  If the text is not found before the undecodable bytes, the exception is
`UnicodeDecodeError`; only the search for the POTCAR block raises `UnboundLocalError`. -/
theorem C171_search (n : ℕ) (lines : List (List Char)) :
    ((∀ l ∈ lines, ¬ fracHeader <:+: l) →
      rdPositions n true lines = .error (.raised .unicodeError [])) ∧
    ((∀ l ∈ lines, ¬ "ions per type".toList <:+: l) →
      rdIonCounts true lines = .error (.raised .unicodeError [])) ∧
    ((∀ l ∈ lines, ¬ "POTCAR:    ".toList <:+: l) → rdPotcar true lines = .error .unbound) := by
  have h : ∀ content : List Char, (∀ l ∈ lines, ¬ content <:+: l) →
      Rd.skip content true lines = .error (.raised .unicodeError []) := by
    intro content hl
    induction lines with
    | nil => rfl
    | cons l ls ih =>
      rw [Rd.skip, if_neg (by rw [contains_iff]; exact hl l (by simp))]
      exact ih fun x hx => hl x (by simp [hx])
  refine ⟨fun hl => ?_, fun hl => ?_, fun hl => ?_⟩
  · unfold rdPositions
    dsimp only [bind, Rd.onError]
    rw [h _ hl]
    rfl
  · unfold rdIonCounts
    dsimp only [bind, Rd.onError]
    rw [h _ hl]
    rfl
  · unfold rdPotcar
    dsimp only [bind, Rd.onError]
    rw [h _ hl]
    rfl

/-! ### XDATCAR -/

theorem vectors_blame (prev : Option (List Char)) (n : ℕ) (ls : List (List Char)) (msg : List Char)
    (h : rdVectors prev n true ls = .error (.raised .invalidFile msg)) :
    (∀ bad more, rdVectors prev n bad (ls ++ more) = .error (.raised .invalidFile msg)) ∨
    ∃ l, (l ∈ ls ∨ prev = some l) ∧ msg = parsedMsg ++ l := by
  induction n generalizing prev ls with
  | zero => cases h
  | succ n ih =>
    cases ls with
    | nil =>
      cases prev with
      | none => cases h
      | some l => cases h; exact .inr ⟨l, .inr rfl, rfl⟩
    | cons l ls =>
      have e : ∀ bad f, rdVectors prev (n + 1) bad (l :: f) = (match readVec l with
          | none => Rd.failMsg .invalidFile (parsedMsg ++ l)
          | some v => rdVectors (some l) n >>= fun vs => pure (v :: vs) : Rd (List NumVec)) bad f :=
        fun bad f => by rw [rdVectors]; rfl
      rw [e] at h
      simp only [List.cons_append, e]
      cases hv : readVec l with
      | none =>
        rw [hv] at h
        cases h
        exact .inl fun _ _ => rfl
      | some v =>
        rw [hv] at h
        dsimp only [bind] at h ⊢
        cases hr : rdVectors (some l) n true ls with
        | ok x => rw [hr] at h; cases h
        | error er =>
          rw [hr] at h
          cases h
          rcases ih (some l) ls hr with h1 | ⟨x, hx, rfl⟩
          · exact .inl fun bad more => by rw [h1]
          · refine .inr ⟨x, .inl ?_, rfl⟩
            rcases hx with hx | hx
            · exact List.mem_cons_of_mem _ hx
            · cases hx; exact List.mem_cons_self

theorem infix_parsed {l : List Char} (h : contains missingMsg (parsedMsg ++ l) = true) :
    missingMsg <:+: l :=
  infix_append (by unfold parsedMsg missingMsg; decide) ((contains_iff _ _).1 h)

theorem coordinates_blame (ext : NumMat → Py NumMat) (cart : Bool) (lattice : NumMat) (n : ℕ)
    (ls : List (List Char)) (hls : ∀ l ∈ ls, ¬ missingMsg <:+: l) (msg : List Char)
    (hm : contains missingMsg msg = true)
    (h : rdCoordinates ext cart lattice n true ls = .error (.raised .invalidFile msg)) :
    ∀ bad more, rdCoordinates ext cart lattice n bad (ls ++ more)
      = .error (.raised .invalidFile msg) := by
  intro bad more
  rcases settled_coordinates ext cart lattice n ls with ⟨r, rest, h1⟩ | ⟨e, h1⟩ | ⟨e, _, _⟩
  · have := h1 true []
    rw [List.append_nil, h] at this
    cases this
  · have := h1 true []
    rw [List.append_nil, h] at this
    cases this
    exact h1 bad more
  · unfold rdCoordinates at h ⊢
    dsimp only [bind] at h ⊢
    cases hr : rdVectors none n true ls with
    | error er =>
      rw [hr] at h
      cases h
      rcases vectors_blame none n ls msg hr with h1 | ⟨l, hl, rfl⟩
      · rw [h1]
      · rcases hl with hl | hl
        · exact absurd (infix_parsed hm) (hls l hl)
        · cases hl
    | ok x =>
      have h2 := (settled_vectors none n).decided (r := x.1) (rest := x.2) hr bad more
      rw [hr] at h
      rw [h2]
      cases cart with
      | false => cases h
      | true =>
        dsimp only at h ⊢
        rw [if_pos rfl] at h ⊢
        unfold Rd.ofPy at h ⊢
        split at h
        · exact h
        · cases h

theorem positions_blame (ext : NumMat → Py NumMat) (lattice : NumMat) (n : ℕ)
    (ls : List (List Char)) (hls : ∀ l ∈ ls, ¬ missingMsg <:+: l) (msg : List Char)
    (hm : contains missingMsg msg = true)
    (h : rdPoscarPositions ext lattice n true ls = .error (.raised .invalidFile msg)) :
    ∀ bad more, rdPoscarPositions ext lattice n bad (ls ++ more)
      = .error (.raised .invalidFile msg) := by
  have hformat : ∀ (label : List Char) (f : List (List Char)), (∀ l ∈ f, ¬ missingMsg <:+: l) →
      rdFormat ext label lattice n true f = .error (.raised .invalidFile msg) →
      ∀ bad more, rdFormat ext label lattice n bad (f ++ more) = .error (.raised .invalidFile msg) := by
    intro label f hf h bad more
    unfold rdFormat at h ⊢
    cases hc : label.head? with
    | none => rw [hc] at h; cases h
    | some c =>
      rw [hc] at h
      dsimp only at h ⊢
      by_cases h1 : c.toLower = 'c'
      · rw [if_pos h1] at h ⊢; exact coordinates_blame ext true lattice n f hf msg hm h bad more
      rw [if_neg h1] at h ⊢
      by_cases h2 : c.toLower ≠ 'd'
      · rw [if_pos h2] at h ⊢; exact h
      · rw [if_neg h2] at h ⊢; exact coordinates_blame ext false lattice n f hf msg hm h bad more
  intro bad more
  cases ls with
  | nil => cases h
  | cons label f =>
    have hf : ∀ l ∈ f, ¬ missingMsg <:+: l := fun l hl => hls l (List.mem_cons_of_mem _ hl)
    unfold rdPoscarPositions at h ⊢
    have e : ∀ bad f (k : List Char → Rd (List NumVec)), (Rd.line >>= k) bad (label :: f) = k label bad f :=
      fun _ _ _ => rfl
    rw [List.cons_append, e]
    rw [e] at h
    cases hc : label.head? with
    | none => rw [hc] at h; exact h
    | some c =>
      rw [hc] at h
      dsimp only at h ⊢
      by_cases h1 : strip label = [] ∨ isSpace c = true
      · rw [if_pos h1] at h ⊢; exact h
      rw [if_neg h1] at h ⊢
      by_cases h2 : c.toLower = 's'
      · rw [if_pos h2] at h ⊢
        cases f with
        | nil => cases h
        | cons label' f =>
          exact hformat label' f (fun l hl => hf l (List.mem_cons_of_mem _ hl)) h bad more
      · rw [if_neg h2] at h ⊢; exact hformat label f hf h bad more

/-- The unread lines are the last lines of the file. -/
def Consuming (m : Rd α) : Prop := ∀ bad ls x g, m bad ls = .ok (x, g) → g <:+ ls

theorem Consuming.bind {β : Type} {m : Rd α} {k : α → Rd β} (hm : Consuming m)
    (hk : ∀ x, Consuming (k x)) : Consuming (m >>= k) := by
  intro bad ls y g h
  dsimp only [Bind.bind] at h
  cases hr : m bad ls with
  | error e => rw [hr] at h; cases h
  | ok p =>
    rw [hr] at h
    exact (hk p.1 bad p.2 y g h).trans (hm bad ls p.1 p.2 hr)

theorem consuming_pure (x : α) : Consuming (pure x : Rd α) := by
  intro bad ls y g h
  cases h
  exact List.suffix_rfl

theorem consuming_fail (e : PyErr) (msg : List Char) : Consuming (Rd.failMsg e msg : Rd α) := by
  intro bad ls y g h
  cases h

theorem consuming_line (h : ReadErr → ReadErr) : Consuming (Rd.line.onError h) := by
  intro bad ls y g hr
  cases ls with
  | nil => cases bad <;> cases hr; exact List.suffix_rfl
  | cons l ls => cases hr; exact List.suffix_cons _ _

theorem consuming_ofPy (r : Py α) : Consuming (Rd.ofPy r) := by
  intro bad ls y g h
  cases r with
  | error e => cases h
  | ok x => cases h; exact List.suffix_rfl

theorem consuming_vectors (prev : Option (List Char)) (n : ℕ) : Consuming (rdVectors prev n) := by
  induction n generalizing prev with
  | zero => exact consuming_pure _
  | succ n ih =>
    rw [rdVectors]
    refine (consuming_line _).bind fun line => ?_
    cases readVec line with
    | none => exact consuming_fail _ _
    | some v => exact (ih _).bind fun _ => consuming_pure _

theorem consuming_coordinates (ext : NumMat → Py NumMat) (cart : Bool) (lattice : NumMat) (n : ℕ) :
    Consuming (rdCoordinates ext cart lattice n) := by
  refine (consuming_vectors _ _).bind fun vs => ?_
  cases cart with
  | false => exact consuming_pure _
  | true => exact consuming_ofPy _

theorem consuming_format (ext : NumMat → Py NumMat) (label : List Char) (lattice : NumMat) (n : ℕ) :
    Consuming (rdFormat ext label lattice n) := by
  unfold rdFormat
  cases label.head? with
  | none => exact consuming_fail _ _
  | some c =>
    dsimp only
    split_ifs
    · exact consuming_coordinates _ _ _ _
    · exact consuming_fail _ _
    · exact consuming_coordinates _ _ _ _

theorem consuming_line' : Consuming Rd.line := by
  intro bad ls y g hr
  cases ls with
  | nil => cases bad <;> cases hr; exact List.suffix_rfl
  | cons l ls => cases hr; exact List.suffix_cons _ _

theorem consuming_positions (ext : NumMat → Py NumMat) (lattice : NumMat) (n : ℕ) :
    Consuming (rdPoscarPositions ext lattice n) := by
  unfold rdPoscarPositions
  refine consuming_line'.bind fun label => ?_
  cases label.head? with
  | none => exact consuming_fail _ _
  | some c =>
    dsimp only
    split_ifs
    · exact consuming_fail _ _
    · exact consuming_line'.bind fun _ => consuming_format _ _ _ _
    · exact consuming_format _ _ _ _

theorem tsLoop_decided (ext : NumMat → Py NumMat) (lattice : NumMat) (n fuel : ℕ)
    (ls : List (List Char)) (hls : ∀ l ∈ ls, ¬ missingMsg <:+: l) (r : List (List NumVec))
    (rest : List (List Char)) (h : rdTsLoop ext lattice n fuel true ls = .ok (r, rest))
    (fuel' : ℕ) (hf : fuel ≤ fuel') (bad : Bool) (more : List (List Char)) :
    ∃ rest', rdTsLoop ext lattice n fuel' bad (ls ++ more) = .ok (r, rest') := by
  induction fuel generalizing ls r rest fuel' with
  | zero => cases h
  | succ fuel ih =>
    obtain ⟨fuel', rfl⟩ : ∃ m, fuel' = m + 1 := ⟨fuel' - 1, by omega⟩
    rw [rdTsLoop] at h ⊢
    dsimp only at h ⊢
    cases hp : rdPoscarPositions ext lattice n true ls with
    | error e =>
      rw [hp] at h
      cases e with
      | unbound => cases h
      | raised e msg =>
        dsimp only at h
        split_ifs at h with hc
        cases h
        obtain ⟨rfl, hm⟩ := hc
        rw [positions_blame ext lattice n ls hls msg hm hp bad more]
        dsimp only
        rw [if_pos ⟨rfl, hm⟩]
        exact ⟨_, rfl⟩
    | ok p =>
      obtain ⟨x, g⟩ := p
      rw [hp] at h
      dsimp only at h
      rw [(settled_poscarPositions ext lattice n).decided hp bad more]
      dsimp only
      cases hr : rdTsLoop ext lattice n fuel true g with
      | error e => rw [hr] at h; cases h
      | ok q =>
        rw [hr] at h
        cases h
        obtain ⟨rest', h'⟩ := ih g (fun l hl => hls l ((consuming_positions ext lattice n _ _ _ _ hp).subset hl))
          q.1 q.2 hr fuel' (by omega)
        rw [h']
        exact ⟨_, rfl⟩

theorem consuming_lattice : Consuming rdPoscarLattice := by
  have hrow : Consuming rdLatticeRow := by
    refine (consuming_line _).bind fun line => ?_
    cases readVec line with
    | none => exact consuming_fail _ _
    | some v => exact consuming_pure _
  refine (consuming_line _).bind fun _ => (consuming_line _).bind fun line => ?_
  cases parseFloat line with
  | none => exact consuming_fail _ _
  | some v => exact hrow.bind fun _ => hrow.bind fun _ => hrow.bind fun _ => consuming_pure _

theorem consuming_symbols : Consuming rdPoscarSymbols := by
  unfold rdPoscarSymbols
  refine consuming_line'.bind fun line => ?_
  dsimp only
  split_ifs
  · exact consuming_fail _ _
  · refine consuming_line'.bind fun line => ?_
    split_ifs
    · exact consuming_fail _ _
    · cases (splitWs line).mapM parseInt with
      | none => exact consuming_fail _ _
      | some v => exact consuming_pure _
  · exact consuming_fail _ _

/-- C171: an XDATCAR with undecodable bytes.  If configurations are returned at all, a blank line ended
the reading before the bytes, and every decodable file with the same first lines gives the same
configurations.  (Lines quoting the message searched by the loop are excluded, see C94.) -/
theorem C171_xdatcar (ext : NumMat → Py NumMat) (lines : List (List Char))
    (hlines : ∀ l ∈ lines, ¬ missingMsg <:+: l) (frames : List (List NumVec))
    (h : seenByCaller (rdPositionsTs ext) true lines = .ok frames)
    (content : List Char) (hc : lines <+: fileLines content) :
    readPositionsTs ext content = .ok frames := by
  obtain ⟨more, hm⟩ := hc
  have hok : ∃ rest, rdPositionsTs ext true lines = .ok (frames, rest) := by
    unfold seenByCaller at h
    split at h
    · cases h; exact ⟨_, by assumption⟩
    · cases h
    · cases h
  obtain ⟨rest, hok⟩ := hok
  have hreg := regular_of_seen (seen_positionsTs ext) content
  have hfin : ∃ rest', rdPositionsTs ext false (lines ++ more) = .ok (frames, rest') := by
    unfold rdPositionsTs at hok ⊢
    dsimp only [bind] at hok ⊢
    cases hl : rdPoscarLattice true lines with
    | error e => rw [hl] at hok; cases hok
    | ok p =>
      rw [hl] at hok
      rw [settled_poscarLattice.decided (r := p.1) (rest := p.2) hl false more]
      dsimp only at hok ⊢
      cases hs : rdPoscarSymbols true p.2 with
      | error e => rw [hs] at hok; cases hok
      | ok q =>
        rw [hs] at hok
        rw [settled_poscarSymbols.decided (r := q.1) (rest := q.2) hs false more]
        dsimp only at hok ⊢
        have hsub := (consuming_symbols _ _ _ _ hs).trans (consuming_lattice _ _ _ _ hl)
        exact tsLoop_decided ext p.1 q.1.length _ q.2 (fun l hl => hlines l (hsub.subset hl)) frames
          rest hok _ (by simp) false more
  obtain ⟨rest', hfin⟩ := hfin
  rw [hm] at hfin
  unfold seenByCaller at hreg
  rw [hfin] at hreg
  dsimp only at hreg
  cases hr : readPositionsTs ext content with
  | ok y => rw [hr] at hreg; cases hreg; rfl
  | error e => rw [hr] at hreg; cases hreg

/-! ### Concrete files -/

/-- The lines of a POSCAR with one carbon atom. -/
def undecodableHead : List (List Char) :=
  ["diamond\n".toList, "1.0\n".toList, "1 0 0\n".toList, "0 1 0\n".toList, "0 0 1\n".toList,
    "C\n".toList, "1\n".toList, "Direct\n".toList, "0.5 0 0\n".toList]

/-- C171, concrete: a comment in another encoding at the end of a POSCAR does no harm; in place of the
first coordinates it raises `UnboundLocalError`, after the scale factor `InvalidFileException`, after the
lattice `UnicodeDecodeError`. -/
example (ext : NumMat → Py NumMat) :
    (∃ s, seenByCaller (rdStructure ext) true undecodableHead = .ok s ∧ s.atomicNumbers = [6] ∧
      s.positions = [![some (1 / 2), some 0, some 0]]) ∧
    seenByCaller (rdStructure ext) true (undecodableHead.take 8) = .error none ∧
    seenByCaller (rdStructure ext) true (undecodableHead.take 2) = .error (some .invalidFile) ∧
    seenByCaller (rdStructure ext) true (undecodableHead.take 5) = .error (some .unicodeError) := by
  refine ⟨⟨_, rfl, rfl, ?_⟩, rfl, rfl, rfl⟩
  decide +kernel

end Verif
