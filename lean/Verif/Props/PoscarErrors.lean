import Verif.Proofs.Truncate

/-!
# Properties C65, C93: what the POSCAR reader does on arbitrary text
-/

namespace Verif

/-! ## Helper lemmas -/

theorem readline_count (f : List Char) :
    ((readline f).2 ≠ [] → (readline f).1.count '\n' = 1) ∧
    '\n' ∉ (readline f).1.dropLast ∧ ((readline f).1 = [] → f = []) := by
  induction f with
  | nil => simp [readline]
  | cons c cs ih =>
    rw [readline]
    split
    · rename_i h
      subst h
      refine ⟨fun _ => by simp, by simp, fun h => by simp at h⟩
    · rename_i h
      dsimp only
      refine ⟨fun hr => ?_, ?_, fun h => by simp at h⟩
      · rw [List.count_cons_of_ne h, ih.1 hr]
      · cases hl : (readline cs).1 with
        | nil => simp
        | cons a l =>
          rw [hl] at ih
          rw [List.dropLast_cons_of_ne_nil (by simp), List.mem_cons, not_or]
          exact ⟨fun hh => h hh.symm, ih.2.1⟩

/-- Text consumed by some lines. -/
def Consumes (k : ℕ) (f r : List Char) : Prop :=
  ∃ pre, f = pre ++ r ∧ (r ≠ [] → pre.count '\n' = k)

theorem consumes_readline (f : List Char) : Consumes 1 f (readline f).2 :=
  ⟨(readline f).1, (readline_append f).symm, (readline_count f).1⟩

theorem Consumes.trans {j k : ℕ} {f g r : List Char} (h : Consumes j f g) (h' : Consumes k g r) :
    Consumes (j + k) f r := by
  obtain ⟨p, rfl, hp⟩ := h
  obtain ⟨q, rfl, hq⟩ := h'
  refine ⟨p ++ q, by simp, fun hr => ?_⟩
  rw [List.count_append, hp (by simp [hr]), hq hr]

theorem latticeRow_error {f : List Char} {e : PyErr} (h : latticeRow f = .error e) :
    e = .invalidFile := by
  unfold latticeRow at h
  dsimp only at h
  cases hv : readVec (readline f).1 with
  | none => rw [hv] at h; exact (Except.error.inj h).symm
  | some v => rw [hv] at h; cases h

theorem latticeRow_ok {f r : List Char} {v : NumVec} (h : latticeRow f = .ok (v, r)) :
    Consumes 1 f r := by
  unfold latticeRow at h
  dsimp only at h
  cases hv : readVec (readline f).1 with
  | none => rw [hv] at h; cases h
  | some v =>
    rw [hv] at h
    have := (Prod.mk.inj (Except.ok.inj h)).2
    rw [← this]
    exact consumes_readline f

theorem readLattice_cases (f : List Char) :
    readLattice f = .error .invalidFile ∨ ∃ m r, readLattice f = .ok (m, r) ∧ Consumes 5 f r := by
  unfold readLattice
  dsimp only
  have h2 : Consumes 2 f (readline (readline f).2).2 :=
    (consumes_readline f).trans (consumes_readline _)
  cases parseFloat (readline (readline f).2).1 with
  | none => exact Or.inl rfl
  | some scale =>
    dsimp only
    generalize (readline (readline f).2).2 = g at h2
    cases h0 : latticeRow g with
    | error e => rw [latticeRow_error h0]; exact Or.inl rfl
    | ok x0 =>
      obtain ⟨v0, g1⟩ := x0
      change (latticeRow g1 >>= _) = _ ∨ ∃ m r, (latticeRow g1 >>= _) = .ok (m, r) ∧ _
      cases h1 : latticeRow g1 with
      | error e => rw [latticeRow_error h1]; exact Or.inl rfl
      | ok x1 =>
        obtain ⟨v1, g2⟩ := x1
        change (latticeRow g2 >>= _) = _ ∨ ∃ m r, (latticeRow g2 >>= _) = .ok (m, r) ∧ _
        cases h3 : latticeRow g2 with
        | error e => rw [latticeRow_error h3]; exact Or.inl rfl
        | ok x2 =>
          obtain ⟨v2, g3⟩ := x2
          exact Or.inr ⟨_, g3, rfl, ((h2.trans (latticeRow_ok h0)).trans (latticeRow_ok h1)).trans
            (latticeRow_ok h3)⟩

theorem readAtomicSymbols_cases (f : List Char) :
    readAtomicSymbols f = .error .invalidFile ∨
      ∃ l r, readAtomicSymbols f = .ok (l, r) ∧ Consumes 2 f r ∧
        ∀ s ∈ l, knownSymbol s = true := by
  unfold readAtomicSymbols
  dsimp only
  have h2 : Consumes 2 f (readline (readline f).2).2 :=
    (consumes_readline f).trans (consumes_readline _)
  split
  · exact Or.inl rfl
  · split
    · exact Or.inl rfl
    · rename_i hk
      split
      · exact Or.inl rfl
      · split
        · exact Or.inl rfl
        · rename_i counts _
          refine Or.inr ⟨_, _, rfl, h2, ?_⟩
          intro s hs
          unfold expandSymbols at hs
          obtain ⟨x, hx, hs⟩ := List.mem_flatMap.1 hs
          rw [List.eq_of_mem_replicate hs]
          have := List.all_eq_true.1 (not_not.1 hk)
          exact this _ (List.of_mem_zip hx).1

theorem mapM_numberOf {l : List Word} (h : ∀ s ∈ l, knownSymbol s = true) :
    ∃ ns, l.mapM numberOf = .ok ns ∧ ns.length = l.length := by
  induction l with
  | nil => exact ⟨[], rfl, rfl⟩
  | cons s l ih =>
    obtain ⟨ns, hns, hl⟩ := ih fun x hx => h x (by simp [hx])
    have hs := h s (by simp)
    unfold knownSymbol at hs
    obtain ⟨n, hn⟩ := Option.isSome_iff_exists.1 hs
    refine ⟨n :: ns, ?_, by simp [hl]⟩
    rw [List.mapM_cons, numberOf_eq_ok.2 hn]
    change (l.mapM numberOf >>= _) = _
    rw [hns]
    rfl

theorem readVectors_cases (n : ℕ) (f : List Char) :
    (∃ r : Raised, r.err = .invalidFile ∧ readVectors n f = .error r) ∨
      ∃ vs g, readVectors n f = .ok (vs, g) ∧ vs.length = n ∧ g.length ≤ f.length := by
  induction n generalizing f with
  | zero => exact Or.inr ⟨[], f, rfl, rfl, le_refl _⟩
  | succ n ih =>
    rw [readVectors]
    dsimp only
    have hlen : (readline f).2.length ≤ f.length := by
      conv_rhs => rw [← readline_append f]
      simp
    cases readVec (readline f).1 with
    | none => exact Or.inl ⟨_, rfl, rfl⟩
    | some v =>
      dsimp only
      rcases ih (readline f).2 with ⟨r, hr, h⟩ | ⟨vs, g, h, hl, hg⟩
      · rw [h]
        exact Or.inl ⟨r, hr, rfl⟩
      · rw [h]
        exact Or.inr ⟨v :: vs, g, rfl, by simp [hl], hg.trans hlen⟩

/-- Behaviour of `np.linalg.inv` on matrices that are not finite: it may return anything, but
raises nothing but `LinAlgError`. -/
def InvRaisesLinAlg (ext : NumMat → Py NumMat) : Prop :=
  ∀ m e, ext m = .error e → e = .linAlgError

theorem numInv_error {ext : NumMat → Py NumMat} (hext : InvRaisesLinAlg ext) {m : NumMat}
    {e : PyErr} (h : numInv ext m = .error e) : e = .linAlgError := by
  unfold numInv at h
  split at h
  · dsimp only at h
    split at h
    · exact (Except.error.inj h).symm
    · cases h
  · exact hext m e h

theorem readCoordinates_cases {ext : NumMat → Py NumMat} (hext : InvRaisesLinAlg ext) (cart : Bool)
    (f : List Char) (lattice : NumMat) (n : ℕ) :
    (∃ r : Raised, readCoordinates ext cart f lattice n = .error r ∧ (r.err = .invalidFile ∨
      (cart = true ∧ (r.err = .linAlgError ∨ (r.err = .valueError ∧ n = 0))))) ∨
    ∃ vs g, readCoordinates ext cart f lattice n = .ok (vs, g) ∧ vs.length = n ∧
      g.length ≤ f.length := by
  unfold readCoordinates
  rcases readVectors_cases n f with ⟨r, hr, h⟩ | ⟨vs, g, h, hl, hg⟩
  · rw [h]
    exact Or.inl ⟨r, rfl, Or.inl hr⟩
  · rw [h]
    cases cart with
    | false => exact Or.inr ⟨vs, g, rfl, hl, hg⟩
    | true =>
      change (∃ r : Raised, toFractional ext lattice vs g = .error r ∧ _) ∨
        ∃ vs' g', toFractional ext lattice vs g = .ok (vs', g') ∧ _
      unfold toFractional
      cases hi : numInv ext lattice with
      | error e => exact Or.inl ⟨⟨e, []⟩, rfl, Or.inr ⟨rfl, Or.inl (numInv_error hext hi)⟩⟩
      | ok inv =>
        dsimp only
        by_cases hvs : vs = []
        · rw [if_pos hvs]
          subst hvs
          exact Or.inl ⟨⟨.valueError, []⟩, rfl, Or.inr ⟨rfl, Or.inr ⟨rfl, hl.symm⟩⟩⟩
        · rw [if_neg hvs]
          exact Or.inr ⟨_, g, rfl, by simpa using hl, hg⟩

theorem readFormat_cases {ext : NumMat → Py NumMat} (hext : InvRaisesLinAlg ext)
    (label f : List Char) (lattice : NumMat) (n : ℕ) :
    (∃ r : Raised, readFormat ext label f lattice n = .error r ∧ (r.err = .invalidFile ∨
      (r.err = .indexError ∧ label = []) ∨ (label.head?.map Char.toLower = some 'c' ∧
        (r.err = .linAlgError ∨ (r.err = .valueError ∧ n = 0))))) ∨
    ∃ vs g, readFormat ext label f lattice n = .ok (vs, g) ∧ vs.length = n ∧
      g.length ≤ f.length := by
  unfold readFormat
  cases label with
  | nil => exact Or.inl ⟨_, rfl, Or.inr (Or.inl ⟨rfl, rfl⟩)⟩
  | cons c l =>
    dsimp only [List.head?_cons]
    by_cases hc : c.toLower = 'c'
    · rw [if_pos hc]
      rcases readCoordinates_cases hext true f lattice n with ⟨r, h, hr⟩ | h
      · left
        refine ⟨r, h, ?_⟩
        rcases hr with hr | ⟨-, hr⟩
        · exact Or.inl hr
        · exact Or.inr (Or.inr ⟨by simp [hc], hr⟩)
      · exact Or.inr h
    · rw [if_neg hc]
      by_cases hd : c.toLower = 'd'
      · rw [if_neg (not_not.2 hd)]
        rcases readCoordinates_cases hext false f lattice n with ⟨r, h, hr⟩ | h
        · left
          refine ⟨r, h, ?_⟩
          rcases hr with hr | ⟨h', -⟩
          · exact Or.inl hr
          · cases h'
        · exact Or.inr h
      · rw [if_pos hd]
        exact Or.inl ⟨_, rfl, Or.inl rfl⟩

/-- What `_read_positions` can do. -/
theorem readPositions_cases {ext : NumMat → Py NumMat} (hext : InvRaisesLinAlg ext)
    (f : List Char) (lattice : NumMat) (n : ℕ) :
    (∃ r : Raised, readPositions ext f lattice n = .error r ∧ (r.err = .invalidFile ∨
      (r.err = .indexError ∧ f.head?.map Char.toLower = some 's' ∧ '\n' ∉ f.dropLast) ∨
      ((∃ pre label, f = pre ++ label ∧ pre.count '\n' ≤ 1 ∧
          label.head?.map Char.toLower = some 'c') ∧
        (r.err = .linAlgError ∨ (r.err = .valueError ∧ n = 0))))) ∨
    ∃ vs g, readPositions ext f lattice n = .ok (vs, g) ∧ vs.length = n ∧
      g.length < f.length := by
  have happ := readline_append f
  have hcount := readline_count f
  unfold readPositions
  dsimp only
  generalize (readline f).1 = l at happ hcount
  generalize (readline f).2 = g at happ hcount
  cases l with
  | nil => exact Or.inl ⟨_, rfl, Or.inl rfl⟩
  | cons c l =>
    dsimp only [List.head?_cons]
    split
    · exact Or.inl ⟨_, rfl, Or.inl rfl⟩
    · have hlt : g.length < f.length := by rw [← happ]; simp
      split
      · rename_i hs
        have happ' := readline_append g
        have hlen : (readline g).2.length ≤ g.length := by
          conv_rhs => rw [← readline_append g]
          simp
        rcases readFormat_cases hext (readline g).1 (readline g).2 lattice n with
          ⟨r, h, hr⟩ | ⟨vs, g', h, h1, h2⟩
        · refine Or.inl ⟨r, h, ?_⟩
          rcases hr with hr | ⟨hr, hl⟩ | ⟨hl, hr⟩
          · exact Or.inl hr
          · refine Or.inr (Or.inl ⟨hr, ?_, ?_⟩)
            · rw [← happ]; simp [hs]
            · have hg : g = [] := (readline_count g).2.2 hl
              rw [← happ, hg, List.append_nil]
              exact hcount.2.1
          · refine Or.inr (Or.inr ⟨⟨c :: l, g, happ.symm, ?_, ?_⟩, hr⟩)
            · by_cases hg : g = []
              · subst hg
                simp [readline] at hl
              · rw [hcount.1 hg]
            · rw [← happ']
              cases hgl : (readline g).1 with
              | nil => rw [hgl] at hl; simp at hl
              | cons a b => rw [hgl] at hl; simpa using hl
        · exact Or.inr ⟨vs, g', h, h1, by omega⟩
      · rcases readFormat_cases hext (c :: l) g lattice n with
          ⟨r, h, hr⟩ | ⟨vs, g', h, h1, h2⟩
        · refine Or.inl ⟨r, h, ?_⟩
          rcases hr with hr | ⟨hr, hl⟩ | ⟨hl, hr⟩
          · exact Or.inl hr
          · cases hl
          · refine Or.inr (Or.inr ⟨⟨[], f, rfl, by simp, ?_⟩, hr⟩)
            rw [← happ]
            simpa using hl
        · exact Or.inr ⟨vs, g', h, h1, by omega⟩

/-! ## C65 -/

/-- C65: on any text, `read_structure` either returns a structure with one position per atomic
number or raises `InvalidFileException`, with three exceptions: `IndexError` when the eighth line
asks for selective dynamics and is the last one, `LinAlgError` in Cartesian mode, and
`ValueError` in Cartesian mode without atoms. -/
theorem C65_behaviour (ext : NumMat → Py NumMat) (hext : InvRaisesLinAlg ext)
    (content : List Char) :
    (∃ s, readStructure ext content = .ok s ∧ s.positions.length = s.atomicNumbers.length) ∨
    readStructure ext content = .error .invalidFile ∨
    (readStructure ext content = .error .indexError ∧ ∃ pre label,
      universalNewlines content = pre ++ label ∧ pre.count '\n' = 7 ∧
      label.head?.map Char.toLower = some 's' ∧ '\n' ∉ label.dropLast) ∨
    ((readStructure ext content = .error .linAlgError ∨
        readStructure ext content = .error .valueError) ∧ ∃ pre label,
      universalNewlines content = pre ++ label ∧
      (pre.count '\n' = 7 ∨ pre.count '\n' = 8) ∧
      label.head?.map Char.toLower = some 'c') := by
  unfold readStructure
  dsimp only
  generalize universalNewlines content = f
  rcases readLattice_cases f with h | ⟨m, f1, h, hc5⟩
  · rw [h]; exact Or.inr (Or.inl rfl)
  · rw [h]
    rcases readAtomicSymbols_cases f1 with h' | ⟨syms, f2, h', hc2, hk⟩
    · right; left
      change (readAtomicSymbols f1 >>= _) = _
      rw [h']; rfl
    · obtain ⟨ns, hns, hlen⟩ := mapM_numberOf hk
      have hred : ∀ x : Except Raised (List NumVec × List Char),
          readPositions ext f2 m syms.length = x → ((Except.ok (m, f1) : Py _) >>=
          fun x => do
            let (lattice, f) := x
            let (symbols, f) ← readAtomicSymbols f
            let numbers ← symbols.mapM numberOf
            let (positions, _) ← dropMsg (readPositions ext f lattice symbols.length)
            return (⟨lattice, numbers, positions⟩ : ReadStructure)) =
          (dropMsg x >>= fun y => .ok (⟨m, ns, y.1⟩ : ReadStructure)) := by
        intro x hx
        change (readAtomicSymbols f1 >>= _) = _
        rw [h']
        change (syms.mapM numberOf >>= _) = _
        rw [hns]
        change (dropMsg (readPositions ext f2 m syms.length) >>= _) = _
        rw [hx]
        rfl
      have hpre := hc5.trans hc2
      rcases readPositions_cases hext f2 m syms.length with ⟨r, hr, he⟩ | ⟨vs, g, hr, hl, -⟩
      · rw [hred _ hr]
        change _ ∨ Except.error r.err = _ ∨ (Except.error r.err = _ ∧ _) ∨ (
          (Except.error r.err = _ ∨ Except.error r.err = _) ∧ _)
        rcases he with he | ⟨he, h1, h2⟩ | ⟨⟨p, l, hpl, hcnt, hl⟩, he⟩
        · rw [he]; exact Or.inr (Or.inl rfl)
        · right; right; left
          obtain ⟨pre, hf, hn⟩ := hpre
          refine ⟨by rw [he], pre, f2, hf, hn ?_, h1, h2⟩
          rintro rfl
          simp at h1
        · right; right; right
          refine ⟨?_, ?_⟩
          · rcases he with he | he
            · exact Or.inl (by rw [he])
            · exact Or.inr (by rw [he.1])
          · obtain ⟨pre, hf, hn⟩ := hpre
            have hne : f2 ≠ [] := by
              rintro rfl
              have : l = [] := by
                have := congrArg List.length hpl
                simp at this
                exact List.length_eq_zero_iff.1 (by omega)
              subst this
              simp at hl
            refine ⟨pre ++ p, l, by rw [hf, hpl, List.append_assoc], ?_, hl⟩
            rw [List.count_append, hn hne]
            omega
      · rw [hred _ hr]
        exact Or.inl ⟨⟨m, ns, vs⟩, rfl, by rw [hl, hlen]⟩

/-- A lattice and one carbon atom. -/
def poscarHead : String := "label\n1.0\n1 0 0\n0 1 0\n0 0 1\nC\n1\n"

/-- The exception of a call, if any. -/
def errorOf {α : Type} : Py α → Option PyErr
  | .error e => some e
  | .ok _ => none

/-- The positions of a structure, if any. -/
def positionsOf : Py ReadStructure → List (List Num)
  | .error _ => []
  | .ok s => s.positions.map List.ofFn

/-- C65, concrete: the exceptional errors do occur; a complete file is read. -/
example :
    let ext : NumMat → Py NumMat := fun _ => .error .linAlgError
    errorOf (readStructure ext (poscarHead ++ "Selective dynamics\n").toList) =
      some .indexError ∧
    errorOf (readStructure ext "l\n1.0\n1 0 0\n2 0 0\n0 0 1\nC\n1\nCart\n0 0 0\n".toList) =
      some .linAlgError ∧
    errorOf (readStructure ext "l\n1.0\n1 0 0\n0 1 0\n0 0 1\nC\n0\nCart\n".toList) =
      some .valueError ∧
    positionsOf (readStructure ext (poscarHead ++ "Direct\n0 0 0.5\n").toList) =
      [[some 0, some 0, some (1 / 2)]] := by
  decide +kernel

end Verif
