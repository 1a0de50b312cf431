import Verif.Props.OutcarErrors
import Verif.Proofs.ReaderLayout
import Verif.Proofs.Chars
import Verif.Spec.OutcarFile

/-!
# C134: which structures the OUTCAR readers return
-/

namespace Verif

open Spec

theorem titled_iff (title : String) (f : List (List Char)) (l : List Char) (g : List (List Char)) :
    orInvalid (skipUntil title.toList f) = .ok (l, g) ↔ Titled title f l g := by
  rcases orInvalid_skip_cases title.toList f with ⟨h, hn⟩ | ⟨l', g', pre, h, hf, hl, hp⟩
  · rw [h]
    constructor
    · intro e; cases e
    · rintro ⟨pre, rfl, -, hl⟩
      exact absurd hl (hn l (by simp))
  · rw [h]
    constructor
    · intro e
      obtain ⟨rfl, rfl⟩ := Prod.mk.inj (Except.ok.inj e)
      exact ⟨pre, hf, hp, hl⟩
    · rintro ⟨pre', hf', hp', hl'⟩
      rw [← h, hf']
      exact orInvalid_skip_append hp' hl'

theorem readArray_rows_iff (n : ℕ) (f g : List (List Char)) (vs : List NumVec) :
    readArray n f = .ok (rowsList vs, g) ↔ vs.length = n ∧ Rows f vs g := by
  constructor
  · intro h
    rcases readArray_cases n f with e | e | ⟨rows, g', e, hr, hl, -, -⟩
    · rw [e] at h; cases h
    · rw [e] at h; cases h
    · rw [e] at h
      obtain ⟨rfl, rfl⟩ := Prod.mk.inj (Except.ok.inj h)
      refine ⟨by simpa [rowsList] using hl, ?_⟩
      obtain ⟨block, ws, hf, hrows, hall⟩ := readRows_block hr (by
        intro r hr
        obtain ⟨v, -, rfl⟩ := List.mem_map.1 hr
        rfl)
      have : ws = vs := by
        have h1 := mapM_toVec_rows ws
        rw [← hrows] at h1
        have h2 := mapM_toVec_rows vs
        change (rowsList vs).mapM toVec = _ at h2
        rw [h2] at h1
        exact (Option.some.inj h1).symm
      subst this
      exact ⟨block, hf, hall⟩
  · rintro ⟨rfl, block, rfl, hall⟩
    rw [← hall.length_eq]
    exact readArray_append hall g

theorem outcarReadLattice_iff (f g : List (List Char)) (vs : List NumVec) :
    outcarReadLattice f = .ok (rowsList vs, g) ↔ LatticeIn f vs g := by
  unfold outcarReadLattice LatticeIn
  rw [bind_ok_iff]
  constructor
  · rintro ⟨⟨flags, f1⟩, h1, h⟩
    rw [bind_ok_iff] at h
    obtain ⟨⟨hd, f2⟩, h2, h3⟩ := h
    obtain ⟨h4, h5⟩ := (readArray_rows_iff _ _ _ _).1 h3
    exact ⟨flags, hd, f1, f2, (titled_iff _ _ _ _).1 h1, (titled_iff _ _ _ _).1 h2, h4, h5⟩
  · rintro ⟨flags, hd, f1, f2, h1, h2, h3, h4⟩
    refine ⟨(flags, f1), (titled_iff _ _ _ _).2 h1, ?_⟩
    rw [bind_ok_iff]
    exact ⟨(hd, f2), (titled_iff _ _ _ _).2 h2, (readArray_rows_iff _ _ _ _).2 ⟨h3, h4⟩⟩

theorem outcarReadPositions_iff (f g : List (List Char)) (n : ℕ) (vs : List NumVec) :
    outcarReadPositions f n = .ok (rowsList vs, g) ↔ PositionsIn n f vs g := by
  unfold outcarReadPositions PositionsIn
  rw [bind_ok_iff]
  constructor
  · rintro ⟨⟨hd, f1⟩, h1, h⟩
    obtain ⟨h4, h5⟩ := (readArray_rows_iff _ _ _ _).1 h
    exact ⟨hd, f1, (titled_iff _ _ _ _).1 h1, h4, h5⟩
  · rintro ⟨hd, f1, h1, h3, h4⟩
    exact ⟨(hd, f1), (titled_iff _ _ _ _).2 h1, (readArray_rows_iff _ _ _ _).2 ⟨h3, h4⟩⟩

theorem outcarReadPolarizability_iff (f : List (List Char)) (vs : List NumVec) :
    (∃ g, outcarReadPolarizability f = .ok (rowsList vs, g)) ↔ TensorIn f vs := by
  unfold outcarReadPolarizability TensorIn
  constructor
  · rintro ⟨g, h⟩
    rw [bind_ok_iff] at h
    obtain ⟨⟨hd, f1⟩, h1, h⟩ := h
    obtain ⟨h4, h5⟩ := (readArray_rows_iff _ _ _ _).1 h
    cases f1 with
    | nil =>
      obtain ⟨block, hb, hall⟩ := h5
      have hb' : block = [] := by
        cases block with
        | nil => rfl
        | cons b bs => cases hb
      subst hb'
      have := hall.length_eq
      rw [h4] at this
      cases this
    | cons sep f1 => exact ⟨hd, sep, f1, g, (titled_iff _ _ _ _).1 h1, h4, h5⟩
  · rintro ⟨hd, sep, f1, g, h1, h3, h4⟩
    refine ⟨g, (bind_ok_iff _ _ _).2 ⟨(hd, sep :: f1), (titled_iff _ _ _ _).2 h1, ?_⟩⟩
    exact (readArray_rows_iff _ _ _ _).2 ⟨h3, h4⟩

/-- An element symbol and its atomic number. -/
abbrev IsNumber (s : Word) (n : ℕ) : Prop := dictGet atomicNumbers s = some n

theorem expand_number {ss : List Word} {zs : List ℕ} (h : List.Forall₂ IsNumber ss zs)
    (cs : List ℤ) : List.Forall₂ IsNumber (repeatEach ss cs)
      ((zs.zip cs).flatMap fun x => List.replicate x.2.toNat x.1) := by
  rw [← expandSymbols_eq]
  unfold expandSymbols
  induction h generalizing cs with
  | nil => simp
  | @cons s z ss zs hsz h ih =>
    cases cs with
    | nil => simp
    | cons n ns =>
      simp only [List.zip_cons_cons, List.flatMap_cons]
      refine List.rel_append ?_ (ih ns)
      generalize n.toNat = k
      induction k with
      | zero => exact .nil
      | succ k ihk =>
        rw [List.replicate_succ, List.replicate_succ]
        exact .cons hsz ihk

theorem forall₂_dropLast {α β : Type} {R : α → β → Prop} {l : List α} {l' : List β}
    (h : List.Forall₂ R l l') : List.Forall₂ R l.dropLast l'.dropLast := by
  rw [List.dropLast_eq_take, List.dropLast_eq_take, h.length_eq]
  exact List.forall₂_take _ h

theorem isNumber_unique {ss : List Word} {zs zs' : List ℕ} (h : List.Forall₂ IsNumber ss zs)
    (h' : List.Forall₂ IsNumber ss zs') : zs = zs' := by
  induction h generalizing zs' with
  | nil => cases h'; rfl
  | cons hs _ ih =>
    cases h' with
    | cons hs' h' =>
      rw [ih h']
      have : some _ = some _ := hs.symm.trans hs'
      rw [Option.some.inj this]

theorem numbers_exist {ls : List (List Char)} {names : List Word}
    (h : List.Forall₂ (fun l s => NamesSymbol l s ∧ ∃ n, dictGet atomicNumbers s = some n) ls names) :
    ∃ zs, List.Forall₂ IsNumber names zs := by
  induction h with
  | nil => exact ⟨[], .nil⟩
  | cons hs _ ih =>
    obtain ⟨zs, hzs⟩ := ih
    obtain ⟨z, hz⟩ := hs.2
    exact ⟨z :: zs, .cons hz hzs⟩

theorem names_known {ls : List (List Char)} {names : List Word} {zs : List ℕ}
    (h : List.Forall₂ NamesSymbol ls names) (hz : List.Forall₂ IsNumber names zs) :
    List.Forall₂ (fun l s => NamesSymbol l s ∧ ∃ n, dictGet atomicNumbers s = some n) ls names := by
  induction h generalizing zs with
  | nil => exact .nil
  | cons h1 _ ih =>
    cases hz with
    | cons h2 h3 => exact .cons ⟨h1, _, h2⟩ (ih h3)

theorem outcarElements_iff (f g : List (List Char)) (numbers : List ℕ) :
    (∃ symbols, outcarSymbols f = .ok (symbols, g) ∧ symbols.mapM numberOf = .ok numbers) ↔
      ElementsIn IsNumber f numbers g := by
  unfold ElementsIn
  have hnum : ∀ ss : List Word, ss.mapM numberOf = .ok numbers ↔ List.Forall₂ IsNumber ss numbers := by
    intro ss
    rw [mapM_except_ok]
    constructor
    · intro h; exact h.imp fun _ _ h => numberOf_eq_ok.1 h
    · intro h; exact h.imp fun _ _ h => numberOf_eq_ok.2 h
  constructor
  · rintro ⟨symbols, hs, hn⟩
    rw [hnum] at hn
    obtain ⟨pre, first, more, stop, next, mid, ions, names, counts, hf, hp, hfirst, hm, hst, hall,
      hmid, hions, hc, rfl⟩ := (C67_symbols f g symbols).1 hs
    obtain ⟨zs, hz⟩ := numbers_exist hall
    refine ⟨first, more, stop, next, mid ++ ions :: g, ions, names, zs, counts, ⟨pre, hf, hp, hfirst⟩,
      hm, hst, hall.imp fun _ _ h => h.1, hz, ⟨mid, rfl, hmid, hions⟩, hc, ?_⟩
    refine isNumber_unique hn ?_
    split_ifs
    · exact expand_number (forall₂_dropLast hz) counts
    · exact expand_number hz counts
  · rintro ⟨first, more, stop, next, rest, ions, names, zs, counts, ⟨pre, hf, hp, hfirst⟩, hm, hst,
      hall, hz, ⟨mid, rfl, hmid, hions⟩, hc, rfl⟩
    refine ⟨repeatEach (if "VRHFIN".toList <:+: next then names.dropLast else names) counts,
      (C67_symbols f g _).2 ⟨pre, first, more, stop, next, mid, ions, names, counts, hf, hp, hfirst,
        hm, hst, ?_, hmid, hions, hc, rfl⟩, ?_⟩
    · exact names_known hall hz
    · rw [hnum]
      split_ifs
      · exact expand_number (forall₂_dropLast hz) counts
      · exact expand_number hz counts

/-- C134: `read_structure_and_polarizability` returns arrays with three columns exactly if the parts of
the file come in this order, and then returns what they hold. -/
theorem C134_structure_and_polarizability (content : List Char) (numbers : List ℕ)
    (lattice positions tensor : List NumVec) :
    outcarStructureAndPolarizability content =
      .ok ⟨rowsList lattice, numbers, rowsList positions, rowsList tensor⟩ ↔
    ∃ f g h, ElementsIn IsNumber (fileLines content) numbers f ∧ LatticeIn f lattice g ∧
      PositionsIn numbers.length g positions h ∧ TensorIn h tensor := by
  unfold outcarStructureAndPolarizability
  constructor
  · intro e
    obtain ⟨⟨symbols, f⟩, h1, e⟩ := (bind_ok_iff _ _ _).1 e
    obtain ⟨ns, h2, e⟩ := (bind_ok_iff _ _ _).1 e
    obtain ⟨⟨lat, g⟩, h3, e⟩ := (bind_ok_iff _ _ _).1 e
    obtain ⟨⟨pos, h⟩, h4, e⟩ := (bind_ok_iff _ _ _).1 e
    obtain ⟨⟨pol, k⟩, h5, e⟩ := (bind_ok_iff _ _ _).1 e
    have := OutcarStructure.mk.inj (Except.ok.inj e)
    obtain ⟨rfl, rfl, rfl, rfl⟩ := this
    exact ⟨f, g, h, (outcarElements_iff _ _ _).1 ⟨symbols, h1, h2⟩, (outcarReadLattice_iff _ _ _).1 h3,
      (outcarReadPositions_iff _ _ _ _).1 h4, (outcarReadPolarizability_iff _ _).1 ⟨k, h5⟩⟩
  · rintro ⟨f, g, h, h1, h3, h4, h5⟩
    obtain ⟨symbols, h1, h2⟩ := (outcarElements_iff _ _ _).2 h1
    obtain ⟨k, h5⟩ := (outcarReadPolarizability_iff _ _).2 h5
    refine (bind_ok_iff _ _ _).2 ⟨(symbols, f), h1, (bind_ok_iff _ _ _).2 ⟨numbers, h2,
      (bind_ok_iff _ _ _).2 ⟨(_, g), (outcarReadLattice_iff _ _ _).2 h3,
        (bind_ok_iff _ _ _).2 ⟨(_, h), (outcarReadPositions_iff _ _ _ _).2 h4,
          (bind_ok_iff _ _ _).2 ⟨(_, k), h5, rfl⟩⟩⟩⟩⟩

/-- C134: likewise `read_ref_structure`, up to the constructor. -/
theorem C134_reference (content : List Char) (numbers : List ℕ) (lattice positions : List NumVec) :
    outcarRefArgs content = .ok (numbers, rowsList lattice, rowsList positions) ↔
    ∃ f g h, ElementsIn IsNumber (fileLines content) numbers f ∧ LatticeIn f lattice g ∧
      PositionsIn numbers.length g positions h := by
  have hlen : ∀ {ss : List Word} {ns : List ℕ}, ss.mapM numberOf = .ok ns → ns.length = ss.length :=
    fun h => ((mapM_except_ok _ _ _).1 h).length_eq.symm
  unfold outcarRefArgs
  constructor
  · intro e
    obtain ⟨⟨symbols, f⟩, h1, e⟩ := (bind_ok_iff _ _ _).1 e
    obtain ⟨ns, h2, e⟩ := (bind_ok_iff _ _ _).1 e
    obtain ⟨⟨lat, g⟩, h3, e⟩ := (bind_ok_iff _ _ _).1 e
    obtain ⟨⟨pos, h⟩, h4, e⟩ := (bind_ok_iff _ _ _).1 e
    obtain ⟨rfl, e'⟩ := Prod.mk.inj (Except.ok.inj e)
    obtain ⟨rfl, rfl⟩ := Prod.mk.inj e'
    refine ⟨f, g, h, (outcarElements_iff _ _ _).1 ⟨symbols, h1, h2⟩,
      (outcarReadLattice_iff _ _ _).1 h3, ?_⟩
    rw [hlen h2]
    exact (outcarReadPositions_iff _ _ _ _).1 h4
  · rintro ⟨f, g, h, h1, h3, h4⟩
    obtain ⟨symbols, h1, h2⟩ := (outcarElements_iff _ _ _).2 h1
    rw [hlen h2] at h4
    exact (bind_ok_iff _ _ _).2 ⟨(symbols, f), h1, (bind_ok_iff _ _ _).2 ⟨numbers, h2,
      (bind_ok_iff _ _ _).2 ⟨(_, g), (outcarReadLattice_iff _ _ _).2 h3,
        (bind_ok_iff _ _ _).2 ⟨(_, h), (outcarReadPositions_iff _ _ _ _).2 h4, rfl⟩⟩⟩⟩

/-- Every symbol read from the file has an atomic number. -/
theorem outcarSymbols_number {f g : List (List Char)} {symbols : List Word}
    (h : outcarSymbols f = .ok (symbols, g)) :
    ∃ numbers, symbols.mapM numberOf = .ok numbers ∧ numbers.length = symbols.length := by
  obtain ⟨pre, first, more, stop, next, mid, ions, names, counts, hf, hp, hfirst, hm, hst, hall,
    hmid, hions, hc, rfl⟩ := (C67_symbols f g symbols).1 h
  obtain ⟨zs, hz⟩ := numbers_exist hall
  have key : ∀ ss zs, List.Forall₂ IsNumber ss zs →
      ∃ numbers, (repeatEach ss counts).mapM numberOf = .ok numbers ∧
        numbers.length = (repeatEach ss counts).length := by
    intro ss zs hz
    have := expand_number hz counts
    exact ⟨_, (mapM_except_ok _ _ _).2 (this.imp fun _ _ h => numberOf_eq_ok.2 h),
      this.length_eq.symm⟩
  split_ifs
  · exact key _ _ (forall₂_dropLast hz)
  · exact key _ _ hz

/-- C134: likewise `read_positions_and_polarizability`; the lattice is not looked at. -/
theorem C134_positions_and_polarizability (content : List Char) (positions tensor : List NumVec) :
    outcarPositionsAndPolarizability content = .ok (rowsList positions, rowsList tensor) ↔
    ∃ numbers f h, ElementsIn IsNumber (fileLines content) numbers f ∧
      PositionsIn numbers.length f positions h ∧ TensorIn h tensor := by
  have hlen : ∀ {ss : List Word} {ns : List ℕ}, ss.mapM numberOf = .ok ns → ns.length = ss.length :=
    fun h => ((mapM_except_ok _ _ _).1 h).length_eq.symm
  unfold outcarPositionsAndPolarizability
  constructor
  · intro e
    obtain ⟨⟨symbols, f⟩, h1, e⟩ := (bind_ok_iff _ _ _).1 e
    obtain ⟨⟨pos, h⟩, h4, e⟩ := (bind_ok_iff _ _ _).1 e
    obtain ⟨⟨pol, k⟩, h5, e⟩ := (bind_ok_iff _ _ _).1 e
    obtain ⟨rfl, rfl⟩ := Prod.mk.inj (Except.ok.inj e)
    obtain ⟨numbers, hn, hl⟩ := outcarSymbols_number h1
    refine ⟨numbers, f, h, (outcarElements_iff _ _ _).1 ⟨symbols, h1, hn⟩, ?_,
      (outcarReadPolarizability_iff _ _).1 ⟨k, h5⟩⟩
    rw [hl]
    exact (outcarReadPositions_iff _ _ _ _).1 h4
  · rintro ⟨numbers, f, h, h1, h4, h5⟩
    obtain ⟨symbols, h1, h2⟩ := (outcarElements_iff _ _ _).2 h1
    obtain ⟨k, h5⟩ := (outcarReadPolarizability_iff _ _).2 h5
    rw [hlen h2] at h4
    exact (bind_ok_iff _ _ _).2 ⟨(symbols, f), h1, (bind_ok_iff _ _ _).2
      ⟨(_, h), (outcarReadPositions_iff _ _ _ _).2 h4, (bind_ok_iff _ _ _).2 ⟨(_, k), h5, rfl⟩⟩⟩

/-- C134: likewise `read_positions`. -/
theorem C134_positions (content : List Char) (positions : List NumVec) :
    outcarPositions content = .ok (rowsList positions) ↔
    ∃ numbers f h, ElementsIn IsNumber (fileLines content) numbers f ∧
      PositionsIn numbers.length f positions h := by
  have hlen : ∀ {ss : List Word} {ns : List ℕ}, ss.mapM numberOf = .ok ns → ns.length = ss.length :=
    fun h => ((mapM_except_ok _ _ _).1 h).length_eq.symm
  unfold outcarPositions
  constructor
  · intro e
    obtain ⟨⟨symbols, f⟩, h1, e⟩ := (bind_ok_iff _ _ _).1 e
    obtain ⟨⟨pos, h⟩, h4, e⟩ := (bind_ok_iff _ _ _).1 e
    obtain rfl := Except.ok.inj e
    obtain ⟨numbers, hn, hl⟩ := outcarSymbols_number h1
    refine ⟨numbers, f, h, (outcarElements_iff _ _ _).1 ⟨symbols, h1, hn⟩, ?_⟩
    rw [hl]
    exact (outcarReadPositions_iff _ _ _ _).1 h4
  · rintro ⟨numbers, f, h, h1, h4⟩
    obtain ⟨symbols, h1, h2⟩ := (outcarElements_iff _ _ _).2 h1
    rw [hlen h2] at h4
    exact (bind_ok_iff _ _ _).2 ⟨(symbols, f), h1, (bind_ok_iff _ _ _).2
      ⟨(_, h), (outcarReadPositions_iff _ _ _ _).2 h4, rfl⟩⟩

/-- C134: the lines of the file are those of the text, with their line feeds; an empty last line is
left out. -/
theorem C134_lines (content : List Char) (ls : List (List Char)) (l : List Char)
    (h : IsText (ls ++ [l]) content) :
    fileLines content = ls.map (· ++ ['\n']) ++ if l = [] then [] else [l] := by
  have hline : ∀ l : List Char, '\n' ∉ l → ∀ r, linesOf (l ++ '\n' :: r) = (l ++ ['\n']) :: linesOf r := by
    intro l
    induction l with
    | nil => intro _ r; rfl
    | cons c l ih =>
      intro hl r
      rw [List.cons_append, linesOf, if_neg (fun hc => hl (by simp [hc])),
        ih (fun h => hl (by simp [h]))]
      rfl
  have hlast : ∀ l : List Char, '\n' ∉ l → linesOf l = if l = [] then [] else [l] := by
    intro l
    induction l with
    | nil => intro _; rfl
    | cons c l ih =>
      intro hl
      rw [linesOf, if_neg (fun hc => hl (by simp [hc])), ih (fun h => hl (by simp [h]))]
      by_cases h0 : l = []
      · subst h0; rfl
      · rw [if_neg h0, if_neg (by simp)]
  obtain ⟨h1, h2⟩ := isText_newlines h
  unfold fileLines
  rw [h1]
  clear h h1
  induction ls with
  | nil => exact hlast l (h2 l (by simp))
  | cons x ls ih =>
    rw [List.cons_append, unlines_cons (by simp)]
    rw [List.map_cons, List.cons_append, ← ih fun y hy => h2 y (by simp [hy])]
    have := hline x (h2 x (by simp)) (unlines (ls ++ [l]))
    simpa using this

/-- A part of a result, for evaluating examples. -/
def projOr {α β : Type} (proj : α → β) (d : β) : Py α → β
  | .ok s => proj s
  | .error _ => d

theorem projOr_ok {α β : Type} (proj : α → β) (d x : β) {r : Py α} (h : projOr proj d r = x)
    (hd : d ≠ x) : ∃ s, r = .ok s ∧ proj s = x := by
  cases r with
  | error e => exact absurd h hd
  | ok s => exact ⟨s, rfl, h⟩

/-- An OUTCAR of rock salt, reduced to what is read. -/
def saltOutcar : List Char := chars! " POTCAR:    PAW_PBE Na_pv 19Sep2006\n POTCAR:    PAW_PBE Cl 06Sep2000\n" ++
  chars! " POTCAR:    PAW_PBE Na_pv 19Sep2006\n\n   VRHFIN =Na: p6s1\n   ions per type =    1   1\n" ++
  chars! " Write flags\n direct lattice vectors                 reciprocal lattice vectors\n" ++
  chars! " 0.0 2.8 2.8  -0.1 0.1 0.1\n 2.8 0.0 2.8  0.1 -0.1 0.1\n 2.8 2.8 0.0  0.1 0.1 -0.1\n" ++
  chars! " position of ions in fractional coordinates (direct lattice)\n 0.0 0.0 0.0\n 0.5 0.5 0.5\n" ++
  chars! " MACROSCOPIC STATIC DIELECTRIC TENSOR (including local field effects in DFT)\n ----\n" ++
  chars! " 2.5 0 0\n 0 2.5 0\n 0 0 2.5\n"

theorem salt_lattice : ∃ s, outcarStructureAndPolarizability saltOutcar = .ok s ∧
    s.lattice = [[some 0, some (14 / 5), some (14 / 5)],
      [some (14 / 5), some 0, some (14 / 5)], [some (14 / 5), some (14 / 5), some 0]] := by
  refine projOr_ok OutcarStructure.lattice [] _ ?_ (by simp)
  decide +kernel

theorem salt_numbers : ∃ s, outcarStructureAndPolarizability saltOutcar = .ok s ∧
    s.atomicNumbers = [11, 17] := by
  refine projOr_ok OutcarStructure.atomicNumbers [] _ ?_ (by simp)
  decide +kernel

theorem salt_positions : ∃ s, outcarStructureAndPolarizability saltOutcar = .ok s ∧
    s.positions = [[some 0, some 0, some 0],
      [some (1 / 2), some (1 / 2), some (1 / 2)]] := by
  refine projOr_ok OutcarStructure.positions [] _ ?_ (by simp)
  decide +kernel

theorem salt_tensor : ∃ s, outcarStructureAndPolarizability saltOutcar = .ok s ∧
    s.polarizability = [[some (5 / 2), some 0, some 0],
      [some 0, some (5 / 2), some 0], [some 0, some 0, some (5 / 2)]] := by
  refine projOr_ok OutcarStructure.polarizability [] _ ?_ (by simp)
  decide +kernel

/-- C134, concrete: the example is of the required form, with the second sodium entry left out. -/
theorem salt_parts : ∃ f g h, ElementsIn IsNumber (fileLines saltOutcar) [11, 17] f ∧
    LatticeIn f [![some 0, some (14 / 5), some (14 / 5)], ![some (14 / 5), some 0, some (14 / 5)],
      ![some (14 / 5), some (14 / 5), some 0]] g ∧
    PositionsIn 2 g [![some 0, some 0, some 0], ![some (1 / 2), some (1 / 2), some (1 / 2)]] h ∧
    TensorIn h [![some (5 / 2), some 0, some 0], ![some 0, some (5 / 2), some 0],
      ![some 0, some 0, some (5 / 2)]] := by
  refine (C134_structure_and_polarizability saltOutcar [11, 17] _ _ _).1 ?_
  obtain ⟨s, hs, h1⟩ := salt_lattice
  obtain ⟨s2, hs2, h2⟩ := salt_numbers
  obtain ⟨s3, hs3, h3⟩ := salt_positions
  obtain ⟨s4, hs4, h4⟩ := salt_tensor
  obtain rfl := Except.ok.inj (hs.symm.trans hs2)
  obtain rfl := Except.ok.inj (hs.symm.trans hs3)
  obtain rfl := Except.ok.inj (hs.symm.trans hs4)
  rw [hs]
  obtain ⟨a, b, c, d⟩ := s
  dsimp only at h1 h2 h3 h4
  subst h1 h2 h3 h4
  rfl

end Verif
