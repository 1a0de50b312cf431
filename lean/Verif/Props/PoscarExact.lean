import Verif.Props.Layout
import Verif.Spec.LayoutErrors

/-!
# Property C65: exactly which texts make the POSCAR reader raise other exceptions
-/

namespace Verif

open Spec

theorem scaled_iff (x s y : Num) : Scaled x s y ↔ y = numMul x s := by
  unfold Scaled numMul
  cases x with
  | none => simp
  | some p =>
    cases s with
    | none => simp
    | some q => simp

/-- Nothing is left of the file. -/
theorem after_nil {ls : List (List Char)} {j : ℕ} {e : List Char} (h : After ls j e) :
    (readline e).1 = [] ↔ ls.length ≤ j + 1 ∧ ls.getD j [] = [] := by
  have hrl : (readline e).1 = [] ↔ e = [] := by
    constructor
    · exact (readline_count e).2.2
    · rintro rfl; rfl
  rw [hrl]
  obtain ⟨hn, ⟨hk, rfl⟩ | ⟨hk, rfl⟩⟩ := h
  · rw [List.drop_eq_getElem_cons hk]
    have hl : ls.getD j [] = ls[j] := by simp [List.getD, hk]
    rw [hl]
    by_cases hd : ls.drop (j + 1) = []
    · rw [hd]
      have : ls.length ≤ j + 1 := by simpa using hd
      constructor
      · intro h; exact ⟨this, h⟩
      · rintro ⟨-, h⟩; exact h
    · rw [unlines_cons hd]
      have : ¬ ls.length ≤ j + 1 := by simpa using hd
      constructor
      · intro h; simp at h
      · rintro ⟨h, -⟩; exact absurd h this
  · have hl : ls.getD j [] = [] := by simp [List.getD, hk]
    simp only [hl, true_iff, and_true]
    omega

theorem begins_excl {l : List Char} (h : Begins l 'c' 'C') : ¬ Begins l 'd' 'D' := by
  rintro (h' | h') <;> rcases h with h | h <;> rw [h] at h' <;> exact absurd (Option.some.inj h') (by decide)

/-- What happens once the line with the coordinate format is reached. -/
theorem readFormat_class (ext : NumMat → Py NumMat) {ls : List (List Char)} {j : ℕ} {e : List Char}
    (h : After ls j e) (lattice : NumMat) (n : ℕ) :
    (∃ raw g, raw.length = n ∧ CoordinateRows ls j raw ∧ Begins (ls.getD j []) 'c' 'C' ∧
      readFormat ext (readline e).1 (readline e).2 lattice n = toFractional ext lattice raw g) ∨
    (Begins (ls.getD j []) 'd' 'D' ∧ ∃ x,
      readFormat ext (readline e).1 (readline e).2 lattice n = .ok x) ∨
    (∃ r, readFormat ext (readline e).1 (readline e).2 lattice n = .error r ∧ r.err = .invalidFile ∧
      ¬ (ls.length ≤ j + 1 ∧ ls.getD j [] = []) ∧
      ¬ ∃ raw, raw.length = n ∧ CoordinateRows ls j raw ∧ Begins (ls.getD j []) 'c' 'C') ∨
    (∃ r, readFormat ext (readline e).1 (readline e).2 lattice n = .error r ∧ r.err = .indexError ∧
      ls.length ≤ j + 1 ∧ ls.getD j [] = []) := by
  have a1 := h.readline.2
  have hB := begins_of h (l := 'c') (u := 'C') (by decide) (by decide)
  have hD := begins_of h (l := 'd') (u := 'D') (by decide) (by decide)
  have hnil := after_nil h
  have hcoord : (∃ raw, raw.length = n ∧ CoordinateRows ls j raw ∧
        ∃ g, readVectors n (readline e).2 = .ok (raw, g)) ∨
      (∃ r : Raised, readVectors n (readline e).2 = .error r ∧ r.err = .invalidFile ∧
        ¬ ∃ raw, raw.length = n ∧ CoordinateRows ls j raw) := by
    rcases readVectors_cases n (readline e).2 with ⟨r, hr, hv⟩ | ⟨vs, g, hv, hl, -⟩
    · refine Or.inr ⟨r, hv, hr, ?_⟩
      rintro ⟨raw, h1, h2⟩
      rw [(readVectors_iff a1 n raw _).2 ⟨h1, h2, rfl⟩] at hv
      cases hv
    · have := (readVectors_iff a1 n vs g).1 hv
      exact Or.inl ⟨vs, hl, this.2.1, g, hv⟩
  rw [← hB, ← hD, ← hnil]
  generalize (readline e).1 = label at *
  generalize (readline e).2 = f at *
  unfold readFormat
  cases label with
  | nil => exact Or.inr (Or.inr (Or.inr ⟨_, rfl, rfl, rfl⟩))
  | cons c l =>
    dsimp only [List.head?_cons]
    have hc := lower_iff c 'c' 'C' (by decide) (by decide)
    have hd := lower_iff c 'd' 'D' (by decide) (by decide)
    have hbc : Begins (c :: l) 'c' 'C' ↔ c.toLower = 'c' := by
      rw [hc]; simp [Begins]
    have hbd : Begins (c :: l) 'd' 'D' ↔ c.toLower = 'd' := by
      rw [hd]; simp [Begins]
    rw [hbc, hbd]
    by_cases h1 : c.toLower = 'c'
    · rw [if_pos h1]
      unfold readCoordinates
      rcases hcoord with ⟨raw, e1, e2, g, hv⟩ | ⟨r, hv, hr, hno⟩
      · rw [hv]
        exact Or.inl ⟨raw, g, e1, e2, h1, rfl⟩
      · rw [hv]
        refine Or.inr (Or.inr (Or.inl ⟨r, rfl, hr, by simp, ?_⟩))
        rintro ⟨raw, e1, e2, -⟩
        exact hno ⟨raw, e1, e2⟩
    · rw [if_neg h1]
      have hnoc : ¬ ∃ raw : List NumVec, raw.length = n ∧ CoordinateRows ls j raw ∧ c.toLower = 'c' := by
        rintro ⟨_, _, _, h⟩; exact h1 h
      by_cases h2 : c.toLower = 'd'
      · rw [if_neg (not_not.2 h2)]
        unfold readCoordinates
        rcases hcoord with ⟨raw, e1, e2, g, hv⟩ | ⟨r, hv, hr, hno⟩
        · rw [hv]
          exact Or.inr (Or.inl ⟨h2, _, rfl⟩)
        · rw [hv]
          exact Or.inr (Or.inr (Or.inl ⟨r, rfl, hr, by simp, hnoc⟩))
      · rw [if_pos h2]
        exact Or.inr (Or.inr (Or.inl ⟨_, rfl, rfl, by simp, hnoc⟩))

/-- What `_read_positions` does from line `k` on. -/
theorem readPositions_class (ext : NumMat → Py NumMat) {ls : List (List Char)} {k : ℕ} {f : List Char}
    (h : After ls k f) (lattice : NumMat) (n : ℕ) :
    (∃ m raw g, FormatLine ls k m ∧ raw.length = n ∧ CoordinateRows ls m raw ∧
      Begins (ls.getD m []) 'c' 'C' ∧
      readPositions ext f lattice n = toFractional ext lattice raw g) ∨
    (∃ m, FormatLine ls k m ∧ Begins (ls.getD m []) 'd' 'D' ∧ ∃ x,
      readPositions ext f lattice n = .ok x) ∨
    (∃ r, readPositions ext f lattice n = .error r ∧ r.err = .invalidFile ∧
      ¬ (Begins (ls.getD k []) 's' 'S' ∧ ls.length ≤ k + 2 ∧ ls.getD (k + 1) [] = []) ∧
      ¬ ∃ m raw, FormatLine ls k m ∧ raw.length = n ∧ CoordinateRows ls m raw ∧
        Begins (ls.getD m []) 'c' 'C') ∨
    (∃ r, readPositions ext f lattice n = .error r ∧ r.err = .indexError ∧
      Begins (ls.getD k []) 's' 'S' ∧ ls.length ≤ k + 2 ∧ ls.getD (k + 1) [] = []) := by
  have a1 := h.readline.2
  have hS := begins_of h (l := 's') (u := 'S') (by decide) (by decide)
  have hC := begins_of h (l := 'c') (u := 'C') (by decide) (by decide)
  have hnil := after_nil h
  have hfmt := readFormat_class ext h lattice n
  have hfmt1 := readFormat_class ext a1 lattice n
  -- a first line that cannot start a block
  have hbad : ∀ r : Raised, readPositions ext f lattice n = .error r → r.err = .invalidFile →
      ¬ Begins (readline f).1 's' 'S' → ¬ Begins (readline f).1 'c' 'C' →
      ∃ r, readPositions ext f lattice n = .error r ∧ r.err = .invalidFile ∧
      ¬ (Begins (ls.getD k []) 's' 'S' ∧ ls.length ≤ k + 2 ∧ ls.getD (k + 1) [] = []) ∧
      ¬ ∃ m raw, FormatLine ls k m ∧ raw.length = n ∧ CoordinateRows ls m raw ∧
        Begins (ls.getD m []) 'c' 'C' := by
    intro r h1 h2 h3 h4
    rw [hS] at h3
    rw [hC] at h4
    refine ⟨r, h1, h2, fun h => h3 h.1, ?_⟩
    rintro ⟨m, raw, (⟨hs, -⟩ | ⟨-, rfl⟩), -, -, hc⟩
    · exact h3 hs
    · exact h4 hc
  have hunf : readPositions ext f lattice n = match (readline f).1.head? with
    | none => .error ⟨.invalidFile, missingMsg ++ " '".toList ++ (readline f).1 ++ ['\'']⟩
    | some c =>
      if strip (readline f).1 = [] ∨ isSpace c then
        .error ⟨.invalidFile, missingMsg ++ " '".toList ++ (readline f).1 ++ ['\'']⟩
      else if c.toLower = 's' then
        readFormat ext (readline (readline f).2).1 (readline (readline f).2).2 lattice n
      else readFormat ext (readline f).1 (readline f).2 lattice n := by
    unfold readPositions
    generalize readline f = q
    obtain ⟨lb, g⟩ := q
    cases lb <;> rfl
  cases hl : (readline f).1 with
  | nil =>
    refine Or.inr (Or.inr (Or.inl (hbad _ (by rw [hunf, hl]; rfl) rfl ?_ ?_))) <;>
    · rw [hl]; rintro (h | h) <;> cases h
  | cons c l =>
    have hhead : (readline f).1.head? = some c := by rw [hl]; rfl
    rw [hhead] at hunf
    dsimp only at hunf
    have hsp : ∀ lo up : Char, isSpace lo = false → isSpace up = false →
        (strip (readline f).1 = [] ∨ isSpace c = true) → ¬ Begins (readline f).1 lo up := by
      intro lo up h1 h2 hb hbeg
      have hc : isSpace c = false := by
        rcases hbeg with hh | hh
        · rw [hhead] at hh; rw [Option.some.inj hh]; exact h1
        · rw [hhead] at hh; rw [Option.some.inj hh]; exact h2
      rcases hb with hb | hb
      · rw [hl] at hb; exact strip_ne hc hb
      · rw [hc] at hb; cases hb
    by_cases hb : strip (readline f).1 = [] ∨ isSpace c = true
    · rw [if_pos hb] at hunf
      exact Or.inr (Or.inr (Or.inl (hbad _ hunf rfl (hsp _ _ (by decide) (by decide) hb)
        (hsp _ _ (by decide) (by decide) hb))))
    · rw [if_neg hb] at hunf
      have hs := lower_iff c 's' 'S' (by decide) (by decide)
      have hbs : Begins (readline f).1 's' 'S' ↔ c.toLower = 's' := by
        rw [hs, hl]; simp [Begins]
      rw [hS] at hbs
      by_cases h1 : c.toLower = 's'
      · rw [if_pos h1] at hunf
        have hm : ∀ m, FormatLine ls k m ↔ m = k + 1 := by
          intro m
          unfold FormatLine
          constructor
          · rintro (⟨-, h⟩ | ⟨h, -⟩)
            · exact h
            · exact absurd (hbs.2 h1) h
          · intro h; exact Or.inl ⟨hbs.2 h1, h⟩
        rw [hunf]
        rcases hfmt1 with ⟨raw, g, e1, e2, e3, e4⟩ | ⟨e1, e2⟩ | ⟨r, e1, e2, e3, e4⟩ | ⟨r, e1, e2, e3⟩
        · exact Or.inl ⟨k + 1, raw, g, (hm _).2 rfl, e1, e2, e3, e4⟩
        · exact Or.inr (Or.inl ⟨k + 1, (hm _).2 rfl, e1, e2⟩)
        · refine Or.inr (Or.inr (Or.inl ⟨r, e1, e2, fun h => e3 h.2, ?_⟩))
          rintro ⟨m, raw, hfm, h2, h3, h4⟩
          obtain rfl := (hm m).1 hfm
          exact e4 ⟨raw, h2, h3, h4⟩
        · exact Or.inr (Or.inr (Or.inr ⟨r, e1, e2, hbs.2 h1, e3⟩))
      · rw [if_neg h1] at hunf
        have hm : ∀ m, FormatLine ls k m ↔ m = k := by
          intro m
          unfold FormatLine
          constructor
          · rintro (⟨h, -⟩ | ⟨-, h⟩)
            · exact absurd (hbs.1 h) h1
            · exact h
          · intro h; exact Or.inr ⟨fun hh => h1 (hbs.1 hh), h⟩
        have hne : ¬ (ls.length ≤ k + 1 ∧ ls.getD k [] = []) := fun hh => by
          rw [← hnil, hl] at hh; cases hh
        rw [hunf]
        rcases hfmt with ⟨raw, g, e1, e2, e3, e4⟩ | ⟨e1, e2⟩ | ⟨r, e1, e2, e3, e4⟩ | ⟨r, e1, e2, e3⟩
        · exact Or.inl ⟨k, raw, g, (hm _).2 rfl, e1, e2, e3, e4⟩
        · exact Or.inr (Or.inl ⟨k, (hm _).2 rfl, e1, e2⟩)
        · refine Or.inr (Or.inr (Or.inl ⟨r, e1, e2, fun h => h1 (hbs.1 h.1), ?_⟩))
          rintro ⟨m, raw, hfm, h2, h3, h4⟩
          obtain rfl := (hm m).1 hfm
          exact e4 ⟨raw, h2, h3, h4⟩
        · exact absurd e3 hne

/-- The header determines what is left to read. -/
theorem readStructure_header (ext : NumMat → Py NumMat) (content : List Char) (ls : List (List Char))
    (hls : IsText ls content) :
    (readStructure ext content = .error .invalidFile ∧
      ¬ ∃ lat numbers, HeaderOf (fun s z => dictGet atomicNumbers s = some z) ls lat numbers) ∨
    ∃ lat numbers f, HeaderOf (fun s z => dictGet atomicNumbers s = some z) ls lat numbers ∧
      (∀ lat' numbers', HeaderOf (fun s z => dictGet atomicNumbers s = some z) ls lat' numbers' →
        lat' = lat ∧ numbers' = numbers) ∧ After ls 7 f ∧
      readStructure ext content = (dropMsg (readPositions ext f lat numbers.length) >>= fun y =>
        .ok (⟨lat, numbers, y.1⟩ : ReadStructure)) := by
  have h0 := after_zero hls
  unfold readStructure
  dsimp only
  generalize universalNewlines content = f at h0
  have h5 := restAfter_after h0 5
  have h7 := restAfter_after h0 7
  rw [zero_add] at h5 h7
  have hhead : ∀ lat numbers, HeaderOf (fun s z => dictGet atomicNumbers s = some z) ls lat numbers →
      readLattice f = .ok (lat, restAfter f 5) ∧
      ∃ l, readAtomicSymbols (restAfter f 5) = .ok (l, restAfter f 7) ∧
        l.mapM numberOf = .ok numbers ∧ l.length = numbers.length := by
    rintro lat numbers ⟨⟨scale, rows, hscale, hrows, hlat⟩, symbols, cwords, zs, counts, w1, w2, w4, hz,
      w6, w5, rfl⟩
    have hex := expand_forall₂ counts hz
    refine ⟨(readLattice_iff h0 _ _).2 ⟨scale, rows, hscale, hrows, ?_, rfl⟩,
      expandSymbols symbols counts, (readAtomicSymbols_iff h5 _ _).2
        ⟨symbols, cwords, counts, w1, w2, ?_, w4, ?_, w6, rfl, (restAfter_add f 5 2).symm⟩,
      (mapM_except_ok _ _ _).2 hex, hex.length_eq⟩
    · funext i j; exact (scaled_iff _ _ _).1 (hlat i j)
    · intro s hs
      obtain ⟨z, -, hz'⟩ := forall₂_mem_left hz s hs
      unfold knownSymbol
      rw [hz']; rfl
    · rw [w6.length_eq, w5, hz.length_eq]
  have huniq : ∀ lat numbers, HeaderOf (fun s z => dictGet atomicNumbers s = some z) ls lat numbers →
      ∀ lat' numbers', HeaderOf (fun s z => dictGet atomicNumbers s = some z) ls lat' numbers' →
        lat' = lat ∧ numbers' = numbers := by
    intro lat numbers h lat' numbers' h'
    obtain ⟨e1, l, e2, e3, -⟩ := hhead _ _ h
    obtain ⟨e1', l', e2', e3', -⟩ := hhead _ _ h'
    rw [e1] at e1'
    rw [e2] at e2'
    obtain ⟨rfl, -⟩ := Prod.mk.inj (Except.ok.inj e1')
    obtain ⟨rfl, -⟩ := Prod.mk.inj (Except.ok.inj e2')
    rw [e3] at e3'
    exact ⟨rfl, (Except.ok.inj e3').symm⟩
  rcases readLattice_cases f with hl | ⟨m, g5, hl, -⟩
  · refine Or.inl ⟨by rw [hl]; rfl, ?_⟩
    rintro ⟨lat, numbers, h⟩
    rw [(hhead _ _ h).1] at hl
    cases hl
  · obtain ⟨scale, rows, hscale, hrows, rfl, rfl⟩ := (readLattice_iff h0 m g5).1 hl
    rcases readAtomicSymbols_cases (restAfter f 5) with hs | ⟨l, g7, hs, -, -⟩
    · refine Or.inl ⟨?_, ?_⟩
      · rw [hl]
        change (readAtomicSymbols (restAfter f 5) >>= _) = _
        rw [hs]; rfl
      · rintro ⟨lat, numbers, h⟩
        obtain ⟨-, l, e, -⟩ := hhead _ _ h
        rw [e] at hs
        cases hs
    · obtain ⟨symbols, cwords, counts, w1, w2, w3, w4, w5, w6, rfl, rfl⟩ :=
        (readAtomicSymbols_iff h5 l g7).1 hs
      obtain ⟨zs, hz⟩ := known_forall₂ w3
      have hH : HeaderOf (fun s z => dictGet atomicNumbers s = some z) ls
          (fun i j => numMul (rows i j) scale)
          ((zs.zip counts).flatMap fun x => List.replicate x.2.toNat x.1) :=
        ⟨⟨scale, rows, hscale, hrows, fun i j => (scaled_iff _ _ _).2 rfl⟩, symbols, cwords, zs, counts,
          w1, w2, w4, hz, w6, by rw [← w6.length_eq, w5, hz.length_eq], rfl⟩
      refine Or.inr ⟨_, _, restAfter f 7, hH, huniq _ _ hH, h7, ?_⟩
      have hex := expand_forall₂ counts hz
      rw [hl]
      change (readAtomicSymbols (restAfter f 5) >>= _) = _
      rw [hs]
      change ((expandSymbols symbols counts).mapM numberOf >>= _) = _
      rw [(mapM_except_ok _ _ _).2 hex]
      change (dropMsg (readPositions ext (restAfter (restAfter f 5) 2) _
        (expandSymbols symbols counts).length) >>= _) = _
      rw [restAfter_add, hex.length_eq]
      rfl

theorem numInv_class {ext : NumMat → Py NumMat} (hext : InvRaisesLinAlg ext) (lat : NumMat) :
    (numInv ext lat = .error .linAlgError ∧
      (SingularLattice lat ∨ NotFiniteLattice lat ∧ ext lat = .error .linAlgError) ∧
      ¬ (RegularLattice lat ∨ NotFiniteLattice lat ∧ ∃ inv, ext lat = .ok inv)) ∨
    ∃ inv, numInv ext lat = .ok inv ∧
      (RegularLattice lat ∨ NotFiniteLattice lat ∧ ∃ inv, ext lat = .ok inv) ∧
      ¬ (SingularLattice lat ∨ NotFiniteLattice lat ∧ ext lat = .error .linAlgError) := by
  have hinj : ∀ a b : Matrix (Fin 3) (Fin 3) ℚ, (fun i j => some (a i j)) = (fun i j => some (b i j)) →
      a = b := fun a b h => by
    funext i j; exact Option.some.inj (congrFun (congrFun h i) j)
  by_cases hf : ∀ i j, (lat i j).isSome
  · obtain ⟨a, rfl⟩ : ∃ a : Matrix (Fin 3) (Fin 3) ℚ, lat = fun i j => some (a i j) :=
      ⟨fun i j => (lat i j).get (hf i j), by funext i j; simp⟩
    have hnf : ¬ NotFiniteLattice (fun i j => some (a i j)) := by
      rintro ⟨i, j, h⟩; cases h
    rcases numInv_finite ext a with ⟨h0, hi⟩ | ⟨h0, b, hi, -⟩
    · refine Or.inl ⟨hi, Or.inl ⟨a, rfl, h0⟩, ?_⟩
      rintro (⟨b, hb, hb'⟩ | ⟨h, -⟩)
      · rw [← hinj _ _ hb] at hb'; exact hb' h0
      · exact hnf h
    · refine Or.inr ⟨_, hi, Or.inl ⟨a, rfl, h0⟩, ?_⟩
      rintro (⟨b, hb, hb'⟩ | ⟨h, -⟩)
      · rw [← hinj _ _ hb] at hb'; exact h0 hb'
      · exact hnf h
  · have hnf : NotFiniteLattice lat := by
      push Not at hf
      obtain ⟨i, j, h⟩ := hf
      exact ⟨i, j, by simpa using h⟩
    have hfin : ∀ a : Matrix (Fin 3) (Fin 3) ℚ, lat ≠ fun i j => some (a i j) := by
      rintro a rfl
      exact hf fun i j => rfl
    have hi : numInv ext lat = ext lat := by
      unfold numInv
      rw [dif_neg hf]
    rw [hi]
    cases he : ext lat with
    | error e =>
      obtain rfl := hext _ _ he
      refine Or.inl ⟨rfl, Or.inr ⟨hnf, rfl⟩, ?_⟩
      rintro (⟨b, hb, -⟩ | ⟨-, inv, h⟩)
      · exact hfin b hb
      · cases h
    | ok inv =>
      refine Or.inr ⟨inv, rfl, Or.inr ⟨hnf, inv, rfl⟩, ?_⟩
      rintro (⟨b, hb, -⟩ | ⟨-, h⟩)
      · exact hfin b hb
      · cases h

/-- C65, exactly: on a text with lines `ls`, `read_structure` raises
* `LinAlgError` iff there are a readable header, a Cartesian block of coordinates and the lattice has
  determinant zero (or is not finite and refused by the routine that inverts matrices);
* `ValueError` iff there are a readable header without atoms and a line asking for Cartesian coordinates,
  and the lattice has an inverse;
* `IndexError` iff there is a readable header and the file ends after the line for selective dynamics. -/
theorem C65_exact (ext : NumMat → Py NumMat) (hext : InvRaisesLinAlg ext) (content : List Char)
    (ls : List (List Char)) (hls : IsText ls content) :
    (readStructure ext content = .error .linAlgError ↔ ∃ lat numbers m raw,
      HeaderOf (fun s z => dictGet atomicNumbers s = some z) ls lat numbers ∧ FormatLine ls 7 m ∧
      Begins (ls.getD m []) 'c' 'C' ∧ raw.length = numbers.length ∧ CoordinateRows ls m raw ∧
      (SingularLattice lat ∨ NotFiniteLattice lat ∧ ext lat = .error .linAlgError)) ∧
    (readStructure ext content = .error .valueError ↔ ∃ lat m,
      HeaderOf (fun s z => dictGet atomicNumbers s = some z) ls lat [] ∧ FormatLine ls 7 m ∧
      Begins (ls.getD m []) 'c' 'C' ∧
      (RegularLattice lat ∨ NotFiniteLattice lat ∧ ∃ inv, ext lat = .ok inv)) ∧
    (readStructure ext content = .error .indexError ↔ ∃ lat numbers,
      HeaderOf (fun s z => dictGet atomicNumbers s = some z) ls lat numbers ∧
      Begins (ls.getD 7 []) 's' 'S' ∧ ls.length ≤ 9 ∧ ls.getD 8 [] = []) := by
  rcases readStructure_header ext content ls hls with ⟨he, hno⟩ | ⟨lat, numbers, f, hH, hu, h7, he⟩
  · rw [he]
    refine ⟨⟨fun h => ?_, ?_⟩, ⟨fun h => ?_, ?_⟩, ⟨fun h => ?_, ?_⟩⟩
    · cases h
    · rintro ⟨lat, numbers, _, _, h, -⟩; exact absurd ⟨lat, numbers, h⟩ hno
    · cases h
    · rintro ⟨lat, _, h, -⟩; exact absurd ⟨lat, [], h⟩ hno
    · cases h
    · rintro ⟨lat, numbers, h, -⟩; exact absurd ⟨lat, numbers, h⟩ hno
  · rw [he]
    have hFuniq : ∀ m m', FormatLine ls 7 m → FormatLine ls 7 m' → m = m' := by
      rintro m m' (⟨h1, rfl⟩ | ⟨h1, rfl⟩) (⟨h2, rfl⟩ | ⟨h2, rfl⟩)
      · rfl
      · exact absurd h1 h2
      · exact absurd h2 h1
      · rfl
    -- if line 8 is at the end and line 7 announces selective dynamics, there is no block
    have hend : ∀ m, FormatLine ls 7 m → Begins (ls.getD m []) 'c' 'C' →
        ¬ (Begins (ls.getD 7 []) 's' 'S' ∧ ls.length ≤ 9 ∧ ls.getD 8 [] = []) := by
      rintro m (⟨-, rfl⟩ | ⟨h1, -⟩) hb ⟨h2, -, h3⟩
      · rw [h3] at hb; rcases hb with h | h <;> cases h
      · exact h1 h2
    rcases readPositions_class ext h7 lat numbers.length with
      ⟨m, raw, g, hm, hlen, hrows, hc, hp⟩ | ⟨m, hm, hd, x, hp⟩ | ⟨r, hp, hr, hns, hnc⟩ |
      ⟨r, hp, hr, hs⟩
    · rw [hp]
      unfold toFractional
      rcases numInv_class hext lat with ⟨hi, h1, h2⟩ | ⟨inv, hi, h1, h2⟩
      · rw [hi]
        change (Except.error PyErr.linAlgError = _ ↔ _) ∧ (Except.error PyErr.linAlgError = _ ↔ _) ∧
          (Except.error PyErr.linAlgError = _ ↔ _)
        refine ⟨⟨fun _ => ⟨lat, numbers, m, raw, hH, hm, hc, hlen, hrows, h1⟩, fun _ => rfl⟩,
          ⟨fun h => ?_, ?_⟩, ⟨fun h => ?_, ?_⟩⟩
        · cases h
        · rintro ⟨lat', m', h, -, -, h'⟩
          rw [(hu _ _ h).1] at h'
          exact absurd h' h2
        · cases h
        · rintro ⟨lat', numbers', -, h⟩
          exact absurd h (hend m hm hc)
      · rw [hi]
        dsimp only
        by_cases hraw : raw = []
        · rw [if_pos hraw]
          have hn0 : numbers = [] := by
            rw [hraw] at hlen; exact List.length_eq_zero_iff.1 hlen.symm
          change (Except.error PyErr.valueError = _ ↔ _) ∧ (Except.error PyErr.valueError = _ ↔ _) ∧
            (Except.error PyErr.valueError = _ ↔ _)
          refine ⟨⟨fun h => ?_, ?_⟩, ⟨fun _ => ⟨lat, m, hn0 ▸ hH, hm, hc, h1⟩, fun _ => rfl⟩,
            ⟨fun h => ?_, ?_⟩⟩
          · cases h
          · rintro ⟨lat', numbers', _, _, h, -, -, -, -, h'⟩
            rw [(hu _ _ h).1] at h'
            exact absurd h' h2
          · cases h
          · rintro ⟨lat', numbers', -, h⟩
            exact absurd h (hend m hm hc)
        · rw [if_neg hraw]
          refine ⟨⟨fun h => ?_, ?_⟩, ⟨fun h => ?_, ?_⟩, ⟨fun h => ?_, ?_⟩⟩
          · cases h
          · rintro ⟨lat', numbers', _, _, h, -, -, -, -, h'⟩
            rw [(hu _ _ h).1] at h'
            exact absurd h' h2
          · cases h
          · rintro ⟨lat', m', h, -⟩
            refine absurd ?_ hraw
            rw [← (hu _ _ h).2] at hlen
            exact List.length_eq_zero_iff.1 hlen
          · cases h
          · rintro ⟨lat', numbers', -, h⟩
            exact absurd h (hend m hm hc)
    · rw [hp]
      refine ⟨⟨fun h => ?_, ?_⟩, ⟨fun h => ?_, ?_⟩, ⟨fun h => ?_, ?_⟩⟩
      · cases h
      · rintro ⟨_, _, m', _, -, hm', hc, -⟩
        rw [hFuniq m' m hm' hm] at hc
        exact absurd hd (begins_excl hc)
      · cases h
      · rintro ⟨_, m', -, hm', hc, -⟩
        rw [hFuniq m' m hm' hm] at hc
        exact absurd hd (begins_excl hc)
      · cases h
      · rintro ⟨_, _, -, h2, -, h3⟩
        rcases hm with ⟨-, rfl⟩ | ⟨h1, -⟩
        · rw [h3] at hd; rcases hd with h | h <;> cases h
        · exact absurd h2 h1
    · rw [hp]
      change (Except.error r.err = _ ↔ _) ∧ (Except.error r.err = _ ↔ _) ∧ (Except.error r.err = _ ↔ _)
      rw [hr]
      refine ⟨⟨fun h => ?_, ?_⟩, ⟨fun h => ?_, ?_⟩, ⟨fun h => ?_, ?_⟩⟩
      · cases h
      · rintro ⟨lat', numbers', m, raw, h, hm, hc, hl, hrows, -⟩
        rw [(hu _ _ h).2] at hl
        exact absurd ⟨m, raw, hm, hl, hrows, hc⟩ hnc
      · cases h
      · rintro ⟨lat', m, h, hm, hc, -⟩
        refine absurd ⟨m, [], hm, ?_, fun i hi => absurd hi (by simp), hc⟩ hnc
        rw [← (hu _ _ h).2]; rfl
      · cases h
      · rintro ⟨_, _, -, h⟩
        exact absurd h hns
    · rw [hp]
      change (Except.error r.err = _ ↔ _) ∧ (Except.error r.err = _ ↔ _) ∧ (Except.error r.err = _ ↔ _)
      rw [hr]
      refine ⟨⟨fun h => ?_, ?_⟩, ⟨fun h => ?_, ?_⟩, ⟨fun _ => ⟨lat, numbers, hH, hs⟩, fun _ => rfl⟩⟩
      · cases h
      · rintro ⟨_, _, m, _, -, hm, hc, -⟩
        exact absurd hs (hend m hm hc)
      · cases h
      · rintro ⟨_, m, -, hm, hc, -⟩
        exact absurd hs (hend m hm hc)

theorem errorOf_iff {α : Type} (x : Py α) (e : PyErr) : errorOf x = some e ↔ x = .error e := by
  cases x with
  | ok y => exact ⟨fun h => (nomatch h), fun h => (nomatch h)⟩
  | error f =>
    constructor
    · intro h; rw [Option.some.inj h]
    · intro h; rw [Except.error.inj h]; rfl

/-- C65, exactly, concrete: a Cartesian file whose first two lattice vectors are parallel has a header
with singular lattice; one without atoms has a header with an invertible lattice; a file ending after
the line for selective dynamics has a header as well. -/
example :
    (∃ ls, IsText ls "l\n1.0\n1 0 0\n2 0 0\n0 0 1\nC\n1\nCart\n0 0 0\n".toList ∧ ∃ lat numbers m,
      HeaderOf (fun s z => dictGet atomicNumbers s = some z) ls lat numbers ∧ FormatLine ls 7 m ∧
      Begins (ls.getD m []) 'c' 'C' ∧ (SingularLattice lat ∨ NotFiniteLattice lat)) ∧
    (∃ ls, IsText ls "l\n1.0\n1 0 0\n0 1 0\n0 0 1\nC\n0\nCart\n".toList ∧ ∃ lat m,
      HeaderOf (fun s z => dictGet atomicNumbers s = some z) ls lat [] ∧ FormatLine ls 7 m ∧
      Begins (ls.getD m []) 'c' 'C' ∧ RegularLattice lat) ∧
    (∃ ls, IsText ls (poscarHead ++ "Selective dynamics\n").toList ∧ ∃ lat numbers,
      HeaderOf (fun s z => dictGet atomicNumbers s = some z) ls lat numbers ∧
      Begins (ls.getD 7 []) 's' 'S' ∧ ls.length ≤ 9) := by
  have hext : InvRaisesLinAlg (fun _ => .error .linAlgError) := fun _ _ h => (Except.error.inj h).symm
  have key := fun content ls h => C65_exact (fun _ => .error .linAlgError) hext content ls h
  refine ⟨?_, ?_, ?_⟩
  · obtain ⟨ls, hls, -⟩ := C113_lines "l\n1.0\n1 0 0\n2 0 0\n0 0 1\nC\n1\nCart\n0 0 0\n".toList
    obtain ⟨lat, numbers, m, raw, h1, h2, h3, -, -, h4⟩ :=
      (key _ ls hls).1.1 ((errorOf_iff _ _).1 (by decide +kernel))
    exact ⟨ls, hls, lat, numbers, m, h1, h2, h3, h4.imp id And.left⟩
  · obtain ⟨ls, hls, -⟩ := C113_lines "l\n1.0\n1 0 0\n0 1 0\n0 0 1\nC\n0\nCart\n".toList
    obtain ⟨lat, m, h1, h2, h3, h4⟩ :=
      (key _ ls hls).2.1.1 ((errorOf_iff _ _).1 (by decide +kernel))
    exact ⟨ls, hls, lat, m, h1, h2, h3, h4.resolve_right fun h => by obtain ⟨-, _, h⟩ := h; cases h⟩
  · obtain ⟨ls, hls, -⟩ := C113_lines (poscarHead ++ "Selective dynamics\n").toList
    obtain ⟨lat, numbers, h1, h2, h3, -⟩ :=
      (key _ ls hls).2.2.1 ((errorOf_iff _ _).1 (by decide +kernel))
    exact ⟨ls, hls, lat, numbers, h1, h2, h3⟩

end Verif
