import Verif.Proofs.Outcar

/-!
# Properties C67, C68, C70, C95: OUTCAR files
-/

namespace Verif

/-! ## C67: atomic symbols -/

theorem potcarLoop_cases (f : List (List Char)) :
    potcarLoop f = .error .invalidFile ∨
    (∃ syms, potcarLoop f = .ok (syms, [])) ∨
    ∃ more stop rest syms, f = more ++ stop :: rest ∧ (∀ l ∈ more, "POTCAR".toList <:+: l) ∧
      ¬ "POTCAR".toList <:+: stop ∧
      List.Forall₂ (fun l s => Spec.NamesSymbol l s ∧ knownSymbol s = true) more syms ∧
      potcarLoop f = .ok (syms, rest) := by
  induction f with
  | nil => exact Or.inr (Or.inl ⟨[], rfl⟩)
  | cons l f ih =>
    rw [potcarLoop]
    by_cases h : contains "POTCAR".toList l = true
    · rw [if_neg (not_not.2 h)]
      cases hs : potcarSymbol l with
      | none => exact Or.inl rfl
      | some s =>
        dsimp only
        rcases ih with h' | ⟨syms, h'⟩ | ⟨more, stop, rest, syms, hf, hm, hst, hall, h'⟩
        · rw [h']; exact Or.inl rfl
        · rw [h']; exact Or.inr (Or.inl ⟨s :: syms, rfl⟩)
        · rw [h']
          refine Or.inr (Or.inr ⟨l :: more, stop, rest, s :: syms, ?_, ?_, hst, ?_, rfl⟩)
          · rw [hf]; rfl
          · intro x hx
            rcases List.mem_cons.1 hx with rfl | hx
            · exact (contains_iff _ _).1 h
            · exact hm x hx
          · exact List.Forall₂.cons (names_of_potcarSymbol hs) hall
    · rw [if_pos h]
      exact Or.inr (Or.inr ⟨[], l, f, [], rfl, by simp, fun h' => h ((contains_iff _ _).2 h'),
        List.Forall₂.nil, rfl⟩)

theorem mapM_option_iff {α β : Type} (f : α → Option β) (l : List α) (r : List β) :
    l.mapM f = some r ↔ List.Forall₂ (fun a b => f a = some b) l r := by
  induction l generalizing r with
  | nil =>
    rw [List.mapM_nil, List.forall₂_nil_left_iff]
    exact ⟨fun h => (Option.some.inj h).symm, fun h => by rw [h]; rfl⟩
  | cons a l ih =>
    rw [List.mapM_cons, List.forall₂_cons_left_iff]
    cases hf : f a with
    | none =>
      constructor
      · intro h; cases h
      · rintro ⟨b, u, h, -⟩; cases h
    | some b =>
      cases hl : l.mapM f with
      | none =>
        constructor
        · intro h; cases h
        · rintro ⟨b, u, -, h, -⟩
          rw [(ih u).2 h] at hl
          cases hl
      | some u =>
        constructor
        · intro h
          exact ⟨b, u, rfl, (ih u).1 hl, (Option.some.inj h).symm⟩
        · rintro ⟨b', u', hb, hu, rfl⟩
          have := (ih u').2 hu
          rw [hl] at this
          obtain rfl := Option.some.inj this
          obtain rfl := Option.some.inj hb
          rfl

/-- C67: the symbols are read exactly from files of this form, and are those named in the POTCAR
block (without the last one when the second line after the block mentions `VRHFIN`), repeated as
often as the counts say; the longer of the two lists is cut. -/
theorem C67_symbols (f g : List (List Char)) (symbols : List Word) :
    outcarSymbols f = .ok (symbols, g) ↔
    ∃ pre first more stop next mid ions names counts,
      f = pre ++ first :: (more ++ stop :: next :: (mid ++ ions :: g)) ∧
      (∀ l ∈ pre, ¬ "POTCAR:    ".toList <:+: l) ∧ "POTCAR:    ".toList <:+: first ∧
      (∀ l ∈ more, "POTCAR".toList <:+: l) ∧ ¬ "POTCAR".toList <:+: stop ∧
      List.Forall₂ (fun l s => Spec.NamesSymbol l s ∧ ∃ n, dictGet atomicNumbers s = some n)
        (first :: more) names ∧
      (∀ l ∈ mid, ¬ "ions per type".toList <:+: l) ∧ "ions per type".toList <:+: ions ∧
      List.Forall₂ (fun w c => parseInt w = some c) ((splitWs ions).drop 4) counts ∧
      symbols = Spec.repeatEach
        (if "VRHFIN".toList <:+: next then names.dropLast else names) counts := by
  have hk : ∀ s, knownSymbol s = true ↔ ∃ n, dictGet atomicNumbers s = some n := fun s =>
    Option.isSome_iff_exists
  constructor
  · intro h
    unfold outcarSymbols readPotcar at h
    rcases orInvalid_skip_cases "POTCAR:    ".toList f with ⟨h1, -⟩ | ⟨first, f1, pre, h1, hf, hl, hp⟩
    · rw [h1] at h; cases h
    · rw [h1] at h
      cases hs : potcarSymbol first with
      | none =>
        have : (Except.error PyErr.invalidFile : Py (List Word × List (List Char))) =
            .ok (symbols, g) := by
          rw [← h]
          change _ = (((match potcarSymbol first with
            | none => Except.error PyErr.invalidFile
            | some s => _) : Py (List Word × List (List Char))) >>= _)
          rw [hs]
          rfl
        cases this
      | some s =>
        have h2 : (potcarLoop f1 >>= fun x =>
            (readIonCounts (nextLine x.2).2 >>= fun y => (Except.ok (expandSymbols
              (if contains "VRHFIN".toList (nextLine x.2).1 then (s :: x.1).dropLast
                else s :: x.1) y.1, y.2) : Py (List Word × List (List Char))))) =
            .ok (symbols, g) := by
          rw [← h]
          change _ = (((match potcarSymbol first with
            | none => Except.error PyErr.invalidFile
            | some s => _) : Py (List Word × List (List Char))) >>= _)
          rw [hs]
          dsimp only
          cases potcarLoop f1 <;> rfl
        rcases potcarLoop_cases f1 with h' | ⟨syms, h'⟩ |
          ⟨more, stop, rest, syms, hf1, hm, hst, hall, h'⟩
        · rw [h'] at h2; cases h2
        · rw [h'] at h2; cases h2
        · rw [h'] at h2
          change (readIonCounts (nextLine rest).2 >>= _) = _ at h2
          cases rest with
          | nil => cases h2
          | cons next rest =>
            dsimp only [nextLine] at h2
            unfold readIonCounts at h2
            rcases orInvalid_skip_cases "ions per type".toList rest with
              ⟨h3, -⟩ | ⟨ions, f2, mid, h3, hrest, hi, hmid⟩
            · rw [h3] at h2; cases h2
            · rw [h3] at h2
              cases hc : ((splitWs ions).drop 4).mapM parseInt with
              | none =>
                have : (Except.error PyErr.valueError : Py (List Word × List (List Char))) =
                    .ok (symbols, g) := by
                  rw [← h2]
                  change _ = (((match ((splitWs ions).drop 4).mapM parseInt with
                    | none => Except.error PyErr.valueError
                    | some c => _) : Py (List ℤ × List (List Char))) >>= _)
                  rw [hc]
                  rfl
                cases this
              | some counts =>
                have h4 : (Except.ok (expandSymbols
                    (if contains "VRHFIN".toList next then (s :: syms).dropLast
                    else s :: syms) counts, f2) : Py (List Word × List (List Char))) =
                    .ok (symbols, g) := by
                  rw [← h2]
                  change _ = (((match ((splitWs ions).drop 4).mapM parseInt with
                    | none => Except.error PyErr.valueError
                    | some c => _) : Py (List ℤ × List (List Char))) >>= _)
                  rw [hc]
                  rfl
                obtain ⟨h5, rfl⟩ := Prod.mk.inj (Except.ok.inj h4)
                refine ⟨pre, first, more, stop, next, mid, ions, s :: syms, counts, ?_, hp, hl, hm,
                  hst, ?_, hmid, hi, (mapM_option_iff _ _ _).1 hc, ?_⟩
                · rw [hf, hf1, hrest]
                · have := names_of_potcarSymbol hs
                  refine List.Forall₂.cons ⟨this.1, (hk s).1 this.2⟩ (hall.imp ?_)
                  rintro l s ⟨h, h'⟩
                  exact ⟨h, (hk s).1 h'⟩
                · rw [← h5, expandSymbols_eq]
                  by_cases hv : "VRHFIN".toList <:+: next
                  · rw [if_pos ((contains_iff _ _).2 hv), if_pos hv]
                  · rw [if_neg (fun h => hv ((contains_iff _ _).1 h)), if_neg hv]
  · rintro ⟨pre, first, more, stop, next, mid, ions, names, counts, rfl, hp, hfirst, hm, hst, hall,
      hmid, hi, hc, rfl⟩
    obtain ⟨s, syms, hs, hall', rfl⟩ := List.forall₂_cons_left_iff.1 hall
    unfold outcarSymbols readPotcar
    rw [orInvalid_skip_append hp hfirst]
    change (((match potcarSymbol first with
      | none => Except.error PyErr.invalidFile
      | some s => _) : Py (List Word × List (List Char))) >>= _) = _
    rw [potcarSymbol_of_names hs.1 ((hk s).2 hs.2)]
    dsimp only
    rw [potcarLoop_append hm (hall'.imp fun l s h => ⟨h.1, (hk s).2 h.2⟩) hst]
    change (readIonCounts (mid ++ ions :: g) >>= _) = _
    unfold readIonCounts
    rw [orInvalid_skip_append hmid hi]
    change (((match ((splitWs ions).drop 4).mapM parseInt with
      | none => Except.error PyErr.valueError
      | some c => _) : Py (List ℤ × List (List Char))) >>= _) = _
    rw [(mapM_option_iff _ _ _).2 hc]
    change Except.ok _ = Except.ok _
    rw [expandSymbols_eq]
    dsimp only [nextLine]
    by_cases hv : "VRHFIN".toList <:+: next
    · have hv' := (contains_iff _ _).2 hv
      simp only [hv', hv, if_true]
    · have hv' := (not_contains_iff _ _).2 hv
      simp only [hv', hv, if_false, Bool.false_eq_true]

/-- C67: files of any other form are refused with `InvalidFileException`, or `ValueError` for
counts that are not integers. -/
theorem C67_errors (f : List (List Char)) :
    (∃ symbols g, outcarSymbols f = .ok (symbols, g) ∧ g.length < f.length) ∨
    outcarSymbols f = .error .invalidFile ∨
    (outcarSymbols f = .error .valueError ∧ ∃ ions ∈ f, "ions per type".toList <:+: ions ∧
      ∃ w ∈ (splitWs ions).drop 4, parseInt w = none) := by
  cases h : outcarSymbols f with
  | ok x =>
    obtain ⟨symbols, g⟩ := x
    obtain ⟨pre, first, more, stop, next, mid, ions, names, counts, rfl, -⟩ :=
      (C67_symbols f g symbols).1 h
    refine Or.inl ⟨symbols, g, rfl, ?_⟩
    simp only [List.length_append, List.length_cons]
    omega
  | error e =>
    right
    unfold outcarSymbols at h
    cases hp : readPotcar f with
    | error e' =>
      rw [hp] at h
      left
      cases h
      unfold readPotcar at hp
      rcases orInvalid_skip_cases "POTCAR:    ".toList f with
        ⟨h1, -⟩ | ⟨first, f1, pre, h1, hf, hl, hpre⟩
      · rw [h1] at hp; cases hp; rfl
      · rw [h1] at hp
        change ((match potcarSymbol first with
          | none => Except.error PyErr.invalidFile
          | some s => _) : Py (List Word × List (List Char))) = _ at hp
        cases hs : potcarSymbol first with
        | none => rw [hs] at hp; cases hp; rfl
        | some s =>
          rw [hs] at hp
          dsimp only at hp
          rcases potcarLoop_cases f1 with h' | ⟨syms, h'⟩ | ⟨_, _, _, syms, -, -, -, -, h'⟩
          · rw [h'] at hp; cases hp; rfl
          · rw [h'] at hp; cases hp
          · rw [h'] at hp; cases hp
    | ok x =>
      obtain ⟨names, f1⟩ := x
      rw [hp] at h
      change (readIonCounts f1 >>= _) = _ at h
      have hsub : ∀ l ∈ f1, l ∈ f := by
        unfold readPotcar at hp
        rcases orInvalid_skip_cases "POTCAR:    ".toList f with
          ⟨h1, -⟩ | ⟨first, f0, pre, h1, hf, hl, hpre⟩
        · rw [h1] at hp; cases hp
        · rw [h1] at hp
          change ((match potcarSymbol first with
            | none => Except.error PyErr.invalidFile
            | some s => _) : Py (List Word × List (List Char))) = _ at hp
          cases hs : potcarSymbol first with
          | none => rw [hs] at hp; cases hp
          | some s =>
            rw [hs] at hp
            dsimp only at hp
            have hnext : ∀ (r : List (List Char)), ∀ l ∈ (nextLine r).2, l ∈ r := by
              intro r l hl
              cases r with
              | nil => exact hl
              | cons a r => exact List.mem_cons_of_mem _ hl
            rcases potcarLoop_cases f0 with h' | ⟨syms, h'⟩ |
              ⟨more, stop, rest, syms, hf0, -, -, -, h'⟩
            · rw [h'] at hp; cases hp
            · rw [h'] at hp
              obtain ⟨-, rfl⟩ := Prod.mk.inj (Except.ok.inj hp)
              intro l hl
              cases hl
            · rw [h'] at hp
              obtain ⟨-, rfl⟩ := Prod.mk.inj (Except.ok.inj hp)
              intro l hl
              have := hnext rest l hl
              rw [hf, hf0]
              simp [this]
      unfold readIonCounts at h
      rcases orInvalid_skip_cases "ions per type".toList f1 with
        ⟨h3, -⟩ | ⟨ions, f2, mid, h3, hrest, hi, hmid⟩
      · rw [h3] at h
        left
        cases h
        rfl
      · rw [h3] at h
        change (((match ((splitWs ions).drop 4).mapM parseInt with
          | none => Except.error PyErr.valueError
          | some c => _) : Py (List ℤ × List (List Char))) >>= _) = _ at h
        cases hc : ((splitWs ions).drop 4).mapM parseInt with
        | none =>
          rw [hc] at h
          right
          cases h
          refine ⟨rfl, ions, hsub ions (by rw [hrest]; simp), hi, ?_⟩
          by_contra hcon
          push Not at hcon
          have : ∀ ws : List Word, (∀ w ∈ ws, parseInt w ≠ none) → ws.mapM parseInt ≠ none := by
            intro ws
            induction ws with
            | nil => intro _ h; cases h
            | cons w ws ih =>
              intro hw h
              obtain ⟨c, hc⟩ := Option.ne_none_iff_exists'.1 (hw w (by simp))
              obtain ⟨cs, hcs⟩ := Option.ne_none_iff_exists'.1 (ih fun x hx => hw x (by simp [hx]))
              rw [List.mapM_cons, hc, hcs] at h
              cases h
          exact this _ hcon hc
        | some counts => rw [hc] at h; cases h

/-- C67, concrete: an OUTCAR header with a repeated first entry. -/
example : (match outcarSymbols (fileLines ("x\n POTCAR:    PAW_PBE Ti_pv 07Sep2000\n" ++
    " POTCAR:    PAW_PBE O 08Apr2002\n POTCAR:    PAW_PBE Ti_pv 07Sep2000\n   SHA\n" ++
    "   VRHFIN =Ti\n   ions per type =  2 4\n").toList) with
    | .ok x => x.1.map String.ofList
    | .error _ => []) = ["Ti", "Ti", "O", "O", "O", "O"] := by
  decide +kernel

/-! ## C70: positions -/

/-- C70: an array with three columns is returned only when there is a complete block: the numbers
are those of the lines after the heading, one line for each atom. -/
theorem C70_positions (content : List Char) (a : List (List Num))
    (h : outcarPositions content = .ok a) :
    ∃ symbols f, outcarSymbols (fileLines content) = .ok (symbols, f) ∧
      a.length = symbols.length ∧ (∀ x ∈ a, ∀ y ∈ a, x.length = y.length) ∧
      ((∀ r ∈ a, r.length = 3) → ∃ pre header block vs rest,
        f = pre ++ header :: (block ++ rest) ∧
        "position of ions in fractional coordinates (direct lattice)".toList <:+: header ∧
        (∀ l ∈ pre,
          ¬ "position of ions in fractional coordinates (direct lattice)".toList <:+: l) ∧
        block.length = symbols.length ∧ List.Forall₂ Spec.RowOf block vs ∧
        a = vs.map fun v => [v 0, v 1, v 2]) := by
  unfold outcarPositions at h
  cases hs : outcarSymbols (fileLines content) with
  | error e => rw [hs] at h; cases h
  | ok x =>
    obtain ⟨symbols, f⟩ := x
    rw [hs] at h
    change (outcarReadPositions f symbols.length >>= _) = _ at h
    unfold outcarReadPositions at h
    rcases orInvalid_skip_cases fracHeader f with ⟨h1, -⟩ | ⟨header, f1, pre, h1, hf, hl, hp⟩
    · rw [h1] at h; cases h
    · rw [h1] at h
      change (readArray symbols.length f1 >>= _) = _ at h
      rcases readArray_cases symbols.length f1 with h2 | h2 | ⟨rows, g, h2, h3, hlen, -, heq⟩
      · rw [h2] at h; cases h
      · rw [h2] at h; cases h
      · rw [h2] at h
        obtain rfl := Except.ok.inj h
        refine ⟨symbols, f, rfl, hlen, heq, fun hthree => ?_⟩
        obtain ⟨block, vs, hb, hv, hall⟩ := readRows_block h3 hthree
        refine ⟨pre, header, block, vs, g, ?_, hl, hp, ?_, hall, hv⟩
        · rw [hf, hb]
        · change rows.length = symbols.length at hlen
          rw [hv, List.length_map] at hlen
          rw [hall.length_eq, hlen]

/-- C70: if the file ends before the block is complete, no array with three columns is
returned. -/
theorem C70_truncated (content : List Char) (symbols : List Word) (f : List (List Char))
    (hs : outcarSymbols (fileLines content) = .ok (symbols, f)) (pre : List (List Char))
    (header : List Char) (rest : List (List Char)) (hf : f = pre ++ header :: rest)
    (hh : "position of ions in fractional coordinates (direct lattice)".toList <:+: header)
    (hp : ∀ l ∈ pre,
      ¬ "position of ions in fractional coordinates (direct lattice)".toList <:+: l)
    (hshort : rest.length < symbols.length) (a : List (List Num))
    (h : outcarPositions content = .ok a) : ¬ ∀ r ∈ a, r.length = 3 := by
  intro hthree
  obtain ⟨symbols', f', hs', -, -, hblock⟩ := C70_positions content a h
  rw [hs] at hs'
  obtain ⟨rfl, rfl⟩ := Prod.mk.inj (Except.ok.inj hs')
  obtain ⟨pre', header', block, vs, rest', hf', hh', hp', hlen, -⟩ := hblock hthree
  have h1 := (skipUntil_ok _ _ _ _).2 ⟨pre, hf, hh, hp⟩
  have h2 := (skipUntil_ok _ _ _ _).2 ⟨pre', hf', hh', hp'⟩
  rw [h1] at h2
  have := congrArg (fun x : List Char × List (List Char) => x.2.length) (Except.ok.inj h2)
  simp only [List.length_append] at this
  omega

/-- C70: complete blocks are read. -/
theorem C70_complete (content : List Char) (symbols : List Word) (f : List (List Char))
    (hs : outcarSymbols (fileLines content) = .ok (symbols, f)) (pre block : List (List Char))
    (header : List Char) (rest : List (List Char)) (vs : List NumVec)
    (hf : f = pre ++ header :: (block ++ rest))
    (hh : "position of ions in fractional coordinates (direct lattice)".toList <:+: header)
    (hp : ∀ l ∈ pre,
      ¬ "position of ions in fractional coordinates (direct lattice)".toList <:+: l)
    (hlen : block.length = symbols.length) (hall : List.Forall₂ Spec.RowOf block vs) :
    outcarPositions content = .ok (vs.map fun v => [v 0, v 1, v 2]) := by
  unfold outcarPositions
  rw [hs]
  change (outcarReadPositions f symbols.length >>= _) = _
  unfold outcarReadPositions
  rw [hf, show fracHeader = "position of ions in fractional coordinates (direct lattice)".toList
    from rfl, orInvalid_skip_append hp hh]
  change ((readArray symbols.length (block ++ rest)) >>= _) = _
  rw [← hlen, readArray_append hall]
  rfl

/-- C70: the second alternative of the claim occurs: a row cut after two numbers is returned as
an array of shape (1,2). -/
theorem C70_two_columns : ∃ content, (match outcarPositions content with
    | .ok a => a
    | .error _ => []) = [[some (1 / 4), some (1 / 2)]] := by
  refine ⟨(" POTCAR:    PAW_PBE O 08Apr2002\n\n\n ions per type = 1\n" ++
    "position of ions in fractional coordinates (direct lattice)\n 0.25 0.5").toList, ?_⟩
  decide +kernel

end Verif
