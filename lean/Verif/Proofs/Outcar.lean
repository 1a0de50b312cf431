import Verif.Model.Outcar
import Verif.Spec.Outcar
import Verif.Props.Xdatcar

/-!
# Lemmas about the OUTCAR readers
-/

namespace Verif

theorem contains_iff (c l : List Char) : contains c l = true ↔ c <:+: l := by
  unfold contains
  exact decide_eq_true_iff

theorem not_contains_iff (c l : List Char) : contains c l = false ↔ ¬ c <:+: l := by
  unfold contains
  exact decide_eq_false_iff_not

/-- The lines of a file are what repeated calls of `readline` return. -/
theorem linesOf_readline (f : List Char) :
    nextLine (linesOf f) = ((readline f).1, linesOf (readline f).2) := by
  induction f with
  | nil => rfl
  | cons c cs ih =>
    rw [linesOf, readline]
    by_cases h : c = '\n'
    · rw [if_pos h, if_pos h]; rfl
    · rw [if_neg h, if_neg h]
      dsimp only
      cases hl : linesOf cs with
      | nil =>
        rw [hl] at ih
        have h1 := congrArg Prod.fst ih
        have h2 := congrArg Prod.snd ih
        dsimp only [nextLine] at h1 h2 ⊢
        rw [← h1, ← h2]
      | cons l ls =>
        rw [hl] at ih
        have h1 := congrArg Prod.fst ih
        have h2 := congrArg Prod.snd ih
        dsimp only [nextLine] at h1 h2 ⊢
        rw [← h1, ← h2]

theorem linesOf_flatten (f : List Char) : (linesOf f).flatten = f := by
  induction f with
  | nil => rfl
  | cons c cs ih =>
    rw [linesOf]
    split_ifs with h
    · simp [ih]
    · cases hl : linesOf cs with
      | nil => rw [hl] at ih; simp at ih; simp [← ih]
      | cons l ls => rw [hl] at ih; simp at ih ⊢; exact ih

theorem skipUntil_ok (c : List Char) (f : List (List Char)) (l : List Char)
    (g : List (List Char)) :
    skipUntil c f = .ok (l, g) ↔ ∃ pre, f = pre ++ l :: g ∧ c <:+: l ∧ ∀ x ∈ pre, ¬ c <:+: x := by
  induction f with
  | nil =>
    constructor
    · intro h; cases h
    · rintro ⟨pre, h, -⟩
      simp at h
  | cons x f ih =>
    rw [skipUntil]
    by_cases h : contains c x = true
    · rw [if_pos h]
      have hx := (contains_iff c x).1 h
      constructor
      · intro h'
        obtain ⟨rfl, rfl⟩ := Prod.mk.inj (Except.ok.inj h')
        exact ⟨[], rfl, hx, by simp⟩
      · rintro ⟨pre, he, -, hp⟩
        cases pre with
        | nil =>
          obtain ⟨rfl, rfl⟩ := List.cons.inj he
          rfl
        | cons y pre =>
          obtain ⟨rfl, -⟩ := List.cons.inj he
          exact absurd hx (hp x (by simp))
    · rw [if_neg h]
      have hx : ¬ c <:+: x := fun h' => h ((contains_iff c x).2 h')
      rw [ih]
      constructor
      · rintro ⟨pre, rfl, hl, hp⟩
        refine ⟨x :: pre, rfl, hl, ?_⟩
        intro y hy
        rcases List.mem_cons.1 hy with rfl | hy
        · exact hx
        · exact hp y hy
      · rintro ⟨pre, he, hl, hp⟩
        cases pre with
        | nil =>
          obtain ⟨rfl, rfl⟩ := List.cons.inj he
          exact absurd hl hx
        | cons y pre =>
          obtain ⟨rfl, rfl⟩ := List.cons.inj he
          exact ⟨pre, rfl, hl, fun z hz => hp z (by simp [hz])⟩

theorem skipUntil_cases (c : List Char) (f : List (List Char)) :
    (skipUntil c f = .error .noMatchingLine ∧ ∀ x ∈ f, ¬ c <:+: x) ∨
    ∃ l g, skipUntil c f = .ok (l, g) ∧ g.length < f.length := by
  induction f with
  | nil => exact Or.inl ⟨rfl, by simp⟩
  | cons x f ih =>
    rw [skipUntil]
    by_cases h : contains c x = true
    · rw [if_pos h]
      exact Or.inr ⟨x, f, rfl, by simp⟩
    · rw [if_neg h]
      have hx : ¬ c <:+: x := fun h' => h ((contains_iff c x).2 h')
      rcases ih with ⟨h1, h2⟩ | ⟨l, g, h1, h2⟩
      · refine Or.inl ⟨h1, ?_⟩
        intro y hy
        rcases List.mem_cons.1 hy with rfl | hy
        · exact hx
        · exact h2 y hy
      · refine Or.inr ⟨l, g, h1, ?_⟩
        simp only [List.length_cons]
        omega

theorem skipUntil_append {c l : List Char} {pre g : List (List Char)}
    (hp : ∀ x ∈ pre, ¬ c <:+: x) (hl : c <:+: l) : skipUntil c (pre ++ l :: g) = .ok (l, g) :=
  (skipUntil_ok c _ l g).2 ⟨pre, rfl, hl, hp⟩

theorem skipUntil_none {c : List Char} {f : List (List Char)} (h : ∀ x ∈ f, ¬ c <:+: x) :
    skipUntil c f = .error .noMatchingLine := by
  rcases skipUntil_cases c f with ⟨h1, -⟩ | ⟨l, g, h1, -⟩
  · exact h1
  · obtain ⟨pre, rfl, hl, -⟩ := (skipUntil_ok c f l g).1 h1
    exact absurd hl (h l (by simp))

theorem orInvalid_skip_cases (c : List Char) (f : List (List Char)) :
    (orInvalid (skipUntil c f) = .error .invalidFile ∧ ∀ x ∈ f, ¬ c <:+: x) ∨
    ∃ l g pre, orInvalid (skipUntil c f) = .ok (l, g) ∧ f = pre ++ l :: g ∧ c <:+: l ∧
      ∀ x ∈ pre, ¬ c <:+: x := by
  rcases skipUntil_cases c f with ⟨h1, h2⟩ | ⟨l, g, h1, h2⟩
  · rw [h1]; exact Or.inl ⟨rfl, h2⟩
  · rw [h1]
    obtain ⟨pre, hf, hl, hp⟩ := (skipUntil_ok c f l g).1 h1
    exact Or.inr ⟨l, g, pre, rfl, hf, hl, hp⟩

theorem orInvalid_skip_append {c l : List Char} {pre g : List (List Char)}
    (hp : ∀ x ∈ pre, ¬ c <:+: x) (hl : c <:+: l) :
    orInvalid (skipUntil c (pre ++ l :: g)) = .ok (l, g) := by
  rw [skipUntil_append hp hl]; rfl

/-! ## Rows -/

theorem readRow_of_rowOf {line : List Char} {v : NumVec} (h : Spec.RowOf line v) :
    readRow line = some [v 0, v 1, v 2] := by
  obtain ⟨a, b, c, rest, hw, ha, hb, hc⟩ := h
  unfold readRow parseFloats
  rw [hw]
  simp [List.take, ha, hb, hc]

theorem toVec_row (v : NumVec) : toVec [v 0, v 1, v 2] = some v := by
  change some (![v 0, v 1, v 2] : NumVec) = some v
  congr 1
  funext i
  fin_cases i <;> rfl

theorem toVec_eq_some {r : List Num} {v : NumVec} (h : toVec r = some v) : r = [v 0, v 1, v 2] := by
  unfold toVec at h
  split at h
  · rw [← Option.some.inj h]; rfl
  · cases h

theorem rowOf_of_readRow {line : List Char} {r : List Num} (h : readRow line = some r)
    (hl : r.length = 3) : ∃ v, r = [v 0, v 1, v 2] ∧ Spec.RowOf line v := by
  obtain ⟨x, y, z, rfl⟩ := List.length_eq_three.1 hl
  refine ⟨![x, y, z], rfl, ?_⟩
  unfold readRow parseFloats at h
  rcases hs : splitWs line with _ | ⟨a, _ | ⟨b, _ | ⟨c, rest⟩⟩⟩
  · rw [hs] at h; simp at h
  · rw [hs] at h
    simp only [List.take_succ_cons, List.take_nil, List.mapM_cons, List.mapM_nil,
      Option.pure_def, Option.bind_eq_bind, Option.bind_some] at h
    cases ha : parseFloat a with
    | none => rw [ha] at h; cases h
    | some _ => rw [ha] at h; simp at h
  · rw [hs] at h
    simp only [List.take_succ_cons, List.take_nil, List.mapM_cons, List.mapM_nil,
      Option.pure_def, Option.bind_eq_bind, Option.bind_some] at h
    cases ha : parseFloat a with
    | none => rw [ha] at h; cases h
    | some _ =>
      cases hb : parseFloat b with
      | none => rw [ha, hb] at h; simp at h
      | some _ => rw [ha, hb] at h; simp at h
  · rw [hs] at h
    simp only [List.take_succ_cons, List.take_zero, List.mapM_cons, List.mapM_nil,
      Option.pure_def, Option.bind_eq_bind, Option.bind_some] at h
    cases ha : parseFloat a with
    | none => rw [ha] at h; cases h
    | some _ =>
      cases hb : parseFloat b with
      | none => rw [ha, hb] at h; simp at h
      | some _ =>
        cases hc : parseFloat c with
        | none => rw [ha, hb, hc] at h; simp at h
        | some _ =>
          rw [ha, hb, hc] at h
          simp at h
          exact ⟨a, b, c, rest, hs, by rw [ha, ← h.1]; rfl, by rw [hb, ← h.2.1]; rfl,
            by rw [hc, ← h.2.2]; rfl⟩

theorem readRows_append {block : List (List Char)} {vs : List NumVec}
    (h : List.Forall₂ Spec.RowOf block vs) (rest : List (List Char)) :
    readRows block.length (block ++ rest) = .ok (vs.map fun v => [v 0, v 1, v 2], rest) := by
  induction h with
  | nil => rfl
  | cons hv _ ih =>
    rw [List.length_cons, List.cons_append, readRows]
    dsimp only [nextLine]
    rw [readRow_of_rowOf hv]
    dsimp only
    rw [ih]
    rfl

theorem npArray_rows (vs : List NumVec) :
    npArray (vs.map fun v => [v 0, v 1, v 2]) = .ok (vs.map fun v => [v 0, v 1, v 2]) := by
  cases vs with
  | nil => rfl
  | cons v vs =>
    rw [List.map_cons, npArray, if_pos]
    intro x hx
    obtain ⟨w, -, rfl⟩ := List.mem_map.1 hx
    rfl

theorem mapM_toVec_rows (vs : List NumVec) :
    (vs.map fun v => [v 0, v 1, v 2]).mapM toVec = some vs := by
  induction vs with
  | nil => rfl
  | cons v vs ih =>
    rw [List.map_cons, List.mapM_cons, ih, toVec_row]
    rfl

theorem readArray_append {block : List (List Char)} {vs : List NumVec}
    (h : List.Forall₂ Spec.RowOf block vs) (rest : List (List Char)) :
    readArray block.length (block ++ rest) = .ok (vs.map fun v => [v 0, v 1, v 2], rest) := by
  unfold readArray
  rw [readRows_append h]
  change (npArray _ >>= _) = _
  rw [npArray_rows]
  rfl

theorem npArray_eq_ok {rows a : List (List Num)} (h : npArray rows = .ok a) :
    a = rows ∧ ∀ x ∈ rows, ∀ y ∈ rows, x.length = y.length := by
  cases rows with
  | nil =>
    rw [← Except.ok.inj h]
    exact ⟨rfl, by simp⟩
  | cons r rs =>
    rw [npArray] at h
    split_ifs at h with hc
    rw [← Except.ok.inj h]
    refine ⟨rfl, ?_⟩
    have : ∀ x ∈ r :: rs, x.length = r.length := by
      intro x hx
      rcases List.mem_cons.1 hx with rfl | hx
      · rfl
      · exact hc x hx
    intro x hx y hy
    rw [this x hx, this y hy]

theorem npArray_cases (rows : List (List Num)) :
    npArray rows = .ok rows ∨ npArray rows = .error .valueError := by
  cases rows with
  | nil => exact Or.inl rfl
  | cons r rs =>
    rw [npArray]
    split_ifs
    · exact Or.inl rfl
    · exact Or.inr rfl

theorem readRows_cases (n : ℕ) (f : List (List Char)) :
    readRows n f = .error .invalidFile ∨
    ∃ rows g, readRows n f = .ok (rows, g) ∧ rows.length = n ∧ g.length ≤ f.length := by
  induction n generalizing f with
  | zero => exact Or.inr ⟨[], f, rfl, rfl, le_rfl⟩
  | succ n ih =>
    rw [readRows]
    cases hr : readRow (nextLine f).1 with
    | none => exact Or.inl rfl
    | some r =>
      dsimp only
      have hlen : (nextLine f).2.length ≤ f.length := by
        cases f <;> simp [nextLine]
      rcases ih (nextLine f).2 with h | ⟨rows, g, h, hl, hg⟩
      · rw [h]; exact Or.inl rfl
      · rw [h]
        exact Or.inr ⟨r :: rows, g, rfl, by simp [hl], by omega⟩

/-- Rows of three numbers come from lines that are there. -/
theorem readRows_block {n : ℕ} {f g : List (List Char)} {rows : List (List Num)}
    (h : readRows n f = .ok (rows, g)) (h3 : ∀ r ∈ rows, r.length = 3) :
    ∃ block vs, f = block ++ g ∧ rows = vs.map (fun v : NumVec => [v 0, v 1, v 2]) ∧
      List.Forall₂ Spec.RowOf block vs := by
  induction n generalizing f rows with
  | zero =>
    obtain ⟨rfl, rfl⟩ := Prod.mk.inj (Except.ok.inj h)
    exact ⟨[], [], rfl, rfl, List.Forall₂.nil⟩
  | succ n ih =>
    rw [readRows] at h
    cases hr : readRow (nextLine f).1 with
    | none => rw [hr] at h; cases h
    | some r =>
      rw [hr] at h
      dsimp only at h
      rcases readRows_cases n (nextLine f).2 with h' | ⟨rs, g', h', -⟩
      · rw [h'] at h; cases h
      · rw [h'] at h
        obtain ⟨rfl, rfl⟩ := Prod.mk.inj (Except.ok.inj h)
        obtain ⟨block, vs, hf, hrs, hall⟩ := ih h' fun x hx => h3 x (by simp [hx])
        obtain ⟨v, hv, hrow⟩ := rowOf_of_readRow hr (h3 r (by simp))
        cases f with
        | nil =>
          obtain ⟨a, b, c, rest, hs, -⟩ := hrow
          cases hs
        | cons l f =>
          refine ⟨l :: block, v :: vs, ?_, ?_, List.Forall₂.cons hrow hall⟩
          · rw [List.cons_append, ← hf]; rfl
          · rw [List.map_cons, ← hv, ← hrs]

theorem readArray_cases (n : ℕ) (f : List (List Char)) :
    readArray n f = .error .invalidFile ∨ readArray n f = .error .valueError ∨
    ∃ rows g, readArray n f = .ok (rows, g) ∧ readRows n f = .ok (rows, g) ∧ rows.length = n ∧
      g.length ≤ f.length ∧ ∀ x ∈ rows, ∀ y ∈ rows, x.length = y.length := by
  unfold readArray
  rcases readRows_cases n f with h | ⟨rows, g, h, hl, hg⟩
  · rw [h]; exact Or.inl rfl
  · rw [h]
    change (npArray rows >>= _) = _ ∨ (npArray rows >>= _) = _ ∨
      ∃ rows' g', (npArray rows >>= _) = _ ∧ _
    rcases npArray_cases rows with h' | h'
    · rw [h']
      exact Or.inr (Or.inr ⟨rows, g, rfl, rfl, hl, hg, (npArray_eq_ok h').2⟩)
    · rw [h']; exact Or.inr (Or.inl rfl)

/-! ## Symbols -/

theorem takeWhile_underscore {s : Word} (h : '_' ∉ s) (t : Word) :
    beforeUnderscore s = s ∧ beforeUnderscore (s ++ '_' :: t) = s := by
  unfold beforeUnderscore
  have hs : ∀ c ∈ s, decide (c ≠ '_') = true := by
    intro c hc
    exact decide_eq_true (fun heq => h (heq ▸ hc))
  constructor
  · exact List.takeWhile_eq_self_iff.2 hs
  · rw [List.takeWhile_append_of_pos hs]
    simp

theorem potcarSymbol_of_names {line : List Char} {s : Word} (h : Spec.NamesSymbol line s)
    (hk : knownSymbol s = true) : potcarSymbol line = some s := by
  obtain ⟨hu, ws, last, hw | ⟨t, hw⟩⟩ := h
  · unfold potcarSymbol
    rw [hw]
    simp only [List.reverse_append, List.reverse_cons, List.reverse_nil, List.nil_append,
      List.cons_append]
    rw [(takeWhile_underscore hu []).1, if_pos hk]
  · unfold potcarSymbol
    rw [hw]
    simp only [List.reverse_append, List.reverse_cons, List.reverse_nil, List.nil_append,
      List.cons_append]
    rw [(takeWhile_underscore hu t).2, if_pos hk]

theorem names_of_potcarSymbol {line : List Char} {s : Word} (h : potcarSymbol line = some s) :
    Spec.NamesSymbol line s ∧ knownSymbol s = true := by
  unfold potcarSymbol at h
  split at h
  · rename_i last w ws hw
    split_ifs at h with hk
    obtain rfl := Option.some.inj h
    refine ⟨⟨?_, ws.reverse, last, ?_⟩, hk⟩
    · unfold beforeUnderscore
      intro hm
      have := List.mem_takeWhile_imp hm
      simp at this
    · have hs : splitWs line = ws.reverse ++ [w, last] := by
        rw [← List.reverse_reverse (splitWs line), hw]
        simp
      rw [hs]
      unfold beforeUnderscore
      have hd := List.takeWhile_append_dropWhile (p := fun c => decide (c ≠ '_')) (l := w)
      cases hdw : w.dropWhile (fun c => decide (c ≠ '_')) with
      | nil =>
        left
        rw [hdw, List.append_nil] at hd
        rw [hd]
      | cons c t =>
        right
        have hc : c = '_' := by
          have := List.head_dropWhile_not (fun c => decide (c ≠ '_')) (l := w) (by rw [hdw]; simp)
          simp only [hdw, List.head_cons] at this
          simpa using this
        refine ⟨t, ?_⟩
        rw [hdw, hc] at hd
        rw [hd]
  · cases h

theorem potcarLoop_append {more : List (List Char)} {syms : List Word}
    (hm : ∀ l ∈ more, "POTCAR".toList <:+: l)
    (h : List.Forall₂ (fun l s => Spec.NamesSymbol l s ∧ knownSymbol s = true) more syms)
    {stop : List Char} (hstop : ¬ "POTCAR".toList <:+: stop) (rest : List (List Char)) :
    potcarLoop (more ++ stop :: rest) = .ok (syms, rest) := by
  induction h with
  | nil =>
    rw [List.nil_append, potcarLoop, if_pos]
    exact fun h => hstop ((contains_iff _ _).1 h)
  | @cons l s more syms hl _ ih =>
    rw [List.cons_append, potcarLoop, if_neg (not_not.2 ((contains_iff _ _).2 (hm l (by simp)))),
      potcarSymbol_of_names hl.1 hl.2]
    dsimp only
    rw [ih fun x hx => hm x (by simp [hx])]
    rfl

theorem expandSymbols_eq (ss : List Word) (cs : List ℤ) :
    expandSymbols ss cs = Spec.repeatEach ss cs := by
  unfold expandSymbols
  induction ss generalizing cs with
  | nil => rfl
  | cons s ss ih =>
    cases cs with
    | nil => rfl
    | cons c cs =>
      rw [List.zip_cons_cons, List.flatMap_cons, ih, Spec.repeatEach]

end Verif
