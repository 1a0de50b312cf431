import Verif.Model.Messages
import Verif.Model.Write
import Verif.Props.Shape
import Verif.Props.Repr
import Verif.Proofs.Chars

/-!
# C152: what error messages about shapes say
-/

namespace Verif

namespace Spec

/-- An entry of a shape as it should be printed: the number, or `_` if anything is allowed. -/
def entryText : Option ℕ → List Char
  | none => ['_']
  | some n => natStr n

/-- Python's notation for tuples (without spaces): entries separated by commas, a single entry
followed by a comma. -/
def tupleText (opening closing : Char) : List (Option ℕ) → List Char
  | [] => [opening, closing]
  | [x] => opening :: (entryText x ++ [',', closing])
  | x :: y :: zs =>
    opening :: (entryText x ++ ((y :: zs).flatMap fun z => ',' :: entryText z) ++ [closing])

end Spec

open Spec

theorem shape_loop (shape : List (Option ℕ)) (acc : List Char) :
    shape.foldl (fun r i => r ++ shapeEntry i) acc
      = acc ++ shape.flatMap fun z => entryText z ++ [','] := by
  induction shape generalizing acc with
  | nil => simp
  | cons x xs ih =>
    rw [List.foldl_cons, ih, List.flatMap_cons]
    cases x <;> simp [entryText, shapeEntry, List.append_assoc]

theorem commas_moved (x : Option ℕ) (xs : List (Option ℕ)) :
    (x :: xs).flatMap (fun z => entryText z ++ [','])
      = entryText x ++ (xs.flatMap fun z => ',' :: entryText z) ++ [','] := by
  induction xs generalizing x with
  | nil => simp
  | cons y ys ih => rw [List.flatMap_cons, ih]; simp [List.append_assoc]

/-- C152: shapes with at least one dimension are printed in tuple notation. -/
theorem C152_string (opening closing : Char) (shape : List (Option ℕ)) (h : shape ≠ []) :
    shapeString opening closing shape = tupleText opening closing shape := by
  unfold shapeString
  dsimp only
  rw [shape_loop]
  cases shape with
  | nil => exact absurd rfl h
  | cons x xs =>
    cases xs with
    | nil => simp [tupleText]
    | cons y ys =>
      rw [if_neg (by simp), commas_moved]
      rw [show [opening] ++ (entryText x ++ ((y :: ys).flatMap fun z => ',' :: entryText z) ++ [','])
        = ([opening] ++ (entryText x ++ (y :: ys).flatMap fun z => ',' :: entryText z)) ++ [','] by
          simp [List.append_assoc], List.dropLast_concat]
      simp [tupleText]

/-- C152, not so for arrays without dimensions: their shape is printed as a lone closing bracket. -/
theorem C152_scalar (opening closing : Char) :
    shapeString opening closing [] = [closing] ∧ tupleText opening closing [] = [opening, closing] :=
  ⟨rfl, rfl⟩

/-! ### Messages can be read back -/

theorem isDigit_under : isDigit '_' = false := by decide

theorem entry_head (x : Option ℕ) : ∃ c r, entryText x = c :: r ∧ (c = '_' ∨ isDigit c = true) := by
  cases x with
  | none => exact ⟨_, _, rfl, Or.inl rfl⟩
  | some n =>
    cases hn : natStr n with
    | nil => exact absurd hn (natStr_ne_nil n)
    | cons c r =>
      exact ⟨c, r, hn, Or.inr (natStr_digits n c (by rw [hn]; exact List.mem_cons_self))⟩

theorem entry_split {x y : Option ℕ} {c c' : Char} {r r' : List Char} (hc : isDigit c = false)
    (hc' : isDigit c' = false) (h : entryText x ++ c :: r = entryText y ++ c' :: r') :
    x = y ∧ c :: r = c' :: r' := by
  cases x with
  | none =>
    cases y with
    | none => exact ⟨rfl, (List.cons.inj h).2⟩
    | some n =>
      cases hn : natStr n with
      | nil => exact absurd hn (natStr_ne_nil n)
      | cons d t =>
        simp only [entryText, hn, List.cons_append, List.nil_append, List.cons.injEq] at h
        have := natStr_digits n d (by rw [hn]; exact List.mem_cons_self)
        rw [← h.1, isDigit_under] at this
        cases this
  | some m =>
    cases y with
    | none =>
      cases hn : natStr m with
      | nil => exact absurd hn (natStr_ne_nil m)
      | cons d t =>
        simp only [entryText, hn, List.cons_append, List.nil_append, List.cons.injEq] at h
        have := natStr_digits m d (by rw [hn]; exact List.mem_cons_self)
        rw [h.1, isDigit_under] at this
        cases this
    | some n =>
      obtain ⟨h1, h2⟩ := natStr_split hc hc' h
      exact ⟨by rw [h1], h2⟩

theorem tail_split {closing : Char} (hcl : isDigit closing = false) (hcm : closing ≠ ',')
    (xs ys : List (Option ℕ)) {r r' : List Char}
    (h : (xs.flatMap fun z => ',' :: entryText z) ++ closing :: r
      = (ys.flatMap fun z => ',' :: entryText z) ++ closing :: r') : xs = ys ∧ r = r' := by
  induction xs generalizing ys with
  | nil =>
    cases ys with
    | nil => exact ⟨rfl, (List.cons.inj h).2⟩
    | cons y ys =>
      exact absurd (List.cons.inj h).1 hcm
  | cons x xs ih =>
    cases ys with
    | nil => exact absurd (List.cons.inj h).1.symm hcm
    | cons y ys =>
      rw [List.flatMap_cons, List.flatMap_cons, List.cons_append, List.cons_append, List.cons_append,
        List.cons_append] at h
      have h := (List.cons.inj h).2
      have hk : ∀ zs : List (Option ℕ), ∀ r, ∃ c t,
          (zs.flatMap fun z => ',' :: entryText z) ++ closing :: r = c :: t ∧ isDigit c = false := by
        intro zs r
        cases zs with
        | nil => exact ⟨_, _, rfl, hcl⟩
        | cons z zs => exact ⟨_, _, rfl, by decide⟩
      obtain ⟨c, t, e1, hc⟩ := hk xs r
      obtain ⟨c', t', e2, hc'⟩ := hk ys r'
      rw [List.append_assoc, List.append_assoc, e1, e2] at h
      obtain ⟨h1, h2⟩ := entry_split hc hc' h
      rw [← e1, ← e2] at h2
      obtain ⟨h3, h4⟩ := ih ys h2
      exact ⟨by rw [h1, h3], h4⟩

/-- Tuple notation can be read back, whatever follows. -/
theorem tuple_split {opening closing : Char} (hcl : isDigit closing = false) (hcm : closing ≠ ',')
    (hcu : closing ≠ '_') {xs ys : List (Option ℕ)} (hx : xs ≠ []) (hy : ys ≠ []) {r r' : List Char}
    (h : tupleText opening closing xs ++ r = tupleText opening closing ys ++ r') :
    xs = ys ∧ r = r' := by
  have hcomma : isDigit ',' = false := by decide
  have hclash : ∀ (z : Option ℕ) (t u : List Char), closing :: t ≠ entryText z ++ u := by
    intro z t u he
    obtain ⟨c, w, e, hc⟩ := entry_head z
    rw [e] at he
    have := (List.cons.inj he).1
    rcases hc with hc | hc
    · exact hcu (this.trans hc)
    · rw [← this, hcl] at hc; cases hc
  match xs, ys, hx, hy with
  | [x], [y], _, _ =>
    simp only [tupleText, List.cons_append, List.append_assoc, List.nil_append, List.cons.injEq,
      true_and] at h
    obtain ⟨h1, h2⟩ := entry_split hcomma hcomma h
    simp only [List.cons.injEq, true_and] at h2
    exact ⟨by rw [h1], h2⟩
  | [x], y :: y' :: ys, _, _ =>
    simp only [tupleText, List.cons_append, List.append_assoc, List.nil_append, List.cons.injEq,
      true_and, List.flatMap_cons] at h
    obtain ⟨_, h2⟩ := entry_split hcomma hcomma h
    exact absurd (List.cons.inj h2).2 (hclash _ _ _)
  | x :: x' :: xs, [y], _, _ =>
    simp only [tupleText, List.cons_append, List.append_assoc, List.nil_append, List.cons.injEq,
      true_and, List.flatMap_cons] at h
    obtain ⟨_, h2⟩ := entry_split hcomma hcomma h
    exact absurd (List.cons.inj h2).2.symm (hclash _ _ _)
  | x :: x' :: xs, y :: y' :: ys, _, _ =>
    have h' : entryText x ++ (((x' :: xs).flatMap fun z => ',' :: entryText z) ++ closing :: r)
        = entryText y ++ (((y' :: ys).flatMap fun z => ',' :: entryText z) ++ closing :: r') := by
      simpa only [tupleText, List.cons_append, List.append_assoc, List.nil_append, List.cons.injEq,
        true_and] using h
    obtain ⟨h1, h2⟩ := entry_split (c := ',') (c' := ',') hcomma hcomma
      (by simpa only [List.flatMap_cons, List.cons_append] using h')
    have h3 : ((x' :: xs).flatMap fun z => ',' :: entryText z) ++ closing :: r
        = ((y' :: ys).flatMap fun z => ',' :: entryText z) ++ closing :: r' := by
      simpa only [List.flatMap_cons, List.cons_append] using h2
    obtain ⟨h4, h5⟩ := tail_split hcl hcm _ _ h3
    exact ⟨by rw [h1, h4], h5⟩

/-- The brackets used. -/
def Brackets (opening closing : Char) : Prop :=
  (opening = '(' ∧ closing = ')') ∨ (opening = '[' ∧ closing = ']')

theorem Brackets.facts {o c : Char} (h : Brackets o c) :
    isDigit c = false ∧ c ≠ ',' ∧ c ≠ '_' := by
  rcases h with ⟨rfl, rfl⟩ | ⟨rfl, rfl⟩ <;> decide

/-- C152: different shapes are printed differently. -/
theorem C152_injective {o c : Char} (hb : Brackets o c) {xs ys : List (Option ℕ)}
    (h : shapeString o c xs = shapeString o c ys) : xs = ys := by
  obtain ⟨h1, h2, h3⟩ := hb.facts
  have hne : ∀ zs : List (Option ℕ), zs ≠ [] → shapeString o c zs ≠ [c] := by
    intro zs hz e
    rw [C152_string _ _ _ hz] at e
    match zs, hz with
    | [z], _ =>
      have := congrArg List.length e
      simp [tupleText] at this
    | z :: z' :: zs, _ =>
      have := congrArg List.length e
      simp [tupleText] at this
  by_cases hx : xs = []
  · by_cases hy : ys = []
    · rw [hx, hy]
    · subst hx
      exact absurd h.symm (hne ys hy)
  · by_cases hy : ys = []
    · subst hy
      exact absurd h (hne xs hx)
    · rw [C152_string _ _ _ hx, C152_string _ _ _ hy] at h
      exact (tuple_split h1 h2 h3 hx hy (r := []) (r' := []) (by simpa using h)).1

theorem dimsDiffer_iff (shape : List ℕ) (pattern : List (Option ℕ))
    (h : pattern.length = shape.length) :
    dimsDiffer shape pattern = true ↔ compareDims shape pattern ≠ .ok () := by
  induction shape generalizing pattern with
  | nil =>
    cases pattern with
    | nil => simp [dimsDiffer, compareDims]
    | cons p ps => simp at h
  | cons d ds ih =>
    cases pattern with
    | nil => simp at h
    | cons p ps =>
      have hl : ps.length = ds.length := by simpa using h
      cases p with
      | none =>
        rw [compareDims, ← ih ps hl]
        simp [dimsDiffer]
      | some q =>
        rw [compareDims]
        by_cases hd : d = q
        · rw [if_neg (by simpa using hd), ← ih ps hl]
          simp [dimsDiffer, hd]
        · rw [if_pos hd]
          simp [dimsDiffer, Ne.symm hd]

/-- C152: exactly the arrays whose shape does not match are refused, and the message names the
argument, the shape found and the shape expected, each in tuple notation. -/
theorem C152_message (name : List Char) (shape : List ℕ) (pattern : List (Option ℕ))
    (hs : shape ≠ []) (hp : pattern ≠ []) :
    (verifyShapeText name shape pattern = .ok () ∧ shape.length = pattern.length ∧
      ∀ (k d : ℕ), pattern[k]? = some (some d) → shape[k]? = some d) ∨
    (verifyShapeText name shape pattern = .error (name ++ " has wrong shape: ".toList ++
        tupleText '(' ')' (shape.map some) ++ " != ".toList ++ tupleText '(' ')' pattern) ∧
      ¬ (shape.length = pattern.length ∧
        ∀ (k d : ℕ), pattern[k]? = some (some d) → shape[k]? = some d)) := by
  have htext : shapeErrorText "shape".toList '(' ')' name shape (shapeString '(' ')' pattern)
      = name ++ " has wrong shape: ".toList ++ tupleText '(' ')' (shape.map some) ++ " != ".toList ++
        tupleText '(' ')' pattern := by
    unfold shapeErrorText
    rw [C152_string _ _ _ hp, C152_string _ _ _ (by simpa using hs)]
    simp only [List.append_assoc]
    rfl
  rw [← C89_accepts]
  unfold verifyShapeText verifyShape
  by_cases h : pattern.length = shape.length
  · simp only [h, ne_eq, not_true_eq_false, if_false]
    by_cases hd : dimsDiffer shape pattern = true
    · right
      rw [if_pos hd, htext]
      exact ⟨rfl, (dimsDiffer_iff _ _ h).1 hd⟩
    · left
      rw [if_neg hd]
      refine ⟨rfl, ?_⟩
      by_contra hcon
      exact hd ((dimsDiffer_iff _ _ h).2 hcon)
  · right
    rw [if_pos (by simpa using h), if_pos (by simpa using h), htext]
    exact ⟨rfl, by simp⟩

/-- C152: the message for one argument determines both shapes. -/
theorem C152_readable (name text : List Char) {shape shape' : List ℕ}
    {pattern pattern' : List (Option ℕ)} (hs : shape ≠ []) (hs' : shape' ≠ []) (hp : pattern ≠ [])
    (hp' : pattern' ≠ []) (h : verifyShapeText name shape pattern = .error text)
    (h' : verifyShapeText name shape' pattern' = .error text) :
    shape = shape' ∧ pattern = pattern' := by
  have e := C152_message name shape pattern hs hp
  have e' := C152_message name shape' pattern' hs' hp'
  rw [h] at e
  rw [h'] at e'
  simp only [reduceCtorEq, false_and, false_or, Except.error.injEq] at e e'
  have e3 := e.1.symm.trans e'.1
  simp only [List.append_assoc] at e3
  have e4 := List.append_cancel_left (List.append_cancel_left e3)
  have hn : ∀ {s : List ℕ}, s ≠ [] → s.map some ≠ [] := fun hs => by simpa using hs
  obtain ⟨h1, h2⟩ := tuple_split (closing := ')') (by decide) (by decide) (by decide) (hn hs)
    (hn hs') e4
  have h3 := List.append_cancel_left h2
  obtain ⟨h4, _⟩ := tuple_split (closing := ')') (r := []) (r' := []) (by decide) (by decide) (by decide) hp hp'
    (by simpa using h3)
  exact ⟨(List.map_injective_iff.2 (Option.some_injective ℕ)) h1, h4⟩

/-- C152, tensors: the same check with `size` and square brackets. -/
theorem C152_tensor (name : List Char) (size : List ℕ) (pattern : List (Option ℕ))
    (hs : size ≠ []) (hp : pattern ≠ []) :
    verifySizeText name size pattern =
      if verifyShape size pattern = .ok () then .ok ()
      else .error (name ++ " has wrong size: ".toList ++ tupleText '[' ']' (size.map some) ++
        " != ".toList ++ tupleText '[' ']' pattern) := by
  have htext : shapeErrorText "size".toList '[' ']' name size (shapeString '[' ']' pattern)
      = name ++ " has wrong size: ".toList ++ tupleText '[' ']' (size.map some) ++ " != ".toList ++
        tupleText '[' ']' pattern := by
    unfold shapeErrorText
    rw [C152_string _ _ _ hp, C152_string _ _ _ (by simpa using hs)]
    simp only [List.append_assoc]
    rfl
  unfold verifySizeText verifyShape
  rw [htext]
  by_cases h : pattern.length = size.length
  · simp only [h, ne_eq, not_true_eq_false, if_false]
    by_cases hd : dimsDiffer size pattern = true
    · rw [if_pos hd, if_neg ((dimsDiffer_iff _ _ h).1 hd)]
    · rw [if_neg hd, if_pos]
      by_contra hcon
      exact hd ((dimsDiffer_iff _ _ h).2 hcon)
  · simp [h]

/-- C152, lists: the message about a list of the wrong length does not say which length was
expected. -/
theorem C152_list (name : List Char) (len l l' : ℕ) :
    listLenText name len l = listLenText name len l' := rfl

/-- C152, concrete. -/
example : verifyShapeText "positions".toList [2, 4] [none, some 3]
    = .error "positions has wrong shape: (2,4) != (_,3)".toList := by
  decide +kernel

example : verifyShapeText "amplitudes".toList [2, 4] [none]
    = .error "amplitudes has wrong shape: (2,4) != (_,)".toList := by
  decide +kernel

/-- C152, concrete: an array without dimensions. -/
example : verifyShapeText "positions".toList [] [none, some 3]
    = .error "positions has wrong shape: ) != (_,3)".toList := by
  decide +kernel

example : listLenText "filepaths".toList 3 2 = "filepaths has wrong length: 3 != length".toList := by
  decide +kernel

end Verif
