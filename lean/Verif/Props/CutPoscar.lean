import Verif.Props.CutOutcarReaders
import Verif.Props.LayoutTs
import Verif.Model.XdatcarTrajectory

/-!
# C183: POSCAR and XDATCAR files of any origin that were cut off
-/

namespace Verif

open Spec

variable {inside : Prop}

/-- The text `p` is that of a file with text `q` that was cut off. -/
def CutText (inside : Prop) (p q : List Char) : Prop := Cut inside (linesOf p) (linesOf q)

theorem linesOf_nil_iff {f : List Char} (h : linesOf f = []) : f = [] := by
  have := linesOf_flatten f
  rw [h] at this
  exact this.symm

theorem CutText.nil (q : List Char) : CutText inside [] q := .stop _

theorem ebind_ok {ε α β : Type} {m : Except ε α} {k : α → Except ε β} {y : β} (h : (m >>= k) = .ok y) :
    ∃ x, m = .ok x ∧ k x = .ok y := by
  cases m with
  | error e => cases h
  | ok x => exact ⟨x, rfl, h⟩

/-- One line of both files. -/
theorem CutText.line {p q : List Char} (h : CutText inside p q) :
    CutText inside (readline p).2 (readline q).2 ∧ ((readline p).1 = (readline q).1 ∨
      (readline p).2 = [] ∧ (readline p).1 <+: (readline q).1 ∧ ((readline p).1 = [] ∨ inside)) := by
  have hp := linesOf_readline p
  have hq := linesOf_readline q
  unfold CutText at *
  generalize linesOf p = g at h hp
  generalize linesOf q = f at h hq
  have p1 := congrArg Prod.fst hp
  have p2 := congrArg Prod.snd hp
  have q1 := congrArg Prod.fst hq
  have q2 := congrArg Prod.snd hq
  dsimp only at p1 p2 q1 q2
  rw [← p1, ← q1, ← p2, ← q2]
  cases h with
  | stop f => exact ⟨.stop _, Or.inr ⟨linesOf_nil_iff p2.symm, List.nil_prefix, Or.inl rfl⟩⟩
  | part l' l f hi hl => exact ⟨.stop _, Or.inr ⟨linesOf_nil_iff p2.symm, hl, Or.inr hi⟩⟩
  | line l g f h => exact ⟨h, Or.inl rfl⟩

/-- The results agree, or the file that was cut off has been read to its end. -/
def TextAgree {α : Type} (inside : Prop) (x y : α × List Char) : Prop :=
  x.1 = y.1 ∧ CutText inside x.2 y.2 ∨ x.2 = []

theorem readline_nil : readline [] = ([], []) := rfl

theorem CutText.latticeRow {p q : List Char} (h : CutText inside p q) {x y : NumVec × List Char}
    (hx : latticeRow p = .ok x) (hy : latticeRow q = .ok y) : TextAgree inside x y := by
  obtain ⟨h1, h2⟩ := h.line
  unfold Verif.latticeRow at hx hy
  dsimp only at hx hy
  cases hv : readVec (readline p).1 with
  | none => rw [hv] at hx; cases hx
  | some v =>
  cases hw : readVec (readline q).1 with
  | none => rw [hw] at hy; cases hy
  | some w =>
  rw [hv] at hx
  rw [hw] at hy
  cases hx
  cases hy
  rcases h2 with h2 | h2
  · rw [h2] at hv
    cases hv.symm.trans hw
    exact Or.inl ⟨rfl, h1⟩
  · exact Or.inr h2.1

theorem latticeRow_nil {x : NumVec × List Char} : latticeRow [] ≠ .ok x := fun h => by
  cases h

theorem CutText.readLattice {p q : List Char} (h : CutText inside p q) {x y : NumMat × List Char}
    (hx : readLattice p = .ok x) (hy : readLattice q = .ok y) : TextAgree inside x y := by
  have h1 := h.line.1
  obtain ⟨h2, h3⟩ := h1.line
  unfold Verif.readLattice at hx hy
  dsimp only at hx hy
  cases hs : parseFloat (readline (readline p).2).1 with
  | none => rw [hs] at hx; cases hx
  | some s =>
  cases ht : parseFloat (readline (readline q).2).1 with
  | none => rw [ht] at hy; cases hy
  | some t =>
  rw [hs] at hx
  rw [ht] at hy
  dsimp only at hx hy
  obtain ⟨x0, hx0, hx⟩ := (bind_ok_iff _ _ _).1 hx
  obtain ⟨y0, hy0, hy⟩ := (bind_ok_iff _ _ _).1 hy
  obtain ⟨x1, hx1, hx⟩ := (bind_ok_iff _ _ _).1 hx
  obtain ⟨y1, hy1, hy⟩ := (bind_ok_iff _ _ _).1 hy
  obtain ⟨x2, hx2, hx⟩ := (bind_ok_iff _ _ _).1 hx
  obtain ⟨y2, hy2, hy⟩ := (bind_ok_iff _ _ _).1 hy
  cases hx
  cases hy
  rcases h3 with h3 | h3
  swap
  · rw [h3.1] at hx0
    exact absurd hx0 latticeRow_nil
  rw [h3] at hs
  cases hs.symm.trans ht
  rcases h2.latticeRow hx0 hy0 with ⟨e0, h4⟩ | e0
  swap
  · rw [e0] at hx1
    exact absurd hx1 latticeRow_nil
  rcases h4.latticeRow hx1 hy1 with ⟨e1, h5⟩ | e1
  swap
  · rw [e1] at hx2
    exact absurd hx2 latticeRow_nil
  rcases h5.latticeRow hx2 hy2 with ⟨e2, h6⟩ | e2
  · exact Or.inl ⟨by dsimp only; rw [e0, e1, e2], h6⟩
  · exact Or.inr e2

theorem readAtomicSymbols_ok {f : List Char} {x : List Word × List Char} (h : readAtomicSymbols f = .ok x) :
    ∃ counts, splitWs (readline f).1 ≠ [] ∧
      (splitWs (readline (readline f).2).1).length = (splitWs (readline f).1).length ∧
      (splitWs (readline (readline f).2).1).mapM parseInt = some counts ∧
      x = (expandSymbols (splitWs (readline f).1) counts, (readline (readline f).2).2) := by
  unfold readAtomicSymbols at h
  dsimp only at h
  by_cases h1 : (splitWs (readline f).1).length = 0
  · rw [if_pos h1] at h; cases h
  rw [if_neg h1] at h
  by_cases h2 : ¬ (splitWs (readline f).1).all knownSymbol = true
  · rw [if_pos h2] at h; cases h
  rw [if_neg h2] at h
  by_cases h3 : (splitWs (readline (readline f).2).1).length ≠ (splitWs (readline f).1).length
  · rw [if_pos h3] at h; cases h
  rw [if_neg h3] at h
  cases hc : (splitWs (readline (readline f).2).1).mapM parseInt with
  | none => rw [hc] at h; cases h
  | some c =>
    rw [hc] at h
    cases h
    exact ⟨c, fun h0 => h1 (by rw [h0]; rfl), not_not.1 h3, rfl, rfl⟩

theorem CutText.symbols {p q : List Char} (h : CutText inside p q) {x y : List Word × List Char}
    (hx : readAtomicSymbols p = .ok x) (hy : readAtomicSymbols q = .ok y) : TextAgree inside x y := by
  obtain ⟨c, hc0, hc1, hc2, rfl⟩ := readAtomicSymbols_ok hx
  obtain ⟨d, hd0, hd1, hd2, rfl⟩ := readAtomicSymbols_ok hy
  obtain ⟨h1, h2⟩ := h.line
  obtain ⟨h3, h4⟩ := h1.line
  rcases h2 with h2 | h2
  · rcases h4 with h4 | h4
    · rw [h4] at hc2
      cases hc2.symm.trans hd2
      exact Or.inl ⟨by dsimp only; rw [h2], h3⟩
    · exact Or.inr h4.1
  · rw [h2.1] at hc1
    exact absurd (List.length_eq_zero_iff.1 hc1.symm) hc0

theorem CutText.vectors {n : ℕ} : ∀ {p q : List Char}, CutText inside p q →
    ∀ {x y : List NumVec × List Char}, readVectors n p = .ok x → readVectors n q = .ok y →
      (x.1 = y.1 ∧ CutText inside x.2 y.2) ∨
      x.2 = [] ∧ inside ∧ x.1.length = y.1.length ∧ x.1.dropLast = y.1.dropLast := by
  induction n with
  | zero =>
    intro p q h x y hx hy
    cases hx
    cases hy
    exact Or.inl ⟨rfl, h⟩
  | succ n ih =>
    intro p q h x y hx hy
    obtain ⟨h1, h2⟩ := h.line
    unfold readVectors at hx hy
    dsimp only at hx hy
    cases hv : readVec (readline p).1 with
    | none => rw [hv] at hx; cases hx
    | some v =>
    cases hw : readVec (readline q).1 with
    | none => rw [hw] at hy; cases hy
    | some w =>
    rw [hv] at hx
    rw [hw] at hy
    dsimp only at hx hy
    obtain ⟨x1, hx1, hx⟩ := ebind_ok hx
    obtain ⟨y1, hy1, hy⟩ := ebind_ok hy
    cases hx
    cases hy
    rcases h2 with h2 | ⟨h2, -, h3⟩
    · rw [h2] at hv
      cases hv.symm.trans hw
      rcases ih h1 hx1 hy1 with ⟨h3, h4⟩ | ⟨h3, h4, h5, h6⟩
      · exact Or.inl ⟨by rw [h3], h4⟩
      · refine Or.inr ⟨h3, h4, by simp [h5], ?_⟩
        obtain ⟨xs, xf⟩ := x1
        obtain ⟨ys, yf⟩ := y1
        dsimp only at h5 h6 ⊢
        cases xs with
        | nil => cases ys with
          | nil => rfl
          | cons b ys => cases h5
        | cons a xs => cases ys with
          | nil => cases h5
          | cons b ys => rw [List.dropLast_cons_cons, List.dropLast_cons_cons, h6]
    · have hi : inside := by
        rcases h3 with h3 | h3
        · rw [h3, readVec_nil] at hv
          cases hv
        · exact h3
      rw [h2] at hx1
      cases n with
      | zero =>
        cases hx1
        cases hy1
        exact Or.inr ⟨rfl, hi, rfl, rfl⟩
      | succ n =>
        unfold readVectors at hx1
        cases hx1

theorem CutText.coordinates {ext : NumMat → Py NumMat} {cart : Bool} {lattice : NumMat} {n : ℕ}
    {p q : List Char} (h : CutText inside p q) {x y : List NumVec × List Char}
    (hx : readCoordinates ext cart p lattice n = .ok x) (hy : readCoordinates ext cart q lattice n = .ok y) :
    (x.1 = y.1 ∧ CutText inside x.2 y.2) ∨
      x.2 = [] ∧ inside ∧ x.1.length = y.1.length ∧ x.1.dropLast = y.1.dropLast := by
  unfold readCoordinates at hx hy
  obtain ⟨x1, hx1, hx⟩ := ebind_ok hx
  obtain ⟨y1, hy1, hy⟩ := ebind_ok hy
  have h1 := h.vectors hx1 hy1
  obtain ⟨xs, xf⟩ := x1
  obtain ⟨ys, yf⟩ := y1
  dsimp only at hx hy h1
  cases cart with
  | false =>
    cases hx
    cases hy
    exact h1
  | true =>
    rw [if_pos rfl] at hx hy
    unfold toFractional at hx hy
    cases hi : numInv ext lattice with
    | error er => rw [hi] at hx; cases hx
    | ok inv =>
      rw [hi] at hx hy
      dsimp only at hx hy
      by_cases h2 : xs = []
      · rw [if_pos h2] at hx; cases hx
      by_cases h3 : ys = []
      · rw [if_pos h3] at hy; cases hy
      rw [if_neg h2] at hx
      rw [if_neg h3] at hy
      cases hx
      cases hy
      rcases h1 with ⟨h1, h4⟩ | ⟨h1, h4, h5, h6⟩
      · exact Or.inl ⟨by rw [h1], h4⟩
      · refine Or.inr ⟨h1, h4, by simp [h5], ?_⟩
        rw [← List.map_dropLast, ← List.map_dropLast, h6]

theorem CutText.format {ext : NumMat → Py NumMat} {lattice : NumMat} {n : ℕ} {l' l : List Char}
    {p q : List Char} (hl : l' <+: l) (h : CutText inside p q) {x y : List NumVec × List Char}
    (hx : readFormat ext l' p lattice n = .ok x) (hy : readFormat ext l q lattice n = .ok y) :
    (x.1 = y.1 ∧ CutText inside x.2 y.2) ∨
      x.2 = [] ∧ inside ∧ x.1.length = y.1.length ∧ x.1.dropLast = y.1.dropLast := by
  unfold readFormat at hx hy
  cases l' with
  | nil => cases hx
  | cons c l' =>
    obtain ⟨t, rfl⟩ := hl
    dsimp only [List.cons_append, List.head?_cons] at hx hy
    by_cases hc : c.toLower = 'c'
    · rw [if_pos hc] at hx hy
      exact h.coordinates hx hy
    · rw [if_neg hc] at hx hy
      by_cases hd : c.toLower ≠ 'd'
      · rw [if_pos hd] at hx; cases hx
      · rw [if_neg hd] at hx hy
        exact h.coordinates hx hy

theorem prefix_of_line {p q : List Char} (h : (readline p).1 = (readline q).1 ∨
      (readline p).2 = [] ∧ (readline p).1 <+: (readline q).1 ∧ ((readline p).1 = [] ∨ inside)) :
    (readline p).1 <+: (readline q).1 := by
  rcases h with h | h
  · rw [h]
  · exact h.2.1

theorem readPositions_ok {ext : NumMat → Py NumMat} {f : List Char} {lattice : NumMat} {n : ℕ}
    {x : List NumVec × List Char} (h : readPositions ext f lattice n = .ok x) :
    ∃ c l, (readline f).1 = c :: l ∧ isSpace c = false ∧
      (c.toLower = 's' ∧ readFormat ext (readline (readline f).2).1 (readline (readline f).2).2 lattice n = .ok x ∨
        c.toLower ≠ 's' ∧ readFormat ext (readline f).1 (readline f).2 lattice n = .ok x) := by
  unfold readPositions at h
  dsimp only at h
  generalize hl : (readline f).1 = lb at h ⊢
  cases lb with
  | nil => cases h
  | cons c l =>
    dsimp only [List.head?_cons] at h
    by_cases hb : strip (c :: l) = [] ∨ isSpace c = true
    · rw [if_pos hb] at h; cases h
    · rw [if_neg hb] at h
      push Not at hb
      refine ⟨c, l, rfl, by simpa using hb.2, ?_⟩
      by_cases hs : c.toLower = 's'
      · rw [if_pos hs] at h
        exact Or.inl ⟨hs, h⟩
      · rw [if_neg hs] at h
        exact Or.inr ⟨hs, h⟩

theorem CutText.positions {ext : NumMat → Py NumMat} {lattice : NumMat} {n : ℕ} {p q : List Char}
    (h : CutText inside p q) {x y : List NumVec × List Char}
    (hx : readPositions ext p lattice n = .ok x) (hy : readPositions ext q lattice n = .ok y) :
    (x.1 = y.1 ∧ CutText inside x.2 y.2) ∨
      x.2 = [] ∧ inside ∧ x.1.length = y.1.length ∧ x.1.dropLast = y.1.dropLast := by
  obtain ⟨c, l, hl, -, hx⟩ := readPositions_ok hx
  obtain ⟨d, m, hm, -, hy⟩ := readPositions_ok hy
  obtain ⟨h1, h2⟩ := h.line
  have h3 := prefix_of_line h2
  obtain ⟨h4, h5⟩ := h1.line
  have hcd : c = d := by
    rw [hl, hm] at h3
    exact (List.cons_prefix_cons.1 h3).1
  subst hcd
  rcases hx with ⟨hs, hx⟩ | ⟨hs, hx⟩ <;> rcases hy with ⟨ht, hy⟩ | ⟨ht, hy⟩
  · exact CutText.format (prefix_of_line h5) h4 hx hy
  · exact absurd hs ht
  · exact absurd ht hs
  · exact CutText.format h3 h1 hx hy

/-! ## The end of XDATCAR files -/

theorem noMsg_line {f : List Char} (h : ¬ missingMsg <:+: f) :
    ¬ missingMsg <:+: (readline f).1 ∧ ¬ missingMsg <:+: (readline f).2 := by
  have hf := readline_append f
  constructor
  · intro h1
    exact h (h1.trans ⟨[], (readline f).2, hf⟩)
  · intro h1
    exact h (h1.trans ⟨(readline f).1, [], by rw [List.append_nil]; exact hf⟩)

theorem vectors_msg {n : ℕ} : ∀ {f : List Char}, ¬ missingMsg <:+: f → ∀ {r : Raised},
    readVectors n f = .error r → ¬ missingMsg <:+: r.msg := by
  induction n with
  | zero => intro f _ r h; cases h
  | succ n ih =>
    intro f hf r h
    obtain ⟨h1, h2⟩ := noMsg_line hf
    unfold readVectors at h
    dsimp only at h
    cases hv : readVec (readline f).1 with
    | none =>
      rw [hv] at h
      cases h
      exact fun hm => h1 (infix_append (by decide) hm)
    | some v =>
      rw [hv] at h
      dsimp only at h
      cases hr : readVectors n (readline f).2 with
      | error r' =>
        rw [hr] at h
        cases h
        exact ih h2 hr
      | ok z => rw [hr] at h; cases h

theorem format_msg {ext : NumMat → Py NumMat} {lattice : NumMat} {n : ℕ} {l f : List Char}
    (hl : ¬ missingMsg <:+: l) (hf : ¬ missingMsg <:+: f) {r : Raised}
    (h : readFormat ext l f lattice n = .error r) : ¬ missingMsg <:+: r.msg := by
  have hnil : ¬ missingMsg <:+: ([] : List Char) := fun hm =>
    absurd (List.eq_nil_of_infix_nil hm) (by decide)
  have hcoord : ∀ cart, readCoordinates ext cart f lattice n = .error r → ¬ missingMsg <:+: r.msg := by
    intro cart h
    unfold readCoordinates at h
    cases hv : readVectors n f with
    | error r' =>
      rw [hv] at h
      cases h
      exact vectors_msg hf hv
    | ok z =>
      rw [hv] at h
      cases cart with
      | false => cases h
      | true =>
        have h : toFractional ext lattice z.1 z.2 = .error r := h
        unfold toFractional at h
        split at h
        · cases h
          exact hnil
        · split at h
          · cases h
            exact hnil
          · cases h
  unfold readFormat at h
  split at h
  · cases h
    exact hnil
  · split at h
    · exact hcoord _ h
    · split at h
      · cases h
        exact fun hm => hl (infix_append (by decide) hm)
      · exact hcoord _ h

/-- A file that goes on with a line that does not begin with a blank is not at its end. -/
theorem goes_on {ext : NumMat → Py NumMat} {lattice : NumMat} {n : ℕ} {f : List Char}
    (hf : ¬ missingMsg <:+: f) {c : Char} {l : List Char} (hl : (readline f).1 = c :: l)
    (hc : isSpace c = false) {r : Raised} (h : readPositions ext f lattice n = .error r) :
    contains missingMsg r.msg = false := by
  rw [not_contains_iff]
  obtain ⟨h1, h2⟩ := noMsg_line hf
  obtain ⟨h3, h4⟩ := noMsg_line h2
  unfold readPositions at h
  dsimp only at h
  rw [hl] at h h1
  dsimp only [List.head?_cons] at h
  rw [if_neg (by
    rintro (hb | hb)
    · exact strip_ne hc hb
    · rw [hc] at hb; cases hb)] at h
  split at h
  · exact format_msg h3 h4 h
  · exact format_msg h1 h2 h

theorem line_suffix (f : List Char) : (readline f).2 <:+ f := ⟨(readline f).1, readline_append f⟩

theorem vectors_suffix {n : ℕ} : ∀ {f : List Char} {x : List NumVec × List Char},
    readVectors n f = .ok x → x.2 <:+ f := by
  induction n with
  | zero => intro f x h; cases h; exact List.suffix_rfl
  | succ n ih =>
    intro f x h
    unfold readVectors at h
    dsimp only at h
    cases hv : readVec (readline f).1 with
    | none => rw [hv] at h; cases h
    | some v =>
      rw [hv] at h
      dsimp only at h
      obtain ⟨x1, h1, h⟩ := ebind_ok h
      cases h
      exact (ih h1).trans (line_suffix f)

theorem coordinates_suffix {ext : NumMat → Py NumMat} {cart : Bool} {f : List Char} {lattice : NumMat}
    {n : ℕ} {x : List NumVec × List Char} (h : readCoordinates ext cart f lattice n = .ok x) : x.2 <:+ f := by
  unfold readCoordinates at h
  obtain ⟨x1, h1, h⟩ := ebind_ok h
  have h2 := vectors_suffix h1
  obtain ⟨vs, g⟩ := x1
  dsimp only at h h2
  cases cart with
  | false => cases h; exact h2
  | true =>
    rw [if_pos rfl] at h
    unfold toFractional at h
    split at h
    · cases h
    · split at h
      · cases h
      · cases h
        exact h2

theorem format_suffix {ext : NumMat → Py NumMat} {l f : List Char} {lattice : NumMat} {n : ℕ}
    {x : List NumVec × List Char} (h : readFormat ext l f lattice n = .ok x) : x.2 <:+ f := by
  unfold readFormat at h
  split at h
  · cases h
  · split at h
    · exact coordinates_suffix h
    · split at h
      · cases h
      · exact coordinates_suffix h

theorem readPositions_suffix {ext : NumMat → Py NumMat} {f : List Char} {lattice : NumMat} {n : ℕ}
    {x : List NumVec × List Char} (h : readPositions ext f lattice n = .ok x) : x.2 <:+ f := by
  obtain ⟨c, l, -, -, ⟨-, h⟩ | ⟨-, h⟩⟩ := readPositions_ok h
  · exact ((format_suffix h).trans (line_suffix _)).trans (line_suffix _)
  · exact (format_suffix h).trans (line_suffix _)

theorem CutText.loop {ext : NumMat → Py NumMat} {lattice : NumMat} {n : ℕ} (k : ℕ) :
    ∀ (k' : ℕ) {p q : List Char}, CutText inside p q → ¬ missingMsg <:+: q →
      ∀ {ps qs : List (List NumVec)}, readTsLoop ext lattice n k p = .ok ps →
      readTsLoop ext lattice n k' q = .ok qs → FirstFrames inside ps qs := by
  induction k with
  | zero => intro k' p q _ _ ps qs hp _; cases hp
  | succ k ih =>
    intro k' p q h hq ps qs hps hqs
    cases k' with
    | zero => cases hqs
    | succ k' =>
    unfold readTsLoop at hps hqs
    cases hx : readPositions ext p lattice n with
    | error r =>
      rw [hx] at hps
      dsimp only at hps
      split at hps
      · cases hps
        exact .stop _
      · cases hps
    | ok x =>
      rw [hx] at hps
      obtain ⟨c, l, hl, hc, -⟩ := readPositions_ok hx
      have hpre := prefix_of_line h.line.2
      rw [hl] at hpre
      obtain ⟨t, ht⟩ := hpre
      cases hy : readPositions ext q lattice n with
      | error r =>
        rw [hy] at hqs
        dsimp only at hqs
        rw [if_neg (by
          rintro ⟨-, hm⟩
          rw [goes_on hq ht.symm hc hy] at hm
          cases hm)] at hqs
        cases hqs
      | ok y =>
        rw [hy] at hqs
        dsimp only at hps hqs
        obtain ⟨ps', hps', hps⟩ := (bind_ok_iff _ _ _).1 hps
        obtain ⟨qs', hqs', hqs⟩ := (bind_ok_iff _ _ _).1 hqs
        cases hps
        cases hqs
        rcases h.positions hx hy with ⟨h1, h2⟩ | ⟨h1, hi, h2, h3⟩
        · rw [h1]
          refine .frame _ _ _ (ih _ h2 ?_ hps' hqs')
          have hsuf : y.2 <:+ q := readPositions_suffix hy
          exact fun hm => hq (hm.trans hsuf.isInfix)
        · have : ps' = [] := by
            rw [h1] at hps'
            cases k with
            | zero => cases hps'
            | succ k =>
              rw [readTsLoop_nil] at hps'
              cases hps'
              rfl
          rw [this]
          exact .last _ _ _ hi h2 h3

/-! ## Whole files -/

theorem dropMsg_ok {α : Type} {r : Except Raised α} {x : α} (h : dropMsg r = .ok x) : r = .ok x := by
  cases r with
  | error e => cases h
  | ok y => cases h; rfl

theorem symbols_nil {x : List Word × List Char} : readAtomicSymbols [] ≠ .ok x := fun h => by
  rw [readAtomicSymbols_nil] at h
  cases h

theorem positions_end {ext : NumMat → Py NumMat} {lattice : NumMat} {n : ℕ} {x : List NumVec × List Char} :
    readPositions ext [] lattice n ≠ .ok x := fun h => by
  obtain ⟨r, hr, -⟩ := readPositions_nil ext lattice n
  rw [hr] at h
  cases h

theorem content_cut {a b : List Char} (h : a <+: b) :
    CutText True (universalNewlines a) (universalNewlines b) := fileLines_cut h

theorem content_cut_line {a b : List Char} (h : a ++ ['\n'] <+: b) :
    CutText False (universalNewlines (a ++ ['\n'])) (universalNewlines b) := fileLines_cut_line h ⟨a, rfl⟩

theorem cut_structure {ext : NumMat → Py NumMat} {a b : List Char}
    (h : CutText inside (universalNewlines a) (universalNewlines b)) {s t : ReadStructure}
    (hs : readStructure ext a = .ok s) (ht : readStructure ext b = .ok t) :
    s.lattice = t.lattice ∧ s.atomicNumbers = t.atomicNumbers ∧ (s.positions = t.positions ∨
      inside ∧ s.positions.length = t.positions.length ∧ s.positions.dropLast = t.positions.dropLast) := by
  unfold readStructure at hs ht
  obtain ⟨x1, hx1, hs⟩ := (bind_ok_iff _ _ _).1 hs
  obtain ⟨y1, hy1, ht⟩ := (bind_ok_iff _ _ _).1 ht
  obtain ⟨x2, hx2, hs⟩ := (bind_ok_iff _ _ _).1 hs
  obtain ⟨y2, hy2, ht⟩ := (bind_ok_iff _ _ _).1 ht
  obtain ⟨n, hn, hs⟩ := (bind_ok_iff _ _ _).1 hs
  obtain ⟨n', hn', ht⟩ := (bind_ok_iff _ _ _).1 ht
  obtain ⟨x3, hx3, hs⟩ := (bind_ok_iff _ _ _).1 hs
  obtain ⟨y3, hy3, ht⟩ := (bind_ok_iff _ _ _).1 ht
  cases hs
  cases ht
  have hx3 := dropMsg_ok hx3
  have hy3 := dropMsg_ok hy3
  rcases h.readLattice hx1 hy1 with ⟨e1, h1⟩ | e1
  swap
  · rw [e1] at hx2
    exact absurd hx2 symbols_nil
  rcases h1.symbols hx2 hy2 with ⟨e2, h2⟩ | e2
  swap
  · rw [e2] at hx3
    exact absurd hx3 positions_end
  rw [e2] at hn hx3
  rw [e1] at hx3
  cases hn.symm.trans hn'
  refine ⟨e1, rfl, ?_⟩
  rcases h2.positions hx3 hy3 with h3 | h3
  · exact Or.inl h3.1
  · exact Or.inr h3.2

theorem cut_frames {ext : NumMat → Py NumMat} {a b : List Char}
    (h : CutText inside (universalNewlines a) (universalNewlines b))
    (hb : ¬ missingMsg <:+: universalNewlines b) {ps qs : List (List NumVec)}
    (hps : readPositionsTs ext a = .ok ps) (hqs : readPositionsTs ext b = .ok qs) :
    FirstFrames inside ps qs := by
  unfold readPositionsTs at hps hqs
  obtain ⟨x1, hx1, hps⟩ := (bind_ok_iff _ _ _).1 hps
  obtain ⟨y1, hy1, hqs⟩ := (bind_ok_iff _ _ _).1 hqs
  obtain ⟨x2, hx2, hps⟩ := (bind_ok_iff _ _ _).1 hps
  obtain ⟨y2, hy2, hqs⟩ := (bind_ok_iff _ _ _).1 hqs
  dsimp only at hps hqs
  rcases h.readLattice hx1 hy1 with ⟨e1, h1⟩ | e1
  swap
  · rw [e1] at hx2
    exact absurd hx2 symbols_nil
  rcases h1.symbols hx2 hy2 with ⟨e2, h2⟩ | e2
  swap
  · rw [e2, readTsLoop_nil] at hps
    cases hps
    exact .stop _
  rw [e1, e2] at hps
  have hsuf : y2.2 <:+ universalNewlines b := by
    have h3 : y1.2 <:+ universalNewlines b := by
      unfold readLattice at hy1
      dsimp only at hy1
      split at hy1
      · cases hy1
      · obtain ⟨z0, hz0, hy1⟩ := (bind_ok_iff _ _ _).1 hy1
        obtain ⟨z1, hz1, hy1⟩ := (bind_ok_iff _ _ _).1 hy1
        obtain ⟨z2, hz2, hy1⟩ := (bind_ok_iff _ _ _).1 hy1
        cases hy1
        have hrow : ∀ {f : List Char} {z : NumVec × List Char}, latticeRow f = .ok z → z.2 <:+ f := by
          intro f z hz
          unfold latticeRow at hz
          dsimp only at hz
          split at hz
          · cases hz
          · cases hz
            exact line_suffix f
        exact ((((hrow hz2).trans (hrow hz1)).trans (hrow hz0)).trans (line_suffix _)).trans (line_suffix _)
    obtain ⟨c, -, -, -, rfl⟩ := readAtomicSymbols_ok hy2
    exact ((line_suffix _).trans (line_suffix _)).trans h3
  exact h2.loop _ _ (fun hm => hb (hm.trans hsuf.isInfix)) hps hqs

/-! ## C183 -/

/-- C183: a POSCAR file that was cut off anywhere is refused or gives the structure of the complete file,
up to the last position. -/
theorem C183_poscar (ext : NumMat → Py NumMat) (a b : List Char) (h : a <+: b) (s t : ReadStructure)
    (hs : readStructure ext a = .ok s) (ht : readStructure ext b = .ok t) :
    s.lattice = t.lattice ∧ s.atomicNumbers = t.atomicNumbers ∧
      s.positions.length = t.positions.length ∧ s.positions.dropLast = t.positions.dropLast := by
  obtain ⟨h1, h2, h3⟩ := cut_structure (content_cut h) hs ht
  refine ⟨h1, h2, ?_⟩
  rcases h3 with h3 | h3
  · rw [h3]
    exact ⟨rfl, rfl⟩
  · exact h3.2

/-- C183: if it ends at the end of a line, the structure is that of the complete file. -/
theorem C183_poscar_lines (ext : NumMat → Py NumMat) (a b : List Char) (h : a ++ ['\n'] <+: b)
    (s t : ReadStructure) (hs : readStructure ext (a ++ ['\n']) = .ok s)
    (ht : readStructure ext b = .ok t) : s = t := by
  obtain ⟨h1, h2, h3⟩ := cut_structure (content_cut_line h) hs ht
  cases s
  cases t
  dsimp only at h1 h2 h3
  rw [h1, h2, h3.resolve_right fun h => h.1]

/-- C183: an XDATCAR file that was cut off anywhere is refused or gives the first configurations of the
complete file, up to the last position, provided that the complete file does not contain the text of the
message by which the end of a file is recognised. -/
theorem C183_xdatcar (ext : NumMat → Py NumMat) (a b : List Char) (h : a <+: b)
    (hb : ¬ missingMsg <:+: universalNewlines b) (ps qs : List (List NumVec))
    (hps : readPositionsTs ext a = .ok ps) (hqs : readPositionsTs ext b = .ok qs) :
    FirstFrames True ps qs :=
  cut_frames (content_cut h) hb hps hqs

/-- C183: if it ends at the end of a line, all configurations are those of the complete file. -/
theorem C183_xdatcar_lines (ext : NumMat → Py NumMat) (a b : List Char) (h : a ++ ['\n'] <+: b)
    (hb : ¬ missingMsg <:+: universalNewlines b) (ps qs : List (List NumVec))
    (hps : readPositionsTs ext (a ++ ['\n']) = .ok ps) (hqs : readPositionsTs ext b = .ok qs) :
    ps <+: qs := by
  have h1 := cut_frames (content_cut_line h) hb hps hqs
  clear hps hqs
  induction h1 with
  | stop qs => exact List.nil_prefix
  | last _ _ _ hi => exact hi.elim
  | frame p ps qs _ ih => exact List.cons_prefix_cons.2 ⟨rfl, ih⟩

/-- C183: the same for `read_positions`. -/
theorem C183_positions (ext : NumMat → Py NumMat) (a b : List Char) (h : a <+: b) (ps qs : List NumVec)
    (hps : readPoscarPositions ext a = .ok ps) (hqs : readPoscarPositions ext b = .ok qs) :
    ps.length = qs.length ∧ ps.dropLast = qs.dropLast := by
  unfold readPoscarPositions at hps hqs
  obtain ⟨x1, hx1, hps⟩ := (bind_ok_iff _ _ _).1 hps
  obtain ⟨y1, hy1, hqs⟩ := (bind_ok_iff _ _ _).1 hqs
  obtain ⟨x2, hx2, hps⟩ := (bind_ok_iff _ _ _).1 hps
  obtain ⟨y2, hy2, hqs⟩ := (bind_ok_iff _ _ _).1 hqs
  obtain ⟨x3, hx3, hps⟩ := (bind_ok_iff _ _ _).1 hps
  obtain ⟨y3, hy3, hqs⟩ := (bind_ok_iff _ _ _).1 hqs
  cases hps
  cases hqs
  have hx3 := dropMsg_ok hx3
  have hy3 := dropMsg_ok hy3
  rcases (content_cut h).readLattice hx1 hy1 with ⟨e1, h1⟩ | e1
  swap
  · rw [e1] at hx2
    exact absurd hx2 symbols_nil
  rcases h1.symbols hx2 hy2 with ⟨e2, h2⟩ | e2
  swap
  · rw [e2] at hx3
    exact absurd hx3 positions_end
  rw [e1, e2] at hx3
  rcases h2.positions hx3 hy3 with h3 | h3
  · rw [h3.1]
    exact ⟨rfl, rfl⟩
  · exact h3.2.2

/-- C183: trajectories made of the configurations: the time step is the one given, the frames are as
above. -/
theorem C183_trajectory (ext : NumMat → Py NumMat) (timestep : Num) (a b : List Char) (h : a <+: b)
    (hb : ¬ missingMsg <:+: universalNewlines b) (s t : OutcarTrajectory)
    (hs : xdatcarReadTrajectory ext a timestep = .ok s) (ht : xdatcarReadTrajectory ext b timestep = .ok t) :
    s.timestep = t.timestep ∧ FirstFrames True s.positionsTs t.positionsTs := by
  unfold xdatcarReadTrajectory at hs ht
  obtain ⟨ps, hps, hs⟩ := (bind_ok_iff _ _ _).1 hs
  obtain ⟨qs, hqs, ht⟩ := (bind_ok_iff _ _ _).1 ht
  have h1 := cut_frames (content_cut h) hb hps hqs
  by_cases hp : ps = [] ∨ [] ∈ ps
  · rw [if_pos hp] at hs; cases hs
  by_cases hq : qs = [] ∨ [] ∈ qs
  · rw [if_pos hq] at ht; cases ht
  rw [if_neg hp] at hs
  rw [if_neg hq] at ht
  unfold makeTrajectory at hs ht
  cases timestep with
  | none => cases hs
  | some τ =>
    dsimp only at hs ht
    by_cases hτ : τ ≤ 0
    · rw [if_pos hτ] at hs; cases hs
    · rw [if_neg hτ] at hs ht
      cases hs
      cases ht
      exact ⟨rfl, firstFrames_map _ h1⟩

/-! ## Concrete files -/

/-- Beginning of a file with one carbon atom in a cubic cell. -/
def carbonHead : List Char := chars! "l\n1.0\n1 0 0\n0 1 0\n0 0 1\nC\n1\n"

/-- A POSCAR file up to the last digit. -/
def carbonCut : List Char := carbonHead ++ chars! "Direct\n0 0.5 0."

/-- The rest of it. -/
def carbonEnd : List Char := chars! "25\n"

/-- The rows of a structure, to be compared. -/
def rowTriples (ps : List NumVec) : List (List Num) := ps.map fun p => [p 0, p 1, p 2]

theorem carbonCut_read : ∃ s, readStructure (fun _ => .error .linAlgError) carbonCut = .ok s ∧
    rowTriples s.positions = [[some 0, some (1 / 2), some 0]] := by
  refine projOr_ok (fun s : ReadStructure => rowTriples s.positions) [] _ ?_ (by simp)
  decide +kernel

theorem carbonWhole_read : ∃ s, readStructure (fun _ => .error .linAlgError) (carbonCut ++ carbonEnd) = .ok s ∧
    rowTriples s.positions = [[some 0, some (1 / 2), some (1 / 4)]] := by
  refine projOr_ok (fun s : ReadStructure => rowTriples s.positions) [] _ ?_ (by simp)
  decide +kernel

/-- C183, concrete: the structures agree but for the last position; it is really another one. -/
example : ∃ s t, readStructure (fun _ => .error .linAlgError) carbonCut = .ok s ∧
    readStructure (fun _ => .error .linAlgError) (carbonCut ++ carbonEnd) = .ok t ∧
    s.lattice = t.lattice ∧ s.atomicNumbers = t.atomicNumbers ∧
    s.positions.length = t.positions.length ∧ s.positions ≠ t.positions := by
  obtain ⟨s, hs, es⟩ := carbonCut_read
  obtain ⟨t, ht, et⟩ := carbonWhole_read
  obtain ⟨h1, h2, h3, -⟩ := C183_poscar _ _ _ (List.prefix_append _ _) s t hs ht
  refine ⟨s, t, hs, ht, h1, h2, h3, fun h => ?_⟩
  rw [h, et] at es
  norm_num at es

/-- C183, concrete: velocities after the positions do not matter. -/
example : ∃ s t, readStructure (fun _ => .error .linAlgError) (carbonCut ++ chars! "25" ++ ['\n']) = .ok s ∧
    readStructure (fun _ => .error .linAlgError) (carbonCut ++ chars! "25" ++ ['\n'] ++ chars! "\n 7 7 7\n") =
      .ok t ∧ s = t := by
  obtain ⟨s, hs, -⟩ := carbonWhole_read
  have he : carbonCut ++ carbonEnd = carbonCut ++ chars! "25" ++ ['\n'] := by rw [List.append_assoc]; rfl
  rw [he] at hs
  obtain ⟨t, ht, -⟩ : ∃ t, readStructure (fun _ => .error .linAlgError)
      (carbonCut ++ chars! "25" ++ ['\n'] ++ chars! "\n 7 7 7\n") = .ok t ∧
      rowTriples t.positions = [[some 0, some (1 / 2), some (1 / 4)]] := by
    refine projOr_ok (fun s : ReadStructure => rowTriples s.positions) [] _ ?_ (by simp)
    decide +kernel
  exact ⟨s, t, hs, ht, C183_poscar_lines _ _ _ (List.prefix_append _ _) s t hs ht⟩

/-- Two configurations of the atom, the second up to the last digit. -/
def carbonSteps : List Char := carbonHead ++ chars! "Direct\n0 0 0.5\nDirect\n0 0.5 0."

/-- C183, concrete: two configurations, the second with another last coordinate; the file without its last
line has the first one. -/
example : ∃ ps qs, readPositionsTs (fun _ => .error .linAlgError) carbonSteps = .ok ps ∧
    readPositionsTs (fun _ => .error .linAlgError) (carbonSteps ++ carbonEnd) = .ok qs ∧
    FirstFrames True ps qs ∧ ps.map rowTriples = [[[some 0, some 0, some (1 / 2)]], [[some 0, some (1 / 2), some 0]]] ∧
    qs.map rowTriples = [[[some 0, some 0, some (1 / 2)]], [[some 0, some (1 / 2), some (1 / 4)]]] := by
  obtain ⟨ps, hps, ep⟩ : ∃ ps, readPositionsTs (fun _ => .error .linAlgError) carbonSteps = .ok ps ∧
      ps.map rowTriples = [[[some 0, some 0, some (1 / 2)]], [[some 0, some (1 / 2), some 0]]] := by
    refine projOr_ok (List.map rowTriples) [] _ ?_ (by simp)
    decide +kernel
  obtain ⟨qs, hqs, eq⟩ : ∃ qs, readPositionsTs (fun _ => .error .linAlgError) (carbonSteps ++ carbonEnd) = .ok qs ∧
      qs.map rowTriples = [[[some 0, some 0, some (1 / 2)]], [[some 0, some (1 / 2), some (1 / 4)]]] := by
    refine projOr_ok (List.map rowTriples) [] _ ?_ (by simp)
    decide +kernel
  exact ⟨ps, qs, hps, hqs, C183_xdatcar _ _ _ (List.prefix_append _ _)
    (by rw [← not_contains_iff]; decide +kernel) ps qs hps hqs, ep, eq⟩

/-- C183, concrete: a file that ends with the first configuration. -/
example : ∃ ps qs, readPositionsTs (fun _ => .error .linAlgError)
      (carbonHead ++ chars! "Direct\n0 0 0.5" ++ ['\n']) = .ok ps ∧
    readPositionsTs (fun _ => .error .linAlgError)
      (carbonHead ++ chars! "Direct\n0 0 0.5" ++ ['\n'] ++ chars! "Direct\n0 0.5 0\n") = .ok qs ∧
    ps <+: qs ∧ ps.length = 1 ∧ qs.length = 2 := by
  obtain ⟨ps, hps, ep⟩ : ∃ ps, readPositionsTs (fun _ => .error .linAlgError)
      (carbonHead ++ chars! "Direct\n0 0 0.5" ++ ['\n']) = .ok ps ∧ ps.length = 1 := by
    refine projOr_ok List.length 7 _ ?_ (by simp)
    decide +kernel
  obtain ⟨qs, hqs, eq⟩ : ∃ qs, readPositionsTs (fun _ => .error .linAlgError)
      (carbonHead ++ chars! "Direct\n0 0 0.5" ++ ['\n'] ++ chars! "Direct\n0 0.5 0\n") = .ok qs ∧
      qs.length = 2 := by
    refine projOr_ok List.length 7 _ ?_ (by simp)
    decide +kernel
  exact ⟨ps, qs, hps, hqs, C183_xdatcar_lines _ _ _ (List.prefix_append _ _)
    (by rw [← not_contains_iff]; decide +kernel) ps qs hps hqs, ep, eq⟩

/-- C183, concrete: the positions alone, and the trajectory with a time step of 2 fs. -/
example : (∃ ps qs, readPoscarPositions (fun _ => .error .linAlgError) carbonCut = .ok ps ∧
    readPoscarPositions (fun _ => .error .linAlgError) (carbonCut ++ carbonEnd) = .ok qs ∧
    ps.length = qs.length ∧ ps.dropLast = qs.dropLast ∧ ps.length = 1) ∧
    ∃ s t, xdatcarReadTrajectory (fun _ => .error .linAlgError) carbonSteps (some 2) = .ok s ∧
      xdatcarReadTrajectory (fun _ => .error .linAlgError) (carbonSteps ++ carbonEnd) (some 2) = .ok t ∧
      s.timestep = t.timestep ∧ FirstFrames True s.positionsTs t.positionsTs ∧ t.positionsTs.length = 2 := by
  constructor
  · obtain ⟨ps, hps, ep⟩ : ∃ ps, readPoscarPositions (fun _ => .error .linAlgError) carbonCut = .ok ps ∧
        ps.length = 1 := by
      refine projOr_ok List.length 7 _ ?_ (by simp)
      decide +kernel
    obtain ⟨qs, hqs, -⟩ : ∃ qs, readPoscarPositions (fun _ => .error .linAlgError) (carbonCut ++ carbonEnd) =
        .ok qs ∧ qs.length = 1 := by
      refine projOr_ok List.length 7 _ ?_ (by simp)
      decide +kernel
    obtain ⟨h1, h2⟩ := C183_positions _ _ _ (List.prefix_append _ _) ps qs hps hqs
    exact ⟨ps, qs, hps, hqs, h1, h2, ep⟩
  · obtain ⟨s, hs, -⟩ : ∃ s, xdatcarReadTrajectory (fun _ => .error .linAlgError) carbonSteps (some 2) = .ok s ∧
        s.positionsTs.length = 2 := by
      refine projOr_ok (fun s : OutcarTrajectory => s.positionsTs.length) 7 _ ?_ (by simp)
      decide +kernel
    obtain ⟨t, ht, et⟩ : ∃ t, xdatcarReadTrajectory (fun _ => .error .linAlgError) (carbonSteps ++ carbonEnd)
        (some 2) = .ok t ∧ t.positionsTs.length = 2 := by
      refine projOr_ok (fun s : OutcarTrajectory => s.positionsTs.length) 7 _ ?_ (by simp)
      decide +kernel
    obtain ⟨h1, h2⟩ := C183_trajectory _ _ _ _ (List.prefix_append _ _)
      (by rw [← not_contains_iff]; decide +kernel) s t hs ht
    exact ⟨s, t, hs, ht, h1, h2, et⟩

/-- C183: the condition on the text of the message is needed: a complete file with this text can give fewer
configurations than the file cut off before it. -/
theorem C183_message_needed : ∃ (ext : NumMat → Py NumMat) (a b : List Char) (ps : List (List NumVec)),
    a <+: b ∧ readPositionsTs ext a = .ok ps ∧ ps.length = 1 ∧ readPositionsTs ext b = .ok [] := by
  obtain ⟨ps, hps, ep⟩ : ∃ ps, readPositionsTs (fun _ => .error .linAlgError)
      (carbonHead ++ chars! "Direct\n0 0 0.5") = .ok ps ∧ ps.length = 1 := by
    refine projOr_ok List.length 7 _ ?_ (by simp)
    decide +kernel
  obtain ⟨qs, hqs, eq⟩ : ∃ qs, readPositionsTs (fun _ => .error .linAlgError)
      (carbonHead ++ chars! "Direct\n0 0 0.5" ++
        chars! "missing first character in coordinate format:\n") = .ok qs ∧ qs.length = 0 := by
    refine projOr_ok List.length 7 _ ?_ (by simp)
    decide +kernel
  cases List.length_eq_zero_iff.1 eq
  exact ⟨_, _, _, ps, List.prefix_append _ _, hps, ep, hqs⟩

end Verif
