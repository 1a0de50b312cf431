import Verif.Proofs.Text
import Verif.Spec.Layout

/-!
# Helper lemmas: lines, words and numbers
-/

namespace Verif

open Spec

theorem isSpace_iff (c : Char) : isSpace c = true ↔ Blank c := by
  unfold isSpace Blank blankCodes
  generalize c.toNat = n
  simp only [Bool.or_eq_true, Bool.and_eq_true, decide_eq_true_eq, beq_iff_eq, List.mem_cons,
    List.not_mem_nil, or_false]
  omega

theorem isSpace_false_iff (c : Char) : isSpace c = false ↔ ¬ Blank c := by
  rw [← isSpace_iff, Bool.not_eq_true]

/-! ## Lines -/

/-- Lines joined with line feeds. -/
def unlines : List (List Char) → List Char
  | [] => []
  | [l] => l
  | l :: l' :: ls => l ++ '\n' :: unlines (l' :: ls)

theorem unlines_cons {l : List Char} {ls : List (List Char)} (h : ls ≠ []) :
    unlines (l :: ls) = l ++ '\n' :: unlines ls := by
  cases ls with
  | nil => exact absurd rfl h
  | cons a b => rfl

theorem universalNewlines_append {l : List Char} (h : '\r' ∉ l) (r : List Char) :
    universalNewlines (l ++ r) = l ++ universalNewlines r := by
  induction l with
  | nil => rfl
  | cons c cs ih =>
    have hc : c ≠ '\r' := fun hh => h (by simp [hh])
    rw [List.cons_append, universalNewlines]
    · rw [ih fun hh => h (by simp [hh])]; rfl
    · intro _ hh; exact absurd hh hc
    · intro hh; exact absurd hh hc

theorem isText_ne {ls : List (List Char)} {t : List Char} (h : IsText ls t) : ls ≠ [] := by
  cases h <;> simp

theorem isText_newlines {ls : List (List Char)} {t : List Char} (h : IsText ls t) :
    universalNewlines t = unlines ls ∧ ∀ l ∈ ls, '\n' ∉ l := by
  induction h with
  | last l h h' =>
    refine ⟨?_, by simpa using h⟩
    have := universalNewlines_append h' []
    rw [List.append_nil] at this
    rw [this, universalNewlines, List.append_nil]; rfl
  | cons l nl ls rest h h' hnl ht ih =>
    refine ⟨?_, ?_⟩
    · rw [List.append_assoc, universalNewlines_append h', unlines_cons (isText_ne ht), ← ih.1]
      rcases hnl with rfl | rfl | ⟨rfl, hr⟩
      · rw [List.singleton_append, universalNewlines]
        · intro _ hh; exact absurd hh (by decide)
        · intro hh; exact absurd hh (by decide)
      · rfl
      · cases rest with
        | nil => rfl
        | cons c cs =>
          have : c ≠ '\n' := fun hh => hr (by simp [hh])
          rw [List.singleton_append, universalNewlines]
          intro cs' hh
          exact this (List.cons.inj hh).1
    · intro x hx
      rcases List.mem_cons.1 hx with rfl | hx
      · exact h
      · exact ih.2 x hx

/-- Every text has lines. -/
theorem isText_exists (t : List Char) : ∃ ls, IsText ls t := by
  induction hn : t.length using Nat.strong_induction_on generalizing t with
  | _ n ih =>
    by_cases hex : ∃ c ∈ t, c = '\n' ∨ c = '\r'
    · have hsplit : ∃ l c r, t = l ++ c :: r ∧ (c = '\n' ∨ c = '\r') ∧ '\n' ∉ l ∧ '\r' ∉ l := by
        clear ih hn n
        induction t with
        | nil => obtain ⟨c, hc, -⟩ := hex; simp at hc
        | cons a t ih =>
          by_cases ha : a = '\n' ∨ a = '\r'
          · exact ⟨[], a, t, rfl, ha, by simp, by simp⟩
          · obtain ⟨c, hc, hcc⟩ := hex
            rcases List.mem_cons.1 hc with rfl | hc
            · exact absurd hcc ha
            · obtain ⟨l, d, r, rfl, hd, h1, h2⟩ := ih ⟨c, hc, hcc⟩
              push Not at ha
              exact ⟨a :: l, d, r, rfl, hd, by simpa [h1] using fun hh => ha.1 hh.symm,
                by simpa [h2] using fun hh => ha.2 hh.symm⟩
      obtain ⟨l, c, r, rfl, hc, h1, h2⟩ := hsplit
      rcases hc with rfl | rfl
      · obtain ⟨ls, hls⟩ := ih r.length (by rw [← hn]; simp; omega) r rfl
        exact ⟨l :: ls, by simpa using IsText.cons l ['\n'] ls r h1 h2 (Or.inl rfl) hls⟩
      · by_cases hr : r.head? = some '\n'
        · cases r with
          | nil => simp at hr
          | cons d r =>
            obtain rfl : d = '\n' := by simpa using hr
            obtain ⟨ls, hls⟩ := ih r.length (by rw [← hn]; simp; omega) r rfl
            exact ⟨l :: ls, by
              simpa using IsText.cons l ['\r', '\n'] ls r h1 h2 (Or.inr (Or.inl rfl)) hls⟩
        · obtain ⟨ls, hls⟩ := ih r.length (by rw [← hn]; simp; omega) r rfl
          exact ⟨l :: ls, by
            simpa using IsText.cons l ['\r'] ls r h1 h2 (Or.inr (Or.inr ⟨rfl, hr⟩)) hls⟩
    · push Not at hex
      exact ⟨[t], .last t (fun h => (hex _ h).1 rfl) (fun h => (hex _ h).2 rfl)⟩

/-- The unread rest of a file after its first `k` lines. -/
def After (ls : List (List Char)) (k : ℕ) (f : List Char) : Prop :=
  (∀ l ∈ ls, '\n' ∉ l) ∧ ((k < ls.length ∧ f = unlines (ls.drop k)) ∨ (ls.length ≤ k ∧ f = []))

/-- Reading one line. -/
theorem After.readline {ls : List (List Char)} {k : ℕ} {f : List Char} (h : After ls k f) :
    ((readline f).1 = ls.getD k [] ∨ (readline f).1 = ls.getD k [] ++ ['\n']) ∧
      After ls (k + 1) (readline f).2 := by
  obtain ⟨hn, ⟨hk, rfl⟩ | ⟨hk, rfl⟩⟩ := h
  · rw [List.drop_eq_getElem_cons hk]
    have hl : ls.getD k [] = ls[k] := by simp [List.getD, hk]
    have hnl : '\n' ∉ ls[k] := hn _ (List.getElem_mem hk)
    rw [hl]
    by_cases hd : ls.drop (k + 1) = []
    · rw [hd]
      change ((Verif.readline ls[k]).1 = _ ∨ _) ∧ After ls (k + 1) (Verif.readline ls[k]).2
      rw [readline_last hnl]
      exact ⟨Or.inl rfl, hn, Or.inr ⟨by simpa using hd, rfl⟩⟩
    · rw [unlines_cons hd]
      have := readline_line hnl (unlines (ls.drop (k + 1)))
      rw [this]
      exact ⟨Or.inr rfl, hn, Or.inl ⟨by simpa using hd, rfl⟩⟩
  · have hl : ls.getD k [] = [] := by simp [List.getD, hk]
    rw [hl]
    exact ⟨Or.inl rfl, hn, Or.inr ⟨by omega, rfl⟩⟩

theorem after_zero {ls : List (List Char)} {t : List Char} (h : IsText ls t) :
    After ls 0 (universalNewlines t) := by
  obtain ⟨h1, h2⟩ := isText_newlines h
  exact ⟨h2, Or.inl ⟨List.length_pos_iff.2 (isText_ne h), by simpa using h1⟩⟩

/-! ## Words -/

theorem splitAux_gap (gap rest : List Char) (h : ∀ c ∈ gap, Blank c) :
    splitAux [] (gap ++ rest) = splitAux [] rest := by
  induction gap with
  | nil => rfl
  | cons c cs ih =>
    rw [List.cons_append, splitAux_skip ((isSpace_iff c).2 (h c (by simp))),
      ih fun x hx => h x (by simp [hx])]

theorem words_split {line : List Char} {ws : List (List Char)} (h : Words line ws) :
    splitWs line = ws := by
  unfold splitWs
  induction h with
  | nil gap h =>
    have := splitAux_gap gap [] h
    rw [List.append_nil] at this
    rw [this]; rfl
  | cons gap w rest ws h hne hw hr ht ih =>
    rw [List.append_assoc, splitAux_gap gap _ h]
    have hns : NoSpace w := fun c hc => (isSpace_false_iff c).2 (hw c hc)
    rw [splitAux_word hns, List.nil_append]
    cases rest with
    | nil =>
      rw [splitAux_end hne]
      have : ws = [] := by rw [← ih]; rfl
      rw [this]
    | cons c cs =>
      have hc := (isSpace_iff c).2 (hr c rfl)
      rw [splitAux_space hc hne]
      rw [splitAux_skip hc] at ih
      rw [ih]

theorem mem_takeWhile {α : Type} {p : α → Bool} {l : List α} {x : α} (h : x ∈ l.takeWhile p) :
    p x = true := List.all_eq_true.1 List.all_takeWhile x h

theorem words_exists (line : List Char) : ∃ ws, Words line ws := by
  induction hn : line.length using Nat.strong_induction_on generalizing line with
  | _ n ih =>
    by_cases hall : ∀ c ∈ line, Blank c
    · exact ⟨[], .nil line hall⟩
    · classical
      let gap := line.takeWhile fun c => isSpace c
      let r := line.dropWhile fun c => isSpace c
      let w := r.takeWhile fun c => !isSpace c
      let rest := r.dropWhile fun c => !isSpace c
      have h1 : gap ++ r = line := List.takeWhile_append_dropWhile
      have h2 : w ++ rest = r := List.takeWhile_append_dropWhile
      have hg : ∀ c ∈ gap, Blank c := fun c hc => (isSpace_iff c).1 (mem_takeWhile hc)
      have hw : ∀ c ∈ w, ¬ Blank c := fun c hc => (isSpace_false_iff c).1 (by
        simpa using mem_takeWhile hc)
      have hrne : r ≠ [] := by
        intro h0
        rw [h0, List.append_nil] at h1
        exact hall (h1 ▸ hg)
      have hwne : w ≠ [] := by
        intro h0
        obtain ⟨c, cs, hc⟩ := List.exists_cons_of_ne_nil hrne
        have hns : isSpace c = false := by
          have := List.head_dropWhile_not (fun c => isSpace c) (l := line) hrne
          simpa [show List.dropWhile (fun c => isSpace c) line = c :: cs from hc] using this
        have : w = c :: cs.takeWhile fun c => !isSpace c := by
          change r.takeWhile _ = _
          rw [hc, List.takeWhile_cons, hns]; rfl
        rw [this] at h0
        cases h0
      have hr : ∀ c, rest.head? = some c → Blank c := by
        intro c hc
        have hne : rest ≠ [] := by rintro h0; rw [h0] at hc; simp at hc
        have := List.head_dropWhile_not (fun c => !isSpace c) (l := r) hne
        have hh : rest.head hne = c := by
          rw [List.head?_eq_some_head hne] at hc; exact Option.some.inj hc
        rw [← isSpace_iff, ← hh]
        simpa using this
      have hlen : rest.length < n := by
        rw [← hn, ← h1, ← h2, List.length_append, List.length_append]
        have := List.length_pos_iff.2 hwne
        omega
      obtain ⟨ws, hws⟩ := ih rest.length hlen rest rfl
      refine ⟨w :: ws, ?_⟩
      have := Words.cons gap w rest ws hg hwne hw hr hws
      rwa [List.append_assoc, h2, h1] at this

theorem splitWs_iff (line : List Char) (ws : List (List Char)) : splitWs line = ws ↔ Words line ws := by
  refine ⟨?_, words_split⟩
  rintro rfl
  obtain ⟨ws, h⟩ := words_exists line
  rwa [words_split h]

/-- A newline at the end does not change the words. -/
theorem splitAux_newline (cur line : List Char) : splitAux cur (line ++ ['\n']) = splitAux cur line := by
  induction line generalizing cur with
  | nil =>
    have h : isSpace '\n' = true := by decide
    simp only [List.nil_append, splitAux, h, if_true]
  | cons c cs ih =>
    rw [List.cons_append, splitAux, splitAux, ih, ih]

theorem splitWs_newline (line : List Char) : splitWs (line ++ ['\n']) = splitWs line :=
  splitAux_newline [] line

/-! ## Numbers -/

theorem digit_char {c : Char} {d : ℕ} (h : Digit c d) : c = digitChar d := by
  unfold digitChar
  rw [← h.2, Char.ofNat_toNat]

theorem digit_iff (c : Char) (d : ℕ) : Digit c d ↔ isDigit c = true ∧ digitVal c = d := by
  constructor
  · intro h
    rw [digit_char h]
    exact ⟨isDigit_digitChar h.1, digitVal_digitChar h.1⟩
  · rintro ⟨h, rfl⟩
    unfold isDigit at h
    unfold Digit digitVal
    rw [Bool.and_eq_true, decide_eq_true_eq, decide_eq_true_eq] at h
    have h1 : ('0' : Char).toNat ≤ c.toNat := h.1
    have h2 : c.toNat ≤ ('9' : Char).toNat := h.2
    have e1 : ('0' : Char).toNat = 48 := rfl
    have e2 : ('9' : Char).toNat = 57 := rfl
    omega

/-- What may follow digits. -/
def Stop (r : List Char) : Prop := ∀ c, r.head? = some c → isDigit c = false ∧ c ≠ '_'

theorem digitTail_stop {r : List Char} (h : Stop r) : digitTail r = ([], r) := by
  match r with
  | [] => rfl
  | [c] => obtain ⟨h1, h2⟩ := h c rfl; simp [digitTail, h1]
  | c :: c' :: cs => obtain ⟨h1, h2⟩ := h c rfl; simp [digitTail, h1, h2]

theorem digits_digitTail {cs : List Char} {ds : List ℕ} (h : Digits cs ds) {r : List Char}
    (hr : Stop r) : digitTail (cs ++ r) = (ds, r) ∧ digitTail ('_' :: cs ++ r) = (ds, r) := by
  induction h with
  | one c d h =>
    obtain ⟨h1, rfl⟩ := (digit_iff c d).1 h
    constructor
    · rw [List.singleton_append, digitTail_digit h1, digitTail_stop hr]
    · rw [List.cons_append, List.singleton_append, digitTail, if_neg (by decide),
        if_pos ⟨rfl, h1⟩, digitTail_stop hr]
  | more c d cs ds h ht ih =>
    obtain ⟨h1, rfl⟩ := (digit_iff c d).1 h
    constructor
    · rw [List.cons_append, digitTail_digit h1, ih.1]
    · rw [List.cons_append, List.cons_append, digitTail, if_neg (by decide),
        if_pos ⟨rfl, h1⟩, ih.1]
  | under c d cs ds h ht ih =>
    obtain ⟨h1, rfl⟩ := (digit_iff c d).1 h
    constructor
    · rw [List.cons_append, digitTail_digit h1, ih.2]
    · rw [List.cons_append, List.cons_append, digitTail, if_neg (by decide),
        if_pos ⟨rfl, h1⟩, ih.2]

theorem digits_digitPart {cs : List Char} {ds : List ℕ} (h : Digits cs ds) {r : List Char}
    (hr : Stop r) : digitPart (cs ++ r) = (ds, r) := by
  have key : ∀ c l, isDigit c = true → digitPart (c :: l) = digitTail (c :: l) := by
    intro c l hc
    rw [digitPart, if_pos hc, digitTail_digit hc]
  have := (digits_digitTail h hr).1
  cases h with
  | one c d h => rw [← this]; exact key _ _ ((digit_iff c d).1 h).1
  | more c d cs ds h ht => rw [← this]; exact key _ _ ((digit_iff c d).1 h).1
  | under c d cs ds h ht => rw [← this]; exact key _ _ ((digit_iff c d).1 h).1

theorem optDigits_digitPart {cs : List Char} {ds : List ℕ} (h : OptDigits cs ds) {r : List Char}
    (hr : Stop r) : digitPart (cs ++ r) = (ds, r) := by
  rcases h with ⟨rfl, rfl⟩ | h
  · cases r with
    | nil => rfl
    | cons c l =>
      rw [List.nil_append, digitPart, if_neg]
      rw [(hr c rfl).1]; simp
  · exact digits_digitPart h hr

theorem digitTail_digits_of (s : List Char) : ∀ c d, Digit c d → ∃ cs,
    c :: s = cs ++ (digitTail s).2 ∧ Digits cs (d :: (digitTail s).1) := by
  induction s using digitTail.induct with
  | case1 => intro c d h; exact ⟨[c], rfl, .one c d h⟩
  | case2 a ha =>
    intro c d h
    simp only [digitTail, ha, if_true]
    exact ⟨[c, a], rfl, .more c d _ _ h (.one a _ ((digit_iff a _).2 ⟨ha, rfl⟩))⟩
  | case3 a ha =>
    intro c d h
    simp only [digitTail, ha]
    exact ⟨[c], rfl, .one c d h⟩
  | case4 a b cs ha ds r hd ih =>
    intro c d h
    rw [digitTail_digit ha]
    obtain ⟨l, hl, hD⟩ := ih a _ ((digit_iff a _).2 ⟨ha, rfl⟩)
    exact ⟨c :: l, by rw [hl]; rfl, .more c d _ _ h hD⟩
  | case5 a b cs ha hb ds r hd ih =>
    intro c d h
    obtain ⟨rfl, hb⟩ := hb
    have e : digitTail ('_' :: b :: cs) = (digitVal b :: (digitTail cs).1, (digitTail cs).2) := by
      rw [digitTail, if_neg (by decide), if_pos ⟨rfl, hb⟩]
    rw [e]
    obtain ⟨l, hl, hD⟩ := ih b _ ((digit_iff b _).2 ⟨hb, rfl⟩)
    exact ⟨c :: '_' :: l, by rw [hl]; rfl, .under c d _ _ h hD⟩
  | case6 a b cs ha hb =>
    intro c d h
    have e : digitTail (a :: b :: cs) = ([], a :: b :: cs) := by
      rw [digitTail, if_neg ha, if_neg hb]
    rw [e]
    exact ⟨[c], rfl, .one c d h⟩

theorem digitPart_of (s : List Char) : ∃ cs, s = cs ++ (digitPart s).2 ∧
    OptDigits cs (digitPart s).1 := by
  cases s with
  | nil => exact ⟨[], rfl, Or.inl ⟨rfl, rfl⟩⟩
  | cons c l =>
    rw [digitPart]
    split
    · rename_i h
      obtain ⟨cs, h1, h2⟩ := digitTail_digits_of l c _ ((digit_iff c _).2 ⟨h, rfl⟩)
      exact ⟨cs, h1, Or.inr h2⟩
    · exact ⟨[], rfl, Or.inl ⟨rfl, rfl⟩⟩

theorem value_eq (ds : List ℕ) : value ds = digitsVal ds := by
  induction ds with
  | nil => rfl
  | cons d ds ih =>
    have := digitsVal_append [d] ds
    rw [List.singleton_append] at this
    rw [this, value, ih]
    simp [digitsVal]

theorem optDigits_ne {cs : List Char} {ds : List ℕ} (h : OptDigits cs ds) (hne : ds ≠ []) :
    Digits cs ds := by
  rcases h with ⟨-, h⟩ | h
  · exact absurd h hne
  · exact h

theorem digits_ne {cs : List Char} {ds : List ℕ} (h : Digits cs ds) : ds ≠ [] := by
  cases h <;> simp

theorem digits_head {cs : List Char} {ds : List ℕ} (h : Digits cs ds) :
    ∃ c l d, Digit c d ∧ cs = c :: l := by
  cases h with
  | one c d h => exact ⟨c, _, d, h, rfl⟩
  | more c d cs ds h ht => exact ⟨c, _, d, h, rfl⟩
  | under c d cs ds h ht => exact ⟨c, _, d, h, rfl⟩

/-- Sign of a number. -/
def signOf (neg : Bool) : ℤ := if neg then -1 else 1

theorem signPart_of (s : List Char) : ∃ sg, s = sg ++ (signPart s).2 ∧
    Sign sg (signOf (signPart s).1) := by
  unfold signPart
  split
  · exact ⟨['+'], rfl, Or.inr (Or.inl ⟨rfl, rfl⟩)⟩
  · exact ⟨['-'], rfl, Or.inr (Or.inr ⟨rfl, rfl⟩)⟩
  · exact ⟨[], rfl, Or.inl ⟨rfl, rfl⟩⟩

theorem signPart_sign {sg v : List Char} {s : ℤ} (h : Sign sg s)
    (hv : ∀ c, v.head? = some c → c ≠ '+' ∧ c ≠ '-') :
    ∃ neg, signPart (sg ++ v) = (neg, v) ∧ s = signOf neg := by
  rcases h with ⟨rfl, rfl⟩ | ⟨rfl, rfl⟩ | ⟨rfl, rfl⟩
  · refine ⟨false, ?_, rfl⟩
    rw [List.nil_append]
    unfold signPart
    split
    · exact absurd rfl (hv '+' rfl).1
    · exact absurd rfl (hv '-' rfl).2
    · rfl
  · exact ⟨false, rfl, rfl⟩
  · exact ⟨true, rfl, rfl⟩

theorem digit_sign {c : Char} {d : ℕ} (h : Digit c d) : c ≠ '+' ∧ c ≠ '-' ∧ c ≠ '.' := by
  rw [digit_char h]
  have := h.1
  interval_cases d <;> decide

theorem digits_noSign {cs r : List Char} {ds : List ℕ} (h : Digits cs ds) :
    ∀ c, (cs ++ r).head? = some c → c ≠ '+' ∧ c ≠ '-' := by
  obtain ⟨c, l, d, hd, rfl⟩ := digits_head h
  intro c' hc
  obtain rfl : c = c' := by simpa using hc
  exact ⟨(digit_sign hd).1, (digit_sign hd).2.1⟩

/-- Integers without surrounding blanks. -/
def bareInt (s : List Char) : Option ℤ :=
  match digitPart (signPart s).2 with
  | (d :: ds, []) => some (if (signPart s).1 then -(digitsVal (d :: ds) : ℤ) else digitsVal (d :: ds))
  | _ => none

theorem signOf_mul (neg : Bool) (n : ℕ) : (if neg then -(n : ℤ) else n) = signOf neg * n := by
  cases neg <;> simp [signOf]

theorem bareInt_iff (s : List Char) (n : ℤ) : bareInt s = some n ↔ IntLiteral s n := by
  constructor
  · intro h
    unfold bareInt at h
    obtain ⟨sg, h1, h2⟩ := signPart_of s
    obtain ⟨cs, h3, h4⟩ := digitPart_of (signPart s).2
    split at h
    · rename_i d ds he
      rw [he, List.append_nil] at h3
      rw [he] at h4
      refine ⟨sg, _, cs, d :: ds, by rw [← h3]; exact h1, h2, optDigits_ne h4 (by simp), ?_⟩
      rw [value_eq, ← signOf_mul]
      exact (Option.some.inj h).symm
    · cases h
  · rintro ⟨sg, s', cs, ds, rfl, hs, hd, rfl⟩
    have hns := digits_noSign (r := []) hd
    rw [List.append_nil] at hns
    obtain ⟨neg, hneg, rfl⟩ := signPart_sign hs hns
    unfold bareInt
    have := digits_digitPart hd (r := []) (fun c hc => by simp at hc)
    rw [List.append_nil] at this
    rw [hneg]
    dsimp only
    rw [this]
    obtain ⟨d, ds, rfl⟩ := List.exists_cons_of_ne_nil (digits_ne hd)
    dsimp only
    rw [signOf_mul, value_eq]

theorem expPart_iff (s : List Char) (e : ℤ) : expPart s = some e ↔ Exponent s e := by
  unfold Exponent
  cases s with
  | nil =>
    rw [expPart]
    constructor
    · intro h; exact Or.inl ⟨rfl, (Option.some.inj h).symm⟩
    · rintro (⟨-, rfl⟩ | ⟨c, v, -, h, -⟩)
      · rfl
      · cases h
  | cons c cs =>
    have heq : expPart (c :: cs) = if c = 'e' ∨ c = 'E' then bareInt cs else none := by
      rw [expPart]
      rfl
    rw [heq]
    split
    · rename_i hc
      rw [bareInt_iff]
      constructor
      · intro h; exact Or.inr ⟨c, cs, hc, rfl, h⟩
      · rintro (⟨h, -⟩ | ⟨c', v, -, h, hv⟩)
        · cases h
        · rw [(List.cons.inj h).2]; exact hv
    · rename_i hc
      constructor
      · intro h; cases h
      · rintro (⟨h, -⟩ | ⟨c', v, hc', h, hv⟩)
        · cases h
        · rw [(List.cons.inj h).1] at hc; exact absurd hc' hc

/-- Decimal literal without sign. -/
def Unsigned (w : List Char) (q : ℚ) : Prop :=
  ∃ ip ids fr fds ex e, w = ip ++ fr ++ ex ∧ OptDigits ip ids ∧
    ((fr = [] ∧ fds = []) ∨ ∃ fp, fr = '.' :: fp ∧ OptDigits fp fds) ∧
    (ids ≠ [] ∨ fds ≠ []) ∧ Exponent ex e ∧
    q = (value ids + (value fds : ℚ) / 10 ^ fds.length) * (10 : ℚ) ^ e

theorem exponent_stop {ex : List Char} {e : ℤ} (h : Exponent ex e) :
    Stop ex ∧ ∀ c, ex.head? = some c → c ≠ '.' := by
  rcases h with ⟨rfl, -⟩ | ⟨c, v, hc, rfl, -⟩
  · exact ⟨fun c hc => by simp at hc, fun c hc => by simp at hc⟩
  · constructor
    · intro c' hc'
      obtain rfl : c = c' := by simpa using hc'
      rcases hc with rfl | rfl <;> decide
    · intro c' hc'
      obtain rfl : c = c' := by simpa using hc'
      rcases hc with rfl | rfl <;> decide

theorem frac_value (ids fds : List ℕ) (e : ℤ) :
    (digitsVal (ids ++ fds) : ℚ) / 10 ^ fds.length * (10 : ℚ) ^ e
      = (value ids + (value fds : ℚ) / 10 ^ fds.length) * (10 : ℚ) ^ e := by
  rw [digitsVal_append, value_eq, value_eq]
  push_cast
  congr 1
  rw [add_div, mul_div_assoc, div_self (by positivity), mul_one]

theorem unsignedFloat_iff (s : List Char) (q : ℚ) : unsignedFloat s = some q ↔ Unsigned s q := by
  constructor
  · intro h
    unfold unsignedFloat at h
    dsimp only at h
    obtain ⟨ip, h1, h2⟩ := digitPart_of s
    have hf : ∃ fr, (digitPart s).2 = fr ++ (fracPart (digitPart s).2).2 ∧
        ((fr = [] ∧ (fracPart (digitPart s).2).1 = []) ∨ ∃ fp, fr = '.' :: fp ∧
          OptDigits fp (fracPart (digitPart s).2).1) := by
      generalize (digitPart s).2 = r
      unfold fracPart
      split
      · rename_i cs
        obtain ⟨fp, h3, h4⟩ := digitPart_of cs
        exact ⟨'.' :: fp, by rw [List.cons_append, ← h3], Or.inr ⟨fp, rfl, h4⟩⟩
      · exact ⟨[], rfl, Or.inl ⟨rfl, rfl⟩⟩
    obtain ⟨fr, h3, h4⟩ := hf
    split at h
    · cases h
    · rename_i hne
      obtain ⟨e, he, hq⟩ := Option.map_eq_some_iff.1 h
      refine ⟨ip, _, fr, _, _, e, ?_, h2, h4, ?_, (expPart_iff _ _).1 he, ?_⟩
      · rw [List.append_assoc, ← h3]; exact h1
      · by_contra hh
        push Not at hh
        exact hne hh
      · rw [← hq, frac_value]
  · rintro ⟨ip, ids, fr, fds, ex, e, rfl, h1, h2, h3, h4, rfl⟩
    obtain ⟨hs1, hs2⟩ := exponent_stop h4
    unfold unsignedFloat
    have hstop : Stop (fr ++ ex) := by
      rcases h2 with ⟨rfl, -⟩ | ⟨fp, rfl, -⟩
      · exact hs1
      · intro c hc
        obtain rfl : '.' = c := by simpa using hc
        decide
    rw [List.append_assoc, optDigits_digitPart h1 hstop]
    have hfrac : fracPart (fr ++ ex) = (fds, ex) := by
      rcases h2 with ⟨rfl, rfl⟩ | ⟨fp, rfl, h2⟩
      · rw [List.nil_append]
        unfold fracPart
        split
        · exact absurd rfl (hs2 '.' rfl)
        · rfl
      · exact optDigits_digitPart h2 hs1
    dsimp only
    rw [hfrac]
    dsimp only
    rw [if_neg (by rintro ⟨rfl, rfl⟩; simp at h3), (expPart_iff _ _).2 h4, Option.map_some,
      frac_value]

theorem noSpace_digit {c : Char} {d : ℕ} (h : Digit c d) : isSpace c = false := by
  rw [digit_char h]; exact isSpace_digitChar h.1

theorem noSpace_of_digits {cs : List Char} {ds : List ℕ} (h : Digits cs ds) : NoSpace cs := by
  induction h with
  | one c d h => intro x hx; rw [List.mem_singleton.1 hx]; exact noSpace_digit h
  | more c d cs ds h ht ih =>
    intro x hx
    rcases List.mem_cons.1 hx with rfl | hx
    · exact noSpace_digit h
    · exact ih x hx
  | under c d cs ds h ht ih =>
    intro x hx
    rcases List.mem_cons.1 hx with rfl | hx
    · exact noSpace_digit h
    · rcases List.mem_cons.1 hx with rfl | hx
      · decide
      · exact ih x hx

theorem noSpace_optDigits {cs : List Char} {ds : List ℕ} (h : OptDigits cs ds) : NoSpace cs := by
  rcases h with ⟨rfl, -⟩ | h
  · intro c hc; simp at hc
  · exact noSpace_of_digits h

theorem noSpace_sign {cs : List Char} {s : ℤ} (h : Sign cs s) : NoSpace cs := by
  rcases h with ⟨rfl, -⟩ | ⟨rfl, -⟩ | ⟨rfl, -⟩ <;> intro c hc
  · simp at hc
  · rw [List.mem_singleton.1 hc]; decide
  · rw [List.mem_singleton.1 hc]; decide

theorem noSpace_int {cs : List Char} {n : ℤ} (h : IntLiteral cs n) : NoSpace cs := by
  obtain ⟨sg, s, c, ds, rfl, h1, h2, -⟩ := h
  exact (noSpace_sign h1).append (noSpace_of_digits h2)

theorem noSpace_decimal {w : List Char} {q : ℚ} (h : Decimal w q) : NoSpace w := by
  obtain ⟨sg, s, ip, ids, fr, fds, ex, e, rfl, h1, h2, h3, -, h4, -⟩ := h
  refine (((noSpace_sign h1).append (noSpace_optDigits h2)).append ?_).append ?_
  · rcases h3 with ⟨rfl, -⟩ | ⟨fp, rfl, h3⟩
    · intro c hc; simp at hc
    · intro c hc
      rcases List.mem_cons.1 hc with rfl | hc
      · decide
      · exact noSpace_optDigits h3 c hc
  · rcases h4 with ⟨rfl, -⟩ | ⟨c, v, hc, rfl, hv⟩
    · intro c hc; simp at hc
    · intro x hx
      rcases List.mem_cons.1 hx with rfl | hx
      · rcases hc with rfl | rfl <;> decide
      · exact noSpace_int hv x hx

theorem noSpace_of_lower {c : Char} (h : isSpace c.toLower = false) : isSpace c = false := by
  by_contra hc
  rw [Bool.not_eq_false] at hc
  have hb := (isSpace_iff c).1 hc
  have : c.toLower = c := by
    unfold Char.toLower
    split
    · rename_i hr
      exfalso
      unfold Blank blankCodes at hb
      have h1 : 65 ≤ c.val.toNat := hr.1
      have h2 : c.val.toNat ≤ 90 := hr.2
      change c.val.toNat ∈ _ at hb
      simp only [List.mem_cons, List.not_mem_nil, or_false] at hb
      omega
    · rfl
  rw [this, hc] at h
  cases h

theorem nonFinite_iff (v : List Char) : nonFinite v = true ↔ (v.map Char.toLower = ['n', 'a', 'n'] ∨
    v.map Char.toLower = ['i', 'n', 'f'] ∨
    v.map Char.toLower = ['i', 'n', 'f', 'i', 'n', 'i', 't', 'y']) := by
  unfold nonFinite
  simp only [Bool.or_eq_true, decide_eq_true_eq]
  tauto

theorem noSpace_lower {v : List Char} (h : NoSpace (v.map Char.toLower)) : NoSpace v := by
  intro c hc
  exact noSpace_of_lower (h _ (List.mem_map.2 ⟨c, hc, rfl⟩))

theorem noSpace_nonFinite {w : List Char} (h : NonFinite w) : NoSpace w := by
  obtain ⟨sg, s, v, rfl, h1, h2⟩ := h
  refine (noSpace_sign h1).append (noSpace_lower ?_)
  rcases h2 with h2 | h2 | h2 <;> rw [h2] <;> (unfold NoSpace; decide)

theorem noSpace_number {w : List Char} {x : Option ℚ} (h : NumberWord w x) : NoSpace w := by
  rcases h with ⟨q, -, h⟩ | ⟨-, h⟩
  · exact noSpace_decimal h
  · exact noSpace_nonFinite h

theorem strip_of (s : List Char) : ∃ g g', s = g ++ strip s ++ g' ∧ (∀ c ∈ g, Blank c) ∧
    (∀ c ∈ g', Blank c) := by
  refine ⟨s.takeWhile isSpace, ((s.dropWhile isSpace).reverse.takeWhile isSpace).reverse, ?_, ?_, ?_⟩
  · unfold strip
    rw [List.append_assoc, ← List.reverse_append, List.takeWhile_append_dropWhile,
      List.reverse_reverse, List.takeWhile_append_dropWhile]
  · intro c hc; exact (isSpace_iff c).1 (mem_takeWhile hc)
  · intro c hc; exact (isSpace_iff c).1 (mem_takeWhile (List.mem_reverse.1 hc))

theorem dropWhile_gap {g r : List Char} (h : ∀ c ∈ g, Blank c) :
    (g ++ r).dropWhile isSpace = r.dropWhile isSpace := by
  induction g with
  | nil => rfl
  | cons c cs ih =>
    rw [List.cons_append, List.dropWhile_cons, if_pos ((isSpace_iff c).2 (h c (by simp))),
      ih fun x hx => h x (by simp [hx])]

theorem strip_gaps {g w g' : List Char} (h : ∀ c ∈ g, Blank c) (h' : ∀ c ∈ g', Blank c)
    (hw : NoSpace w) : strip (g ++ w ++ g') = w := by
  unfold strip
  rw [List.append_assoc, dropWhile_gap h]
  cases w with
  | nil =>
    rw [List.nil_append]
    have := dropWhile_gap (r := []) h'
    rw [List.append_nil] at this
    rw [this]; rfl
  | cons c cs =>
    have hc : isSpace c = false := hw c (by simp)
    rw [List.cons_append, List.dropWhile_cons, if_neg (by rw [hc]; simp), ← List.cons_append,
      List.reverse_append, dropWhile_gap (fun x hx => h' x (List.mem_reverse.1 hx)),
      dropWhile_noSpace (fun x hx => hw x (List.mem_reverse.1 hx)), List.reverse_reverse]

theorem parseInt_iff (s : List Char) (n : ℤ) : parseInt s = some n ↔
    ∃ g w g', s = g ++ w ++ g' ∧ (∀ c ∈ g, Blank c) ∧ (∀ c ∈ g', Blank c) ∧ IntLiteral w n := by
  have h0 : parseInt s = bareInt (strip s) := rfl
  rw [h0, bareInt_iff]
  constructor
  · intro h
    obtain ⟨g, g', h1, h2, h3⟩ := strip_of s
    exact ⟨g, _, g', h1, h2, h3, h⟩
  · rintro ⟨g, w, g', rfl, h1, h2, h3⟩
    rwa [strip_gaps h1 h2 (noSpace_int h3)]

theorem unsigned_head {w : List Char} {q : ℚ} (h : Unsigned w q) :
    ∃ c l, w = c :: l ∧ (c = '.' ∨ ∃ d, Digit c d) := by
  obtain ⟨ip, ids, fr, fds, ex, e, rfl, h1, h2, h3, -, -⟩ := h
  rcases h1 with ⟨rfl, rfl⟩ | h1
  · rcases h2 with ⟨rfl, rfl⟩ | ⟨fp, rfl, -⟩
    · simp at h3
    · exact ⟨'.', fp ++ ex, by simp, Or.inl rfl⟩
  · obtain ⟨c, l, d, hd, rfl⟩ := digits_head h1
    exact ⟨c, l ++ (fr ++ ex), by simp, Or.inr ⟨d, hd⟩⟩

theorem number_iff (w : List Char) (x : Option ℚ) :
    (if nonFinite (signPart w).2 then some none
      else (unsignedFloat (signPart w).2).map fun q => some (if (signPart w).1 then -q else q))
      = some x ↔ NumberWord w x := by
  constructor
  · intro h
    obtain ⟨sg, h1, h2⟩ := signPart_of w
    split at h
    · rename_i hn
      refine Or.inr ⟨(Option.some.inj h).symm, sg, _, _, h1, h2, (nonFinite_iff _).1 hn⟩
    · obtain ⟨q, hq, hx⟩ := Option.map_eq_some_iff.1 h
      obtain ⟨ip, ids, fr, fds, ex, e, h3, h4, h5, h6, h7, h8⟩ := (unsignedFloat_iff _ _).1 hq
      refine Or.inl ⟨_, hx.symm, sg, _, ip, ids, fr, fds, ex, e, ?_, h2, h4, h5, h6, h7, ?_⟩
      · rw [h3] at h1
        simpa [List.append_assoc] using h1
      · rw [h8]
        cases (signPart w).1
        · simp [signOf]
        · simp only [signOf, if_true]; push_cast; ring
  · rintro (⟨q, rfl, sg, s, ip, ids, fr, fds, ex, e, rfl, h1, h2, h3, h4, h5, rfl⟩ |
      ⟨rfl, sg, s, v, rfl, h1, h2⟩)
    · have hu : Unsigned (ip ++ fr ++ ex) _ := ⟨ip, ids, fr, fds, ex, e, rfl, h2, h3, h4, h5, rfl⟩
      obtain ⟨c, l, hcl, hc⟩ := unsigned_head hu
      have hc' : c ≠ '+' ∧ c ≠ '-' ∧ c.toLower ≠ 'i' ∧ c.toLower ≠ 'n' := by
        rcases hc with rfl | ⟨d, hd⟩
        · decide
        · rw [digit_char hd]
          have := hd.1
          interval_cases d <;> decide
      have happ : sg ++ ip ++ fr ++ ex = sg ++ (ip ++ fr ++ ex) := by simp
      obtain ⟨neg, hneg, rfl⟩ := signPart_sign (v := ip ++ fr ++ ex) h1 (by
        intro c' h
        rw [hcl] at h
        obtain rfl : c = c' := by simpa using h
        exact ⟨hc'.1, hc'.2.1⟩)
      rw [happ, hneg]
      dsimp only
      have hnf : nonFinite (ip ++ fr ++ ex) = false := by
        rw [hcl]
        unfold nonFinite
        simp [hc'.2.2.1, hc'.2.2.2]
      rw [hnf, (unsignedFloat_iff _ _).2 hu]
      cases neg
      · simp [signOf]
      · simp only [signOf, if_true, Bool.false_eq_true, if_false, Option.map_some]
        congr 2; push_cast; ring
    · have hv : ∀ c, v.head? = some c → c ≠ '+' ∧ c ≠ '-' := by
        intro c hc
        obtain ⟨l, rfl⟩ : ∃ l, v = c :: l := by
          cases v with
          | nil => simp at hc
          | cons a l => exact ⟨l, by simpa using hc⟩
        have hh : c.toLower = 'n' ∨ c.toLower = 'i' := by
          rcases h2 with h2 | h2 | h2 <;> rw [List.map_cons] at h2
          · exact Or.inl (List.cons.inj h2).1
          · exact Or.inr (List.cons.inj h2).1
          · exact Or.inr (List.cons.inj h2).1
        constructor <;> rintro rfl <;> revert hh <;> decide
      obtain ⟨neg, hneg, rfl⟩ := signPart_sign h1 hv
      rw [hneg]
      dsimp only
      rw [(nonFinite_iff _).2 h2]
      rfl

theorem parseFloat_iff (s : List Char) (x : Option ℚ) : parseFloat s = some x ↔ NumberLine s x := by
  have h0 : parseFloat s = (if nonFinite (signPart (strip s)).2 then some none
      else (unsignedFloat (signPart (strip s)).2).map fun q =>
        some (if (signPart (strip s)).1 then -q else q)) := rfl
  rw [h0, number_iff]
  constructor
  · intro h
    obtain ⟨g, g', h1, h2, h3⟩ := strip_of s
    exact ⟨g, _, g', h1, h2, h3, h⟩
  · rintro ⟨g, w, g', rfl, h1, h2, h3⟩
    rwa [strip_gaps h1 h2 (noSpace_number h3)]

/-- For words there are no surrounding blanks. -/
theorem numberLine_word {w : List Char} (hw : NoSpace w) (x : Option ℚ) :
    NumberLine w x ↔ NumberWord w x := by
  rw [← parseFloat_iff]
  have h0 : parseFloat w = (if nonFinite (signPart (strip w)).2 then some none
      else (unsignedFloat (signPart (strip w)).2).map fun q =>
        some (if (signPart (strip w)).1 then -q else q)) := rfl
  rw [h0, number_iff, strip_noSpace hw]

theorem parseInt_word {w : List Char} (hw : NoSpace w) (n : ℤ) :
    parseInt w = some n ↔ IntLiteral w n := by
  have h0 : parseInt w = bareInt (strip w) := rfl
  rw [h0, bareInt_iff, strip_noSpace hw]

theorem words_noSpace {line : List Char} {ws : List (List Char)} (h : Words line ws) :
    ∀ w ∈ ws, NoSpace w := by
  induction h with
  | nil gap h => intro w hw; simp at hw
  | cons gap w rest ws h hne hw hr ht ih =>
    intro v hv
    rcases List.mem_cons.1 hv with rfl | hv
    · exact fun c hc => (isSpace_false_iff c).2 (hw c hc)
    · exact ih v hv

end Verif
