import Verif.Model.Text
import Mathlib.Data.Nat.Digits.Lemmas
import Mathlib.Data.List.Basic
import Mathlib.Algebra.Order.Round

/-!
# Helper lemmas about the text primitives
-/

namespace Verif

/-! ## Digits -/

theorem isDigit_digitChar {d : ℕ} (h : d < 10) : isDigit (digitChar d) = true := by
  interval_cases d <;> decide

theorem digitVal_digitChar {d : ℕ} (h : d < 10) : digitVal (digitChar d) = d := by
  interval_cases d <;> decide

theorem isSpace_digitChar {d : ℕ} (h : d < 10) : isSpace (digitChar d) = false := by
  interval_cases d <;> decide

theorem digitChar_ne_newline {d : ℕ} (h : d < 10) : digitChar d ≠ '\n' := by
  interval_cases d <;> decide

theorem digitTail_digit {c : Char} (h : isDigit c = true) (cs : List Char) :
    digitTail (c :: cs) = (digitVal c :: (digitTail cs).1, (digitTail cs).2) := by
  cases cs with
  | nil => simp [digitTail, h]
  | cons c' cs => rw [digitTail]; simp [h]

theorem digitTail_digits (ds : List ℕ) (h : ∀ d ∈ ds, d < 10) {rest : List Char}
    (hr : digitTail rest = ([], rest)) :
    digitTail (ds.map digitChar ++ rest) = (ds, rest) := by
  induction ds with
  | nil => simpa using hr
  | cons d ds ih =>
    have hd := h d (by simp)
    rw [List.map_cons, List.cons_append, digitTail_digit (isDigit_digitChar hd),
      ih fun x hx => h x (by simp [hx]), digitVal_digitChar hd]

theorem digitPart_digits (ds : List ℕ) (h : ∀ d ∈ ds, d < 10) (hne : ds ≠ []) {rest : List Char}
    (hr : digitTail rest = ([], rest)) :
    digitPart (ds.map digitChar ++ rest) = (ds, rest) := by
  cases ds with
  | nil => exact absurd rfl hne
  | cons d ds =>
    have hd := h d (by simp)
    rw [List.map_cons, List.cons_append, digitPart, if_pos (isDigit_digitChar hd),
      digitTail_digits ds (fun x hx => h x (by simp [hx])) hr, digitVal_digitChar hd]

/-- Digits of a number, most significant first. -/
def natDigs (n : ℕ) : List ℕ := if n = 0 then [0] else (Nat.digits 10 n).reverse

theorem natStr_eq (n : ℕ) : natStr n = (natDigs n).map digitChar := by
  unfold natStr natDigs
  split
  · rfl
  · rfl

theorem natDigs_lt (n : ℕ) : ∀ d ∈ natDigs n, d < 10 := by
  intro d hd
  unfold natDigs at hd
  split at hd
  · simp at hd; omega
  · exact Nat.digits_lt_base (by norm_num) (List.mem_reverse.1 hd)

theorem natDigs_ne_nil (n : ℕ) : natDigs n ≠ [] := by
  unfold natDigs
  split
  · simp
  · rename_i h
    simp [Nat.digits_ne_nil_iff_ne_zero, h]

theorem digitsVal_append (a b : List ℕ) :
    digitsVal (a ++ b) = digitsVal a * 10 ^ b.length + digitsVal b := by
  unfold digitsVal
  rw [List.foldl_append]
  generalize List.foldl (fun n d => 10 * n + d) 0 a = s
  induction b using List.reverseRecOn generalizing s with
  | nil => simp
  | append_singleton b x ih =>
    rw [List.foldl_append, List.foldl_append, ih]
    simp only [List.foldl_cons, List.foldl_nil, List.length_append, List.length_singleton]
    ring

theorem digitsVal_natDigs (n : ℕ) : digitsVal (natDigs n) = n := by
  unfold natDigs
  split
  · rename_i h; simp [digitsVal, h]
  · unfold digitsVal
    rw [List.foldl_reverse]
    have := Nat.ofDigits_digits 10 n
    rw [Nat.ofDigits_eq_foldr] at this
    conv_rhs => rw [← this]
    simp [add_comm]

/-- The last `k` digits. -/
def fixedDigs : ℕ → ℕ → List ℕ
  | 0, _ => []
  | k + 1, n => fixedDigs k (n / 10) ++ [n % 10]

theorem fixedDigits_eq (k n : ℕ) : fixedDigits k n = (fixedDigs k n).map digitChar := by
  induction k generalizing n with
  | zero => rfl
  | succ k ih => simp [fixedDigits, fixedDigs, ih]

theorem fixedDigs_lt (k n : ℕ) : ∀ d ∈ fixedDigs k n, d < 10 := by
  induction k generalizing n with
  | zero => simp [fixedDigs]
  | succ k ih =>
    intro d hd
    rw [fixedDigs, List.mem_append] at hd
    rcases hd with hd | hd
    · exact ih _ d hd
    · simp at hd; omega

theorem fixedDigs_length (k n : ℕ) : (fixedDigs k n).length = k := by
  induction k generalizing n with
  | zero => rfl
  | succ k ih => simp [fixedDigs, ih]

theorem digitsVal_fixedDigs (k n : ℕ) : digitsVal (fixedDigs k n) = n % 10 ^ k := by
  induction k generalizing n with
  | zero => simp [fixedDigs, digitsVal, Nat.mod_one]
  | succ k ih =>
    rw [fixedDigs, digitsVal_append, ih]
    simp only [digitsVal, List.foldl_cons, List.foldl_nil, List.length_singleton, pow_one]
    rw [pow_succ', Nat.mod_mul]
    ring

/-! ## Words without white space -/

/-- No white space inside. -/
def NoSpace (w : List Char) : Prop := ∀ c ∈ w, isSpace c = false

theorem NoSpace.append {a b : List Char} (ha : NoSpace a) (hb : NoSpace b) :
    NoSpace (a ++ b) := by
  intro c hc
  rcases List.mem_append.1 hc with h | h
  · exact ha c h
  · exact hb c h

theorem noSpace_digits {ds : List ℕ} (h : ∀ d ∈ ds, d < 10) : NoSpace (ds.map digitChar) := by
  intro c hc
  obtain ⟨d, hd, rfl⟩ := List.mem_map.1 hc
  exact isSpace_digitChar (h d hd)

theorem dropWhile_noSpace {w : List Char} (h : NoSpace w) : w.dropWhile isSpace = w := by
  cases w with
  | nil => rfl
  | cons c cs => rw [List.dropWhile_cons, if_neg]; simp [h c (by simp)]

theorem strip_noSpace {w : List Char} (h : NoSpace w) : strip w = w := by
  unfold strip
  rw [dropWhile_noSpace h, dropWhile_noSpace, List.reverse_reverse]
  intro c hc
  exact h c (List.mem_reverse.1 hc)

theorem noSpace_newline {w : List Char} (h : NoSpace w) : '\n' ∉ w := by
  intro hn
  have := h _ hn
  revert this; decide

theorem splitAux_word {w : List Char} (h : NoSpace w) (cur rest : List Char) :
    splitAux cur (w ++ rest) = splitAux (cur ++ w) rest := by
  induction w generalizing cur with
  | nil => simp
  | cons c cs ih =>
    rw [List.cons_append, splitAux, if_neg (by simp [h c (by simp)]),
      ih (fun x hx => h x (by simp [hx]))]
    simp

theorem splitAux_space {c : Char} (hc : isSpace c = true) {cur : List Char} (hne : cur ≠ [])
    (rest : List Char) : splitAux cur (c :: rest) = cur :: splitAux [] rest := by
  rw [splitAux, if_pos hc, if_neg hne]

theorem splitAux_skip {c : Char} (hc : isSpace c = true) (rest : List Char) :
    splitAux [] (c :: rest) = splitAux [] rest := by
  rw [splitAux, if_pos hc, if_pos rfl]

theorem splitAux_blanks (n : ℕ) (rest : List Char) :
    splitAux [] (List.replicate n ' ' ++ rest) = splitAux [] rest := by
  induction n with
  | zero => rfl
  | succ n ih => rw [List.replicate_succ, List.cons_append, splitAux_skip (by decide), ih]

theorem splitAux_end {w : List Char} (hne : w ≠ []) : splitAux w [] = [w] := by
  rw [splitAux, if_neg hne]

/-! ## Lines -/

theorem readline_line {l : List Char} (h : '\n' ∉ l) (rest : List Char) :
    readline (l ++ '\n' :: rest) = (l ++ ['\n'], rest) := by
  induction l with
  | nil => simp [readline]
  | cons c cs ih =>
    rw [List.cons_append, readline, if_neg (by rintro rfl; simp at h),
      ih (fun hc => h (by simp [hc]))]
    rfl

theorem readline_last {l : List Char} (h : '\n' ∉ l) : readline l = (l, []) := by
  induction l with
  | nil => rfl
  | cons c cs ih =>
    rw [readline, if_neg (by rintro rfl; simp at h), ih (fun hc => h (by simp [hc]))]

theorem readline_append (f : List Char) : (readline f).1 ++ (readline f).2 = f := by
  induction f with
  | nil => rfl
  | cons c cs ih =>
    rw [readline]
    split
    · rfl
    · simp [ih]

theorem universalNewlines_id {f : List Char} (h : '\r' ∉ f) : universalNewlines f = f := by
  induction f with
  | nil => rfl
  | cons c cs ih =>
    have hc : c ≠ '\r' := by rintro rfl; simp at h
    rw [universalNewlines, ih (fun hx => h (by simp [hx]))]
    · rintro cs' rfl; exact absurd rfl hc
    · rintro rfl; exact absurd rfl hc

/-! ## Rounding -/

section
variable {K : Type} [Field K] [LinearOrder K] [IsStrictOrderedRing K] [FloorRing K]

theorem roundEven_close (x : K) : |x - roundEven x| ≤ 1 / 2 := by
  unfold roundEven
  have h1 := Int.floor_le x
  have h2 := Int.lt_floor_add_one x
  dsimp only
  split_ifs <;> rw [abs_le] <;> push_cast <;> constructor <;> linarith

theorem roundEven_tie {x : K} (h : 2 * |x - roundEven x| = 1) : Even (roundEven x) := by
  have h1 := Int.floor_le x
  have h2 := Int.lt_floor_add_one x
  revert h
  unfold roundEven
  dsimp only
  split_ifs with a b c
  · intro h
    rw [abs_of_nonneg (by linarith)] at h
    linarith
  · intro h
    push_cast at h
    rw [abs_of_nonpos (by linarith)] at h
    linarith
  · intro _
    exact Int.even_iff.2 c
  · intro _
    exact Int.even_iff.2 (by omega)

theorem roundEven_int (m : ℤ) : roundEven (m : K) = m := by
  unfold roundEven
  simp

theorem roundEven_nonneg {x : K} (h : 0 ≤ x) : 0 ≤ roundEven x := by
  have := Int.floor_nonneg.2 h
  unfold roundEven
  dsimp only
  split_ifs <;> omega

/-- The number a formatted number is read as, in units of `1e-16`. -/
def units (x : K) : ℤ := if x < 0 then -roundEven (|x| * 10 ^ 16) else roundEven (|x| * 10 ^ 16)

/-- The number a formatted number is read as. -/
def round16 (x : K) : ℚ := (units x : ℚ) / 10 ^ 16

theorem units_close (x : K) : |x * 10 ^ 16 - units x| ≤ 1 / 2 := by
  have h := roundEven_close (|x| * 10 ^ 16)
  unfold units
  split_ifs with hx
  · rw [abs_of_neg hx] at h ⊢
    push_cast
    rw [← abs_neg]
    convert h using 2
    ring
  · rw [abs_of_nonneg (not_lt.1 hx)] at h ⊢
    exact h

theorem units_tie {x : K} (h : 2 * |x * 10 ^ 16 - units x| = 1) : Even (units x) := by
  unfold units at h ⊢
  split_ifs at h ⊢ with hx
  · rw [even_neg]
    apply roundEven_tie
    rw [← h, abs_of_neg hx]
    push_cast
    rw [← abs_neg]
    congr 2
    ring
  · apply roundEven_tie
    rw [← h, abs_of_nonneg (not_lt.1 hx)]

/-! ## Formatted numbers -/

theorem noSpace_fixed16 (x : K) : NoSpace (fixed16 x) := by
  unfold fixed16
  dsimp only
  rw [natStr_eq, fixedDigits_eq]
  refine NoSpace.append (NoSpace.append ?_ (noSpace_digits (natDigs_lt _))) ?_
  · intro c hc
    split_ifs at hc
    · simp at hc; subst hc; decide
    · simp at hc
  · intro c hc
    rcases List.mem_cons.1 hc with rfl | h
    · decide
    · exact noSpace_digits (fixedDigs_lt _ _) c h

theorem fixed16_ne_nil (x : K) : fixed16 x ≠ [] := by
  unfold fixed16
  simp

theorem signPart_digit {d : ℕ} (h : d < 10) (cs : List Char) :
    signPart (digitChar d :: cs) = (false, digitChar d :: cs) := by
  interval_cases d <;> rfl

theorem nonFinite_digit {d : ℕ} (h : d < 10) (cs : List Char) :
    nonFinite (digitChar d :: cs) = false := by
  have h' : (digitChar d).toLower ≠ 'i' ∧ (digitChar d).toLower ≠ 'n' := by
    interval_cases d <;> decide
  unfold nonFinite
  simp [h'.1, h'.2]

theorem unsignedFloat_fixed (ip fp : List ℕ) (hi : ∀ d ∈ ip, d < 10) (hne : ip ≠ [])
    (hf : ∀ d ∈ fp, d < 10) (hfne : fp ≠ []) :
    unsignedFloat (ip.map digitChar ++ '.' :: fp.map digitChar) =
      some ((digitsVal (ip ++ fp) : ℚ) / 10 ^ fp.length) := by
  unfold unsignedFloat
  have hdot : digitTail ('.' :: fp.map digitChar) = ([], '.' :: fp.map digitChar) := by
    cases fp with
    | nil => rfl
    | cons a l =>
      rw [List.map_cons, digitTail, if_neg (by decide), if_neg (fun h => absurd h.1 (by decide))]
  have h2 : digitPart (fp.map digitChar) = (fp, []) := by
    have := digitPart_digits fp hf hfne (rest := []) rfl
    simpa using this
  rw [digitPart_digits ip hi hne hdot]
  have h3 : fracPart ('.' :: fp.map digitChar) = (fp, []) := h2
  dsimp only
  rw [h3]
  simp [hne, expPart]

theorem parseFloat_fixed16 (x : K) : parseFloat (fixed16 x) = some (some (round16 x)) := by
  unfold parseFloat
  rw [strip_noSpace (noSpace_fixed16 x)]
  have hnn : (0 : ℤ) ≤ roundEven (|x| * 10 ^ 16) := roundEven_nonneg (by positivity)
  unfold fixed16 round16 units
  dsimp only
  rw [natStr_eq, fixedDigits_eq]
  set m := (roundEven (|x| * 10 ^ 16)).toNat with hm
  have hm' : roundEven (|x| * 10 ^ 16) = (m : ℤ) := (Int.toNat_of_nonneg hnn).symm
  have hu := unsignedFloat_fixed (natDigs (m / 10 ^ 16)) (fixedDigs 16 (m % 10 ^ 16))
    (natDigs_lt _) (natDigs_ne_nil _) (fixedDigs_lt _ _)
    (by intro h; have := fixedDigs_length 16 (m % 10 ^ 16); rw [h] at this; simp at this)
  rw [digitsVal_append, digitsVal_natDigs, digitsVal_fixedDigs, fixedDigs_length,
    Nat.mod_mod, mul_comm, Nat.div_add_mod] at hu
  obtain ⟨d, ds, hd⟩ := List.exists_cons_of_ne_nil (natDigs_ne_nil (m / 10 ^ 16))
  have hd10 : d < 10 := natDigs_lt (m / 10 ^ 16) d (by rw [hd]; simp)
  rw [hm', List.append_assoc]
  have key : ∀ s : List Char, s = (natDigs (m / 10 ^ 16)).map digitChar ++
      '.' :: (fixedDigs 16 (m % 10 ^ 16)).map digitChar → nonFinite s = false ∧
      signPart s = (false, s) := by
    rintro s rfl
    rw [hd, List.map_cons, List.cons_append]
    exact ⟨nonFinite_digit hd10 _, signPart_digit hd10 _⟩
  by_cases hx : x < 0
  · rw [if_pos hx, if_pos hx]
    have hs : ∀ l : List Char, signPart (['-'] ++ l) = (true, l) := fun _ => rfl
    rw [hs]
    dsimp only
    rw [(key _ rfl).1, hu]
    simp [neg_div]
  · rw [if_neg hx, if_neg hx, List.nil_append, (key _ rfl).2]
    dsimp only
    rw [(key _ rfl).1, hu]
    simp

/-- The word of a formatted number. -/
def fmtWord : Option K → Word
  | none => ['n', 'a', 'n']
  | some x => fixed16 x

/-- The number a formatted number is read as. -/
def readBack : Option K → Num := Option.map round16

theorem fmt916_eq (x : Option K) : ∃ n, fmt916 x = List.replicate n ' ' ++ fmtWord x := by
  cases x with
  | none => exact ⟨_, rfl⟩
  | some x => exact ⟨_, rfl⟩

theorem noSpace_fmtWord (x : Option K) : NoSpace (fmtWord x) := by
  cases x with
  | none => intro c hc; fin_cases hc <;> decide
  | some x => exact noSpace_fixed16 x

theorem fmtWord_ne_nil (x : Option K) : fmtWord x ≠ [] := by
  cases x with
  | none => simp [fmtWord]
  | some x => exact fixed16_ne_nil x

theorem parseFloat_fmtWord (x : Option K) : parseFloat (fmtWord x) = some (readBack x) := by
  cases x with
  | none => rfl
  | some x => exact parseFloat_fixed16 x

end

/-! ## Integers -/

theorem noSpace_natStr (n : ℕ) : NoSpace (natStr n) := by
  rw [natStr_eq]; exact noSpace_digits (natDigs_lt n)

theorem natStr_ne_nil (n : ℕ) : natStr n ≠ [] := by
  rw [natStr_eq]; simp [natDigs_ne_nil]

theorem parseInt_natStr (n : ℕ) : parseInt (natStr n) = some (n : ℤ) := by
  unfold parseInt
  rw [strip_noSpace (noSpace_natStr n), natStr_eq]
  obtain ⟨d, ds, hd⟩ := List.exists_cons_of_ne_nil (natDigs_ne_nil n)
  have hd10 : d < 10 := natDigs_lt n d (by simp [hd])
  have hp := digitPart_digits (natDigs n) (natDigs_lt n) (natDigs_ne_nil n) (rest := []) rfl
  rw [List.append_nil] at hp
  have hv := digitsVal_natDigs n
  rw [hd] at hp hv ⊢
  rw [List.map_cons] at hp ⊢
  rw [signPart_digit hd10]
  dsimp only
  rw [hp]
  simp [hv]

end Verif
