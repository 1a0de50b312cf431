import Mathlib.Algebra.Field.Rat
import Mathlib.Algebra.Order.Ring.Rat
import Mathlib.Algebra.Order.Field.Basic
import Mathlib.Data.Matrix.Mul
import Mathlib.LinearAlgebra.Matrix.Determinant.Basic
import Mathlib.Data.List.Forall2

/-!
# Specification vocabulary for the layout of text files: lines, words, numbers

Independent of the model: grammars given by decompositions of the text.
-/

namespace Verif.Spec

/-- `ls` are the lines of the text (the last one is empty if the text ends with a newline).
Lines are separated by a line feed, a carriage return, or a carriage return followed by a line
feed. -/
inductive IsText : List (List Char) → List Char → Prop
  | last (l : List Char) (h : '\n' ∉ l) (h' : '\r' ∉ l) : IsText [l] l
  | cons (l nl : List Char) (ls : List (List Char)) (rest : List Char) (h : '\n' ∉ l)
      (h' : '\r' ∉ l)
      (hnl : nl = ['\n'] ∨ nl = ['\r', '\n'] ∨ (nl = ['\r'] ∧ rest.head? ≠ some '\n'))
      (ht : IsText ls rest) : IsText (l :: ls) (l ++ nl ++ rest)

/-- Code points of white space. -/
def blankCodes : List ℕ :=
  [9, 10, 11, 12, 13, 28, 29, 30, 31, 32, 0x85, 0xa0, 0x1680, 0x2000, 0x2001, 0x2002, 0x2003,
    0x2004, 0x2005, 0x2006, 0x2007, 0x2008, 0x2009, 0x200a, 0x2028, 0x2029, 0x202f, 0x205f, 0x3000]

/-- White space. -/
def Blank (c : Char) : Prop := c.toNat ∈ blankCodes

/-- `ws` are the words of the line: maximal pieces without white space. -/
inductive Words : List Char → List (List Char) → Prop
  | nil (gap : List Char) (h : ∀ c ∈ gap, Blank c) : Words gap []
  | cons (gap w rest : List Char) (ws : List (List Char)) (h : ∀ c ∈ gap, Blank c)
      (hne : w ≠ []) (hw : ∀ c ∈ w, ¬ Blank c)
      (hr : ∀ c, rest.head? = some c → Blank c) (ht : Words rest ws) :
      Words (gap ++ w ++ rest) (w :: ws)

/-- A decimal digit and its value. -/
def Digit (c : Char) (d : ℕ) : Prop := d < 10 ∧ c.toNat = 48 + d

/-- One or more digits, where single underscores may stand between two digits. -/
inductive Digits : List Char → List ℕ → Prop
  | one (c : Char) (d : ℕ) (h : Digit c d) : Digits [c] [d]
  | more (c : Char) (d : ℕ) (cs : List Char) (ds : List ℕ) (h : Digit c d) (ht : Digits cs ds) :
      Digits (c :: cs) (d :: ds)
  | under (c : Char) (d : ℕ) (cs : List Char) (ds : List ℕ) (h : Digit c d) (ht : Digits cs ds) :
      Digits (c :: '_' :: cs) (d :: ds)

/-- Possibly no digits. -/
def OptDigits (cs : List Char) (ds : List ℕ) : Prop := (cs = [] ∧ ds = []) ∨ Digits cs ds

/-- Value of digits, most significant first. -/
def value : List ℕ → ℕ
  | [] => 0
  | d :: ds => d * 10 ^ ds.length + value ds

/-- An optional sign. -/
def Sign (cs : List Char) (s : ℤ) : Prop :=
  (cs = [] ∧ s = 1) ∨ (cs = ['+'] ∧ s = 1) ∨ (cs = ['-'] ∧ s = -1)

/-- Integer literal. -/
def IntLiteral (w : List Char) (n : ℤ) : Prop :=
  ∃ sg s cs ds, w = sg ++ cs ∧ Sign sg s ∧ Digits cs ds ∧ n = s * value ds

/-- Optional exponent. -/
def Exponent (w : List Char) (e : ℤ) : Prop :=
  (w = [] ∧ e = 0) ∨ ∃ c v, (c = 'e' ∨ c = 'E') ∧ w = c :: v ∧ IntLiteral v e

/-- Decimal literal: sign, digits, optionally a point and digits (at least one digit in all),
optionally an exponent. -/
def Decimal (w : List Char) (q : ℚ) : Prop :=
  ∃ sg s ip ids fr fds ex e, w = sg ++ ip ++ fr ++ ex ∧ Sign sg s ∧ OptDigits ip ids ∧
    ((fr = [] ∧ fds = []) ∨ ∃ fp, fr = '.' :: fp ∧ OptDigits fp fds) ∧
    (ids ≠ [] ∨ fds ≠ []) ∧ Exponent ex e ∧
    q = s * (value ids + (value fds : ℚ) / 10 ^ fds.length) * (10 : ℚ) ^ e

/-- Text of an infinity or NaN, in any case. -/
def NonFinite (w : List Char) : Prop :=
  ∃ sg s v, w = sg ++ v ∧ Sign sg s ∧ (v.map Char.toLower = ['n', 'a', 'n'] ∨
    v.map Char.toLower = ['i', 'n', 'f'] ∨
    v.map Char.toLower = ['i', 'n', 'f', 'i', 'n', 'i', 't', 'y'])

/-- A word for the number `x` (`none` if not finite). -/
def NumberWord (w : List Char) (x : Option ℚ) : Prop :=
  (∃ q, x = some q ∧ Decimal w q) ∨ (x = none ∧ NonFinite w)

/-- A number, possibly surrounded by white space. -/
def NumberLine (l : List Char) (x : Option ℚ) : Prop :=
  ∃ g w g', l = g ++ w ++ g' ∧ (∀ c ∈ g, Blank c) ∧ (∀ c ∈ g', Blank c) ∧ NumberWord w x

/-- A line beginning with three numbers. -/
def VectorLine (l : List Char) (v : Fin 3 → Option ℚ) : Prop :=
  ∃ a b c ws, Words l (a :: b :: c :: ws) ∧ NumberWord a (v 0) ∧ NumberWord b (v 1) ∧
    NumberWord c (v 2)

/-- The line begins with the given letter, in lower or upper case. -/
def Begins (l : List Char) (lower upper : Char) : Prop :=
  l.head? = some lower ∨ l.head? = some upper

/-- Fractional coordinates `p` of a row in Cartesian coordinates, for the lattice `a`; a row that is
not finite gives a position that is not finite. -/
def CartesianRow (a : Matrix (Fin 3) (Fin 3) ℚ) (row p : Fin 3 → Option ℚ) : Prop :=
  (∀ x : Fin 3 → ℚ, (row = fun i => some (x i)) →
    ∃ y : Fin 3 → ℚ, (p = fun i => some (y i)) ∧ ∀ k, ∑ i, y i * a i k = x k) ∧
  ((∃ i, row i = none) → p = fun _ => none)

/-- The line with the coordinate format: line `k`, or the next one if line `k` announces selective
dynamics. -/
def FormatLine (ls : List (List Char)) (k m : ℕ) : Prop :=
  (Begins (ls.getD k []) 's' 'S' ∧ m = k + 1) ∨ (¬ Begins (ls.getD k []) 's' 'S' ∧ m = k)

/-- The first seven lines of a POSCAR or XDATCAR (lines are counted from zero): comment; scale factor;
three lattice vectors; element symbols; as many counts.  `symbol` relates element symbols to atomic
numbers. -/
def Header (symbol : List Char → ℕ → Prop) (ls : List (List Char))
    (a : Matrix (Fin 3) (Fin 3) ℚ) (numbers : List ℕ) : Prop :=
  (∃ (scale : ℚ) (rows : Fin 3 → Fin 3 → ℚ), NumberLine (ls.getD 1 []) (some scale) ∧
    (∀ i : Fin 3, VectorLine (ls.getD (2 + i) []) fun j => some (rows i j)) ∧
    ∀ i j, a i j = rows i j * scale) ∧
  ∃ symbols cwords zs counts, Words (ls.getD 5 []) symbols ∧ symbols ≠ [] ∧
    Words (ls.getD 6 []) cwords ∧ List.Forall₂ symbol symbols zs ∧
    List.Forall₂ IntLiteral cwords counts ∧ counts.length = zs.length ∧
    numbers = (zs.zip counts).flatMap fun x => List.replicate x.2.toNat x.1

/-- A configuration of `n` atoms from line `k` up to line `next` (exclusive): optionally a line for
selective dynamics; coordinate format; one row per atom. -/
def ConfigAt (ls : List (List Char)) (a : Matrix (Fin 3) (Fin 3) ℚ) (n k : ℕ)
    (positions : List (Fin 3 → Option ℚ)) (next : ℕ) : Prop :=
  ∃ m, FormatLine ls k m ∧ next = m + 1 + n ∧ ∃ raw : List (Fin 3 → Option ℚ), raw.length = n ∧
    (∀ (i : ℕ) (hi : i < raw.length), VectorLine (ls.getD (m + 1 + i) []) raw[i]) ∧
    ((Begins (ls.getD m []) 'd' 'D' ∧ positions = raw) ∨
      (Begins (ls.getD m []) 'c' 'C' ∧ raw ≠ [] ∧ a.det ≠ 0 ∧
        List.Forall₂ (CartesianRow a) raw positions))

/-- Layout of a POSCAR: header and one configuration; anything may follow. -/
def IsPoscar (symbol : List Char → ℕ → Prop) (ls : List (List Char))
    (a : Matrix (Fin 3) (Fin 3) ℚ) (numbers : List ℕ) (positions : List (Fin 3 → Option ℚ)) : Prop :=
  Header symbol ls a numbers ∧ ∃ next, ConfigAt ls a numbers.length 7 positions next

/-- Consecutive configurations from line `k` up to line `last` (exclusive). -/
inductive Configs (ls : List (List Char)) (a : Matrix (Fin 3) (Fin 3) ℚ) (n : ℕ) :
    ℕ → List (List (Fin 3 → Option ℚ)) → ℕ → Prop
  | nil (k : ℕ) : Configs ls a n k [] k
  | cons {k next last : ℕ} {p : List (Fin 3 → Option ℚ)} {ps : List (List (Fin 3 → Option ℚ))}
      (hp : ConfigAt ls a n k p next) (hps : Configs ls a n next ps last) :
      Configs ls a n k (p :: ps) last

/-- Line `k` does not exist, is empty or begins with a blank. -/
def BlankStart (ls : List (List Char)) (k : ℕ) : Prop :=
  ∀ c, (ls.getD k []).head? = some c → Blank c

end Verif.Spec
