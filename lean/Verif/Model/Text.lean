import Verif.Model.Base
import Verif.Model.Constants
import Mathlib.Data.Nat.Digits.Defs
import Mathlib.Data.List.Infix

/-!
# Model of the Python text primitives used by the readers and writers

A text file is a list of characters, already decoded.  Numbers read from text are exact
rationals (rounding to binary floating point is not modelled); `none` stands for a value that
is not finite (`nan`, `inf`).  Decimal digits other than ASCII ones are not recognised (Python
would accept them).
-/

namespace Verif

/-- A number read from a text file; `none` is `nan` or an infinity. -/
abbrev Num := Option ℚ

/-! ## White space, lines, words -/

/-- `str.isspace` for one character (all characters with that property). -/
def isSpace (c : Char) : Bool :=
  let n := c.toNat
  (9 ≤ n && n ≤ 13) || (28 ≤ n && n ≤ 32) || n == 0x85 || n == 0xa0 || n == 0x1680 ||
  (0x2000 ≤ n && n ≤ 0x200a) || n == 0x2028 || n == 0x2029 || n == 0x202f || n == 0x205f ||
  n == 0x3000

/-- Newline translation of files opened in text mode: `\r\n` and `\r` become `\n`. -/
def universalNewlines : List Char → List Char
  | [] => []
  | '\r' :: '\n' :: cs => '\n' :: universalNewlines cs
  | '\r' :: cs => '\n' :: universalNewlines cs
  | c :: cs => c :: universalNewlines cs

/-- `file.readline()`: the line with its newline, and the rest of the file. -/
def readline : List Char → List Char × List Char
  | [] => ([], [])
  | c :: cs =>
    if c = '\n' then ([c], cs)
    else
      let (l, r) := readline cs
      (c :: l, r)

/-- Loop of `str.split()`; `cur` is the word being read. -/
def splitAux (cur : Word) : List Char → List Word
  | [] => if cur = [] then [] else [cur]
  | c :: cs =>
    if isSpace c then
      if cur = [] then splitAux [] cs else cur :: splitAux [] cs
    else splitAux (cur ++ [c]) cs

/-- `line.split()`. -/
def splitWs (line : List Char) : List Word := splitAux [] line

/-- `str.strip()`. -/
def strip (s : List Char) : List Char :=
  ((s.dropWhile isSpace).reverse.dropWhile isSpace).reverse

/-- `needle in line`. -/
def contains (needle line : List Char) : Bool := decide (needle <:+: line)

/-! ## Numbers -/

/-- ASCII decimal digit. -/
def isDigit (c : Char) : Bool := '0' ≤ c && c ≤ '9'

/-- Value of a digit. -/
def digitVal (c : Char) : ℕ := c.toNat - 48

/-- Digits after a first digit; single underscores between digits are allowed. -/
def digitTail : List Char → List ℕ × List Char
  | [] => ([], [])
  | [c] => if isDigit c then ([digitVal c], []) else ([], [c])
  | c :: c' :: cs =>
    if isDigit c then
      let (ds, r) := digitTail (c' :: cs)
      (digitVal c :: ds, r)
    else if c = '_' ∧ isDigit c' then
      let (ds, r) := digitTail cs
      (digitVal c' :: ds, r)
    else ([], c :: c' :: cs)

/-- Digits at the beginning of a text (none at all is allowed here). -/
def digitPart : List Char → List ℕ × List Char
  | [] => ([], [])
  | c :: cs =>
    if isDigit c then
      let (ds, r) := digitTail cs
      (digitVal c :: ds, r)
    else ([], c :: cs)

/-- Value of a list of digits, most significant first. -/
def digitsVal (ds : List ℕ) : ℕ := ds.foldl (fun n d => 10 * n + d) 0

/-- Optional sign; `true` for minus. -/
def signPart : List Char → Bool × List Char
  | '+' :: cs => (false, cs)
  | '-' :: cs => (true, cs)
  | cs => (false, cs)

/-- Fraction part: nothing, or a point and digits. -/
def fracPart : List Char → List ℕ × List Char
  | '.' :: cs => digitPart cs
  | cs => ([], cs)

/-- Exponent part: nothing, or `e` and a signed integer; must end the text. -/
def expPart : List Char → Option ℤ
  | [] => some 0
  | c :: cs =>
    if c = 'e' ∨ c = 'E' then
      let (neg, cs) := signPart cs
      match digitPart cs with
      | (d :: ds, []) => some (if neg then -(digitsVal (d :: ds) : ℤ) else digitsVal (d :: ds))
      | _ => none
    else none

/-- Unsigned decimal number. -/
def unsignedFloat (s : List Char) : Option ℚ :=
  let (ip, r) := digitPart s
  let (fp, r) := fracPart r
  if ip = [] ∧ fp = [] then none
  else (expPart r).map fun e => (digitsVal (ip ++ fp) : ℚ) / 10 ^ fp.length * (10 : ℚ) ^ e

/-- Texts read as values that are not finite. -/
def nonFinite (s : List Char) : Bool :=
  let l := s.map Char.toLower
  l = ['i', 'n', 'f'] || l = ['i', 'n', 'f', 'i', 'n', 'i', 't', 'y'] || l = ['n', 'a', 'n']

/-- `float(s)`; `none` is a `ValueError`. -/
def parseFloat (s : List Char) : Option Num :=
  let (neg, s) := signPart (strip s)
  if nonFinite s then some none
  else (unsignedFloat s).map fun q => some (if neg then -q else q)

/-- `int(s)`; `none` is a `ValueError`. -/
def parseInt (s : List Char) : Option ℤ :=
  let (neg, s) := signPart (strip s)
  match digitPart s with
  | (d :: ds, []) => some (if neg then -(digitsVal (d :: ds) : ℤ) else digitsVal (d :: ds))
  | _ => none

/-- `[float(item) for item in items]`; `none` is a `ValueError`. -/
def parseFloats (items : List Word) : Option (List Num) := items.mapM parseFloat

/-! ## Formatting -/

/-- Digit as a character. -/
def digitChar (d : ℕ) : Char := Char.ofNat (48 + d)

/-- `str(n)` for a natural number. -/
def natStr (n : ℕ) : List Char :=
  if n = 0 then ['0'] else (Nat.digits 10 n).reverse.map digitChar

/-- The last `k` digits of `n`, with leading zeros. -/
def fixedDigits : ℕ → ℕ → List Char
  | 0, _ => []
  | k + 1, n => fixedDigits k (n / 10) ++ [digitChar (n % 10)]

/-- Padding on the left with blanks up to width `w`. -/
def padLeft (w : ℕ) (s : List Char) : List Char := List.replicate (w - s.length) ' ' ++ s

section
variable {K : Type} [Field K] [LinearOrder K] [IsStrictOrderedRing K] [FloorRing K]

/-- Rounding to an integer, ties to even. -/
def roundEven (x : K) : ℤ :=
  let f := ⌊x⌋
  if x - f < 1 / 2 then f
  else if 1 / 2 < x - f then f + 1
  else if f % 2 = 0 then f else f + 1

/-- `f"{x:.16f}"` for a finite number. -/
def fixed16 (x : K) : List Char :=
  let m := (roundEven (|x| * 10 ^ 16)).toNat
  (if x < 0 then ['-'] else []) ++ natStr (m / 10 ^ 16) ++ '.' :: fixedDigits 16 (m % 10 ^ 16)

/-- `f"{x:9.16f}"`; `none` is NaN. -/
def fmt916 : Option K → List Char
  | none => padLeft 9 ['n', 'a', 'n']
  | some x => padLeft 9 (fixed16 x)

end

/-! ## `repr` of strings -/

/-- Hexadecimal digit. -/
def hexDigit (d : ℕ) : Char := if d < 10 then Char.ofNat (48 + d) else Char.ofNat (87 + d)

/-- The last `k` hexadecimal digits of `n`. -/
def hexDigits : ℕ → ℕ → List Char
  | 0, _ => []
  | k + 1, n => hexDigits k (n / 16) ++ [hexDigit (n % 16)]

/-- One character of `repr`; `quote` is the enclosing quote, `printable` tells which non-ASCII
characters Unicode calls printable. -/
def reprChar (printable : Char → Bool) (quote c : Char) : List Char :=
  if c = quote ∨ c = '\\' then ['\\', c]
  else if c = '\t' then ['\\', 't']
  else if c = '\n' then ['\\', 'n']
  else if c = '\r' then ['\\', 'r']
  else if c.toNat < 32 ∨ c.toNat = 127 then '\\' :: 'x' :: hexDigits 2 c.toNat
  else if c.toNat < 127 then [c]
  else if printable c then [c]
  else if c.toNat ≤ 0xff then '\\' :: 'x' :: hexDigits 2 c.toNat
  else if c.toNat ≤ 0xffff then '\\' :: 'u' :: hexDigits 4 c.toNat
  else '\\' :: 'U' :: hexDigits 8 c.toNat

/-- `repr(label)`. -/
def pyRepr (printable : Char → Bool) (s : List Char) : List Char :=
  let quote := if '\'' ∈ s ∧ ¬ '"' ∈ s then '"' else '\''
  quote :: s.flatMap (reprChar printable quote) ++ [quote]

/-- `s[1:-1]`. -/
def innerSlice (s : List Char) : List Char := s.tail.dropLast

end Verif
