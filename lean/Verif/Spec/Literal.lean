import Mathlib.Data.List.Basic

/-!
# Vocabulary: text of Python string literals

Independent of the model.
-/

namespace Verif.Spec

/-- Hexadecimal digits as Python writes them. -/
def hexAlphabet : List Char :=
  ['0', '1', '2', '3', '4', '5', '6', '7', '8', '9', 'a', 'b', 'c', 'd', 'e', 'f']

/-- Number with the given hexadecimal digits. -/
def hexValue (ds : List Char) : ℕ := ds.foldl (fun n d => 16 * n + hexAlphabet.idxOf d) 0

/-- Escape sequences with one letter, and what they stand for. -/
def shortEscapes : List (Char × Char) :=
  [('\\', '\\'), ('\'', '\''), ('"', '"'), ('t', '\t'), ('n', '\n'), ('r', '\r')]

/-- Escape sequences by code point, and their number of digits. -/
def codeEscapes : List (Char × ℕ) := [('x', 2), ('u', 4), ('U', 8)]

/-- The text between the quotes of a Python string literal denotes a string. -/
inductive Denotes : List Char → List Char → Prop
  | nil : Denotes [] []
  | plain (c : Char) (t s : List Char) (hc : c ≠ '\\') : Denotes t s → Denotes (c :: t) (c :: s)
  | short (e c : Char) (t s : List Char) (h : (e, c) ∈ shortEscapes) :
      Denotes t s → Denotes ('\\' :: e :: t) (c :: s)
  | code (e c : Char) (k : ℕ) (ds t s : List Char) (h : (e, k) ∈ codeEscapes)
      (hk : ds.length = k) (hd : ∀ d ∈ ds, d ∈ hexAlphabet) (hv : hexValue ds = c.toNat) :
      Denotes t s → Denotes ('\\' :: e :: (ds ++ t)) (c :: s)

end Verif.Spec
