import Mathlib.Data.List.Basic

/-!
# Vocabulary for claims about files
-/

namespace Verif.Spec

/-- Files after a list of (path, text) pairs has been written, one after the other. -/
def written {P T : Type} [DecidableEq P] (old : P → Option T) : List (P × T) → P → Option T
  | [], p => old p
  | (q, c) :: l, p => written (fun r => if r = q then some c else old r) l p

/-- The two file systems differ at most in the file `path`. -/
def OnlyAt {P T : Type} (path : P) (old new : P → Option T) : Prop :=
  ∀ p, p ≠ path → new p = old p

/-- Every file that exists in `old` is in `new`, with the same text. -/
def Preserved {P T : Type} (old new : P → Option T) : Prop :=
  ∀ p c, old p = some c → new p = some c

end Verif.Spec
