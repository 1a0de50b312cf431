import Lean.Elab.Term

/-!
# Lists of characters for concrete examples

`chars! "ab"` is notation for `['a', 'b']`, which the kernel evaluates faster than `"ab".toList`.
-/

open Lean in
/-- The characters of a string as a list. -/
macro "chars! " s:str : term => do
  let cs := s.getString.toList.toArray.map fun c => Syntax.mkCharLit c
  `([$cs,*])
