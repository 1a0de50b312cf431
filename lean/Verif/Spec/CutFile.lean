import Mathlib.Data.List.Basic

/-!
# Vocabulary for claims about files that were cut off
-/

namespace Verif.Spec

/-- The frames are the first frames of the other series; if `inside` holds, the last of them may differ in
its last row. -/
inductive FirstFrames {α : Type} (inside : Prop) : List (List α) → List (List α) → Prop
  | stop (qs : List (List α)) : FirstFrames inside [] qs
  | last (p q : List α) (qs : List (List α)) (h : inside) (hl : p.length = q.length)
      (hd : p.dropLast = q.dropLast) : FirstFrames inside [p] (q :: qs)
  | frame (p : List α) (ps qs : List (List α)) (h : FirstFrames inside ps qs) :
      FirstFrames inside (p :: ps) (p :: qs)

/-- The rows are those of the other array, or (if `inside` holds) all but the last are, or they are all
empty. -/
def LastRowCut {α : Type} (inside : Prop) (p q : List (List α)) : Prop :=
  p = q ∨ (inside ∧ p.length = q.length ∧ p.dropLast = q.dropLast) ∨ p = List.replicate q.length []

end Verif.Spec
