import Verif.Model.Xml
import Verif.Spec.Layout

/-!
# Vocabulary for claims about `vasprun.xml` files

Words and numbers are those of Python (`splitWs`, `parseFloat`); everything else is said here
without the readers.
-/

namespace Verif.Spec

/-- `x` is the first element of the list that satisfies `p`. -/
def IsFirst {α : Type} (p : α → Prop) (l : List α) (x : α) : Prop :=
  ∃ pre post, l = pre ++ x :: post ∧ p x ∧ ∀ y ∈ pre, ¬ p y

/-- The element has the attribute `name` with this value. -/
def NameIs (e : Elem) (v : String) : Prop :=
  IsFirst (fun a => a.1 = "name".toList) e.attrib ("name".toList, v.toList)

/-- The element has an attribute `name`. -/
def HasName (e : Elem) : Prop := ∃ a ∈ e.attrib, a.1 = "name".toList

/-- The numbers of the text of an element. -/
def NumbersOf (e : Elem) (row : List Num) : Prop :=
  ∃ t, e.text = some t ∧ List.Forall₂ (fun w x => parseFloat w = some x) (splitWs t) row

/-- The rows of a `varray`: one for each child, all of the same length. -/
def RowsOf (e : Elem) (rows : List (List Num)) : Prop :=
  List.Forall₂ NumbersOf e.children rows ∧ ∀ x ∈ rows, ∀ y ∈ rows, x.length = y.length

/-- The element has this tag. -/
def Tag (t : String) (e : Elem) : Prop := e.tag = t.toList

/-- The element has this tag and this name. -/
def TagNamed (t n : String) (e : Elem) : Prop := e.tag = t.toList ∧ NameIs e n

/-- `v` is reached from `e` through children with the properties given, taking the first child
through which the rest of the way can be completed. -/
def FirstChain : List (Elem → Prop) → Elem → Elem → Prop
  | [], e, v => e = v
  | p :: ps, e, v => ∃ c, IsFirst (fun c => p c ∧ ∃ w, FirstChain ps c w) e.children c ∧
      FirstChain ps c v

/-- The initial structure. -/
def IsInitial (e : Elem) : Prop := e.tag = "structure".toList ∧ NameIs e "initialpos"

/-- `v` holds the initial positions: it is the first `varray` of the first initial structure that
has one. -/
def HoldsPositions (root v : Elem) : Prop :=
  ∃ s, IsFirst (fun s => IsInitial s ∧ ∃ c ∈ s.children, c.tag = "varray".toList) root.children s ∧
    IsFirst (fun c => c.tag = "varray".toList) s.children v

/-- There are no initial positions. -/
def NoPositions (root : Elem) : Prop :=
  ∀ s ∈ root.children, IsInitial s → ∀ c ∈ s.children, c.tag ≠ "varray".toList

/-- The elements of the atoms: below the first `atominfo/array/set` that is there, one entry for each
atom, whose first child has a text consisting of one word, the symbol. -/
def AtomsAre (number : List Char → ℕ → Prop) (root : Elem) (numbers : List ℕ) : Prop :=
  ∃ s, FirstChain [Tag "atominfo", Tag "array", Tag "set"] root s ∧
    List.Forall₂ (fun e n => ∃ c rest t w, e.children = c :: rest ∧ c.text = some t ∧
      Words t [w] ∧ number w n) s.children numbers

/-- The rows of the array reached by this way. -/
def ArrayAt (path : List (Elem → Prop)) (root : Elem) (rows : List (List Num)) : Prop :=
  ∃ v, FirstChain path root v ∧ RowsOf v rows

/-- Initial positions. -/
def InitialPositions : Elem → List (List Num) → Prop :=
  ArrayAt [TagNamed "structure" "initialpos", Tag "varray"]

/-- Lattice vectors of the initial structure. -/
def InitialLattice : Elem → List (List Num) → Prop :=
  ArrayAt [TagNamed "structure" "initialpos", Tag "crystal", TagNamed "varray" "basis"]

/-- The dielectric tensor. -/
def DielectricTensor : Elem → List (List Num) → Prop :=
  ArrayAt [Tag "calculation", TagNamed "varray" "dielectric_dft"]

end Verif.Spec
