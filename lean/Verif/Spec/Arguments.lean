import Verif.Model.DynamicArgs

/-!
# Vocabulary for arguments of any type

What documented arguments look like, and what it means that a function reports the first argument that
is not as documented.  Only the types `PyVal`, `Flt` and `ArgErr` are taken from the model.
-/

namespace Verif.Spec

/-- An array with the given shape. -/
def IsArr (v : PyVal) (s : List ℕ) : Prop := ∃ data, v = .array s data

/-- Is the value a positive number as far as the comparison `<= 0` can tell (NaN passes)? -/
def NotNonpositive (x : Flt) : Prop := x = .nan ∨ x = .posInf ∨ ∃ q : ℚ, 0 < q ∧ x = .fin q

/-- A number: `bool`, `int`, `float`, or an array with one element. -/
inductive Number : PyVal → Flt → Prop
  | no : Number (.bool false) (.fin 0)
  | yes : Number (.bool true) (.fin 1)
  | int (n : ℤ) : Number (.int n) (.fin n)
  | float (x : Flt) : Number (.float x) x
  | array (s : List ℕ) (x : Flt) : Number (.array s [x]) x

/-- The types arguments are documented to have. -/
inductive Kind
  | array
  | list
  | number

/-- Is the value of that type? -/
def OfKind : Kind → PyVal → Prop
  | .array, v => ∃ s, IsArr v s
  | .list, v => ∃ l, v = .list l
  | .number, v => ∃ x, Number v x

/-- An argument: its name, its value, its documented type, and whether it is as documented. -/
structure Param where
  name : String
  value : PyVal
  kind : Kind
  fine : Prop

/-- The argument an exception complains about. -/
def complainsAbout : ArgErr → Option String
  | .type name _ _ => some name
  | .shape name _ _ => some name
  | .length name _ _ => some name
  | .range name => some name
  | .notPositive name => some name
  | _ => none

/-- The call succeeds if all arguments are as documented; otherwise the exception names the first
argument that is not, and it is a `TypeError` if this argument has another type, else a
`ValueError`. -/
def Reports {α : Type} : List Param → Except ArgErr α → Prop
  | [], r => ∃ a, r = .ok a
  | p :: ps, r => (p.fine → Reports ps r) ∧
      (¬ p.fine → ∃ e, r = .error e ∧ complainsAbout e = some p.name ∧
        (e.cls = .typeError ∧ ¬ OfKind p.kind p.value ∨ e.cls = .valueError ∧ OfKind p.kind p.value))

/-- Value that is taken for the atomic number `n`. -/
inductive Atom : PyVal → ℕ → Prop
  | int (n : ℕ) : Atom (.int n) n
  | float (n : ℕ) : Atom (.float (.fin n)) n
  | true : Atom (.bool true) 1

/-- Coordinate that is not outside the cell. -/
def Inside (x : Flt) : Prop := x = .nan ∨ ∃ q : ℚ, 0 ≤ q ∧ q ≤ 1 ∧ x = .fin q

/-- A file path: text or a path object. -/
inductive IsPath : PyVal → List Char → Prop
  | str (s : List Char) : IsPath (.str s) s
  | path (s : List Char) : IsPath (.path s) s

/-- What Python calls the type of a value. -/
inductive TypeWord : PyVal → String → Prop
  | none : TypeWord .none "NoneType"
  | bool (b : Bool) : TypeWord (.bool b) "bool"
  | int (n : ℤ) : TypeWord (.int n) "int"
  | float (x : Flt) : TypeWord (.float x) "float"
  | str (s : List Char) : TypeWord (.str s) "str"
  | path (s : List Char) : TypeWord (.path s) "PosixPath"
  | list (l : List PyVal) : TypeWord (.list l) "list"
  | tuple (l : List PyVal) : TypeWord (.tuple l) "tuple"
  | array (s : List ℕ) (data : List Flt) : TypeWord (.array s data) "ndarray"

end Verif.Spec
