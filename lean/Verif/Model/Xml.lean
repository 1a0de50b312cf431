import Verif.Model.Text

/-!
# XML trees

The data type of `xml.etree.ElementTree.Element`, as far as `/repo/ramannoodle/io/vasp/vasprun.py`
uses it.
-/

namespace Verif

/-- An element of an XML tree. -/
inductive Elem
  | mk (tag : Word) (attrib : List (Word × Word)) (text : Option (List Char)) (children : List Elem)

namespace Elem

/-- `element.tag`. -/
def tag : Elem → Word
  | mk t _ _ _ => t

/-- `element.attrib`. -/
def attrib : Elem → List (Word × Word)
  | mk _ a _ _ => a

/-- `element.text`. -/
def text : Elem → Option (List Char)
  | mk _ _ t _ => t

/-- `list(element)`. -/
def children : Elem → List Elem
  | mk _ _ _ c => c

end Elem

end Verif
