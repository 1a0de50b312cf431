import Verif.Model.Shape
import Verif.Model.Text

/-!
# Texts of error messages about shapes

`/repo/ramannoodle/exceptions.py` L41-72, L86-123 and
`/repo/ramannoodle/dataset/torch/utils.py` L63-110.
-/

namespace Verif

/-- What the loop appends for one dimension, exceptions.py L48-51 and dataset/torch/utils.py L75-78. -/
def shapeEntry : Option ℕ → List Char
  | none => ['_', ',']
  | some n => natStr n ++ [',']

/-- `_shape_string(shape)`, exceptions.py L41-54, for the brackets `(` and `)`;
`_get_tensor_size_str(size)`, dataset/torch/utils.py L63-81, for `[` and `]`.  `result[:-1]` drops the
last character. -/
def shapeString (opening closing : Char) (shape : List (Option ℕ)) : List Char :=
  let result := shape.foldl (fun r i => r ++ shapeEntry i) [opening]
  if shape.length = 1 then result ++ [closing] else result.dropLast ++ [closing]

/-- Text of `get_shape_error(name, array, desired_shape)`, exceptions.py L66-72 (`what` is `shape`),
and of `get_tensor_size_error`, dataset/torch/utils.py L84-90 (`what` is `size`). -/
def shapeErrorText (what : List Char) (opening closing : Char) (name : List Char) (shape : List ℕ)
    (desired : List Char) : List Char :=
  name ++ " has wrong ".toList ++ what ++ ": ".toList ++
    shapeString opening closing (shape.map some) ++ " != ".toList ++ desired

/-- Loop over `zip(array.shape, shape, strict=True)`, exceptions.py L101-103: does it raise? -/
def dimsDiffer : List ℕ → List (Option ℕ) → Bool
  | d :: ds, p :: ps => (p.isSome && p != some d) || dimsDiffer ds ps
  | _, _ => false

/-- `verify_ndarray_shape(name, array, shape)`, exceptions.py L86-105, with the text of the
`ValueError`. -/
def verifyShapeText (name : List Char) (shape : List ℕ) (pattern : List (Option ℕ)) :
    Except (List Char) Unit :=
  if pattern.length ≠ shape.length then
    .error (shapeErrorText "shape".toList '(' ')' name shape (shapeString '(' ')' pattern))
  else if dimsDiffer shape pattern then
    .error (shapeErrorText "shape".toList '(' ')' name shape (shapeString '(' ')' pattern))
  else .ok ()

/-- `verify_tensor_size(name, tensor, size)`, dataset/torch/utils.py L93-110, with the text of the
`ValueError`. -/
def verifySizeText (name : List Char) (size : List ℕ) (pattern : List (Option ℕ)) :
    Except (List Char) Unit :=
  if pattern.length ≠ size.length then
    .error (shapeErrorText "size".toList '[' ']' name size (shapeString '[' ']' pattern))
  else if dimsDiffer size pattern then
    .error (shapeErrorText "size".toList '[' ']' name size (shapeString '[' ']' pattern))
  else .ok ()

/-- Text of the `ValueError` of `verify_list_len(name, array, length)`, exceptions.py L123: the
f-string contains the word `length`, not the value. -/
def listLenText (name : List Char) (len _length : ℕ) : List Char :=
  name ++ " has wrong length: ".toList ++ natStr len ++ " != length".toList

end Verif
