import Verif.Model.Messages
import Verif.Model.Write
import Verif.Model.Dynamics

/-!
# Arguments of any type

Python does not check the annotations of arguments.  The other model files exclude arguments of a
wrong type by typing; here arguments are arbitrary Python values, and the functions are the argument
checks of `/repo/ramannoodle`: `get_type_error`, `verify_ndarray`, `verify_ndarray_shape`,
`verify_list_len`, `verify_positions` (exceptions.py L57-134), `pathify`, `pathify_as_list`,
`verify_structure`, `verify_trajectory` (io/_utils.py L36-97), and the checks made by constructors and
setters before anything is computed.

Simplifications: the Python values are the ones listed in `PyVal`; other objects (torch tensors, NumPy
scalars, dictionaries, user classes) are left out.  Integers are not limited when converted to `float`.
-/

namespace Verif

/-- A Python `float` with the values that are not finite. -/
inductive Flt
  | fin (q : ℚ)
  | posInf
  | negInf
  | nan
  deriving DecidableEq, Repr

/-- `x <= y` for `y` finite; comparisons with NaN are false. -/
def Flt.leFin : Flt → ℚ → Bool
  | .fin q, y => decide (q ≤ y)
  | .negInf, _ => true
  | .posInf, _ => false
  | .nan, _ => false

/-- `x < y` for `y` finite. -/
def Flt.ltFin : Flt → ℚ → Bool
  | .fin q, y => decide (q < y)
  | .negInf, _ => true
  | .posInf, _ => false
  | .nan, _ => false

/-- `x > y` for `y` finite. -/
def Flt.gtFin : Flt → ℚ → Bool
  | .fin q, y => decide (q > y)
  | .posInf, _ => true
  | .negInf, _ => false
  | .nan, _ => false

/-- Python values that may be passed for an argument. -/
inductive PyVal
  | none
  | bool (b : Bool)
  | int (n : ℤ)
  | float (x : Flt)
  | str (s : List Char)
  | path (s : List Char)
  | list (l : List PyVal)
  | tuple (l : List PyVal)
  /-- `numpy.ndarray` of floats: shape and entries in C order. -/
  | array (shape : List ℕ) (data : List Flt)

/-- `type(value).__name__` (exceptions.py L62). -/
def PyVal.typeName : PyVal → String
  | .none => "NoneType"
  | .bool _ => "bool"
  | .int _ => "int"
  | .float _ => "float"
  | .str _ => "str"
  | .path _ => "PosixPath"
  | .list _ => "list"
  | .tuple _ => "tuple"
  | .array _ _ => "ndarray"

/-- Exceptions raised by argument checks, with what their messages are made of. -/
inductive ArgErr
  /-- `get_type_error(name, value, correct_type)`, exceptions.py L57-63. -/
  | type (name correct wrong : String)
  /-- `get_shape_error(name, array, desired_shape)`, exceptions.py L66-72. -/
  | shape (name : String) (shape : List ℕ) (desired : List (Option ℕ))
  /-- exceptions.py L123. -/
  | length (name : String) (len length : ℕ)
  /-- `ValueError` for coordinates outside `[0,1]`, exceptions.py L134, io/_utils.py L96-97. -/
  | range (name : String)
  /-- `ValueError` for an atomic number, io/_utils.py L75, L93. -/
  | atomicNumber (value : PyVal)
  /-- `TypeError` of Python: a value without a hash is looked up in a dictionary. -/
  | unhashable
  /-- `TypeError` of `pathify`, io/_utils.py L44. -/
  | notAPath (value : PyVal)
  /-- `ValueError` of `pathify_as_list`, io/_utils.py L55. -/
  | emptyPaths
  /-- `ValueError` for a number that has to be positive, e.g. _trajectory.py L43. -/
  | notPositive (name : String)
  /-- `ValueError` of `float(text)`. -/
  | notANumber
  /-- `ValueError` of an array used as truth value. -/
  | ambiguousTruth

/-- Class of the exception. -/
def ArgErr.cls : ArgErr → PyErr
  | .type _ _ _ => .typeError
  | .shape _ _ _ => .valueError
  | .length _ _ _ => .valueError
  | .range _ => .valueError
  | .atomicNumber _ => .valueError
  | .unhashable => .typeError
  | .notAPath _ => .typeError
  | .emptyPaths => .valueError
  | .notPositive _ => .valueError
  | .notANumber => .valueError
  | .ambiguousTruth => .valueError

/-- Text of a `get_type_error`, exceptions.py L57-63. -/
def typeErrorText (name correct wrong : String) : List Char :=
  name.toList ++ " should have type ".toList ++ correct.toList ++ ", not ".toList ++ wrong.toList

/-- Message of the exceptions whose text the modelled functions format themselves (`none` for the
other ones). -/
def ArgErr.text : ArgErr → Option (List Char)
  | .type name correct wrong => some (typeErrorText name correct wrong)
  | .shape name dims desired =>
    some (shapeErrorText "shape".toList '(' ')' name.toList dims (shapeString '(' ')' desired))
  | .length name len expected => some (listLenText name.toList len expected)
  | .range name => some (name.toList ++ " has coordinates that are not between 0 and 1".toList)
  | _ => none

/-- `get_type_error(name, value, correct_type)`, exceptions.py L57-63. -/
def getTypeError (name : String) (value : PyVal) (correctType : String) : ArgErr :=
  .type name correctType value.typeName

/-- `array.shape` (and `array.ndim`, its length): only arrays have the attribute. -/
def PyVal.shape? : PyVal → Option (List ℕ)
  | .array s _ => some s
  | _ => Option.none

/-- `verify_ndarray(name, array)`, exceptions.py L75-83. -/
def verifyNdarrayAny (name : String) (array : PyVal) : Except ArgErr Unit :=
  match array.shape? with
  | some _ => .ok ()
  | none => .error (getTypeError name array "ndarray")

/-- `verify_ndarray_shape(name, array, shape)`, exceptions.py L86-105. -/
def verifyShapeAny (name : String) (array : PyVal) (pattern : List (Option ℕ)) : Except ArgErr Unit :=
  match array.shape? with
  | some s =>
    if pattern.length ≠ s.length then .error (.shape name s pattern)
    else if dimsDiffer s pattern then .error (.shape name s pattern)
    else .ok ()
  | none => .error (getTypeError name array "ndarray")

/-- `verify_list_len(name, array, length)`, exceptions.py L108-123; lengths are compared by identity
(see `verifyListLen`). -/
def verifyListLenAny (smallInt : ℕ) (name : String) (array : PyVal) (length : Option ℕ) :
    Except ArgErr Unit :=
  match array with
  | .list l =>
    match length with
    | none => .ok ()
    | some n => if l.length = n ∧ l.length ≤ smallInt then .ok () else .error (.length name l.length n)
  | v => .error (getTypeError name v "list")

/-- Entries of an array. -/
def PyVal.entries : PyVal → List Flt
  | .array _ data => data
  | _ => []

/-- `(0 > array).any() or (array > 1.0).any()`, exceptions.py L133, io/_utils.py L95. -/
def outOfRange (data : List Flt) : Bool := data.any (fun x => x.ltFin 0) || data.any (fun x => x.gtFin 1)

/-- `verify_positions(name, array)`, exceptions.py L126-134. -/
def verifyPositionsAny (name : String) (array : PyVal) : Except ArgErr Unit := do
  verifyShapeAny name array [none, some 3]
  if outOfRange array.entries then .error (.range name) else .ok ()

mutual
/-- Does `hash(value)` work? -/
def PyVal.hashable : PyVal → Bool
  | .list _ => false
  | .array _ _ => false
  | .tuple l => allHashable l
  | _ => true
/-- Do all elements have a hash? -/
def allHashable : List PyVal → Bool
  | [] => true
  | v :: vs => v.hashable && allHashable vs
end

/-- The natural number a value equals under `==`, if any (`True == 1`, `6.0 == 6`). -/
def PyVal.asNat? : PyVal → Option ℕ
  | .bool b => some (if b then 1 else 0)
  | .int n => if 0 ≤ n then some n.toNat else Option.none
  | .float (.fin q) => if 0 ≤ q ∧ q.den = 1 then some q.num.toNat else Option.none
  | _ => Option.none

/-- `value in ATOM_SYMBOLS.keys()`; a value without hash raises `TypeError`. -/
def inAtomSymbols (v : PyVal) : Except ArgErr Bool :=
  if v.hashable then
    .ok (match v.asNat? with
      | some n => (dictGet atomSymbols n).isSome
      | none => false)
  else .error .unhashable

/-- Loop of io/_utils.py L73-75 and L91-93. -/
def verifyAtomicNumbers : List PyVal → Except ArgErr Unit
  | [] => .ok ()
  | v :: vs => do
    let known ← inAtomSymbols v
    if known then verifyAtomicNumbers vs else .error (.atomicNumber v)

/-- Elements of a list. -/
def PyVal.elements : PyVal → List PyVal
  | .list l => l
  | _ => []

/-- `verify_structure(lattice, atomic_numbers, positions)`, io/_utils.py L62-77. -/
def verifyStructureAny (lattice atomicNumbers positions : PyVal) : Except ArgErr Unit := do
  verifyShapeAny "lattice" lattice [some 3, some 3]
  verifyListLenAny 256 "atomic_numbers" atomicNumbers none
  verifyAtomicNumbers atomicNumbers.elements
  verifyShapeAny "positions" positions [some atomicNumbers.elements.length, some 3]
  verifyPositionsAny "positions" positions

/-- `verify_trajectory(lattice, atomic_numbers, positions_ts)`, io/_utils.py L80-97. -/
def verifyTrajectoryAny (lattice atomicNumbers positionsTs : PyVal) : Except ArgErr Unit := do
  verifyShapeAny "lattice" lattice [some 3, some 3]
  verifyListLenAny 256 "atomic_numbers" atomicNumbers none
  verifyAtomicNumbers atomicNumbers.elements
  verifyShapeAny "positions_ts" positionsTs [none, some atomicNumbers.elements.length, some 3]
  if outOfRange positionsTs.entries then .error (.range "positions_ts") else .ok ()

/-- `pathify(filepath)`, io/_utils.py L36-44: `Path(...)` takes strings and paths. -/
def pathifyAny : PyVal → Except ArgErr Path
  | .str s => .ok s
  | .path s => .ok s
  | v => .error (.notAPath v)

/-- `pathify_as_list(filepaths)`, io/_utils.py L47-59. -/
def pathifyAsListAny : PyVal → Except ArgErr (List Path)
  | .list l => if l.length = 0 then .error .emptyPaths else l.mapM pathifyAny
  | v => do
    let p ← pathifyAny v
    return [p]

/-! ## Numbers -/

/-- Value of a text read by `float(text)` as something that is not finite. -/
def nonFiniteValue (s : List Char) : Flt :=
  let (neg, s) := signPart (strip s)
  if s.map Char.toLower = ['n', 'a', 'n'] then .nan else if neg then .negInf else .posInf

/-- `float(value)`; the first error is a `TypeError`. -/
def floatAny : PyVal → Except (Option ArgErr) Flt
  | .bool b => .ok (.fin (if b then 1 else 0))
  | .int n => .ok (.fin n)
  | .float x => .ok x
  | .str s =>
    match parseFloat s with
    | none => .error (some .notANumber)
    | some (some q) => .ok (.fin q)
    | some none => .ok (nonFiniteValue s)
  | .array _ [x] => .ok x
  | _ => .error none

/-- `if value <= 0` (`none`: `TypeError`). -/
def leZeroAny : PyVal → Except (Option ArgErr) Bool
  | .bool b => .ok (!b)
  | .int n => .ok (decide (n ≤ 0))
  | .float x => .ok (x.leFin 0)
  | .array _ data =>
    match arrayTruth (data.map fun x => x.leFin 0) with
    | .ok b => .ok b
    | .error _ => .error (some .ambiguousTruth)
  | _ => .error none

/-- The block `try: if value <= 0: raise ValueError … except TypeError: raise get_type_error(…)`:
temperature and laser wavenumber (_raman.py L31-35, L61-65), width (spectrum/utils.py L50-54). -/
def requirePositive (name : String) (value : PyVal) : Except ArgErr Unit :=
  match leZeroAny value with
  | .ok true => .error (.notPositive name)
  | .ok false => .ok ()
  | .error none => .error (getTypeError name value "float")
  | .error (some e) => .error e

/-! ## Constructors and setters -/

/-- Checks of `Phonons.__init__`, dynamics/_phonon.py L37-43. -/
def phononsArgs (refPositions wavenumbers displacements : PyVal) : Except ArgErr Unit := do
  verifyShapeAny "ref_positions" refPositions [none, some 3]
  verifyShapeAny "wavenumbers" wavenumbers [none]
  verifyShapeAny "displacements" displacements
    [some (((wavenumbers.shape?).getD []).prod), some (((refPositions.shape?).getD []).headD 0), some 3]

/-- `Trajectory.__init__`, dynamics/_trajectory.py L37-46: the time step stored. -/
def trajectoryArgs (positionsTs timestep : PyVal) : Except ArgErr Flt := do
  verifyShapeAny "positions_ts" positionsTs [none, none, some 3]
  match floatAny timestep with
  | .error none => .error (getTypeError "timestep" timestep "float")
  | .error (some e) => .error e
  | .ok t => if t.leFin 0 then .error (.notPositive "timestep") else .ok t

/-- Checks of `PhononRamanSpectrum.__init__`, spectrum/_raman.py L92-95. -/
def phononSpectrumArgs (phononWavenumbers ramanTensors : PyVal) : Except ArgErr Unit := do
  verifyShapeAny "phonon_wavenumbers" phononWavenumbers [none]
  verifyShapeAny "raman_tensors" ramanTensors
    [some (((phononWavenumbers.shape?).getD []).headD 0), some 3, some 3]

/-- `MDRamanSpectrum.__init__`, spectrum/_raman.py L212-216: the time step stored. -/
def mdSpectrumArgs (polarizabilityTs timestep : PyVal) : Except ArgErr PyVal := do
  verifyShapeAny "polarizability_ts" polarizabilityTs [none, some 3, some 3]
  return timestep

/-- Checks of `ReferenceStructure.__init__`, structure/_reference.py L106-108. -/
def refStructureArgs (atomicNumbers lattice positions : PyVal) : Except ArgErr Unit := do
  verifyListLenAny 256 "atomic_numbers" atomicNumbers none
  verifyShapeAny "lattice" lattice [some 3, some 3]
  verifyShapeAny "positions" positions [some atomicNumbers.elements.length, some 3]

/-- `InterpolationModel.__init__`, pmodel/_interpolation.py L106-111: the reference polarizability
stored. -/
def interpolationArgs (refPolarizability : PyVal) (isDummy : Bool) : Except ArgErr PyVal := do
  let p := if isDummy then .array [3, 3] (List.replicate 9 (.fin 0)) else refPolarizability
  verifyShapeAny "ref_polarizability" p [some 3, some 3]
  return p

/-- Setter of `InterpolationModel.mask`, pmodel/_interpolation.py L188-189, for `J` degrees of freedom. -/
def maskArgs (J : ℕ) (value : PyVal) : Except ArgErr Unit := verifyShapeAny "mask" value [some J]

/-- Checks of `PolarizabilityDataset.__init__`, dataset/torch/_dataset.py L95-100. -/
def datasetArgs (lattice atomicNumbers positions polarizabilities : PyVal) : Except ArgErr Unit := do
  verifyShapeAny "lattice" lattice [some 3, some 3]
  verifyListLenAny 256 "atomic_numbers" atomicNumbers none
  verifyShapeAny "positions" positions [none, some atomicNumbers.elements.length, some 3]
  verifyShapeAny "polarizabilities" polarizabilities
    [some (((positions.shape?).getD []).headD 0), some 3, some 3]

/-- Checks of `scale_polarizabilities`, dataset/torch/_dataset.py L209-210. -/
def scaleArgs (mean stddev : PyVal) : Except ArgErr Unit := do
  verifyShapeAny "mean" mean [some 3, some 3]
  verifyShapeAny "mean" stddev [some 3, some 3]

/-- Checks of `convolve_spectrum` with a given output grid, spectrum/utils.py L47-55. -/
def convolveArgs (outWavenumbers wavenumbers intensities width : PyVal) : Except ArgErr Unit := do
  verifyShapeAny "out_wavenumbers" outWavenumbers [none]
  verifyShapeAny "wavenumbers" wavenumbers [none]
  verifyShapeAny "intensities" intensities [some (((wavenumbers.shape?).getD []).headD 0)]
  requirePositive "width" width
  verifyNdarrayAny "out_wavenumbers" outWavenumbers

end Verif
