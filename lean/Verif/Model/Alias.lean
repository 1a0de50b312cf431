import Verif.Model.Base

/-!
# Sharing of arrays between objects and their users

The other models treat arrays as values.  Here arrays live in a heap and objects hold addresses, to
model which methods hand out copies and which hand out the array of the object itself.  The contents
of arrays are an arbitrary type `V`; results of computations are parameters of the methods.

Files: `/repo/ramannoodle/structure/_reference.py`, `dynamics/_phonon.py`, `dynamics/_trajectory.py`,
`spectrum/_raman.py`, `pmodel/_interpolation.py`, `dataset/torch/_dataset.py`.
-/

namespace Verif.Alias


/-- The contents of all arrays; the address of an array is its index. -/
abbrev Heap (V : Type) := List V

variable {V : Type}

/-- A new array. -/
def alloc (h : Heap V) (v : V) : ℕ × Heap V := (h.length, h ++ [v])

/-- `a.copy()` (or `clone`, `copy.copy`, `copy.deepcopy` of an array). -/
def copy (h : Heap V) (a : ℕ) : ℕ × Heap V :=
  match h[a]? with
  | some v => alloc h v
  | none => (h.length, h)

/-- Copies of several arrays (`copy.deepcopy` of a list of arrays or of an object). -/
def copyAll (h : Heap V) : List ℕ → List ℕ × Heap V
  | [] => ([], h)
  | a :: as =>
    let r := copy h a
    let rs := copyAll r.2 as
    (r.1 :: rs.1, rs.2)

/-- Writing into an array. -/
def write (h : Heap V) (a : ℕ) (f : V → V) : Heap V := h.modify a f

/-- Classes of the library whose objects hold arrays. -/
inductive Cls
  | referenceStructure
  | phonons
  | trajectory
  | phononSpectrum
  | mdSpectrum
  | model
  | dataset
  deriving DecidableEq

/-- An object: its class and the addresses of its arrays, in the following order.
ReferenceStructure: `_atomic_numbers`, `_lattice`, `_positions` (_reference.py L110-112).
Phonons: `_ref_positions`, `_wavenumbers`, `_displacements` (_phonon.py L44-46).
Trajectory: `_positions_ts` (_trajectory.py L45).
PhononRamanSpectrum: `_phonon_wavenumbers`, `_raman_tensors` (_raman.py L96-97).
MDRamanSpectrum: `_polarizability_ts` (_raman.py L215).
InterpolationModel: the three arrays of `_ref_structure`, `_ref_polarizability`, `_mask`, then
`_cart_basis_vectors` and the arrays of `_interpolations` (_interpolation.py L110-115).
PolarizabilityDataset: `_lattices`, `_atomic_numbers`, `_positions`, `_polarizabilities`,
`_scaled_polarizabilities` (_dataset.py L103-113). -/
structure Obj where
  cls : Cls
  attrs : List ℕ
  deriving DecidableEq

/-- Methods that are not meant to change the object. -/
inductive Method (V : Type)
  | atomicNumbers | lattice | positions
  | refPositions | wavenumbers | displacements
  | phononsSpectrum (tensors : V)
  | positionsTs | getItem | trajectorySpectrum (polarizabilities : V)
  | phononWavenumbers | ramanTensors | measure (intensities : V)
  | polarizabilityTs | mdMeasure (wavenumbers intensities : V)
  | refStructure | refPolarizability | cartBasisVectors | mask | maskedModel (newMask : V)
  | datasetAtomicNumbers | datasetPositions | datasetPolarizabilities | datasetScaled | sample

/-- Outcome of a call: heap, returned arrays whose documentation says that they are copies, other
returned arrays, returned objects. -/
structure Outcome (V : Type) where
  heap : Heap V
  copies : List ℕ
  refs : List ℕ
  objs : List Obj

/-- A getter that returns `self._x.copy()`. -/
def getCopy (h : Heap V) (a : ℕ) : Outcome V := ⟨(copy h a).2, [(copy h a).1], [], []⟩

/-- Constructor of a class: the arguments are stored without copying them (_reference.py L110-112,
_phonon.py L44-46, _raman.py L96-97 and L215). -/
def construct (c : Cls) (args : List ℕ) : Obj := ⟨c, args⟩

/-- `Trajectory.__init__`, _trajectory.py L45: the positions are stored as the new array returned by
`apply_pbc`. -/
def newTrajectory (pbc : V → V) (h : Heap V) (positions : ℕ) : Option (Obj × Heap V) :=
  (h[positions]?).map fun v => (⟨.trajectory, [(alloc h (pbc v)).1]⟩, (alloc h (pbc v)).2)

/-- The methods. -/
def run (h : Heap V) (o : Obj) : Method V → Option (Outcome V)
  -- ReferenceStructure.atomic_numbers, lattice, positions: _reference.py L127-157
  | .atomicNumbers => match o with
    | ⟨.referenceStructure, [n, _, _]⟩ => some (getCopy h n)
    | _ => none
  | .lattice => match o with
    | ⟨.referenceStructure, [_, l, _]⟩ => some (getCopy h l)
    | _ => none
  | .positions => match o with
    | ⟨.referenceStructure, [_, _, p]⟩ => some (getCopy h p)
    | _ => none
  -- Phonons.ref_positions, wavenumbers, displacements: _phonon.py L48-80
  | .refPositions => match o with
    | ⟨.phonons, [p, _, _]⟩ => some (getCopy h p)
    | _ => none
  | .wavenumbers => match o with
    | ⟨.phonons, [_, w, _]⟩ => some (getCopy h w)
    | _ => none
  | .displacements => match o with
    | ⟨.phonons, [_, _, d]⟩ => some (getCopy h d)
    | _ => none
  -- Phonons.get_raman_spectrum: _phonon.py L108, the spectrum holds the array of the phonons
  | .phononsSpectrum tensors => match o with
    | ⟨.phonons, [_, w, _]⟩ =>
      let r := alloc h tensors
      some ⟨r.2, [], [], [construct .phononSpectrum [w, r.1]]⟩
    | _ => none
  -- Trajectory.positions_ts: _trajectory.py L48-58
  | .positionsTs => match o with
    | ⟨.trajectory, [p]⟩ => some (getCopy h p)
    | _ => none
  -- Trajectory.__getitem__: _trajectory.py L105, a view
  | .getItem => match o with
    | ⟨.trajectory, [p]⟩ => some ⟨h, [], [p], []⟩
    | _ => none
  -- Trajectory.get_raman_spectrum: _trajectory.py L90
  | .trajectorySpectrum polarizabilities => match o with
    | ⟨.trajectory, [_]⟩ =>
      let r := alloc h polarizabilities
      some ⟨r.2, [], [], [construct .mdSpectrum [r.1]]⟩
    | _ => none
  -- PhononRamanSpectrum.phonon_wavenumbers, raman_tensors: _raman.py L99-119
  | .phononWavenumbers => match o with
    | ⟨.phononSpectrum, [w, _]⟩ => some (getCopy h w)
    | _ => none
  | .ramanTensors => match o with
    | ⟨.phononSpectrum, [_, t]⟩ => some (getCopy h t)
    | _ => none
  -- PhononRamanSpectrum.measure: _raman.py L194
  | .measure intensities => match o with
    | ⟨.phononSpectrum, [w, _]⟩ =>
      let r := alloc h intensities
      some ⟨r.2, [], [w, r.1], []⟩
    | _ => none
  -- MDRamanSpectrum.polarizability_ts: _raman.py L218-227
  | .polarizabilityTs => match o with
    | ⟨.mdSpectrum, [p]⟩ => some ⟨h, [p], [], []⟩
    | _ => none
  -- MDRamanSpectrum.measure: _raman.py L241-309, new arrays
  | .mdMeasure wavenumbers intensities => match o with
    | ⟨.mdSpectrum, [_]⟩ =>
      let r := alloc h wavenumbers
      let r' := alloc r.2 intensities
      some ⟨r'.2, [], [r.1, r'.1], []⟩
    | _ => none
  -- InterpolationModel.ref_structure: _interpolation.py L117-120, a deep copy
  | .refStructure => match o with
    | ⟨.model, n :: l :: p :: _⟩ =>
      let r := copyAll h [n, l, p]
      some ⟨r.2, [], [], [⟨.referenceStructure, r.1⟩]⟩
    | _ => none
  -- InterpolationModel.ref_polarizability: L122-131
  | .refPolarizability => match o with
    | ⟨.model, _ :: _ :: _ :: a :: _⟩ => some (getCopy h a)
    | _ => none
  -- InterpolationModel.cart_basis_vectors and interpolations: L138-160, deep copies
  | .cartBasisVectors => match o with
    | ⟨.model, _ :: _ :: _ :: _ :: _ :: bs⟩ =>
      let r := copyAll h bs
      some ⟨r.2, r.1, [], []⟩
    | _ => none
  -- InterpolationModel.mask: L162-172
  | .mask => match o with
    | ⟨.model, _ :: _ :: _ :: _ :: m :: _⟩ => some (getCopy h m)
    | _ => none
  -- InterpolationModel.get_masked_model: L697-708, a deep copy with a new mask
  | .maskedModel newMask => match o with
    | ⟨.model, n :: l :: p :: a :: _ :: bs⟩ =>
      let r := copyAll h (n :: l :: p :: a :: bs)
      let m := alloc r.2 newMask
      match r.1 with
      | n :: l :: p :: a :: bs => some ⟨m.2, [], [], [⟨.model, n :: l :: p :: a :: m.1 :: bs⟩]⟩
      | _ => none
    | _ => none
  -- PolarizabilityDataset.atomic_numbers: _dataset.py L125-134, a new list
  | .datasetAtomicNumbers => match o with
    | ⟨.dataset, [_, n, _, _, _]⟩ => some (getCopy h n)
    | _ => none
  -- PolarizabilityDataset.positions, polarizabilities, scaled_polarizabilities: _dataset.py L136-168
  | .datasetPositions => match o with
    | ⟨.dataset, [_, _, p, _, _]⟩ => some (getCopy h p)
    | _ => none
  | .datasetPolarizabilities => match o with
    | ⟨.dataset, [_, _, _, q, _]⟩ => some (getCopy h q)
    | _ => none
  | .datasetScaled => match o with
    | ⟨.dataset, [_, _, _, _, s]⟩ => some (getCopy h s)
    | _ => none
  -- PolarizabilityDataset.__getitem__: _dataset.py L223-230, views
  | .sample => match o with
    | ⟨.dataset, [l, n, p, _, s]⟩ => some ⟨h, [], [l, n, p, s], []⟩
    | _ => none

/-- `InterpolationModel.mask` setter: _interpolation.py L189, the argument itself is stored. -/
def setMask (o : Obj) (value : ℕ) : Option Obj :=
  match o with
  | ⟨.model, n :: l :: p :: a :: _ :: bs⟩ => some ⟨.model, n :: l :: p :: a :: value :: bs⟩
  | _ => none

/-- `InterpolationModel.unmask`: _interpolation.py L710-712, writes into the array of the mask. -/
def unmask (clear : V → V) (h : Heap V) (o : Obj) : Option (Heap V) :=
  match o with
  | ⟨.model, _ :: _ :: _ :: _ :: m :: _⟩ => some (write h m clear)
  | _ => none

/-- A program that uses the library: arrays returned so far (those documented as copies, others) and
objects. -/
structure World (V : Type) where
  heap : Heap V
  objs : List Obj
  copies : List ℕ
  refs : List ℕ

/-- One action of a program. -/
inductive Action (V : Type)
  | call (obj : ℕ) (m : Method V)
  | writeCopy (k : ℕ) (f : V → V)
  | writeRef (k : ℕ) (f : V → V)

/-- Effect of an action; calls that fail and writes into arrays that do not exist change nothing. -/
def World.step (w : World V) : Action V → World V
  | .call k m =>
    match w.objs[k]? with
    | none => w
    | some o =>
      match run w.heap o m with
      | none => w
      | some r => ⟨r.heap, w.objs ++ r.objs, w.copies ++ r.copies, w.refs ++ r.refs⟩
  | .writeCopy k f =>
    match w.copies[k]? with
    | none => w
    | some a => { w with heap := write w.heap a f }
  | .writeRef k f =>
    match w.refs[k]? with
    | none => w
    | some a => { w with heap := write w.heap a f }

/-- A whole program. -/
def World.exec (w : World V) (history : List (Action V)) : World V := history.foldl World.step w

/-- What can be observed of an object: the contents of its arrays. -/
def Obj.state (h : Heap V) (o : Obj) : List (Option V) := o.attrs.map fun a => h[a]?

end Verif.Alias
