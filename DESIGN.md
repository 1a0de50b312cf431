# Formal model of ramannoodle: design

The subject is the Python package in `/repo/ramannoodle` (pinned commit).  It is only
read as text.  The model and the proofs are in Lean 4 (`lean/Verif`).

## Layout

* `lean/Verif/Model/*.lean` -- executable-style model of the code, function by function.
  Every definition cites the file and lines it mirrors and says where it simplifies.
* `lean/Verif/Spec/*.lean` -- vocabulary used to *state* properties (integer congruence,
  in-cell, partition, Raman invariants ...), written without reference to the model.
* `lean/Verif/Proofs/*.lean` -- helper lemmas.
* `lean/Verif/Props/*.lean` -- one theorem (or a few) per property of
  `properties.jsonl`, named `C01_...`, each followed by concrete `example`s that
  instantiate its hypotheses.

## Modelling conventions

* **Numbers.** NumPy floats are modelled by exact ordered-field arithmetic (`ℝ`, or a
  generic linearly ordered field with floor so that examples can be evaluated over `ℚ`).
  Floating-point error is out of scope except in C06 and C133 (`apply_pbc` and displacements), C149
  (intensities) and C155 (predictions and Raman tensors), where the functions are re-modelled with an
  arbitrary monotone rounding after every operation.
* **NaN.** Where the code can divide by a zero norm the result is `Option` valued
  (`none` = NaN array) and comparisons with NaN are false, as in NumPy.
* **Arrays.** Where shapes are already validated arrays are functions
  `Fin N → Fin 3 → K` or Mathlib matrices.  Shape validation and broadcasting are
  modelled separately on shape lists.
* **Exceptions** are values (`PyErr`).  Stateful methods are modelled as
  `state → result × state`, the state being returned *also on error*, so that failure
  atomicity is not true by construction.
* **Files** are `Path → Option (List Char)`; writes are sequences of effects so that
  every crash point is a prefix.  Text is `List Char`; numbers in text are `ℚ`.
* **Text numbers.** A float read from text is `Num = Option ℚ` (`none` is `nan`/`inf`); exact
  rationals instead of doubles.  Only ASCII digits are recognised in numbers; white space is that of `str.split`.
* **External code** (spglib, `make_interp_spline`, the XML parser, neural-network
  layers, optimizers) is a parameter of the model; every assumption about it is an
  explicit hypothesis of the theorem.

## Trusted base

Lean 4.33.0 kernel; Mathlib; axioms `propext`, `Classical.choice`, `Quot.sound` only
(checked with `#print axioms`).  No `sorry`, no own axioms, no `native_decide`,
no `bv_decide`.  The correspondence between the Lean model and the Python text is by
inspection (citations in comments).

Mathlib is used as a library of checked proofs; it adds no axioms.  Lean's `autoImplicit` is on by
default in the given lakefile; all modules have also been compiled with `autoImplicit false`, so no
misspelt name is silently a variable.

## What is modelled

| file | modelled | not modelled |
|------|----------|--------------|
| `structure/utils.py` | everything (also with rounding for `apply_pbc`) | -- |
| `structure/_symmetry_utils.py` | everything | rounding inside the tolerance comparisons |
| `structure/_reference.py` | constructor, permutation matrices, equivalent atoms and displacements, conversions, `get_atom_indexes` | spglib itself (parameter), `num_atoms` |
| `structure/_displace.py` | everything (arrays of other sizes in `Model/DisplaceRows.lean`) | directions with more than one dimension |
| `pmodel/_interpolation.py` | constructor, `calc_polarizabilities`, masks, `add_dof*`, `_get_dof`, `_construct_and_add_interpolations`, `_read_dof`, pymatgen entry points, `__repr__`; `add_dof` also for displacements with another number of rows (`Model/DofRows.lean`); `add_dof_from_files`/`add_art_from_files` from the paths on (`Model/DofPaths.lean`, with tensors of any shape); data that are not finite (`Model/NonFinite.lean`) | SciPy's spline construction (parameter `SplineFn`) |
| `pmodel/_art.py` | everything | `tabulate` and `np.array2string` (parameters of `__repr__`) |
| `pmodel/torch/_utils.py` | everything | autograd |
| `pmodel/torch/_gnn.py` | constructor validation, buffers, graph construction, message-passing blocks, edge polarizability, `forward`, `calc_polarizabilities`, all layers over the reals, batch normalisation in both modes (`Model/GnnTrain.lean`) | rounding, `reset_parameters`, `dimenet` helpers beyond `triplets`, autograd |
| `pmodel/torch/_train.py` | `train_single_epoch` as a state machine | torch's optimizers, losses and samplers (parameters with contracts), device placement |
| `dynamics/*` | everything | `measure` plumbing beyond what C46-C48 use |
| `spectrum/*` | everything (phonon intensities and convolution also with every operation rounded, `Model/SpectrumRounding.lean`) | FFT rounding (the DFT is exact) |
| `io/vasp/*.py` | all readers and writers on text and XML trees | the XML tokenizer (undecodable text files are in `Model/Undecodable.lean`), OS errors other than missing or existing files |
| `io/generic.py`, `io/_utils.py` | dispatch tables, dataset reading, writers | progress bars |
| `io/pymatgen.py` | everything, on the attributes the code reads | pymatgen itself |
| `dataset/torch/*` | scaling, conversion, dataset construction, getters, items and rescaling; floating point types and rounding (`Model/Dtype.lean`) | integer arrays, overflow in conversions, device placement |
| `exceptions.py` | everything; message texts in `Model/Messages.lean`, arguments of any type in `Model/DynamicArgs.lean` | the messages about missing packages |
| `constants.py` | all tables | -- |
| sharing of arrays | getters, setters and constructors of the public classes on a heap of arrays | -- |

Simplifications that recur: argument types (a string where an array is expected) are excluded by
typing, except in `Model/DynamicArgs.lean`, which models the argument checks on arbitrary values; `Path` is a resolved path; `MemoryError`, full disks and interpreter limits are ignored;
a branch outside the model returns `PyErr.unmodelled`, and no theorem concludes anything from it.

## Plan per property

| id | modelled code | how it is proved |
|----|---------------|------------------|
| C01-C05 | `structure/utils.py` over an ordered field with floor | `Int.fract`/floor algebra; matrix algebra for composition |
| C06 | same with rounding `rnd` after each operation | monotonicity; witness rounding for the negative part |
| C07-C10 | `structure/_symmetry_utils.py` over `ℝ`, NaN as `none` | norm algebra; Gram determinant for C10 |
| C11-C13 | `_get_positions_permutation_matrix`, `_compute_permutation_matrices` | decidable relation = graph of bijection |
| C14-C16 | loop of `get_equivalent_displacements` as a fold | loop invariants |
| C17, C20 | dictionary loops on lists | induction with partition invariant |
| C18, C19 | lattice conversions | matrix inverse algebra; witnesses |
| C21-C24 | `_displace.py`, `verify_list_len` (CPython small-int cache), file system | induction on amplitudes/files |
| C25-C40 | `_interpolation.py` as state machine; spline routine a parameter (plus concrete linear spline) | invariants over histories; counterexamples for C36, C38, C40; exact limits of C19, C36, C40, C43 in `ExactLimits.lean` |
| C41-C45 | `_art.py` | state machine invariants |
| C46-C48 | `dynamics/*` | algebra; Python slice model |
| C49-C55 | `spectrum/_raman.py`, `spectrum/utils.py` | trace identities, orthogonal invariance, DFT identity, `Real.exp` monotonicity |
| C56-C58 | `convolve_spectrum` | list sums; Gaussian and Cauchy integrals from Mathlib |
| C59-C66 | POSCAR/XDATCAR writers and readers on `List Char` | parser/printer round trip by induction |
| C67-C70 | OUTCAR readers on lines/tokens | state machine on line lists |
| C71, C72 | vasprun readers on an XML tree type | structural |
| C73 | generic dispatch | case analysis on tables |
| C74-C77 | dataset code | algebra, induction over file list |
| C78-C87 | torch utilities and GNN with arbitrary weights | matrix algebra; index arithmetic |
| C88 | training loop as a state machine with abstract optimizer | induction |
| C89, C92 | shape lists | induction |
| C90 | the full element tables transcribed; a periodic table written independently (`Spec/PeriodicTable.lean`) | `decide` over the complete finite table (exhaustive, not a sample) |
| C91 | heap model of arrays and views | invariants over histories of reads/mutations |
| C93-C97 | readers on arbitrary files and trees | error sets by induction over lines / children |
| C98, C99 | GNN constructor; losses of an epoch | case analysis; list sums |
| C100-C105 | pymatgen entry points | equality with the file entry points; induction over lists |
| C106, C107 | specification tuples; number of degrees of freedom | list reasoning; diagonal dominance of the Gram matrix and rank |
| C108, C109 | automatic grid; partial spectra | arithmetic of `rint` and `linspace`; linearity of the expansion in the mask |
| C110 | dataset items and statistics | list reasoning |
| C111 | string representations (`tabulate`, `np.array2string` are parameters) | unique decomposition of the text at non-digits |
| C112 | displaced structures → files → model → predictions | composition of C21, `_read_dof`, C32 |
| C113 | lines, words and number literals of arbitrary text | grammar as inductive predicates, equivalence with the scanners |
| C114, C115 | exact layout of POSCAR files | reader = relation on numbered lines |
| C116 | exact layout of XDATCAR files | induction over configurations |
| C117 | degrees of freedom from files | C09 and minimum images |
| C118 | Raman tensors of interpolation and ART models | C28 at two displaced structures, polynomial identity |
| C119 | predictions at the reference structure | C28 at the reference; knots of `add_art` |
| C120 | predictions transform like tensors under symmetry | carried displacements; images of a clean displacement form groups permuted by every operation; counterexample otherwise |
| C121 | trajectory spectra: pointwise, in time order; periodic images, frozen and reversed series | periodicity of the model; reindexing the quadratic form of the MD intensities |
| C122 | displaced single atoms to ART models and back | composition of the displacement workflow, file reading and `add_art` |
| C123 | zero displacements are refused | NaN propagated as `none` |
| C124 | spglib's operations (columns) against the code's use of them (rows) | congruences modulo the lattice; two crystals on a grid of twentieths evaluated by `decide` |
| C125 | layers of the GNN | real analysis of exp, log, tanh |
| C126 | `forward` against message passing on an abstract graph (`Spec.Wiring`, `Spec.predict`) | lists as functions, sums over fibres |
| C127 | renumbered reference structures | bijections of edges and triplets; sums reindexed; for the set order a network whose prediction is a strictly increasing function of the features of one element |
| C128 | size of predictions | tanh bounds, finite sums |
| C129 | rotated and reflected structures | matrix algebra; counterexample with two atoms |
| C130 | error of the central difference | mean value inequalities, cubic witness |
| C131 | iteration, `reversed`, `in` | `Sequence` mixins by well-founded recursion |
| C132 | training mode of the network | reduction to evaluation with the statistics of the batch; invariants of gradient descent |
| C133 | error bounds of the rounded functions of C06 | coordinatewise, errors add up along the operations |
| C134 | OUTCAR as consecutive titled parts (`Spec/OutcarFile.lean`) | each reader characterised by an iff, composed |
| C135 | `vasprun.xml` as chains of children (`Spec/Vasprun.lean`) | same |
| C136 | ionic steps as an inductive relation on lines (`Spec/OutcarSeries.lean`) | loop sound and complete for the relation; inverse of a finite lattice |
| C137 | modes as an inductive relation on lines (`Spec/OutcarSeries.lean`) | same |
| C138 | `vasprun.xml` as chains of children (`Props/VasprunSeries.lean`) | readers characterised by iffs, composed |
| C139 | rounding to 16 decimals, position in the cell (`Spec.RoundedVec`, `Spec.RoundedInCell`) | writers succeed, readers invert them up to rounding; rounding idempotent |
| C140 | random orientation: distribution unchanged by rotations (`Spec/Orientation.lean`) | averages over axes and space diagonals agree by invariance, a quadrature identity gives their value; Haar measure shows such distributions exist |
| C141 | trajectories of harmonic vibrations (`Spec/Harmonic.lean`) | orthogonality of sampled cosines; Parseval's identity |
| C142 | change of frame (`Proofs/Frame.lean`: `inFrame`) | split into geometry (always covariant) and tensors (covariant when the operations commute with the rotation) |
| C143 | change of origin (`Spec/Origin.lean`: `MovedBy`, `MovedOperation`) | candidates are computed from positions only up to lattice translations, so the move cancels when the operation is moved as rows are |
| C144 | order of calls (lists up to permutation) | what a successful call appends depends only on the reference structure, polarizability and dummy flag, not on what the model already holds |
| C145 | numbering of the atoms (largest components, images of a displacement) | the whole chain commutes with reordering, except that the ratio of two images is read at the first of their largest components |
| C146 | characters and parity of vibrations (`Spec/Selection.lean`) | difference quotients of corresponding degrees of freedom; C120 for models built by `add_dof` |
| C147 | rigid translations | pairing with the net displacement; witness with one atom |
| C148 | orthogonal mixing of degenerate vibrations | weighted sums of squares of linear forms; witness with a cubic response |
| C149 | floats that are not negative numbers | every operation rounded (`Model/SpectrumRounding.lean`), monotone rounding; accuracy by counting roundings, the cancelling trace bounded by the anisotropy |
| C150 | distances up to periodic images | continuity of finite sums, Cauchy-Schwarz; witness at half a cell |
| C151 | same degrees of freedom up to order and signs (`Spec/OperationOrder.lean`) | both runs see the same images; group heads match up to sign, points match as sets; witness with the mirror listed before the identity; a group holds its head and at most its opposite, so amplitudes, checks and warnings agree and a script accepted for one order is accepted for all (`C151_success`, `C151_scripts_partial`, `C151_accepted_iff`); for all six entry points when the operations form a group (`C151_call`, `C151_any_script_partial`, `C151_any_accepted_iff`): all groups of images are then equally large, which matters because the file and pymatgen variants of `add_art` count the points of the first group only |
| C152 | tuple notation written from scratch (`Spec.tupleText`) | loop unrolled; digits never contain separators, so texts split uniquely |
| C153 | lists of lines, permutations of pairs | frequencies are proportional to 1/dt; the real DFT is symmetric, so the negative half carries the same intensities |
| C154 | the same atoms in two cells, up to lattice vectors | integer matrices map lattice vectors to lattice vectors; nearest images agree in both half boxes; witness in a sheared cell |
| C155 | error bounds given as formulas (`Spec/PredictionError.lean`) | computed values as a relation covering all summation orders (`Model/InterpolationRounding.lean`); errors propagate through displacement, matrix product, amplitude, spline and accumulation; witness next to half a cell |
| C156 | `Spec.ClearBond` (`Spec/Graph.lean`), Mathlib's `ContDiffAt`, `HasDerivAt` | every layer is smooth (`Proofs/GnnSmooth.lean`), geometry of an edge is a smooth function where its image does not change; closed formula of C126; witness at half a cell |
| C157 | `Spec.Shortened`, `Spec.LastShortened`, `Spec.RoundedVec` (`Spec/Text.lean`) | every prefix of the text is split at header, lattice, elements, coordinates; what is left of the last number is a prefix of its digits (`Proofs/Crash.lean`) |
| C158 | `Spec.Denotes` (`Spec/Literal.lean`), a grammar of string literals | induction over the label, one case per kind of character; uniqueness by induction over the grammar |
| C159 | `Spec.AllTriplets` (already used by C127) and a sum over the edges that continue an edge | membership in and absence of repetitions from the list of paths |
| C160 | `Spec.FramesShortened` (`Spec/Text.lean`); the file of the first `j` configurations | induction over the configurations; the message of a damaged row is never the one that ends the file |
| C161 | `Spec.Rounding`, `Spec.EntriesIn` (`Props/Dtype.lean`) | types and entries computed through tensor operations that round; agreement with the dataset over the reals without rounding; five samples as a witness |
| C162 | `Spec.CrashedAt`, `Spec.ReadsAs`, `Spec.RejectedOrCut` (`Props/CrashDisplaced.lean`) | induction over the files; finished files are not touched again because the paths differ |
| C163 | `Spec.Attempted` (`Props/Retry.lean`) | attempts only touch the paths of the call; writing from two file systems that agree elsewhere ends in the same file system |
| C164 | `Spec.Refused`, `Spec.RigidShift` (`Props/DofRows.lean`) | NumPy's shape rules in front of each step; candidates of a uniform displacement are uniform (C13) |
| C165 | modulo lattice vectors as in C21 | NumPy's broadcasting in front of the documented cases; a single row is a uniform displacement |
| C166 | translated configurations (`Spec/Gnn.lean`), distance to the mean in standard deviations | C86, C127 and C128 lifted through the sub-batches and the rescaling; the state is threaded by induction |
| C167 | descriptions of files (`Spec/OutcarFile.lean`, `Spec/Vasprun.lean`, `Spec/Layout.lean`), nearest images, collinearity | the readers are replaced by the descriptions (C114, C134, C135), the loop is followed by induction, then C117 |
| C168 | carried displacements, turned tensors, parity (`Spec/Equivariance.lean`, `Spec/Selection.lean`) | what every entry point adds is a rescaled measured displacement; the permutation of the degrees of freedom (C120) is kept by every call, induction over the script |
| C169 | argument checks on values of any type (`Model/DynamicArgs.lean`) | reports of the first wrong argument (`Spec/Arguments.lean`) compose along the sequence of checks; case analysis over the kinds of values |
| C170 | dummy models (two models run side by side) | a relation between models (same structure, basis vectors, mask) and between calls (same but for polarizabilities) is preserved by every call; only the number of points and the amplitudes decide |
| C171 | OUTCAR, POSCAR and XDATCAR readers on files with undecodable bytes (`Model/Undecodable.lean`) | every reader is settled by the lines before the bytes or blames them, composed reader by reader; the exception for every place of the first undecodable byte in a POSCAR and in the tables of an OUTCAR; on valid files the readers are those of the other models |
| C172 | in-place operations on integer arrays (`Model/ElementTypes.lean`) | the typed functions agree with the real-valued ones for floating-point arrays; truncation of components below one |
| C173 | masks of numbers (`Model/ElementTypes.lean`) | the loop with weights as a weighted sum; affine in the mask |
| C174 | `convolve_spectrum` as in C56-C58 | closed forms of the lines; variance of the normal distribution from Mathlib; squeeze for the limit |
| C175 | corrections as in C51, C52 | `1 + x < exp x`; squeeze for the limits |
| C176 | signal and trajectory spectra as in C53, C54 | orthogonality of cosines, symmetry of frequencies, linear functionals of the tensors |
| C177 | `Model/NonFinite.lean`: `add_dof` on floats with NaN and infinities, tensors with such entries as `none`; SciPy's `check_finite` | non-finite entries survive scaling and rotation; lockstep with the finite run |
| C178 | `Model/NanSpectrum.lean`: spectra with entries that may be NaN, SciPy's correlation as a parameter (`Spec/NanSpectrum.lean`) | the zero lag is NaN, hence the transform; NaN of a batch by blocks of 100; lockstep with the finite run |
| C179 | `Model/DofPaths.lean`: shapes of tensors, broadcasting against the equilibrium polarizability (`Spec/TensorShapes.lean`) | the run with repeated tensors is the run on 3x3 matrices; other shapes stop at the subtraction or, for `add_dof_from_files`, at `verify_ndarray_shape` |
| C180 | `Model/Outcar.lean`: files cut off anywhere (`Spec/CutFile.lean`) | every reader is followed on both files at once: results agree, or the cut file has been read to its end; rows after the end are empty and refused by the change to fractional coordinates |
| C181 | `Model/Outcar.lean`: the other readers on files cut off anywhere (`Spec/CutFile.lean`) | as C180; `np.array` refuses rows of different lengths, so missing rows are all rows or none; modes with missing rows are refused by the division by the masses |
| C182 | `Model/Outcar.lean`: readers on files that go on | every reader stops at the first block it needs; only rows after the end of the file, which are empty, depend on what follows |
| C183 | `Model/Poscar.lean`, `Model/XdatcarTrajectory.lean`: files of any origin cut off anywhere (`Spec/CutFile.lean`) | as C180, on text; unlike C157 and C160 nothing is assumed about who wrote the file. The end of an XDATCAR is recognised by a message that may also quote a line of the file (C183_message_needed) |
| C184 | `Model/Poscar.lean`, `Model/XdatcarTrajectory.lean`: text appended to files | every reading function that succeeds on complete lines returns the same value and the longer rest; a failure whose message ends the loop over configurations is the same for the longer text |
| C185 | `Model/OneAtom.lean`: files of any size for a reference structure with one atom | success of the collinearity loop forces equal sizes and a nonzero first displacement; C164 then refuses the rows |

## Known disagreements between documentation and code (found while reading)

Recorded as negative theorems with witnesses (named in brackets) where the model can express them;
the corresponding positive theorem carries the extra hypothesis and the suffix `_partial` where it
falls short of the claim.

Structures and symmetry

1. `get_cart_direction`/`get_frac_direction` wrap *directions* (C19); `add_dof` likewise depends on
   the magnitude of the displacement (C36_scale_counterexample).
2. Symmetry-generated DOFs are tested for orthogonality in fractional coordinates
   (C38_counterexample, hexagonal cell) and the polarizability is rotated with the fractional
   rotation (C40_counterexample).  Images generated by one call are not compared with the basis
   vectors that earlier calls stored.  Therefore even in a cubic cell two calls with orthogonal
   displacements can store basis vectors that are not orthogonal, and the second call changes the
   prediction for the data of the first (C38_cubic_counterexample); with a threefold axis a one-atom
   model ends up with four degrees of freedom (C107_counterexample).  C38_closed_partial and
   C107_at_most_3N_partial name the condition under which neither happens.
3. spglib rotations act on columns, the code multiplies rows, so it applies the transposed rotation with
   the same translation.  In a cell with orthogonal edges of equal length this is a symmetry exactly if
   `t + Rᵀt` is a translation of the crystal (C124_orthogonal_iff): symmorphic operations, operations of
   order two and `4₂` screws are fine, `4₁` screws are not (C124_screw_counterexample), nor are
   threefold rotations in hexagonal coordinates (C124_hexagonal_counterexample).  Unmatched atoms then
   get a displacement to the corner of the cell, whatever the input (C124_unmatched).  The other theorems
   about symmetry use the convention of the code (`IsSymmetry`), i.e. they speak about the operations
   for which this is harmless.
4. A singular lattice gives `LinAlgError` before any documented `ValueError` (C44).

Models

5. Requested atoms `-1` and `N-1` are treated as different (C43_repetition_counterexample); an index
   out of range is not noticed without degrees of freedom.
6. `add_art` does not enforce two amplitudes after symmetry expansion, `add_art_from_files` checks
   only the first group (C44).
7. `add_art_from_pymatgen` never compares the numbers of structures and polarizabilities; a surplus is
   dropped (C101_counterexample).  For a dummy model it uses the supplied polarizabilities.
8. The pymatgen entry points never read lattice and species, and broadcast a single-atom structure
   (C105_counterexample, C105_single_atom).
9. `calc_polarizabilities` accepts broadcastable shapes (C92).
10. The mask setter keeps the caller's array and `unmask` writes into it (C91_mask_setter);
    constructors keep the caller's arrays (C91_constructors).  The docstring of the mask has the meaning
    of True and False reversed.
11. `MDRamanSpectrum.polarizability_ts` and `measure` return internal arrays (C91_md_leak,
    C91_measure_leak); indexing a trajectory returns views.

Spectra

12. `Phonons.get_raman_spectrum` divides a central difference by the step and not by twice the step
    (C46); no phonons at all give `ValueError`.
13. Only the upper triangle of a polarizability is read (C49).
14. Corrections give non-positive intensities for negative wavenumbers and non-finite ones for zero
    (C51); a zero laser wavelength gives `ZeroDivisionError` (C52).
15. The length of the MD spectrum differs from the documentation; fewer than two frames give
    `ZeroDivisionError` (C53).
16. An unknown line shape is accepted when there are no peaks (C58).  An integer output grid fails
    (finding 71).

Files

17. `verify_list_len` compares lengths by identity, so more than 256 files are refused (C23).
18. POSCAR: selective dynamics as last line gives `IndexError`, Cartesian coordinates with a singular
    lattice `LinAlgError`, with no atoms `ValueError`; writing no atoms gives `IndexError`; NaN positions
    pass the check and are written.
19. XDATCAR: the reader decides by the text of an exception whether the file has ended
    (C94_silent_stop).
20. OUTCAR: `ValueError`s of `int()`/`float()` are not converted in several places, ragged rows give
    `ValueError` (C95).
21. vasprun: imaginary modes lose their sign (C71); `IndexError`/`KeyError`/`ValueError` escape (C97).
22. A `KeyError` inside a reader is reported as unsupported format (C73_misreported).
23. Dataset files are compared with the previous file only, so lattices drift without bound
    (C77_drift); the pymatgen constructor compares with the first (C102_no_drift).
24. `construct_ref_structure` refuses coordinates outside `[0,1]`, which pymatgen permits (C103).
25. `construct_trajectory` takes the displacements of displacement-type trajectories for positions
    (C104_counterexample).

Torch

26. A component with zero standard deviation gives non-finite scaled polarizabilities (C75_constant).
27. `get_rotations` returns the identity for the antiparallel target (C78).
28. The radius graph may be asymmetric at exactly half-cell separations (C82_asymmetric).
29. A negative batch size silently loses all samples (C81).
30. Coinciding bonded atoms in one configuration make every prediction of the batch NaN
    (C84_nan_spreads).
31. An edge embedding size of 1 passes validation and then fails with `IndexError` (C98).
32. The validation variance is NaN when the last batch has one sample; the validation loss is a mean of
    batch means (C99).
33. `dimenet`'s `triplets` returns `idx_kj, idx_ji` in this order, but `get_triplets` unpacks
    `index_ji, index_kj`: the names are exchanged, and an edge collects messages from the edges that
    continue it (C159). This rests on `Model/Dimenet.lean`, a model of an external library written
    from memory; no other property uses it.
34. `PolarizabilityDataset.atomic_numbers` raises `IndexError` for an empty dataset although all other
    getters work (C110_statistics).

Workflow

35. The reference structure may not be among the structures given to `add_dof_from_files` (zero
    amplitude), although `get_displaced_positions` accepts amplitude 0 (C112_zero_refused).
36. Collinearity of displacements from files is tested in fractional coordinates, so its tolerance
    depends on the cell (C117; visible from the statement).

POSCAR and XDATCAR layout (visible from C114 and C116)

37. VASP's `k`/`K` marker for Cartesian coordinates is rejected, a negative scale factor is multiplied
    (VASP takes it as the cell volume), and negative counts are read as zero atoms.
38. Anything after the last configuration is ignored once a line starts with a blank, and a line with
    the text of the reader's own message ends a trajectory silently.

Atomic Raman tensors

39. An ARTModel does not return its reference polarizability at its reference structure unless that
    point happens to lie on the lines through the supplied data; with a single ART the reference
    polarizability has no influence on any prediction (C119_art_reference, C119_single_art).
40. Interpolation models need not respect the crystal symmetry.  `get_equivalent_displacements` drops
    images that are neither (anti)parallel nor orthogonal to the recorded ones, so for a generic
    displacement the model returns the supplied polarizability at one configuration and the reference
    polarizability at its mirror image (C120_not_equivariant).  C120_equivariant proves equivariance
    when all images are equal, opposite or orthogonal (and the operations commute with the lattice).
41. A displacement that is zero up to lattice translations is not recognised by `add_dof` as such: for a
    model without degrees of freedom the NaN amplitudes travel to SciPy, whose `ValueError` is the only
    rejection (C123).

Graph network

42. The network is not rotationally equivariant: the six components of the tensor of a bond come from
    six different (parallel, perpendicular) pairs, so two atoms along x and the same two atoms along y
    get unrelated tensors (C129_counterexample).  Predictions do follow reflections in the coordinate
    planes and the inversion (C129_mirror), and all rotations if the six pairs coincide (C129_partial).

Sequences

43. `configuration in trajectory` (inherited from `collections.abc.Sequence`) always fails with
    `ValueError`, because comparing arrays gives arrays (C131_membership).

Training

44. A reference graph with a single directed edge is possible (C82_asymmetric); training with such a
    network and batches of one sample fails with `ValueError` in the batch normalisation
    (C132_single_edge).  It is impossible for orthogonal lattice vectors (C132_not_single).

Spectra

45. `calc_signal_spectrum` keeps only the non-negative lags of the autocorrelation, so every spectrum
    from molecular dynamics carries a constant background of half the signal's energy, also between
    the lines of purely harmonic motion (C141_vibrations, C141_background).

Laboratory frame

46. Polarizabilities of symmetry images are computed with the fractional rotation matrices as if these
    were Cartesian.  Even in a cubic crystal they are right only if the cell axes are parallel to the
    axes of the laboratory: after rotating the same crystal, predictions change (C142_counterexample).
47. Because rotations are applied to rows (finding of C124), which displacements count as equivalent can
    depend on the choice of the origin: with a fourfold axis through the only atom, a displacement along x
    gives two groups if the atom is at the corner of the cell and one group if it is at (1/4, 0, 0)
    (C143_counterexample).
48. Whether a sequence of calls runs through depends on the order: orthogonality is tested for the given
    displacement only, not for its images, so in the mirror crystal of C38 adding (0, 3/5, 4/5) and then x
    succeeds, while x and then (0, 3/5, 4/5) is refused (C144_counterexample).
49. `_get_dof` reads the ratio of two images at the first of their largest components. Where two atoms tie and
    the images are collinear only within the tolerance, the numbering of the atoms decides: in a body-centred
    cell the same displacement and amplitude are refused (duplicate amplitude) with one numbering and accepted
    with the other, which makes two points 0.3 % apart (C145_counterexample).  `add_art_from_files` leaves out the first of the atoms that move
    furthest, so below 1.7e-6 the numbering can decide between acceptance and refusal (C145_tied_atoms).
50. Predictions of interpolation models are not invariant under rigid translations of the crystal unless the
    supplied data satisfy the acoustic sum rule: with one atom per cell, every added degree of freedom makes
    the polarizability depend on where the crystal is (C147_counterexample).  Networks are invariant (C86).
51. Raman tensors are finite differences, hence not exactly linear in the vibration: with a cubic response the
    total intensity of degenerate vibrations depends on their choice (C148_counterexample).
52. In floating-point arithmetic the Bose-Einstein factor of a small positive wavenumber is infinite as soon as
    the exponential rounds to one (C149_infinite); the exact factor is finite.
53. Predictions of interpolation models jump where an atom is half a cell away from its reference position
    (C150_counterexample), so trajectories with diffusing atoms get spurious steps in the polarizability.
54. Predictions depend on the order in which spglib lists the operations when symmetry images of a displacement
    are neither collinear nor orthogonal (C151_counterexample): the first image found is kept, later ones dropped.
55. The shape of an array without dimensions is printed as a lone `)` (C152_scalar): `_shape_string` drops the
    last character to remove a trailing comma, but for an empty shape that character is the opening bracket.
56. The message for a list of the wrong length prints the word `length` in place of the length expected
    (C152_list): a placeholder without braces in the format string of `verify_list_len`.
57. `MDRamanSpectrum` does not check the time step (`Trajectory` does): a negative one silently reverses the order
    of the lines, and for an odd number of configurations adds the Nyquist line that positive steps leave out
    (C153_negative).
58. Displacements are wrapped coordinate by coordinate, which is not the shortest image in a sheared cell: the
    same atoms can be assigned different displacements in two cells of one lattice (C154_counterexample).
59. An atom within rounding error of half a cell from its reference position can be assigned the displacement of the
    opposite sign; the prediction is then off by the response to a whole cell (C155_counterexample).
60. Predictions of the network jump where two bonded atoms are half a cell apart along an axis, because the vector of
    the edge changes to the opposite image (C156_counterexample); reference edges of this length occur in small cells.
61. A POSCAR of which the last 1 to 18 characters are missing is read without complaint; the last coordinate is then
    too small, in the worst case 0 instead of up to 1 (C157_silent).
62. A crash while an XDATCAR is written goes unnoticed if it happens between two configurations: the file is read as a
    shorter trajectory (C160_silent). Neither writer uses a temporary file.
63. `scale_polarizabilities` does not convert its result to torch's default type, as the constructor does. With
    `float64` arrays and torch's usual default `float32`, samples have `float32` targets before and `float64` targets
    after rescaling (C161_double). Rescaling with the dataset's own statistics then changes every value that the
    default type cannot represent (C161_unchanged_iff). The witness C161_changed uses a coarse idempotent rounding
    (integers and halves), not IEEE arithmetic.
64. `add_dof` never compares the number of rows of `cart_displacement` with the number of atoms. On a model without
    degrees of freedom a `(1,3)` array is broadcast: instead of one atom the whole crystal is shifted, without any
    error (C164_single_row_first, C164_single_row_accepted). Later the same call raises `ValueError`.
65. `get_displaced_positions` does not check the number of rows either: a `(1,3)` array shifts all atoms (C165_single_row),
    and several rows for a structure of one atom yield positions of several atoms (C165_single_atom).
    `get_ast_displaced_positions` accepts a direction with a single component and displaces along `(1,1,1)`
    (C165_one_component); `add_art` refuses it.
66. `add_dof_from_files` and `add_art_from_files` compare neither the lattice nor the elements of a file with the
    reference structure (C167_files), and a file with a single atom is accepted by a model with any number of atoms:
    NumPy broadcasting puts all atoms at its place (C167_single_atom).
67. `PotGNN` numbers the elements in the order in which Python traverses a set, and does not store the numbering with
    the weights (`_atom_type_map` is neither a parameter nor a buffer). In CPython that order can depend on the order of
    the atoms (elements whose atomic numbers differ by a multiple of 8, such as H and F, O and S, Si and Ti). So weights
    loaded into a network that was made from the same crystal with the atoms listed in another order can give elements
    each other's features (C127_set_order_counterexample). C127_types says how the rows of the table have to be moved;
    C127_constructor_partial assumes that the order depends on the elements only.
68. `scale_polarizabilities` checks its second argument under the name of the first (`_dataset.py` L210), so a wrong
    standard deviation is reported as a wrong `mean` (C169_scale_misnamed, C169_scale_counterexample).
69. NaN passes all checks of the form `if x <= 0: raise` (time step, width, temperature, laser wavenumber;
    C169_nan_timestep, C169_positive). A time step given as text is accepted, and a text that is no number leaves the
    constructor as a bare `ValueError` although `Trajectory` converts only `TypeError` (C169_text_timestep, C169_text_timestep_all). Booleans
    and integral floats are accepted as atomic numbers, a nested list ends in Python's own `TypeError`
    (C169_structure, C169_unhashable).
70. Text files that are not UTF-8 do not cause the documented `InvalidFileException`: when the first read fails, the
    handlers of `ValueError` quote `line` before it has a value, and every reader raises `UnboundLocalError`
    (C171_first_read); headers that are searched give a bare `UnicodeDecodeError` (C171_search).
71. `convolve_spectrum` with an integer output grid such as `np.arange(0, 1000)` raises `TypeError`
    (C172_convolve_integers), because `out_wavenumbers * 0` is an array of integers. With integer positions in the
    reference structure, `get_ast_displaced_positions` gives NaN for directions that are not along an axis
    (C172_displaced) and `add_art` accepts nothing (C172_add_art).
72. The mask setter accepts any numbers; entries act as weights, and the text of a model is silent about masks whose
    entries sum to zero or less (C173_weights, C173_unmentioned).
73. `width` of `convolve_spectrum` (documented by its unit only) is the standard deviation of a Gaussian line but the
    full width at half maximum of a Lorentzian line (C174_half_maximum, C174_variance).
74. The laser correction does not refuse wavenumbers above that of the laser and weights them with a positive factor
    (C175_laser).
75. `calc_signal_spectrum` leaves out the highest frequency of signals with an even number of samples, because
    `fftfreq` reports it as negative (C176_signal).
76. Amplitudes or polarizabilities that are not finite end in SciPy's `ValueError` instead of the documented
    `InvalidDOFException`, and the constructor accepts a reference polarizability with NaN, after which no degree of
    freedom can be added (C177_value_error, C177_refused).
77. One snapshot in which two bonded atoms coincide makes every intensity of a trajectory's spectrum NaN without an
    exception, and NaN predictions of the network spread over the block of 100 structures (C178_collision,
    C178_predictions).
78. `add_art_from_files` does not check that a dielectric tensor is 3x3: a single row, column or number is
    broadcast silently against the equilibrium polarizability (C179_stretched, C179_accepted).
    `add_dof_from_files` raises `ValueError` from NumPy for such tensors, not a documented exception (C179_dof).
79. An OUTCAR trajectory that ends inside the third coordinate of the last atom of a frame is read without an
    exception, with this atom at another place (C180_moved). All other frames and atoms are right (C180_cut).
80. An OUTCAR file that ends inside the last number of the tensor or of the last eigenvector is read without an
    exception and with another number (C181_wrong_tensor, C181_wrong_phonon); all else is right (C181_phonons,
    C181_polarizability, C181_structure).
81. An XDATCAR file of a run in which the cell changes repeats the header before every configuration. Such a file is refused
    in most cases, but if the title of the second header is empty or begins with white space, it is taken for the end of
    the file and only the configurations before it are returned, without a message (C184_second_header, C184_blank,
    C184_lost, C184_refused).
82. With a one-atom reference structure, files or pymatgen structures with other numbers of atoms pass the check for incompatible files
    (NumPy repeats the reference row). They are refused later, in `add_dof_from_files` with a plain `ValueError` instead of
    the documented `InvalidDOFException` if the displacements are collinear (C185_collinear).

## Assumptions of the training model

The optimizer manages all parameters of the model; gradients left over from before the call enter the
first step; an empty training or validation set or a non-positive batch size gives `ValueError` before
any change.  Random samplers return a permutation of the indices, and batch samplers consecutive
pieces of it (contracts of torch).

## Mutation tests

`seeded/LOG.jsonl` has one line per attempt: the definition edited, the edit, the claim it breaks, the
theorems that failed to check (`failed`), and the theorems tightened as a result.
