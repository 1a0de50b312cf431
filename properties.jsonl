{"id": "C01", "title": "apply_pbc returns the canonical in-cell image", "statement": "For every array of fractional positions, each coordinate of apply_pbc(positions) lies in [0,1) and differs from the input coordinate by an integer; it is the only such value, and applying apply_pbc twice equals applying it once.", "quantifier": "all atom counts, all real coordinates", "why_tests_cant": "The claim ranges over every real coordinate; boundary and negative values are only sampled by tests.", "anchors": [{"file": "ramannoodle/structure/utils.py", "symbols": ["apply_pbc"]}]}
{"id": "C02", "title": "apply_pbc_displacement returns the shortest image", "statement": "For every displacement, each coordinate of apply_pbc_displacement(d) lies in (-1/2,1/2], differs from d by an integer, and has the smallest absolute value among all integer translates; it is idempotent.", "quantifier": "all atom counts, all real coordinates, all integer translates", "why_tests_cant": "Minimality is a statement about infinitely many translates.", "anchors": [{"file": "ramannoodle/structure/utils.py", "symbols": ["apply_pbc_displacement"]}]}
{"id": "C03", "title": "displace_positions is a periodic group action", "statement": "displace_positions(p,d) is in [0,1), equals p+d modulo 1, does not change when p or d are moved by integers, and displacing by d and then e equals displacing by d+e.", "quantifier": "all atom counts, positions, displacements and integer shifts", "why_tests_cant": "Algebraic law over all reals.", "anchors": [{"file": "ramannoodle/structure/utils.py", "symbols": ["displace_positions"]}]}
{"id": "C04", "title": "calc_displacement inverts displace_positions", "statement": "displace_positions(p1, calc_displacement(p1,p2)) equals apply_pbc(p2); calc_displacement(p, displace_positions(p,d)) equals apply_pbc_displacement(d); it is antisymmetric except on coordinates that are exactly half a cell apart, where both directions give +1/2; and it is insensitive to periodic images.", "quantifier": "all pairs of position arrays", "why_tests_cant": "Round-trip over all reals with a boundary exception at exactly 1/2.", "anchors": [{"file": "ramannoodle/structure/utils.py", "symbols": ["calc_displacement", "displace_positions"]}]}
{"id": "C05", "title": "transform_positions is a group action of the crystal symmetry operations", "statement": "transform_positions raises ValueError exactly when some coordinate is outside [0,1]; otherwise its result is p@R+t reduced to [0,1) and can be fed back without error. For integer rotations, transforming by (R1,t1) and then (R2,t2) equals transforming by (R1R2, t1R2+t2), and the identity operation is apply_pbc.", "quantifier": "all in-cell positions, all integer rotation matrices, all translations", "why_tests_cant": "Composition law over all operations.", "anchors": [{"file": "ramannoodle/structure/utils.py", "symbols": ["transform_positions"]}, {"file": "ramannoodle/exceptions.py", "symbols": ["verify_positions"]}]}
{"id": "C06", "title": "Rounding keeps apply_pbc inside the closed cell only", "statement": "Under any monotone rounding that is exact on 0 and 1 (floating point), apply_pbc coordinates stay in the closed interval [0,1] so verify_positions never rejects them, but the half-open bound and idempotence can fail: a tiny negative coordinate may be returned as exactly 1.0.", "quantifier": "all roundings that are monotone and fix 0 and 1; all coordinates", "why_tests_cant": "Rounding behaviour quantifies over all floats; tests choose round values.", "anchors": [{"file": "ramannoodle/structure/utils.py", "symbols": ["apply_pbc"]}, {"file": "ramannoodle/exceptions.py", "symbols": ["verify_positions"]}]}
{"id": "C07", "title": "are_collinear decides collinearity up to a fixed angular tolerance", "statement": "For nonzero vectors are_collinear(u,v) is true exactly when |cos angle(u,v)| >= 1-1.001e-5; it is symmetric and unchanged by nonzero rescaling of either vector (including sign); with a zero vector it is false.", "quantifier": "all real vectors of every length", "why_tests_cant": "Tolerance predicate over all vectors.", "anchors": [{"file": "ramannoodle/structure/_symmetry_utils.py", "symbols": ["are_collinear"]}]}
{"id": "C08", "title": "is_orthogonal_to_all reports the first non-orthogonal vector", "statement": "is_orthogonal_to_all(v, vs) returns -1 exactly when |cos angle(v,w)| <= 1.001e-5 for every w in vs, and otherwise the smallest index violating this. A zero vector on either side counts as non-orthogonal.", "quantifier": "all vectors and all finite lists of vectors", "why_tests_cant": "First-index semantics over all lists.", "anchors": [{"file": "ramannoodle/structure/_symmetry_utils.py", "symbols": ["is_orthogonal_to_all"]}]}
{"id": "C09", "title": "is_collinear_with_all and is_non_collinear_with_all report the first offender", "statement": "is_collinear_with_all returns -1 iff every listed vector is collinear with v and otherwise the first non-collinear index; is_non_collinear_with_all returns -1 iff no listed vector is collinear and otherwise the first collinear index.", "quantifier": "all vectors and lists", "why_tests_cant": "First-index semantics over all lists.", "anchors": [{"file": "ramannoodle/structure/_symmetry_utils.py", "symbols": ["is_collinear_with_all", "is_non_collinear_with_all"]}]}
{"id": "C10", "title": "A displacement is collinear with at most one of mutually orthogonal degrees of freedom", "statement": "If the vectors in a list are pairwise orthogonal by is_orthogonal_to_all's tolerance, no vector is are_collinear with two of them.", "quantifier": "all dimensions, all vector lists", "why_tests_cant": "Geometric fact with tolerances, relied on by get_equivalent_displacements.", "anchors": [{"file": "ramannoodle/structure/_symmetry_utils.py", "symbols": ["are_collinear", "is_orthogonal_to_all"]}, {"file": "ramannoodle/structure/_reference.py", "symbols": ["ReferenceStructure.get_equivalent_displacements"]}]}
{"id": "C11", "title": "Permutation matrices identify atoms", "statement": "If the transformed positions are the reference positions relabelled by a bijection (up to lattice translations) and distinct reference atoms are further apart than the 1e-5 tolerance, the computed matrix is exactly the permutation matrix of that bijection and multiplying by it restores reference order.", "quantifier": "all atom counts, all bijections, all positions", "why_tests_cant": "Ranges over all permutations and sizes.", "anchors": [{"file": "ramannoodle/structure/_reference.py", "symbols": ["_get_positions_permutation_matrix"]}]}
{"id": "C12", "title": "The centre-of-mass shift never affects permutation matrices", "statement": "The permutation matrices of a structure are the same as those computed without the centre-of-mass shift (or with any other common shift).", "quantifier": "all structures, operations and shifts", "why_tests_cant": "Holds for every real shift.", "anchors": [{"file": "ramannoodle/structure/_reference.py", "symbols": ["_compute_permutation_matrices"]}]}
{"id": "C13", "title": "Equivalent displacements are the symmetry images of the input", "statement": "For a genuine symmetry operation (R,t) with atom permutation P and in-cell positions, the candidate displacement computed from positions displaced by d equals the wrapped P(dR): it does not depend on the translation or on the reference positions.", "quantifier": "all structures, operations, displacements", "why_tests_cant": "Algebraic identity modulo wrapping for all inputs.", "anchors": [{"file": "ramannoodle/structure/_reference.py", "symbols": ["ReferenceStructure.get_equivalent_displacements"]}]}
{"id": "C14", "title": "Structure of get_equivalent_displacements' result", "statement": "Every returned dictionary has as many displacements as transformations and at least one; first displacements of different dictionaries are mutually orthogonal within tolerance; all displacements of a dictionary are collinear with its first; no two displacements of a dictionary coincide within tolerance.", "quantifier": "all structures, all operation lists, all displacements", "why_tests_cant": "Loop invariant over arbitrary operation lists.", "anchors": [{"file": "ramannoodle/structure/_reference.py", "symbols": ["ReferenceStructure.get_equivalent_displacements"]}]}
{"id": "C15", "title": "Every returned displacement has its own transformation, in operation order", "statement": "Each returned displacement is the candidate produced by the transformation at the same index; transformations are a sub-multiset of the structure's operations; and each operation is either recorded, a duplicate of a recorded displacement, or neither orthogonal to all nor collinear with any recorded first displacement.", "quantifier": "all operation lists", "why_tests_cant": "Provenance invariant over all executions of the loop.", "anchors": [{"file": "ramannoodle/structure/_reference.py", "symbols": ["ReferenceStructure.get_equivalent_displacements"]}]}
{"id": "C16", "title": "The parent displacement is always covered", "statement": "If the first symmetry operation is the identity, the first dictionary's first displacement is the input direction rescaled to (fractional) norm 1/10.", "quantifier": "all structures whose first operation is the identity, all displacements", "why_tests_cant": "All inputs.", "anchors": [{"file": "ramannoodle/structure/_reference.py", "symbols": ["ReferenceStructure.get_equivalent_displacements"]}]}
{"id": "C17", "title": "get_equivalent_atom_dict partitions the atoms", "statement": "If every atom's representative is its own representative and not later in the list, the dictionary's keys together with its lists contain every atom index exactly once, each atom is listed under its representative, and the number of keys is num_nonequivalent_atoms; otherwise a KeyError is raised when a representative has not been seen.", "quantifier": "all equivalence arrays of every length", "why_tests_cant": "Partition property over all arrays.", "anchors": [{"file": "ramannoodle/structure/_reference.py", "symbols": ["ReferenceStructure.get_equivalent_atom_dict", "ReferenceStructure.num_nonequivalent_atoms"]}]}
{"id": "C18", "title": "Fractional and Cartesian displacements convert back and forth", "statement": "For an invertible lattice get_frac_displacement(get_cart_displacement(d)) is the wrapped d, and get_cart_displacement(get_frac_displacement(c)) equals c modulo a lattice vector, and equals c itself when c's fractional coordinates lie in (-1/2,1/2].", "quantifier": "all invertible lattices, all displacements", "why_tests_cant": "Round trip over all reals.", "anchors": [{"file": "ramannoodle/structure/_reference.py", "symbols": ["ReferenceStructure.get_cart_displacement", "ReferenceStructure.get_frac_displacement"]}]}
{"id": "C19", "title": "Direction conversions ignore magnitude only inside the half cell", "statement": "get_frac_direction/get_cart_direction are linear (hence direction preserving) when the fractional coordinates lie in (-1/2,1/2]; outside this box the direction is wrapped and can change or vanish, so 'only the direction is used' fails.", "quantifier": "all lattices and directions", "why_tests_cant": "Exhibits a boundary that depends on lattice and magnitude.", "anchors": [{"file": "ramannoodle/structure/_reference.py", "symbols": ["ReferenceStructure.get_cart_direction", "ReferenceStructure.get_frac_direction"]}]}
{"id": "C20", "title": "get_atom_indexes returns exactly the matching atoms in order", "statement": "get_atom_indexes(symbols) returns strictly increasing indexes, and index i is returned iff atom i's element symbol is requested; a string argument behaves as a one-element list.", "quantifier": "all structures and requests", "why_tests_cant": "All lists.", "anchors": [{"file": "ramannoodle/structure/_reference.py", "symbols": ["ReferenceStructure.get_atom_indexes"]}, {"file": "ramannoodle/constants.py", "symbols": ["ATOM_SYMBOLS"]}]}
{"id": "C21", "title": "Displaced structures have exactly the requested Cartesian amplitudes", "statement": "get_displaced_positions returns one in-cell structure per amplitude, the Cartesian displacement of the k-th equals amplitude_k times the unit displacement modulo lattice vectors, and the result is unchanged if the displacement is multiplied by any positive number.", "quantifier": "all structures, displacements, amplitude arrays", "why_tests_cant": "All reals, all lengths.", "anchors": [{"file": "ramannoodle/structure/_displace.py", "symbols": ["get_displaced_positions"]}]}
{"id": "C22", "title": "Atomic displacements move only the chosen atom", "statement": "get_ast_displaced_positions moves only the atom addressed by atom_index (Python negative indexing allowed), by amplitude times the unit direction, leaves all other atoms at their in-cell image, and raises IndexError exactly for indexes outside -N..N-1.", "quantifier": "all structures, indexes, directions, amplitudes", "why_tests_cant": "All indexes and sizes.", "anchors": [{"file": "ramannoodle/structure/_displace.py", "symbols": ["get_ast_displaced_positions"]}]}
{"id": "C23", "title": "File count must match amplitude count when writing displaced structures", "statement": "write_displaced_structures raises and writes nothing when the number of files differs from the number of amplitudes (ValueError, unless computing the displaced positions already failed). (The converse fails: the length check uses object identity, so with more than 256 files it rejects correct calls too.)", "quantifier": "all list lengths", "why_tests_cant": "Lengths above 256 are never tested; identity of integers is history dependent.", "anchors": [{"file": "ramannoodle/exceptions.py", "symbols": ["verify_list_len"]}, {"file": "ramannoodle/structure/_displace.py", "symbols": ["write_displaced_structures", "write_ast_displaced_structures"]}]}
{"id": "C24", "title": "Batch writing is prefix-closed and never overwrites silently", "statement": "write_displaced_structures writes files in order; if one write fails, earlier files hold their structures, that file and all later ones are untouched; with overwrite=False no pre-existing file ever changes.", "quantifier": "all file systems, file lists, failure points", "why_tests_cant": "Quantifies over file-system states and failure points.", "anchors": [{"file": "ramannoodle/structure/_displace.py", "symbols": ["write_displaced_structures"]}, {"file": "ramannoodle/io/vasp/poscar.py", "symbols": ["write_structure"]}, {"file": "ramannoodle/io/generic.py", "symbols": ["write_structure"]}]}
{"id": "C25", "title": "An interpolation model is always internally consistent", "statement": "After any sequence of API calls (successful or failing), the mask has one entry per degree of freedom, and there is one interpolation per degree of freedom for real models and none for dummy models.", "quantifier": "all histories of add_dof/add_art/mask/unmask calls", "why_tests_cant": "Invariant over histories.", "anchors": [{"file": "ramannoodle/pmodel/_interpolation.py", "symbols": ["InterpolationModel"]}, {"file": "ramannoodle/pmodel/_art.py", "symbols": ["ARTModel"]}]}
{"id": "C26", "title": "Adding a degree of freedom is all-or-nothing", "statement": "If add_dof (or add_art) raises, basis vectors, interpolations and mask are exactly as before; if it succeeds, existing entries are kept as a prefix, and all new degrees of freedom are unmasked.", "quantifier": "all models, all arguments, all failure points", "why_tests_cant": "Every failure point in the call.", "anchors": [{"file": "ramannoodle/pmodel/_interpolation.py", "symbols": ["InterpolationModel.add_dof", "InterpolationModel._construct_and_add_interpolations"]}]}
{"id": "C27", "title": "Masking returns an independent model with exactly the requested mask", "statement": "get_masked_model(I) leaves the original unchanged and its result masks exactly the degrees of freedom in I (negative indexes allowed), replacing earlier masks; it raises IndexError iff some index is out of range; unmask clears every entry.", "quantifier": "all models and index lists", "why_tests_cant": "All lists of indexes.", "anchors": [{"file": "ramannoodle/pmodel/_interpolation.py", "symbols": ["InterpolationModel.get_masked_model", "InterpolationModel.unmask", "InterpolationModel.mask"]}]}
{"id": "C28", "title": "Polarizabilities are the reference plus the sum over unmasked degrees of freedom", "statement": "calc_polarizabilities returns ref_polarizability plus the sum of interpolation_i(amplitude_i) over unmasked i, so masking complementary sets splits the change in polarizability additively, and a fully masked model returns the reference polarizability.", "quantifier": "all models, masks, positions", "why_tests_cant": "Sum over arbitrarily many DOFs.", "anchors": [{"file": "ramannoodle/pmodel/_interpolation.py", "symbols": ["InterpolationModel.calc_polarizabilities"]}]}
{"id": "C29", "title": "Polarizabilities are periodic", "statement": "calc_polarizabilities is unchanged if any coordinate of any atom is moved by an integer.", "quantifier": "all models, positions, integer shifts", "why_tests_cant": "All integer shifts.", "anchors": [{"file": "ramannoodle/pmodel/_interpolation.py", "symbols": ["InterpolationModel.calc_polarizabilities"]}]}
{"id": "C30", "title": "Batched evaluation equals individual evaluation", "statement": "calc_polarizabilities on a batch gives, sample by sample, the result of evaluating each sample alone; in particular it commutes with concatenation and reordering of batches.", "quantifier": "all batch sizes and batches", "why_tests_cant": "All batch sizes.", "anchors": [{"file": "ramannoodle/pmodel/_interpolation.py", "symbols": ["InterpolationModel.calc_polarizabilities"]}]}
{"id": "C31", "title": "Dummy models refuse to predict", "statement": "A dummy model with at least one degree of freedom raises UserError on every calc_polarizabilities call; with none it returns the zero tensor; a non-dummy model reachable by API calls never raises the length-mismatch error.", "quantifier": "all reachable models", "why_tests_cant": "Reachability.", "anchors": [{"file": "ramannoodle/pmodel/_interpolation.py", "symbols": ["InterpolationModel.calc_polarizabilities"]}]}
{"id": "C32", "title": "Model reproduces supplied data", "statement": "For a model whose basis vectors are orthonormal and whose other interpolations vanish at zero amplitude, evaluating at the reference displaced along basis vector i by a supplied amplitude returns the supplied polarizability; at the reference structure it returns the reference polarizability when it was included.", "quantifier": "all models, all supplied data points within the half cell", "why_tests_cant": "All data.", "anchors": [{"file": "ramannoodle/pmodel/_interpolation.py", "symbols": ["InterpolationModel.calc_polarizabilities", "InterpolationModel.add_dof"]}]}
{"id": "C33", "title": "Interpolation knots are valid", "statement": "Whenever interpolations are constructed, the amplitudes handed to the spline routine are strictly increasing (any two differ by more than the closeness tolerance), there are more points than the order and the order is at least 1; the amplitude/polarizability pairing is preserved by sorting.", "quantifier": "all amplitude lists", "why_tests_cant": "All lists, all orders.", "anchors": [{"file": "ramannoodle/pmodel/_interpolation.py", "symbols": ["InterpolationModel._construct_and_add_interpolations", "find_duplicates"]}]}
{"id": "C34", "title": "Invalid interpolation requests are rejected", "statement": "add_dof raises InvalidDOFException if two amplitudes (given or generated by symmetry) coincide within tolerance or if there are not more points than the order, and ValueError if the order is below 1.", "quantifier": "all amplitude lists and orders", "why_tests_cant": "All lists.", "anchors": [{"file": "ramannoodle/pmodel/_interpolation.py", "symbols": ["InterpolationModel._construct_and_add_interpolations"]}]}
{"id": "C35", "title": "Amplitude-range warnings are issued exactly when amplitudes do not span zero", "statement": "A DOFWarning is issued for a degree of freedom iff its largest amplitude is <= 1e-3 or its smallest is >= -1e-3.", "quantifier": "all amplitude lists", "why_tests_cant": "All lists.", "anchors": [{"file": "ramannoodle/pmodel/_interpolation.py", "symbols": ["InterpolationModel._construct_and_add_interpolations"]}]}
{"id": "C36", "title": "add_dof ignores the magnitude of the displacement", "statement": "add_dof with displacement c and with s*c (s>0) has the same effect as long as both have fractional coordinates in (-1/2,1/2]; without that bound the claim is false.", "quantifier": "all displacements and scale factors", "why_tests_cant": "All reals; fails for large magnitudes which tests do not use.", "anchors": [{"file": "ramannoodle/pmodel/_interpolation.py", "symbols": ["InterpolationModel.add_dof"]}]}
{"id": "C37", "title": "New degrees of freedom are orthogonal to existing ones", "statement": "If add_dof succeeds, the supplied displacement is orthogonal (within tolerance) to every previously added basis vector; otherwise it raises InvalidDOFException naming the first offending index.", "quantifier": "all models and displacements", "why_tests_cant": "All models.", "anchors": [{"file": "ramannoodle/pmodel/_interpolation.py", "symbols": ["InterpolationModel._get_dof"]}]}
{"id": "C38", "title": "All basis vectors of a model are mutually orthogonal", "statement": "In any reachable model the Cartesian basis vectors are mutually orthogonal. (False of the code: orthogonality of symmetry-generated DOFs is tested in fractional coordinates, so it fails for non-orthogonal lattices; and images generated by one add_dof call are never compared with the basis stored by earlier calls, so it also fails in a cubic cell, where a second add_dof changes the prediction for the data of the first. It holds in cubic cells when the stored basis is closed under the symmetry operations up to sign.)", "quantifier": "all reachable models", "why_tests_cant": "Requires a hexagonal cell; an invariant over histories.", "anchors": [{"file": "ramannoodle/pmodel/_interpolation.py", "symbols": ["InterpolationModel._get_dof"]}, {"file": "ramannoodle/structure/_reference.py", "symbols": ["ReferenceStructure.get_equivalent_displacements"]}]}
{"id": "C39", "title": "Collinear images of a displacement carry amplitude +a or -a", "statement": "For exactly collinear displacements of equal norm the amplitude multiplier is +1 or -1, namely the unique factor that maps the image to the group's first displacement.", "quantifier": "all collinear displacement pairs", "why_tests_cant": "All reals.", "anchors": [{"file": "ramannoodle/pmodel/_interpolation.py", "symbols": ["InterpolationModel._get_dof"]}]}
{"id": "C40", "title": "Polarizabilities of symmetry images are rotated consistently", "statement": "The polarizability change assigned to a symmetry image is the physical rotated tensor Q^T A Q (Q the Cartesian rotation) whenever the rotation commutes with the lattice; for general lattices the code's tensor differs and need not be symmetric.", "quantifier": "all tensors, rotations, lattices", "why_tests_cant": "All tensors; needs non-orthogonal lattice.", "anchors": [{"file": "ramannoodle/pmodel/_interpolation.py", "symbols": ["InterpolationModel._get_dof"]}]}
{"id": "C41", "title": "ARTModel's inherited mutators are disabled", "statement": "ARTModel.add_dof, add_dof_from_files and add_dof_from_pymatgen raise UserError for all arguments and never change the model.", "quantifier": "all models and arguments", "why_tests_cant": "All arguments.", "anchors": [{"file": "ramannoodle/pmodel/_art.py", "symbols": ["ARTModel.add_dof", "ARTModel.add_dof_from_files", "ARTModel.add_dof_from_pymatgen"]}]}
{"id": "C42", "title": "Every degree of freedom of an ARTModel moves one atom", "statement": "In any ARTModel reachable by add_art on a structure whose permutation matrices are permutations, each basis vector is nonzero on exactly one atom.", "quantifier": "all histories", "why_tests_cant": "Invariant over histories.", "anchors": [{"file": "ramannoodle/pmodel/_art.py", "symbols": ["ARTModel.add_art"]}]}
{"id": "C43", "title": "get_dof_indexes returns exactly the DOFs touching the requested atoms", "statement": "For every request (indexes, symbols or mixtures) a DOF index is returned iff the DOF displaces a requested atom by more than 1e-5 in some component; in an ARTModel no index is returned twice.", "quantifier": "all models and requests", "why_tests_cant": "All requests.", "anchors": [{"file": "ramannoodle/pmodel/_art.py", "symbols": ["ARTModel.get_dof_indexes"]}]}
{"id": "C44", "title": "add_art accepts one or two amplitudes only", "statement": "add_art raises ValueError unless amplitudes has shape (1,) or (2,), and raises ValueError unless polarizabilities has the matching shape (non-dummy); whenever it succeeds every new DOF has exactly two or more distinct amplitudes.", "quantifier": "all shapes", "why_tests_cant": "All shapes.", "anchors": [{"file": "ramannoodle/pmodel/_art.py", "symbols": ["ARTModel.add_art"]}]}
{"id": "C45", "title": "add_art_from_files rejects multi-atom displacements and wrong amplitude counts", "statement": "If more than one atom moves (beyond 1e-6) InvalidDOFException is raised; if the symmetry-completed amplitude count is not two InvalidDOFException is raised; in both cases the model is unchanged.", "quantifier": "all displacement sets", "why_tests_cant": "All inputs.", "anchors": [{"file": "ramannoodle/pmodel/_art.py", "symbols": ["ARTModel.add_art_from_files", "ARTModel.add_art_from_pymatgen"]}]}
{"id": "C46", "title": "Phonon Raman tensors ignore constant polarizability offsets and eigenvector sign", "statement": "Adding a constant tensor to a polarizability model leaves the phonon Raman spectrum unchanged; negating a phonon displacement negates its Raman tensor and leaves intensities unchanged; for a model that is affine in the displacement the tensor is exactly twice the directional derivative.", "quantifier": "all models, phonons", "why_tests_cant": "All models.", "anchors": [{"file": "ramannoodle/dynamics/_phonon.py", "symbols": ["Phonons.get_raman_spectrum"]}]}
{"id": "C47", "title": "Trajectories are in-cell and have positive timestep", "statement": "Every constructed Trajectory has all coordinates in [0,1), is unchanged by integer shifts of the input, keeps the number of configurations, and has a positive timestep; construction raises ValueError for timestep <= 0.", "quantifier": "all arrays and timesteps", "why_tests_cant": "All inputs.", "anchors": [{"file": "ramannoodle/dynamics/_trajectory.py", "symbols": ["Trajectory"]}]}
{"id": "C48", "title": "Trajectory indexing follows Python sequence rules", "statement": "trajectory[i] is the i-th configuration for 0<=i<len, the (len+i)-th for -len<=i<0 and raises IndexError otherwise; slices return the sub-trajectory selected by Python slice rules, every selected index is in range and the number of configurations is the slice length.", "quantifier": "all indexes and slices", "why_tests_cant": "All integers and slices.", "anchors": [{"file": "ramannoodle/dynamics/_trajectory.py", "symbols": ["Trajectory.__getitem__", "Trajectory.__len__"]}]}
{"id": "C49", "title": "Phonon Raman intensities are nonnegative and rotation invariant", "statement": "Uncorrected polycrystalline intensities are nonnegative, and for symmetric Raman tensors they do not change when all tensors are rotated by any orthogonal matrix.", "quantifier": "all tensors, all orthogonal matrices", "why_tests_cant": "All rotations.", "anchors": [{"file": "ramannoodle/spectrum/_raman.py", "symbols": ["PhononRamanSpectrum.measure"]}]}
{"id": "C50", "title": "Intensities are quadratic in the Raman tensors", "statement": "Scaling the Raman tensors by c scales the intensities by c^2; an intensity is zero iff the (symmetric part used of the) tensor is zero.", "quantifier": "all tensors and scale factors", "why_tests_cant": "All reals.", "anchors": [{"file": "ramannoodle/spectrum/_raman.py", "symbols": ["PhononRamanSpectrum.measure"]}]}
{"id": "C51", "title": "Bose-Einstein and laser corrections are valid for positive wavenumbers", "statement": "For positive wavenumber and temperature the Bose-Einstein factor exceeds 1, decreases with wavenumber and increases with temperature; the laser factor is nonnegative for positive wavenumbers; non-positive temperature or laser wavenumber raises ValueError; for negative (imaginary) wavenumbers both factors are non-positive, so corrected intensities become non-positive.", "quantifier": "all wavenumbers and temperatures", "why_tests_cant": "All reals, transcendental function.", "anchors": [{"file": "ramannoodle/spectrum/_raman.py", "symbols": ["get_bose_einstein_correction", "get_laser_correction"]}]}
{"id": "C52", "title": "measure applies corrections multiplicatively and validates only enabled options", "statement": "measure's intensities equal raw intensities times the enabled correction factors; disabled options are ignored even if invalid; an orientation other than polycrystalline raises NotImplementedError; measuring never changes the spectrum so repeated measurement agrees.", "quantifier": "all spectra, all option combinations", "why_tests_cant": "All option combinations.", "anchors": [{"file": "ramannoodle/spectrum/_raman.py", "symbols": ["PhononRamanSpectrum.measure", "MDRamanSpectrum.measure"]}]}
{"id": "C53", "title": "MD spectrum grid", "statement": "For S>=2 configurations and positive timestep, MDRamanSpectrum.measure returns ceil((S-1)/2)-1 wavenumbers, equal to k*33356.4.../((S-1)*timestep) for k=1,2,..., strictly increasing and positive (the documented length ceil(S/2) is not what is returned).", "quantifier": "all trajectory lengths and timesteps", "why_tests_cant": "All lengths.", "anchors": [{"file": "ramannoodle/spectrum/_raman.py", "symbols": ["MDRamanSpectrum.measure"]}, {"file": "ramannoodle/spectrum/utils.py", "symbols": ["calc_signal_spectrum"]}]}
{"id": "C54", "title": "Signal spectra are nonnegative", "statement": "calc_signal_spectrum's intensities equal half of (power spectrum + total energy) of the signal, hence are nonnegative for every real signal, and so are uncorrected MD Raman intensities.", "quantifier": "all signals of all lengths", "why_tests_cant": "Fourier identity over all signals.", "anchors": [{"file": "ramannoodle/spectrum/utils.py", "symbols": ["calc_signal_spectrum", "_calc_autocorrelation"]}, {"file": "ramannoodle/spectrum/_raman.py", "symbols": ["MDRamanSpectrum.measure"]}]}
{"id": "C55", "title": "MD Raman intensities ignore constant offsets, are quadratic and rotation invariant", "statement": "Adding a constant tensor to the polarizability time series leaves MD intensities unchanged; scaling by c scales them by c^2; rotating a symmetric time series by a fixed orthogonal matrix leaves them unchanged.", "quantifier": "all time series, all rotations", "why_tests_cant": "All rotations.", "anchors": [{"file": "ramannoodle/spectrum/_raman.py", "symbols": ["MDRamanSpectrum.measure"]}]}
{"id": "C56", "title": "convolve_spectrum is linear, positive and order independent", "statement": "Convolved intensities are linear in input intensities, nonnegative for nonnegative input, independent of the order of the peaks and additive over concatenation of spectra; output has the length of out_wavenumbers.", "quantifier": "all spectra, grids, widths", "why_tests_cant": "All lists.", "anchors": [{"file": "ramannoodle/spectrum/utils.py", "symbols": ["convolve_spectrum"]}]}
{"id": "C57", "title": "convolve_spectrum preserves integrated intensity", "statement": "As a function of the output wavenumber, the convolved spectrum integrates to the sum of the input intensities for both line shapes and every positive width.", "quantifier": "all spectra and widths", "why_tests_cant": "An integral over the real line.", "anchors": [{"file": "ramannoodle/spectrum/utils.py", "symbols": ["convolve_spectrum"]}]}
{"id": "C58", "title": "convolve_spectrum validates its arguments", "statement": "width<=0 raises ValueError; an unknown line shape raises ValueError whenever there is at least one peak (with no peaks and an explicit grid it silently returns zeros); mismatched lengths raise ValueError.", "quantifier": "all arguments", "why_tests_cant": "All arguments.", "anchors": [{"file": "ramannoodle/spectrum/utils.py", "symbols": ["convolve_spectrum"]}]}
{"id": "C59", "title": "Fixed-point formatting and parsing of numbers", "statement": "Parsing the 16-decimal text of a number returns the number rounded to a multiple of 1e-16 (error at most 5e-17), exactly the number if it already is such a multiple.", "quantifier": "all rational numbers", "why_tests_cant": "All numbers.", "anchors": [{"file": "ramannoodle/io/vasp/poscar.py", "symbols": ["_get_positions_str", "_get_lattice_str", "_read_positions"]}]}
{"id": "C60", "title": "POSCAR write/read round trip", "statement": "For every valid structure with grouped atoms, read_structure of the written POSCAR returns the same atomic numbers and the lattice and positions rounded to 16 decimals.", "quantifier": "all structures, all labels", "why_tests_cant": "All sizes and labels.", "anchors": [{"file": "ramannoodle/io/vasp/poscar.py", "symbols": ["write_structure", "read_structure"]}]}
{"id": "C61", "title": "Labels cannot corrupt files", "statement": "Whatever label string is given (including newlines, quotes and control characters), it occupies exactly the first line of the written file.", "quantifier": "all strings", "why_tests_cant": "All strings.", "anchors": [{"file": "ramannoodle/io/vasp/poscar.py", "symbols": ["write_structure"]}, {"file": "ramannoodle/io/vasp/xdatcar.py", "symbols": ["write_trajectory"]}]}
{"id": "C62", "title": "Element grouping", "statement": "The element/count lines written for atomic numbers decode to the same list; writing raises ValueError exactly when equal atomic numbers are not contiguous.", "quantifier": "all nonempty lists of valid atomic numbers", "why_tests_cant": "All lists.", "anchors": [{"file": "ramannoodle/io/vasp/poscar.py", "symbols": ["_get_symbols_str", "_read_atomic_symbols"]}]}
{"id": "C63", "title": "XDATCAR write/read round trip", "statement": "read_positions_ts of a written XDATCAR returns every configuration in order, rounded to 16 decimals, for any number of configurations.", "quantifier": "all trajectories", "why_tests_cant": "All lengths.", "anchors": [{"file": "ramannoodle/io/vasp/xdatcar.py", "symbols": ["write_trajectory", "read_positions_ts"]}]}
{"id": "C64", "title": "Truncated XDATCAR files yield a prefix", "statement": "If a written XDATCAR is cut at any character (crash while writing), reading raises InvalidFileException or returns configurations that equal the written ones, except that the last returned configuration may differ in its last coordinate.", "quantifier": "all trajectories, all crash points", "why_tests_cant": "All truncation points.", "anchors": [{"file": "ramannoodle/io/vasp/xdatcar.py", "symbols": ["read_positions_ts"]}]}
{"id": "C65", "title": "POSCAR reader error behaviour", "statement": "On any text, read_structure returns a structure, or raises InvalidFileException, except: IndexError when 'selective dynamics' is the last line, LinAlgError for Cartesian coordinates with a singular lattice, and ValueError for Cartesian coordinates with no atoms. Returned structures have one position per atomic number.", "quantifier": "all file contents", "why_tests_cant": "All texts.", "anchors": [{"file": "ramannoodle/io/vasp/poscar.py", "symbols": ["read_structure", "_read_positions"]}]}
{"id": "C66", "title": "Writing respects overwrite and only touches its target", "statement": "write_structure with overwrite=False on an existing file raises FileExistsError and changes nothing; any crash during a write leaves other files untouched and the target absent, old, or a prefix of the new content; invalid structures raise before the file is opened.", "quantifier": "all file systems, structures, crash points", "why_tests_cant": "All crash points.", "anchors": [{"file": "ramannoodle/io/vasp/poscar.py", "symbols": ["write_structure"]}, {"file": "ramannoodle/io/vasp/xdatcar.py", "symbols": ["write_trajectory"]}]}
{"id": "C67", "title": "OUTCAR atomic symbols", "statement": "For every OUTCAR whose POTCAR block lists valid symbols (with or without the duplicate first entry), the symbols read are the block's symbols repeated by 'ions per type' counts; extra symbols or counts are silently dropped.", "quantifier": "all POTCAR blocks and counts", "why_tests_cant": "All blocks.", "anchors": [{"file": "ramannoodle/io/vasp/outcar.py", "symbols": ["_read_atomic_symbols"]}]}
{"id": "C68", "title": "OUTCAR trajectories skip ab initio steps that follow ML steps", "statement": "For every sequence of ionic steps, read_trajectory keeps a step iff it is an ML step or the preceding step is not an ML step, in order; if none is found InvalidFileException is raised.", "quantifier": "all sequences of steps", "why_tests_cant": "All sequences.", "anchors": [{"file": "ramannoodle/io/vasp/outcar.py", "symbols": ["read_trajectory"]}]}
{"id": "C69", "title": "OUTCAR phonons", "statement": "read_phonons returns 3N modes; imaginary modes get negative wavenumbers; displacements times sqrt(mass) times lattice give back the eigenvectors listed.", "quantifier": "all phonon blocks", "why_tests_cant": "All N.", "anchors": [{"file": "ramannoodle/io/vasp/outcar.py", "symbols": ["read_phonons", "_read_eigenvector"]}]}
{"id": "C70", "title": "Truncated OUTCAR positions", "statement": "If an OUTCAR ends inside the fractional-position block, read_positions raises an exception or returns an array without three columns; it never returns an (N,3) array with fabricated data.", "quantifier": "all files", "why_tests_cant": "All truncation points.", "anchors": [{"file": "ramannoodle/io/vasp/outcar.py", "symbols": ["_read_positions"]}]}
{"id": "C71", "title": "vasprun wavenumbers lose the sign of imaginary modes", "statement": "Wavenumbers read from vasprun.xml are sqrt(|eigenvalue|)/0.0299792458 and never negative, so, unlike OUTCAR, stable and unstable modes cannot be distinguished.", "quantifier": "all eigenvalue lists", "why_tests_cant": "All reals.", "anchors": [{"file": "ramannoodle/io/vasp/vasprun.py", "symbols": ["_parse_eigenvalues"]}]}
{"id": "C72", "title": "vasprun readers read the initial structure and unnamed structures", "statement": "read_positions/read_structure read the first varray of the structure named 'initialpos'; read_trajectory returns exactly the unnamed top-level structures in order.", "quantifier": "all XML trees", "why_tests_cant": "All trees.", "anchors": [{"file": "ramannoodle/io/vasp/vasprun.py", "symbols": ["read_trajectory", "read_positions", "_parse_positions"]}]}
{"id": "C73", "title": "Generic IO dispatch", "statement": "Every generic reader/writer calls the format's own function for supported formats and raises ValueError for all other format names; a KeyError raised inside a reader is misreported as an unsupported format.", "quantifier": "all format strings, all reader outcomes", "why_tests_cant": "All strings.", "anchors": [{"file": "ramannoodle/io/generic.py", "symbols": ["read_phonons", "read_trajectory", "read_positions", "read_ref_structure", "write_structure"]}]}
{"id": "C74", "title": "Polarizability vectors and tensors convert losslessly", "statement": "tensors_to_vectors(vectors_to_tensors(v)) = v, vectors_to_tensors(tensors_to_vectors(A)) = A iff A is symmetric, results are always symmetric.", "quantifier": "all vectors and tensors", "why_tests_cant": "All reals.", "anchors": [{"file": "ramannoodle/dataset/torch/utils.py", "symbols": ["polarizability_vectors_to_tensors", "polarizability_tensors_to_vectors"]}]}
{"id": "C75", "title": "Standard scaling", "statement": "Scaled polarizabilities of a dataset have zero mean and unit (population) standard deviation in every component whose standard deviation is nonzero.", "quantifier": "all datasets", "why_tests_cant": "All sizes.", "anchors": [{"file": "ramannoodle/dataset/torch/_dataset.py", "symbols": ["PolarizabilityDataset", "_scale_and_flatten_polarizabilities"]}]}
{"id": "C76", "title": "Scaling and un-scaling are inverse", "statement": "If a network outputs a dataset's scaled vectors and the GNN was built with the dataset's mean and stddev, calc_polarizabilities returns the dataset's (symmetric) polarizabilities; scale_polarizabilities with the dataset's own mean/stddev reproduces its scaled vectors.", "quantifier": "all datasets with nonzero stddev", "why_tests_cant": "All reals.", "anchors": [{"file": "ramannoodle/dataset/torch/_dataset.py", "symbols": ["PolarizabilityDataset.scale_polarizabilities"]}, {"file": "ramannoodle/pmodel/torch/_gnn.py", "symbols": ["PotGNN.calc_polarizabilities"]}]}
{"id": "C77", "title": "Dataset files must agree", "statement": "read_polarizability_dataset accepts files iff each file's atomic numbers equal the previous file's and its lattice is close to the previous file's; samples are in file order; the returned lattice is the last file's (so it may be far from the first's).", "quantifier": "all file lists", "why_tests_cant": "Drift needs many files.", "anchors": [{"file": "ramannoodle/io/_utils.py", "symbols": ["_read_polarizability_dataset"]}]}
{"id": "C78", "title": "get_rotations rotates the x axis onto the target", "statement": "For every nonzero target not antiparallel to x the result is a proper rotation sending (1,0,0) to target/|target|; for the antiparallel target it is the identity.", "quantifier": "all targets", "why_tests_cant": "All vectors.", "anchors": [{"file": "ramannoodle/pmodel/torch/_utils.py", "symbols": ["get_rotations"]}]}
{"id": "C79", "title": "Edge polarizabilities are axial tensors about the edge", "statement": "Each component of an edge polarizability equals q*delta_ij+(p-q)*u_i*u_j for that component's (p,q), for every unit vector including the antiparallel one; hence it is unchanged when the edge is reversed.", "quantifier": "all embeddings, all unit vectors", "why_tests_cant": "All unit vectors.", "anchors": [{"file": "ramannoodle/pmodel/torch/_gnn.py", "symbols": ["_get_edge_polarizability_vectors"]}]}
{"id": "C80", "title": "Triplet cache is transparent", "statement": "get_triplets(b) returns the same triplets for every history of earlier calls: b copies of the reference triplets offset by sample.", "quantifier": "all call histories", "why_tests_cant": "All histories.", "anchors": [{"file": "ramannoodle/pmodel/torch/_utils.py", "symbols": ["BatchTriplets.get_triplets"]}]}
{"id": "C81", "title": "batch_positions splits without loss", "statement": "Concatenating the yielded batches gives the input, every batch is nonempty and at most batch_size long, and all but the last have batch_size samples.", "quantifier": "all arrays, all positive batch sizes", "why_tests_cant": "All sizes.", "anchors": [{"file": "ramannoodle/pmodel/torch/_utils.py", "symbols": ["batch_positions"]}]}
{"id": "C82", "title": "Radius graph edges", "statement": "An ordered pair of distinct atoms is an edge iff its wrapped Cartesian distance is at most cutoff; no self loops; edges come in both directions if no coordinate difference is exactly half a cell or the lattice is orthogonal (otherwise asymmetric edges exist).", "quantifier": "all structures and cutoffs", "why_tests_cant": "All structures.", "anchors": [{"file": "ramannoodle/pmodel/torch/_utils.py", "symbols": ["_radius_graph_pbc"]}]}
{"id": "C83", "title": "Batched graphs are disjoint", "statement": "In a batch the node indexes of sample s lie in [s*N,(s+1)*N), so graph index and atom are recovered by division with remainder.", "quantifier": "all batches", "why_tests_cant": "All sizes.", "anchors": [{"file": "ramannoodle/pmodel/torch/_utils.py", "symbols": ["get_graph_info", "BatchTriplets"]}]}
{"id": "C84", "title": "GNN predictions do not depend on the rest of the batch", "statement": "In eval mode PotGNN.forward on a batch gives for each sample the prediction for that sample alone.", "quantifier": "all batches, all (row-wise) network weights", "why_tests_cant": "All batches and weights.", "anchors": [{"file": "ramannoodle/pmodel/torch/_gnn.py", "symbols": ["PotGNN.forward"]}]}
{"id": "C85", "title": "PotGNN.calc_polarizabilities equals sample-wise evaluation", "statement": "Splitting into sub-batches of 100 and reassembling gives one tensor per sample, in order, equal to stddev*forward+mean of that sample; results are symmetric if mean and stddev are.", "quantifier": "all batch sizes", "why_tests_cant": "Sizes above 100.", "anchors": [{"file": "ramannoodle/pmodel/torch/_gnn.py", "symbols": ["PotGNN.calc_polarizabilities"]}]}
{"id": "C86", "title": "GNN predictions are translation and image invariant", "statement": "forward is unchanged if all atoms of a sample are translated by a common vector or any atom by an integer vector.", "quantifier": "all translations", "why_tests_cant": "All reals.", "anchors": [{"file": "ramannoodle/pmodel/torch/_gnn.py", "symbols": ["PotGNN._batch_graph"]}]}
{"id": "C87", "title": "Atom types", "statement": "Atom types are 0..T-1, distinct for distinct elements of the reference structure, and -1 for all other atomic numbers.", "quantifier": "all structures", "why_tests_cant": "All lists.", "anchors": [{"file": "ramannoodle/pmodel/torch/_gnn.py", "symbols": ["PotGNN.__init__", "PotGNN._convert_to_atom_type"]}]}
{"id": "C88", "title": "Training epoch structure", "statement": "train_single_epoch performs exactly ceil(n/batch_size) optimizer steps, one per training batch, never changes parameters during validation, and leaves the model in eval mode with cleared gradients.", "quantifier": "all dataset and batch sizes, all optimizers", "why_tests_cant": "All histories of optimizer steps.", "anchors": [{"file": "ramannoodle/pmodel/torch/_train.py", "symbols": ["train_single_epoch"]}]}
{"id": "C89", "title": "verify_ndarray_shape accepts exactly matching shapes", "statement": "verify_ndarray_shape succeeds iff the number of dimensions agrees and every non-None entry equals the dimension.", "quantifier": "all shapes and patterns", "why_tests_cant": "All shapes.", "anchors": [{"file": "ramannoodle/exceptions.py", "symbols": ["verify_ndarray_shape"]}]}
{"id": "C90", "title": "Element tables are consistent and agree with the periodic table", "statement": "ATOM_SYMBOLS inverts ATOMIC_NUMBERS, atomic numbers are exactly 1..118 and follow the order of the periodic table (a symbol has number n if and only if it is the n-th element), and every element has an atomic weight, which is its mass in atomic mass units up to half a unit.", "quantifier": "all 118 elements", "why_tests_cant": "Whole-table property used by every reader and writer.", "anchors": [{"file": "ramannoodle/constants.py", "symbols": ["ATOMIC_NUMBERS", "ATOM_SYMBOLS", "ATOMIC_WEIGHTS"]}]}
{"id": "C91", "title": "Getters documented as copies do not leak internal state", "statement": "Mutating arrays returned by getters documented as copies never changes the object. Holds for ReferenceStructure, Phonons, PhononRamanSpectrum and Trajectory.positions_ts getters; fails for MDRamanSpectrum.polarizability_ts and for the wavenumbers returned by PhononRamanSpectrum.measure.", "quantifier": "all histories of getter calls and mutations", "why_tests_cant": "Aliasing histories.", "anchors": [{"file": "ramannoodle/spectrum/_raman.py", "symbols": ["MDRamanSpectrum.polarizability_ts", "PhononRamanSpectrum.measure"]}, {"file": "ramannoodle/dynamics/_phonon.py", "symbols": ["Phonons"]}, {"file": "ramannoodle/dynamics/_trajectory.py", "symbols": ["Trajectory"]}]}
{"id": "C92", "title": "Which position batches calc_polarizabilities accepts", "statement": "A batch of shape (S,n,c) is accepted iff it broadcasts against (N,3); so besides (S,N,3) the shapes (S,1,3), (S,N,1) and (S,1,1) are silently accepted; other ranks raise ValueError.", "quantifier": "all shapes", "why_tests_cant": "All shapes.", "anchors": [{"file": "ramannoodle/pmodel/_interpolation.py", "symbols": ["InterpolationModel.calc_polarizabilities"]}]}
{"id": "C93", "title": "Cartesian POSCAR coordinates are converted with the file's lattice", "statement": "When a POSCAR holds Cartesian coordinates and a finite lattice, every finite position returned, multiplied by the lattice, is exactly the coordinate row in the file (in exact arithmetic), in order.", "quantifier": "all texts, all nonsingular lattices", "why_tests_cant": "All lattices; a transposed inverse only shows for non-symmetric lattices.", "anchors": [{"file": "ramannoodle/io/vasp/poscar.py", "symbols": ["_read_positions"]}]}
{"id": "C94", "title": "The XDATCAR reading loop always terminates", "statement": "On any text, read_positions_ts terminates: it returns configurations that all have one position per atom, or raises InvalidFileException, IndexError, LinAlgError or ValueError. Corrupted files whose offending line contains the text the reader looks for in exception messages are silently read as shorter trajectories.", "quantifier": "all file contents", "why_tests_cant": "Termination of an unbounded loop on all texts.", "anchors": [{"file": "ramannoodle/io/vasp/xdatcar.py", "symbols": ["read_positions_ts"]}]}
{"id": "C95", "title": "OUTCAR readers' errors on arbitrary files", "statement": "On any text, read_positions, read_positions_and_polarizability, read_structure_and_polarizability and read_ref_structure (up to the constructor) return or raise InvalidFileException or ValueError; read_trajectory and read_phonons terminate and return or raise these or LinAlgError. ValueError does escape (for example counts that are not integers), although the documentation promises InvalidFileException.", "quantifier": "all file contents", "why_tests_cant": "All texts; termination of unbounded loops.", "anchors": [{"file": "ramannoodle/io/vasp/outcar.py", "symbols": ["read_positions", "read_trajectory", "read_phonons", "_read_atomic_symbols"]}]}
{"id": "C96", "title": "vasprun phonons", "statement": "If read_phonons returns phonons from a vasprun.xml with a finite lattice, the lattice is nonsingular, there is at least one atom and one mode, as many wavenumbers as displacement fields, and each displacement times sqrt(mass) times lattice is exactly the eigenvector row listed for that atom.", "quantifier": "all XML trees", "why_tests_cant": "All trees; a transposed inverse or wrong mass only shows for special lattices and compounds.", "anchors": [{"file": "ramannoodle/io/vasp/vasprun.py", "symbols": ["read_phonons", "_parse_eigenvectors"]}]}
{"id": "C97", "title": "vasprun readers' errors on arbitrary trees", "statement": "On any XML tree read_positions and read_trajectory return or raise InvalidFileException or ValueError; reading structures may also raise IndexError (atom entries without children) or KeyError (unknown symbols), and read_phonons additionally LinAlgError. These undocumented exceptions do occur.", "quantifier": "all XML trees", "why_tests_cant": "All trees.", "anchors": [{"file": "ramannoodle/io/vasp/vasprun.py", "symbols": ["_parse_atomic_symbols", "read_ref_structure", "read_trajectory", "read_phonons"]}]}
{"id": "C98", "title": "PotGNN constructor validation", "statement": "PotGNN(...) succeeds iff cutoff>0, node embedding size>0, edge embedding size>=2, passes>0, 0<=filter start<filter end, mean and stddev have shape (3,3) and all atomic numbers are <=118; a ValueError is raised for arguments refused by the validation and an IndexError for edge embedding size 1 or heavier elements. A new network's reference edges are the pairs of distinct atoms within the cutoff and it knows exactly the elements of the reference structure.", "quantifier": "all arguments and structures", "why_tests_cant": "All argument combinations.", "anchors": [{"file": "ramannoodle/pmodel/torch/_gnn.py", "symbols": ["PotGNN.__init__", "_GaussianFilter.__init__"]}]}
{"id": "C99", "title": "Losses and variances reported by a training epoch", "statement": "The reported validation loss is the mean loss of the validation samples whenever the validation set has at most 100 samples or a multiple of 100 samples (loss of a batch being the mean over its samples); otherwise it is the mean of batch means, which can differ. The reported variance is the average of the unbiased variances of the batches; it is NaN exactly when the last validation batch has a single sample.", "quantifier": "all validation set sizes, all predictions", "why_tests_cant": "All sizes of the validation set; the deviation only shows for sizes above 100 that are not multiples of 100.", "anchors": [{"file": "ramannoodle/pmodel/torch/_train.py", "symbols": ["train_single_epoch"]}]}
{"id": "C100", "title": "Degrees of freedom from pymatgen structures equal those from files", "statement": "add_dof_from_pymatgen on structures and polarizabilities gives the same outcome (result, warnings, model afterwards) as add_dof_from_files on files with the same positions and polarizabilities; a number of polarizabilities that differs from the number of structures is refused and leaves the model unchanged.", "quantifier": "all models (dummy or not), structures, polarizabilities and orders", "why_tests_cant": "Both entry points duplicate the collinearity and amplitude computation; tests compare a few structures.", "anchors": [{"file": "ramannoodle/pmodel/_interpolation.py", "symbols": ["InterpolationModel.add_dof_from_pymatgen", "InterpolationModel._get_displacement_amplitudes_pymatgen"]}]}
{"id": "C101", "title": "Atomic Raman tensors from pymatgen structures use all supplied data", "statement": "add_art_from_pymatgen gives the same outcome as add_art_from_files on files with the same positions and polarizabilities, and refuses structures and polarizabilities that differ in number. (The second half is false of the code: zip drops the surplus silently; proved with a witness.)", "quantifier": "all models, structures and polarizabilities", "why_tests_cant": "Surplus data is dropped without any sign in the result.", "anchors": [{"file": "ramannoodle/pmodel/_art.py", "symbols": ["ARTModel.add_art_from_pymatgen"]}]}
{"id": "C102", "title": "Polarizability datasets from pymatgen structures", "statement": "construct_polarizability_dataset succeeds iff there is at least one structure, as many polarizabilities, and each structure has the atomic numbers of the first and its lattice up to 1e-5 absolute plus relative; the dataset has samples in the order given with the lattice of the first structure; lattices of any two structures differ at most by twice the tolerance (no drift). Refusals: IndexError, ValueError, IncompatibleStructureException, TypeError as specified.", "quantifier": "all lists of structures and polarizabilities", "why_tests_cant": "Unbounded lists and all perturbations of lattices.", "anchors": [{"file": "ramannoodle/io/pymatgen.py", "symbols": ["construct_polarizability_dataset"]}]}
{"id": "C103", "title": "Reference structures from pymatgen structures", "statement": "construct_ref_structure keeps atomic numbers, lattice and coordinates exactly. When spglib names at least one operation it succeeds iff all fractional coordinates are in [0,1]; otherwise ValueError, although pymatgen permits other coordinates.", "quantifier": "all structures and all behaviours of spglib", "why_tests_cant": "All coordinates; the failure only shows for structures with unwrapped coordinates.", "anchors": [{"file": "ramannoodle/io/pymatgen.py", "symbols": ["construct_ref_structure"]}, {"file": "ramannoodle/structure/_reference.py", "symbols": ["ReferenceStructure.__init__"]}]}
{"id": "C104", "title": "Trajectories from pymatgen trajectories", "statement": "construct_trajectory accepts exactly trajectories with constant lattice and positive time step and keeps the positions of every frame, wrapped into the cell. (False of the code for pymatgen trajectories stored as displacements: their displacements are taken for positions; proved with a witness.)", "quantifier": "all trajectories and time steps", "why_tests_cant": "The silent misinterpretation depends on a flag the code never reads.", "anchors": [{"file": "ramannoodle/io/pymatgen.py", "symbols": ["construct_trajectory"]}, {"file": "ramannoodle/dynamics/_trajectory.py", "symbols": ["Trajectory.__init__"]}]}
{"id": "C105", "title": "Structures that do not match the reference structure are refused", "statement": "add_dof_from_pymatgen and add_art_from_pymatgen refuse objects that are not structures (TypeError) and structures whose number of atoms, species or lattice differ from the reference structure. (False of the code for species and lattice, which are never read, and for single-atom structures, which are broadcast; proved. Other numbers of atoms are refused and leave the model unchanged.)", "quantifier": "all models, structures and polarizabilities", "why_tests_cant": "A wrong structure is accepted without any sign.", "anchors": [{"file": "ramannoodle/pmodel/_interpolation.py", "symbols": ["InterpolationModel._get_displacement_amplitudes_pymatgen", "InterpolationModel.add_dof_from_pymatgen"]}, {"file": "ramannoodle/pmodel/_art.py", "symbols": ["ARTModel.add_art_from_pymatgen"]}]}
{"id": "C106", "title": "Specification tuples list each inequivalent atom once with exactly its equivalent atoms and directions", "statement": "For a structure whose equivalence labels are valid, ARTModel.get_specification_tuples succeeds and lists, in increasing order, exactly the atoms that label themselves; each tuple carries exactly the other atoms with the same label, in increasing order, and exactly the directions b[a] of the basis vectors b that move atom a (some component above 1e-5 in magnitude), in order of insertion. Invalid labels give KeyError.", "quantifier": "all models, labellings and bases", "why_tests_cant": "Universally quantified over labellings and histories of added tensors; tests check a handful of models.", "anchors": [{"file": "ramannoodle/pmodel/_art.py", "symbols": ["ARTModel.get_specification_tuples", "ARTModel.get_dof_indexes", "ARTModel._get_art_cart_directions"]}, {"file": "ramannoodle/structure/_reference.py", "symbols": ["ReferenceStructure.get_equivalent_atom_dict"]}]}
{"id": "C107", "title": "A model never holds more than 3N degrees of freedom", "statement": "A model of N atoms never specifies more than 3N degrees of freedom, and a complete model refuses every further degree of freedom with InvalidDOFException and stays unchanged. (The bound is false of the code in general: with a threefold axis one atom can receive four degrees of freedom, because symmetry images are not compared with the stored basis. It holds in cubic cells whose stored basis is closed under the symmetry operations up to sign.)", "quantifier": "all models and add_dof calls", "why_tests_cant": "Needs a linear-independence argument for nearly orthogonal vectors over all dimensions, and an adversarial symmetry for the failure.", "anchors": [{"file": "ramannoodle/pmodel/_interpolation.py", "symbols": ["InterpolationModel.add_dof", "InterpolationModel._get_dof", "InterpolationModel.__repr__"]}]}
{"id": "C108", "title": "The automatic wavenumber grid of convolve_spectrum covers all peaks", "statement": "Without an explicit grid, convolve_spectrum evaluates on equally spaced wavenumbers that begin 100 cm^-1 below the lowest and end 100 cm^-1 above the highest peak; the number of points is the length of this range rounded to an integer (at least 200).", "quantifier": "all peak lists, line shapes and widths for which the call succeeds", "why_tests_cant": "All peak lists.", "anchors": [{"file": "ramannoodle/spectrum/utils.py", "symbols": ["convolve_spectrum"]}]}
{"id": "C109", "title": "Partial Raman spectra add up over complementary masks", "statement": "Phonons can be constructed exactly for equally many wavenumbers and displacements. For any interpolation model, the Raman tensors of the model under a mask and under the complementary mask add up, phonon by phonon, to those of the unmasked model; with everything masked all Raman tensors and raw intensities are zero.", "quantifier": "all models, masks and phonons", "why_tests_cant": "Relates three spectra for all masks; tests compare single spectra.", "anchors": [{"file": "ramannoodle/dynamics/_phonon.py", "symbols": ["Phonons.get_raman_spectrum", "Phonons.__init__"]}, {"file": "ramannoodle/pmodel/_interpolation.py", "symbols": ["InterpolationModel.get_masked_model", "InterpolationModel.unmask", "InterpolationModel.calc_polarizabilities"]}]}
{"id": "C110", "title": "Dataset samples are the given configurations with polarizabilities standardized by the reported statistics", "statement": "For every dataset that can be constructed: length, number of atoms and statistics (mean, population standard deviation) are those of the data; item i (also negative) is the lattice, atomic numbers, positions of configuration i and its polarizability standardized with exactly the statistics that the dataset reports, so that they can be inverted; other indexes raise IndexError. scale_polarizabilities replaces the statistics for all items and nothing else, does not compound with earlier rescaling, and is the identity for the dataset's own statistics. The atomic_numbers property of an empty dataset raises IndexError.", "quantifier": "all datasets, indexes and statistics", "why_tests_cant": "Algebraic laws over all data.", "anchors": [{"file": "ramannoodle/dataset/torch/_dataset.py", "symbols": ["PolarizabilityDataset.__getitem__", "PolarizabilityDataset.__len__", "PolarizabilityDataset.num_atoms", "PolarizabilityDataset.num_samples", "PolarizabilityDataset.atomic_numbers", "PolarizabilityDataset.mean_polarizability", "PolarizabilityDataset.stddev_polarizability", "PolarizabilityDataset.scale_polarizabilities"]}]}
{"id": "C111", "title": "The text of a model determines its numbers of degrees of freedom", "statement": "repr of an InterpolationModel shows specified/3N degrees of freedom in green if equal, yellow if some but not all and red if none or too many are specified; warnings follow exactly if something is masked or the model is a dummy. Two models with the same text agree in the number of atoms, of specified and of masked degrees of freedom and in being a dummy. repr of an ARTModel has one row per inequivalent atom in order, with its directions, their number coloured likewise, and the number of equivalent atoms; invalid equivalence labels give KeyError.", "quantifier": "all models", "why_tests_cant": "Injectivity of a text format over all models.", "anchors": [{"file": "ramannoodle/pmodel/_interpolation.py", "symbols": ["InterpolationModel.__repr__"]}, {"file": "ramannoodle/pmodel/_art.py", "symbols": ["ARTModel.__repr__", "_get_specified_str", "_get_directions_str"]}]}
{"id": "C112", "title": "Displacing, computing and reading back reproduces amplitudes and polarizabilities", "statement": "Structures produced by get_displaced_positions with nonzero amplitudes that stay within half a cell are read back by a model with the same displacements and, up to the sign of the first amplitude, the same amplitudes; a zero amplitude makes the set invalid (InvalidDOFException). If add_dof_from_files of these structures with polarizabilities succeeds on a new model (symmetry adding no overlapping basis vector), the model predicts exactly the given polarizability at each displaced structure and the reference polarizability at the reference.", "quantifier": "all structures, displacements, amplitudes, polarizabilities and interpolating splines", "why_tests_cant": "End-to-end law across three modules for all inputs.", "anchors": [{"file": "ramannoodle/structure/_displace.py", "symbols": ["get_displaced_positions"]}, {"file": "ramannoodle/pmodel/_interpolation.py", "symbols": ["InterpolationModel._read_dof", "InterpolationModel.add_dof_from_files", "InterpolationModel.calc_polarizabilities"]}]}
{"id": "C113", "title": "Lines, words and numbers are recognised exactly as Python defines them", "statement": "Reading with universal newlines splits every text uniquely into lines ended by LF, CRLF or CR. split() cuts a line into its maximal runs of non-blank characters. float() accepts exactly decimal literals (sign, digits with single underscores, optional fraction and exponent) or names of non-finite values surrounded by blanks, with the value the digits denote; int() accepts exactly signed digit strings surrounded by blanks.", "quantifier": "all texts", "why_tests_cant": "The grammar is an infinite language; only a proof relates the scanner to it on all strings.", "anchors": [{"file": "ramannoodle/io/vasp/poscar.py", "symbols": ["_read_lattice", "_read_atomic_symbols", "_read_positions"]}, {"file": "ramannoodle/io/vasp/outcar.py", "symbols": ["_read_positions"]}]}
{"id": "C114", "title": "read_structure accepts exactly the POSCAR layout", "statement": "On any text, read_structure of the POSCAR reader returns a structure (with finite lattice) if and only if the text has the layout: scale factor in line 2, three lattice rows, known element symbols, equally many integer counts, optionally a selective-dynamics line, a line starting with c/C/d/D, one row of at least three numbers per atom; and the returned lattice is scale times the rows, the numbers follow symbols and counts, and positions are the rows, converted to fractional coordinates for Cartesian input.", "quantifier": "all texts and structures", "why_tests_cant": "An iff over all texts, including rejection of every malformed one.", "anchors": [{"file": "ramannoodle/io/vasp/poscar.py", "symbols": ["read_structure", "_read_lattice", "_read_atomic_symbols", "_read_positions"]}]}
{"id": "C115", "title": "read_positions agrees with read_structure", "statement": "On any POSCAR text, read_positions returns the positions of the structure read_structure returns, and raises the same exception when read_structure raises.", "quantifier": "all texts", "why_tests_cant": "Agreement of two code paths on every input, including malformed ones.", "anchors": [{"file": "ramannoodle/io/vasp/poscar.py", "symbols": ["read_positions", "read_structure"]}]}
{"id": "C116", "title": "read_positions_ts reads exactly the configurations of an XDATCAR", "statement": "A text with a valid header followed by complete configurations up to a line that is missing, empty or starts with a blank is read as exactly those configurations; nothing else is read as a trajectory, except that a line containing the reader's own 'missing first character' message silently ends the reading.", "quantifier": "all texts", "why_tests_cant": "Quantifies over all texts and trajectory lengths.", "anchors": [{"file": "ramannoodle/io/vasp/xdatcar.py", "symbols": ["read_positions_ts"]}, {"file": "ramannoodle/io/vasp/poscar.py", "symbols": ["_read_positions"]}]}
{"id": "C117", "title": "Degrees of freedom from files: accepted sets and amplitudes", "statement": "add_dof_from_files and add_art_from_files refuse (InvalidDOFException, model unchanged) every set of structures whose minimum-image displacements are not all collinear with the first one; for an accepted set add_dof_from_files is add_dof with the Cartesian displacement of the first structure, the signed lengths of all displacements along it and the polarizabilities in file order. No files: IndexError; the first unreadable file determines the exception; a structure with another number of atoms gives InvalidDOFException.", "quantifier": "all models, structures and polarizabilities", "why_tests_cant": "Quantifies over all structures and displacement sets.", "anchors": [{"file": "ramannoodle/pmodel/_interpolation.py", "symbols": ["InterpolationModel._read_dof", "InterpolationModel.add_dof_from_files"]}, {"file": "ramannoodle/pmodel/_art.py", "symbols": ["ARTModel.add_art_from_files"]}]}
{"id": "C118", "title": "Raman tensors of interpolation and ART models are twice the summed slopes", "statement": "For phonon displacements below 500 cell lengths (so that the finite-difference step stays within half a cell), the Raman tensor computed by Phonons.get_raman_spectrum from an interpolation model is the sum over unmasked degrees of freedom of (f(0.001 x) - f(-0.001 x)) / 0.001, x being the projection of the Cartesian displacement on the basis vector. If all interpolations are polynomials of degree at most two this is exactly twice the sum of x times the slope at zero amplitude; even interpolations contribute nothing. Every interpolation that add_art builds from two points is the straight line through them.", "quantifier": "all interpolation models, masks, displacements, polynomial coefficients; all add_art calls", "why_tests_cant": "Quantifies over all models and displacements; floating-point tests only see approximate agreement at a few points.", "anchors": [{"file": "ramannoodle/dynamics/_phonon.py", "symbols": ["Phonons.get_raman_spectrum"]}, {"file": "ramannoodle/pmodel/_interpolation.py", "symbols": ["InterpolationModel.calc_polarizabilities"]}, {"file": "ramannoodle/pmodel/_art.py", "symbols": ["ARTModel.add_art"]}]}
{"id": "C119", "title": "Predictions at the reference structure", "statement": "At the reference structure an interpolation model returns the reference polarizability plus the values of the unmasked interpolations at zero amplitude. After add_dof calls that include the reference polarizability this is the reference polarizability. ART models do not include it: with one ART (crystal without symmetry) every prediction is the value of the straight line through the two supplied polarizabilities, the reference polarizability has no influence, and the model returns its reference polarizability at the reference structure exactly if that point lies on the line.", "quantifier": "all models, splines, structures, amplitudes and polarizabilities", "why_tests_cant": "Quantifies over all data; the dependence on the reference polarizability cancels only symbolically.", "anchors": [{"file": "ramannoodle/pmodel/_art.py", "symbols": ["ARTModel.add_art"]}, {"file": "ramannoodle/pmodel/_interpolation.py", "symbols": ["InterpolationModel.calc_polarizabilities", "InterpolationModel.add_dof"]}]}
{"id": "C120", "title": "Predictions transform like tensors under the crystal's symmetry operations", "statement": "If a symmetry operation permutes the degrees of freedom of an interpolation model (basis vectors up to sign, responses turned along, masks unchanged) and leaves the reference polarizability unchanged, then the prediction for a transformed configuration is the turned prediction. In a crystal whose operations form a group of orthogonal matrices commuting with the lattice, add_dof keeps this property whenever the symmetry images of the displacement are pairwise equal, opposite or orthogonal, operations with the same image agree on the data, and the spline routine turns and reflects with its points; so models built by add_dof from such data are equivariant. Without the condition on images it fails: a generic displacement's mirror image is dropped and the model returns the measured value at one configuration and the reference value at its mirror image.", "quantifier": "all crystals, groups of operations, displacements, amplitudes, polarizabilities, spline routines, configurations", "why_tests_cant": "Quantifies over all symmetry groups, data sets and configurations; equivariance depends on the interplay of image grouping, multipliers and tensor rotation.", "anchors": [{"file": "ramannoodle/pmodel/_interpolation.py", "symbols": ["InterpolationModel.add_dof", "InterpolationModel._get_dof", "InterpolationModel._construct_and_add_interpolations", "InterpolationModel.calc_polarizabilities"]}, {"file": "ramannoodle/structure/_reference.py", "symbols": ["ReferenceStructure.get_equivalent_displacements"]}]}
{"id": "C121", "title": "Raman spectra of trajectories: pointwise, in time order, invariant under images and time reversal", "statement": "Trajectory.get_raman_spectrum with an interpolation model yields, in time order, the polarizability the model assigns to every supplied configuration evaluated by itself, with the trajectory's timestep; frames replaced by periodic images give the same spectrum; model exceptions are passed on unchanged in kind. MDRamanSpectrum.measure of a constant polarizability series has zero intensities, and running a series backwards changes no measurement.", "quantifier": "all interpolation models, trajectories, time series, timesteps and measurement options", "why_tests_cant": "Quantifies over all models, trajectories and series lengths.", "anchors": [{"file": "ramannoodle/dynamics/_trajectory.py", "symbols": ["Trajectory.__init__", "Trajectory.get_raman_spectrum"]}, {"file": "ramannoodle/spectrum/_raman.py", "symbols": ["MDRamanSpectrum.measure"]}]}
{"id": "C122", "title": "From atoms displaced one at a time to an ARTModel and back", "statement": "In a structure without symmetry, displacing one atom along a direction by two nonzero amplitudes that are not too close and giving structures and polarizabilities to add_art_from_files succeeds; the model has one degree of freedom moving only that atom and returns the supplied polarizabilities at both structures. With one or more than two structures, or a zero amplitude, InvalidDOFException is raised and the model is unchanged.", "quantifier": "all structures without symmetry, atoms, directions, amplitudes, polarizabilities", "why_tests_cant": "Quantifies over all structures, directions and amplitudes; composes generation of inputs, reading and model building.", "anchors": [{"file": "ramannoodle/pmodel/_art.py", "symbols": ["ARTModel.add_art_from_files", "ARTModel.add_art"]}, {"file": "ramannoodle/structure/_displace.py", "symbols": ["get_ast_displaced_positions"]}]}
{"id": "C123", "title": "Zero displacements are never accepted as degrees of freedom", "statement": "add_dof with a displacement that vanishes up to lattice translations always raises and never changes the model: with existing degrees of freedom InvalidDOFException; without, ValueError for an order below one, InvalidDOFException for too few points, and otherwise ValueError because the interpolation amplitudes are NaN.", "quantifier": "all models, amplitudes, polarizabilities, orders and spline routines", "why_tests_cant": "Quantifies over all models and data; NaN propagates through several functions before being rejected.", "anchors": [{"file": "ramannoodle/pmodel/_interpolation.py", "symbols": ["InterpolationModel.add_dof", "InterpolationModel._get_dof", "InterpolationModel._construct_and_add_interpolations"]}]}
{"id": "C124", "title": "Equivalent displacements are images under the crystal symmetries reported by spglib", "statement": "If all operations reported by spglib are symmetries of the crystal (columns: x -> R x + t), every displacement returned by get_equivalent_displacements is the image of the displacement under a symmetry of the crystal.", "quantifier": "all crystals, all sets of symmetry operations, all displacements", "why_tests_cant": "The repository's test crystals only have operations for which rows and columns do not matter; the claim concerns all crystals.", "anchors": [{"file": "ramannoodle/structure/_reference.py", "symbols": ["ReferenceStructure.get_equivalent_displacements", "_compute_permutation_matrices"]}, {"file": "ramannoodle/structure/utils.py", "symbols": ["transform_positions"]}]}
{"id": "C125", "title": "Layers of the graph network compute their textbook functions", "statement": "Linear layers are affine maps, layer normalisation shifts and scales every row to mean zero and variance var/(var+eps) before its affine part, batch normalisation in evaluation mode is a fixed affine map, the gate is the logistic function of the first half times tanh of the second half and lies strictly between -1 and 1, the shifted softplus vanishes at zero and is strictly increasing, and the distance filter has offsets equally spaced from start to end and the value 1 exactly at its offsets, exp(-1/2) one step away.", "quantifier": "all weights, all widths, all inputs", "why_tests_cant": "Real-valued inputs and weights of any width.", "anchors": [{"file": "ramannoodle/pmodel/torch/_gnn.py", "symbols": ["_GaussianFilter", "_NodeBlock.forward", "_EdgeBlock.forward"]}]}
{"id": "C126", "title": "The network's prediction is the message passing formula on the reference graph", "statement": "In evaluation mode, for structures of known elements without bonded atoms at the same place, the prediction for each structure of a batch is: initial node features from the element table, initial edge features from the bond lengths, then per pass a node update from the edges at the node followed by an edge update from the edge's ends and from the triplets at the edge, then the output layers, then the average over all edges of the tensors built from the bond directions.", "quantifier": "all weights, widths, numbers of passes, reference graphs and batches", "why_tests_cant": "Batched index arithmetic over all graphs and batches; the formula is stated on abstract graphs without numbering or batching.", "anchors": [{"file": "ramannoodle/pmodel/torch/_gnn.py", "symbols": ["PotGNN.forward", "_NodeBlock.forward", "_EdgeBlock.forward", "_get_edge_polarizability_vectors"]}]}
{"id": "C127", "title": "Predictions of the graph network do not depend on the numbering of the atoms", "statement": "If the atoms of the reference structure are listed in another order, the constructor sets up the same constants, and with the same weights the network gives the same result (prediction, NaN or exception) for every batch of structures listed in that order.", "quantifier": "all permutations, reference structures, weights and batches; any triplets function that lists every path of two edges once", "why_tests_cant": "Quantifies over all permutations and graphs; edge lists and triplet lists come in a different order.", "anchors": [{"file": "ramannoodle/pmodel/torch/_gnn.py", "symbols": ["PotGNN.__init__", "PotGNN.forward"]}, {"file": "ramannoodle/pmodel/torch/_utils.py", "symbols": ["_radius_graph_pbc", "BatchTriplets"]}]}
{"id": "C128", "title": "Predictions of a graph network are bounded", "statement": "After at least one message passing round all edge features lie strictly between -1 and 1, and for every network there is a bound on all components of all its predictions, whatever the structures.", "quantifier": "all weights; all structures, numbers of atoms and batches", "why_tests_cant": "A bound over all structures.", "anchors": [{"file": "ramannoodle/pmodel/torch/_gnn.py", "symbols": ["PotGNN.forward", "_EdgeBlock.forward", "_get_edge_polarizability_vectors"]}]}
{"id": "C129", "title": "Predictions of the graph network turn with the structure", "statement": "If a structure is rotated or reflected (lattice multiplied by an orthogonal matrix Q), the predicted tensor changes from A to Q^T A Q.", "quantifier": "all weights, structures, batches and orthogonal matrices", "why_tests_cant": "Quantifies over all rotations and weights; it is in fact false for almost all weights, although the code builds its tensors from rotation matrices.", "anchors": [{"file": "ramannoodle/pmodel/torch/_gnn.py", "symbols": ["_get_edge_polarizability_vectors", "PotGNN.forward"]}]}
{"id": "C130", "title": "Accuracy of the Raman tensors of phonons", "statement": "The Raman tensor of a mode is one thousand times the difference of the polarizabilities one thousandth of the mode ahead of and behind the reference positions. If the polarizability is twice differentiable along the modes and its second derivative changes at most at the rate K, the tensors are twice the derivatives along the modes up to an error of at most K/3000000, and this bound is attained.", "quantifier": "all polarizability models, phonons, modes and constants K", "why_tests_cant": "An error bound over all smooth models; a test compares one model with one stored spectrum.", "anchors": [{"file": "ramannoodle/dynamics/_phonon.py", "symbols": ["Phonons.get_raman_spectrum"]}, {"file": "ramannoodle/constants.py", "symbols": ["RAMAN_TENSOR_CENTRAL_DIFFERENCE"]}]}
{"id": "C131", "title": "Trajectories as sequences", "statement": "Iterating over a trajectory ends, never fails and yields every configuration exactly once in order; reversed() yields them in the opposite order; both agree with len, indexing and the slices [:] and [::-1]. The inherited membership test is unusable: it fails with ValueError for every configuration and every non-empty trajectory.", "quantifier": "all trajectories and configurations", "why_tests_cant": "The methods are inherited from collections.abc.Sequence and no test calls them; termination of the iteration rests on which exception indexing raises.", "anchors": [{"file": "ramannoodle/dynamics/_trajectory.py", "symbols": ["Trajectory.__getitem__", "Trajectory.__len__"]}]}
{"id": "C132", "title": "The graph network in training mode", "statement": "In training mode every sample is predicted by the textbook formula with the mean and variance, over the edges of all samples of the batch, of the inputs of the batch normalisation; the running statistics move a tenth of the way towards mean and unbiased variance of the batch and nothing else in the network changes. So a prediction in training mode depends on the rest of the batch. A batch with a single edge is refused. Over any number of epochs the running variances stay nonnegative, and validation never changes running statistics.", "quantifier": "all weights, graphs, batches, data, losses, gradients and optimizers", "why_tests_cant": "Quantifies over all batches and all training histories; tests train once on one small dataset.", "anchors": [{"file": "ramannoodle/pmodel/torch/_gnn.py", "symbols": ["PotGNN.__init__", "PotGNN.forward"]}, {"file": "ramannoodle/pmodel/torch/_train.py", "symbols": ["train_single_epoch"]}]}
{"id": "C133", "title": "Accuracy of displacements in floating-point arithmetic", "statement": "With rounding after every operation and relative error u per rounding, apply_pbc, displace_positions and calc_displacement are off by at most u, 5u and 9u/2 up to a periodic image, however large the coordinates are; calculated displacements lie in [-1/2,1/2]; a displacement shorter than half a cell by more than 19u/2 is recovered from the displaced positions up to 19u/2.", "quantifier": "all ordered fields, monotone roundings with relative error u, positions, displacements, numbers of atoms", "why_tests_cant": "Quantifies over all positions and all roundings, including coordinates next to cell boundaries, where errors jump by a whole cell.", "anchors": [{"file": "ramannoodle/structure/utils.py", "symbols": ["apply_pbc", "displace_positions", "calc_displacement"]}]}
{"id": "C134", "title": "Which structures the OUTCAR readers return", "statement": "On any text, read_structure_and_polarizability, read_ref_structure (up to the constructor), read_positions_and_polarizability and read_positions return arrays with three columns if and only if the parts of the file (POTCAR lines with known elements, ions per type, lattice below 'Write flags', fractional positions, dielectric tensor) occur in this order, each found at the first line with its title after the previous part; and what is returned is exactly what these parts hold.", "quantifier": "all texts and structures", "why_tests_cant": "An iff over all texts, including rejection of every file whose parts are missing, incomplete or out of order.", "anchors": [{"file": "ramannoodle/io/vasp/outcar.py", "symbols": ["read_structure_and_polarizability", "read_ref_structure", "read_positions_and_polarizability", "read_positions", "_read_lattice", "_read_positions", "_read_polarizability"]}]}
{"id": "C135", "title": "Which structures the vasprun readers return", "statement": "On any XML tree, read_structure_and_polarizability, read_ref_structure (up to the constructor) and read_positions_and_polarizability succeed if and only if the tree has the atoms, lattice, initial positions and dielectric tensor at the documented places with known one-word symbols, and they return exactly these.", "quantifier": "all XML trees and structures", "why_tests_cant": "An iff over all trees.", "anchors": [{"file": "ramannoodle/io/vasp/vasprun.py", "symbols": ["read_structure_and_polarizability", "read_ref_structure", "read_positions_and_polarizability", "_parse_atomic_symbols", "_parse_lattice", "_parse_polarizability"]}]}
{"id": "C136", "title": "Which trajectories the OUTCAR reader returns", "statement": "On any text with elements, time step and a finite lattice in this order, read_trajectory returns a trajectory if and only if there are atoms and ionic steps, the lattice is invertible and the time step is positive; the frames are exactly the positions of the ionic steps in order, converted to fractional coordinates in the cell, leaving out every step not marked as machine-learned that follows a machine-learned one. Any text from which a trajectory is read has these parts.", "quantifier": "all texts, numbers of atoms and steps", "why_tests_cant": "An iff over all texts, with arbitrary interleaving of machine-learned and other steps.", "anchors": [{"file": "ramannoodle/io/vasp/outcar.py", "symbols": ["read_trajectory", "_read_timestep", "_read_next_cart_positions_ts", "_read_lattice", "_read_atomic_symbols"]}]}
{"id": "C137", "title": "Which phonons the OUTCAR reader returns", "statement": "On any text with elements, a finite lattice, positions and the title of the eigenvectors in this order, read_phonons returns phonons if and only if there are atoms, the lattice is invertible and 3N complete modes follow; it then returns the positions, the wavenumbers in order (negative for modes marked f/i) and, for every mode and atom, the vector whose Cartesian form times the square root of the atomic mass is the printed row. Any text from which phonons are read has these parts.", "quantifier": "all texts and numbers of atoms", "why_tests_cant": "An iff over all texts, with any placement of heading lines and any signs.", "anchors": [{"file": "ramannoodle/io/vasp/outcar.py", "symbols": ["read_phonons", "_read_eigenvector", "_read_positions", "_read_lattice", "_read_atomic_symbols"]}]}
{"id": "C138", "title": "Which phonons the vasprun reader returns", "statement": "On any XML tree with a finite initial lattice, read_phonons returns phonons if and only if the lattice is invertible, the tree lists atoms of known elements with a position for each, and as many eigenvalues as eigenvectors (at least one), each eigenvector with three numbers for each atom; it then returns these positions, the wavenumbers of the eigenvalues and, for every mode and atom, the vector whose Cartesian form times the square root of the atomic mass is the listed row.", "quantifier": "all XML trees", "why_tests_cant": "An iff over all trees.", "anchors": [{"file": "ramannoodle/io/vasp/vasprun.py", "symbols": ["read_phonons", "_parse_eigenvalues", "_parse_eigenvectors", "_parse_lattice", "_parse_atomic_symbols", "_parse_positions"]}]}
{"id": "C139", "title": "Structures and trajectories survive the way through a file", "statement": "Once write_structure has returned for a path, reading that path with either VASP format gives the atomic numbers, and the lattice and positions rounded to 16 decimals; once write_trajectory has returned, reading the path gives all configurations in order, rounded to 16 decimals and moved into the cell (a trajectory without configurations is written but not readable); no other file changes. What is read can be written and read again without further change.", "quantifier": "all structures, trajectories, paths and file-system states", "why_tests_cant": "Infinitely many numbers, including ties of the rounding and non-finite ones, and all states of the file system.", "anchors": [{"file": "ramannoodle/io/generic.py", "symbols": ["write_structure", "write_trajectory", "read_ref_structure", "read_positions"]}, {"file": "ramannoodle/io/vasp/poscar.py", "symbols": ["write_structure", "read_ref_structure"]}, {"file": "ramannoodle/io/vasp/xdatcar.py", "symbols": ["write_trajectory", "read_trajectory"]}]}
{"id": "C140", "title": "Polycrystalline intensities are averages over all orientations", "statement": "For symmetric tensors, the uncorrected polycrystalline intensity of a phonon is 45 times the average over all orientations of the crystal (any distribution of orthogonal matrices unchanged by rotations) of the squared tensor component seen with parallel polarization plus the one with perpendicular polarization; the parallel part is 45a^2+4g^2 and the perpendicular part 3g^2. The intensities of a molecular-dynamics spectrum are 45 times the same average of the spectra of the observed changes of the component.", "quantifier": "all symmetric tensors, trajectories, polarizations and uniform orientation distributions", "why_tests_cant": "An integral over a continuous group, for every tensor.", "anchors": [{"file": "ramannoodle/spectrum/_raman.py", "symbols": ["PhononRamanSpectrum", "MDRamanSpectrum"]}, {"file": "ramannoodle/spectrum/utils.py", "symbols": ["calc_signal_spectrum"]}]}
{"id": "C141", "title": "The molecular-dynamics spectrum of harmonic vibrations shows the phonon intensities", "statement": "If a trajectory is a superposition of harmonic vibrations with distinct frequencies, each with a whole number of periods in the sampled time, then the molecular-dynamics spectrum is the sum over the vibrations of their phonon intensity times 4 sin^2(pi k_m/n) times (n/4 + n^2/8 at the vibration's own wavenumber): peaks at exactly the phonon wavenumbers, over a constant background. For every trajectory no intensity is below half of the summed intensities of the step-to-step changes, and for an odd number of samples the intensities obey the sum rule first + 2 rest = n times the energy.", "quantifier": "all numbers of vibrations, frequencies, phases, tensors, numbers of steps and time steps", "why_tests_cant": "Frequencies, phases, amplitudes and lengths are all unbounded or continuous.", "anchors": [{"file": "ramannoodle/spectrum/_raman.py", "symbols": ["PhononRamanSpectrum", "MDRamanSpectrum"]}, {"file": "ramannoodle/spectrum/utils.py", "symbols": ["calc_signal_spectrum"]}]}
{"id": "C142", "title": "Predictions do not depend on the orientation of the cell in the laboratory", "statement": "Describing the same crystal in a rotated frame (lattice vectors, Cartesian displacements and directions rotated by an orthogonal matrix, polarizabilities turned, fractional coordinates unchanged) changes nothing: every way of adding degrees of freedom succeeds, fails and warns as before and gives the model seen from the rotated frame, predictions are the turned predictions, and phonon and molecular-dynamics spectra are the same.", "quantifier": "all crystals, models, data, orthogonal matrices and configurations", "why_tests_cant": "A continuous group of rotations and all sequences of calls.", "anchors": [{"file": "ramannoodle/pmodel/_interpolation.py", "symbols": ["InterpolationModel.add_dof", "InterpolationModel.add_dof_from_files", "InterpolationModel.calc_polarizabilities", "InterpolationModel._get_dof"]}, {"file": "ramannoodle/pmodel/_art.py", "symbols": ["ARTModel.add_art", "ARTModel.add_art_from_files"]}, {"file": "ramannoodle/structure/_reference.py", "symbols": ["ReferenceStructure"]}]}
{"id": "C143", "title": "Predictions do not depend on the choice of the origin", "statement": "Describing the same crystal from another origin (all atoms of the reference structure and of every configuration moved by the same vector, up to lattice translations; symmetry operations with the same rotations and the corresponding translations) changes nothing: the permutations of atoms and the groups of equivalent displacements are the same, every way of adding degrees of freedom succeeds, fails and warns as before and adds the same basis vectors and interpolations, and predictions and spectra are the same.", "quantifier": "all crystals, moves, models, data, sequences of calls and configurations", "why_tests_cant": "A continuous family of origins and all sequences of calls.", "anchors": [{"file": "ramannoodle/structure/_reference.py", "symbols": ["ReferenceStructure", "_compute_permutation_matrices", "ReferenceStructure.get_equivalent_displacements"]}, {"file": "ramannoodle/pmodel/_interpolation.py", "symbols": ["InterpolationModel.add_dof", "InterpolationModel.add_dof_from_files", "InterpolationModel.calc_polarizabilities"]}, {"file": "ramannoodle/pmodel/_art.py", "symbols": ["ARTModel.add_art", "ARTModel.add_art_from_files"]}]}
{"id": "C144", "title": "The order in which degrees of freedom are added does not matter", "statement": "If the same calls (add_dof, add_dof_from_files, add_dof_from_pymatgen and their atom-resolved counterparts, in any mixture) run through in two orders on the same model, then the warnings issued, the stored directions and the stored triples of direction, interpolation and mask are the same up to order, and all predictions are the same. Whether the calls run through does depend on the order: there is a crystal and a pair of calls that succeed in one order, while in the other the second is refused.", "quantifier": "all models, all lists of calls and all permutations of them, all batches of configurations", "why_tests_cant": "Arbitrary lists of calls and all their permutations.", "anchors": [{"file": "ramannoodle/pmodel/_interpolation.py", "symbols": ["InterpolationModel.add_dof", "InterpolationModel.add_dof_from_files", "InterpolationModel.add_dof_from_pymatgen", "InterpolationModel._construct_and_add_interpolations", "InterpolationModel.calc_polarizabilities"]}, {"file": "ramannoodle/pmodel/_art.py", "symbols": ["ARTModel.add_art", "ARTModel.add_art_from_files"]}]}
{"id": "C145", "title": "Interpolation models do not depend on the numbering of the atoms", "statement": "Writing down the same crystal with its atoms in another order (positions, atomic numbers, displacements and files reordered alike, the symmetry library returning the same operations) gives the same permutations, equivalent displacements and degrees of freedom in the new numbers, the same exceptions and warnings, and the same predictions, phonon spectra and trajectory spectra.", "quantifier": "all crystals, permutations of the atoms, models, calls and configurations", "why_tests_cant": "All permutations of all crystals; the exception needs two atoms that tie for the largest displacement and images collinear only within the tolerance.", "anchors": [{"file": "ramannoodle/structure/_reference.py", "symbols": ["ReferenceStructure.__init__", "ReferenceStructure.get_equivalent_displacements", "_compute_permutation_matrices"]}, {"file": "ramannoodle/pmodel/_interpolation.py", "symbols": ["InterpolationModel._get_dof", "InterpolationModel.add_dof", "InterpolationModel.add_dof_from_files", "InterpolationModel.calc_polarizabilities"]}, {"file": "ramannoodle/pmodel/_art.py", "symbols": ["ARTModel.add_art"]}]}
{"id": "C146", "title": "Raman selection rules", "statement": "If a symmetry operation permutes the degrees of freedom of a model (which C120 shows for models built in such crystals), Raman tensors of transformed vibrations are the turned tensors, symmetry-related vibrations have equal measured intensities, a vibration with character +1 or -1 has a tensor with that character, and with a centre of inversion vibrations of odd parity (in particular rigid translations) have Raman tensor and intensity zero.", "quantifier": "all models, operations, vibrations and measurement options", "why_tests_cant": "Holds for all vibrations and operations of all crystals; a test only sees a few spectra and cannot tell a forbidden line from a weak one.", "anchors": [{"file": "ramannoodle/dynamics/_phonon.py", "symbols": ["Phonons.get_raman_spectrum"]}, {"file": "ramannoodle/pmodel/_interpolation.py", "symbols": ["InterpolationModel.calc_polarizabilities", "InterpolationModel.add_dof"]}, {"file": "ramannoodle/spectrum/_raman.py", "symbols": ["PhononRamanSpectrum.measure"]}]}
{"id": "C147", "title": "Rigid translations of the crystal do not change predictions", "statement": "Translating all atoms by the same vector leaves the prediction of an interpolation model unchanged. True if the atoms move by zero in total along every unmasked degree of freedom; false in general: the Raman tensor of a rigid translation is twice the slopes weighted with the net displacements.", "quantifier": "all models, configurations and translations that keep atoms in the half cell", "why_tests_cant": "All translations of all configurations; the failure shows only if the reference data do not satisfy the acoustic sum rule.", "anchors": [{"file": "ramannoodle/pmodel/_interpolation.py", "symbols": ["InterpolationModel.calc_polarizabilities"]}, {"file": "ramannoodle/dynamics/_phonon.py", "symbols": ["Phonons.get_raman_spectrum"]}]}
{"id": "C148", "title": "The spectrum does not depend on the choice of degenerate vibrations", "statement": "Replacing vibrations of equal wavenumber by an orthogonal mixture of them leaves the summed intensity at every wavenumber and the convolved spectrum unchanged, with any corrections. True if Raman tensors are linear in the vibration (in particular for interpolations of degree at most two), false for other responses because Raman tensors are finite differences.", "quantifier": "all numbers of vibrations, orthogonal mixtures, models, measurement and convolution options", "why_tests_cant": "All orthogonal mixtures; the eigenvectors a program returns in a degenerate space are arbitrary, so a test fixes one choice.", "anchors": [{"file": "ramannoodle/dynamics/_phonon.py", "symbols": ["Phonons.get_raman_spectrum"]}, {"file": "ramannoodle/spectrum/_raman.py", "symbols": ["PhononRamanSpectrum.measure"]}, {"file": "ramannoodle/spectrum/utils.py", "symbols": ["convolve_spectrum"]}]}
{"id": "C149", "title": "Intensities in floating-point arithmetic", "statement": "Whatever the rounding, no measured phonon intensity (with any corrections, at nonnegative wavenumbers) and no entry of a convolved spectrum is a negative number, and uncorrected intensities are accurate to twelve units of roundoff relative to the exact value however much the entries of the Raman tensor cancel; without rounding both are the exact spectra. Corrections may become infinite at small positive wavenumbers where the exact ones are finite.", "quantifier": "all monotone roundings (accuracy: all with unit roundoff at most 1/100 and no underflow), Raman tensors, wavenumbers, options and output grids", "why_tests_cant": "All roundings and tensors; tests compare a few spectra with loose tolerances.", "anchors": [{"file": "ramannoodle/spectrum/_raman.py", "symbols": ["PhononRamanSpectrum.measure", "get_bose_einstein_correction", "get_laser_correction"]}, {"file": "ramannoodle/spectrum/utils.py", "symbols": ["convolve_spectrum"]}]}
{"id": "C150", "title": "Predictions depend continuously on the positions", "statement": "If interpolations are continuous, small changes of positions (up to periodic images) cause small changes of predicted polarizabilities; if they change by at most C per unit amplitude, predictions differ by at most the number of unmasked degrees of freedom times C times the distance. True unless a coordinate is half a cell away from its reference position, where predictions jump.", "quantifier": "all models with continuous (Lipschitz) interpolations, all configurations", "why_tests_cant": "A statement about all pairs of nearby configurations; the jump occurs on a set of measure zero.", "anchors": [{"file": "ramannoodle/pmodel/_interpolation.py", "symbols": ["InterpolationModel.calc_polarizabilities"]}, {"file": "ramannoodle/structure/utils.py", "symbols": ["calc_displacement", "apply_pbc_displacement"]}]}
{"id": "C151", "title": "The order of the symmetry operations does not matter", "statement": "Models built from the same calls (add_dof, add_art and their file and pymatgen variants) are accepted alike and predict the same polarizabilities in whatever order (and however often) the symmetry library lists the operations of the crystal. True for displacements whose images are pairwise equal, opposite or orthogonal, with data that operations leading to the same image turn alike; otherwise the operation listed first decides which direction the model responds to.", "quantifier": "all crystals with operations that are orthogonal in fractional coordinates, all scripts of such calls, all configurations", "why_tests_cant": "Tests rely on the order spglib happens to return; nothing exercises another order.", "anchors": [{"file": "ramannoodle/structure/_reference.py", "symbols": ["ReferenceStructure.get_equivalent_displacements"]}, {"file": "ramannoodle/pmodel/_interpolation.py", "symbols": ["InterpolationModel.add_dof", "InterpolationModel.calc_polarizabilities"]}, {"file": "ramannoodle/pmodel/_art.py", "symbols": ["ARTModel.add_art", "ARTModel.add_art_from_files", "ARTModel.add_art_from_pymatgen"]}]}
{"id": "C152", "title": "Shape error messages say which shapes were found and expected", "statement": "verify_ndarray_shape and verify_tensor_size refuse exactly the arrays whose shape does not match the pattern, with a message naming the argument, the shape found and the shape expected in tuple notation (wildcards as underscores); different shapes give different messages, so both shapes can be read back from the message. Not so for arrays without dimensions, whose shape is printed as a lone closing bracket, nor for list lengths, whose message does not depend on the length expected.", "quantifier": "all argument names, all shapes and patterns of any number of dimensions", "why_tests_cant": "Tests match a handful of messages literally; that no two mismatches share a message concerns all pairs of shapes.", "anchors": [{"file": "ramannoodle/exceptions.py", "symbols": ["get_shape_error", "_shape_string", "verify_ndarray_shape", "verify_list_len"]}, {"file": "ramannoodle/dataset/torch/utils.py", "symbols": ["get_tensor_size_error", "_get_tensor_size_str", "verify_tensor_size"]}]}
{"id": "C153", "title": "Time step and order of modes", "statement": "Multiplying the time step of a molecular-dynamics spectrum by a positive number divides every wavenumber by it and leaves the uncorrected intensities alone. A negative time step gives the same lines, corrections included, in reverse order, and for an odd number of configurations one more line at the Nyquist wavenumber; time step zero raises ZeroDivisionError. Listing phonon modes in another order lists the lines in another order and leaves the convolved spectrum unchanged.", "quantifier": "all polarizability series, time steps and scale factors; all models, lists of modes and permutations", "why_tests_cant": "Tests use one time step and one order of modes.", "anchors": [{"file": "ramannoodle/spectrum/_raman.py", "symbols": ["MDRamanSpectrum.__init__", "MDRamanSpectrum.measure", "PhononRamanSpectrum.measure"]}, {"file": "ramannoodle/spectrum/utils.py", "symbols": ["calc_signal_spectrum", "convolve_spectrum"]}, {"file": "ramannoodle/dynamics/_phonon.py", "symbols": ["Phonons.get_raman_spectrum"]}]}
{"id": "C154", "title": "The choice of lattice vectors does not matter", "statement": "A model described in another cell of the same lattice (lattice vectors multiplied by an integer matrix with integer inverse, fractional coordinates changed to match) predicts the same polarizabilities and Raman tensors for the same atoms. True for displacements inside the half box of both cells, in particular for small ones and, when axes are only renamed or reversed, for all that are not half a cell long. False for larger displacements in sheared cells, where the same atoms are assigned different displacements.", "quantifier": "all models, all unimodular integer matrices, all configurations", "why_tests_cant": "Every test uses one cell per crystal.", "anchors": [{"file": "ramannoodle/pmodel/_interpolation.py", "symbols": ["InterpolationModel.calc_polarizabilities"]}, {"file": "ramannoodle/structure/utils.py", "symbols": ["calc_displacement"]}, {"file": "ramannoodle/structure/_reference.py", "symbols": ["ReferenceStructure.get_cart_displacement"]}]}
{"id": "C155", "title": "Accuracy of predictions and Raman tensors in floating-point arithmetic", "statement": "When every operation of calc_polarizabilities rounds with relative error u, in whatever order the library adds up matrix products and whether or not it fuses operations, the computed polarizability differs from the exact one by at most an explicit bound: linear in u, in the number of degrees of freedom and in the number of atoms, plus the error of evaluating the splines. The Raman tensor of a phonon has a corresponding bound with the factor 2000 of the difference quotient. Without rounding the computed value is the exact one. The bound needs displacements that are not within 6u of half a cell: there computed and exact values can differ by the response to a whole cell.", "quantifier": "all models with Lipschitz interpolations, all configurations away from half a cell, all roundings, all orders of summation", "why_tests_cant": "Tests compare with reference values computed by the same library in the same order, to tolerances of 1e-5; they cannot vary the rounding or bound the error.", "anchors": [{"file": "ramannoodle/pmodel/_interpolation.py", "symbols": ["calc_polarizabilities"]}, {"file": "ramannoodle/structure/_reference.py", "symbols": ["get_cart_displacement"]}, {"file": "ramannoodle/dynamics/_phonon.py", "symbols": ["get_raman_spectrum"]}]}
{"id": "C156", "title": "Predictions of the graph neural network are smooth where no bonded pair is half a cell apart", "statement": "At every structure of known elements in which no two atoms joined by a reference edge coincide or are half a cell apart along an axis, calc_polarizabilities of the network returns, for all configurations in a neighbourhood and whatever the batch, the values of one infinitely often differentiable tensor field. Hence the difference quotients forming Raman tensors converge to twice the derivative of the prediction. Where a bonded pair is exactly half a cell apart the prediction jumps: arbitrarily small movements change it by a fixed amount.", "quantifier": "all networks (any weights, any number of message passing blocks), all lattices, all structures with clear bonds, all orders of differentiability", "why_tests_cant": "Smoothness is a statement about limits at every structure; finitely many predictions of finitely many networks are compatible with jumps anywhere else.", "anchors": [{"file": "ramannoodle/pmodel/torch/_gnn.py", "symbols": ["PotGNN", "_batch_graph", "forward", "calc_polarizabilities"]}]}
{"id": "C157", "title": "A POSCAR left behind by a crash is rejected or read correctly up to its very last coordinate", "statement": "If the process stops at any time while write_structure runs, the target file is as it was, or read_structure rejects it with InvalidFileException, or read_structure returns the structure that was being written: same atoms, lattice and positions rounded to 16 decimals, except that the very last coordinate may lie anywhere between zero and its true (rounded) value. In the last case at most 18 characters of the file are missing. The exception is real: every file without its last 18 characters is read without complaint, with the last coordinate replaced by its integer part.", "quantifier": "all structures that can be written (all lattices, labels, element lists, coordinates including undefined ones), all points at which writing can stop, all previous contents of the file", "why_tests_cant": "The number of places where a write can stop times the number of structures is unbounded; a cut inside element counts or lattice rows is only harmful for particular digits.", "anchors": [{"file": "ramannoodle/io/vasp/poscar.py", "symbols": ["write_structure", "read_structure", "_read_lattice", "_read_atomic_symbols", "_read_positions"]}, {"file": "ramannoodle/io/generic.py", "symbols": ["write_structure"]}]}
{"id": "C158", "title": "Labels can be recovered from written files", "statement": "The first line of a written POSCAR or XDATCAR is the text of a Python string literal (without quotes) that denotes the label. A text denotes at most one string, so different labels have different first lines, whatever characters Python calls printable.", "quantifier": "all labels (all Unicode strings), all structures and trajectories that can be written, all notions of printable character", "why_tests_cant": "All strings; escape sequences by code point have different lengths in different ranges and can be confused only for particular neighbouring characters.", "anchors": [{"file": "ramannoodle/io/vasp/poscar.py", "symbols": ["write_structure"]}, {"file": "ramannoodle/io/vasp/xdatcar.py", "symbols": ["write_trajectory"]}]}
{"id": "C159", "title": "Which neighbouring edges an edge listens to", "statement": "Suppose dimenet's triplets function is as modelled in Model/Dimenet.lean (an external library, quoted from memory). Then the network uses every path k->j->i with k != i of the reference graph exactly once, but the tensor that get_triplets calls index_ji holds the edge k->j. So the features of an edge a->b are updated from the edges b->c (c != a) that continue it, never from the edges that lead to it, as soon as there is a path of two edges. The independence of the numbering of the atoms (C127) then holds without assumptions about the library.", "quantifier": "all lists of edges, all numbers of atoms, all features, all parameters of a round", "why_tests_cant": "All graphs; a test of shapes or of invariances does not notice exchanged indexes because both choices are consistent.", "anchors": [{"file": "ramannoodle/pmodel/torch/_utils.py", "symbols": ["BatchTriplets", "get_triplets"]}, {"file": "ramannoodle/pmodel/torch/_gnn.py", "symbols": ["_EdgeBlock"]}]}
{"id": "C160", "title": "An XDATCAR left behind by a crash is rejected or read as the configurations it contains", "statement": "If the process stops at any time while write_trajectory runs, the target file is as it was, or read_positions_ts rejects it with InvalidFileException, or it returns the first j configurations for some j, rounded to 16 decimals, except that the very last coordinate of the last one may lie between zero and its true value. In the last case the text on disk lacks at most 18 characters of the complete file of these j configurations, so no configuration that was written is lost, or nothing is returned. Such silent losses are possible for every j. read_trajectory raises an exception or returns at least one configuration.", "quantifier": "all trajectories, labels, file systems, all moments of the crash", "why_tests_cant": "All files and all positions at which they can be cut.", "anchors": [{"file": "ramannoodle/io/vasp/xdatcar.py", "symbols": ["write_trajectory", "read_positions_ts", "read_trajectory"]}]}
{"id": "C161", "title": "Element types of dataset samples before and after rescaling", "statement": "In a new PolarizabilityDataset the lattice, positions and scaled polarizabilities of a sample have torch's default floating point type and entries of this type, whatever the types of the given arrays. After scale_polarizabilities the scaled polarizabilities have the wider one of the types of polarizabilities and mean instead; with double precision arrays, as annotated, a rescaled sample has a single floating point type exactly if the default is double precision. Rescaling with the dataset's own mean and standard deviation gives values which, converted to the default type, are those of the constructor; it changes no value exactly if all of them can be represented in the default type, and this can fail. Without rounding, all scaled values are those of the dataset over the reals.", "quantifier": "all datasets, all floating point types of the arrays and of torch's default, all idempotent roundings", "why_tests_cant": "All combinations of types and all values; a test in one default type does not see the other ones.", "anchors": [{"file": "ramannoodle/dataset/torch/_dataset.py", "symbols": ["PolarizabilityDataset", "scale_polarizabilities", "_scale_and_flatten_polarizabilities"]}]}
{"id": "C162", "title": "Displaced structures left behind by a crash", "statement": "If the process stops at any time while write_displaced_structures or write_ast_displaced_structures writes to pairwise different paths, then the structures before some index are complete and are read back rounded to 16 decimals; the file at this index is as before the call, or read_structure rejects it with InvalidFileException, or it is read as its structure with at most the very last coordinate too small; and every other file is as before the call. If the call returns, all files are complete.", "quantifier": "all structures, displacements, amplitudes, pairwise different paths, file systems, all moments of the crash", "why_tests_cant": "All moments at which the process can stop, all contents of the file system.", "anchors": [{"file": "ramannoodle/structure/_displace.py", "symbols": ["write_displaced_structures", "write_ast_displaced_structures"]}, {"file": "ramannoodle/io/vasp/poscar.py", "symbols": ["write_structure", "read_structure"]}]}
{"id": "C163", "title": "Writing again after interrupted attempts", "statement": "If write_structure, write_trajectory, write_displaced_structures or write_ast_displaced_structures would succeed, then after any number of attempts that were interrupted at any time or raised, one more call with overwrite=True succeeds and leaves every file of the system exactly as the undisturbed call would have left it. Repeated with overwrite=False right after an interruption, the call raises FileExistsError and touches nothing, so the damaged file stays.", "quantifier": "all structures, trajectories, displacements, amplitudes, paths (also repeated ones), file systems, all sequences of attempts and moments of interruption", "why_tests_cant": "Unboundedly many attempts, all moments at which the process can stop.", "anchors": [{"file": "ramannoodle/structure/_displace.py", "symbols": ["write_displaced_structures", "write_ast_displaced_structures"]}, {"file": "ramannoodle/io/generic.py", "symbols": ["write_structure", "write_trajectory"]}, {"file": "ramannoodle/io/vasp/poscar.py", "symbols": ["write_structure"]}, {"file": "ramannoodle/io/vasp/xdatcar.py", "symbols": ["write_trajectory"]}]}
{"id": "C164", "title": "Displacements for another number of atoms", "statement": "add_dof treats a displacement array of shape (M,3) for a structure of N atoms as follows. M = N: the documented case. M different from N and from 1: ValueError, model unchanged. M = 1 and N > 1: ValueError, model unchanged, once the model has a degree of freedom; in a model without degrees of freedom the row is broadcast to all atoms, so that a successful call adds only rigid shifts of the whole crystal (at least one). Such calls do succeed.", "quantifier": "all models, all N and M, all displacement arrays, amplitudes, polarizabilities, orders, symmetry operations that are symmetries of the structure", "why_tests_cant": "All array sizes and structures; the single-row case raises no error.", "anchors": [{"file": "ramannoodle/pmodel/_interpolation.py", "symbols": ["InterpolationModel.add_dof", "InterpolationModel._get_dof"]}, {"file": "ramannoodle/structure/_reference.py", "symbols": ["ReferenceStructure.get_frac_displacement", "ReferenceStructure.get_equivalent_displacements"]}]}
{"id": "C165", "title": "Displaced positions for arrays of other sizes", "statement": "get_displaced_positions with a displacement of shape (M,3) for N atoms: M = N is the documented case; M different from N and 1 raises ValueError for N > 1; M = 1 displaces every atom by the amplitude along the row, modulo lattice vectors, instead of one atom; for N = 1 it returns M rows, which write_structure refuses. get_ast_displaced_positions with a direction of k components: k = 3 is the documented case, k = 1 is the same as the direction (c,c,c), everything else raises ValueError.", "quantifier": "all structures with an invertible lattice, all array sizes, displacements, directions, amplitudes and atom indexes", "why_tests_cant": "All array sizes; the silently accepted cases raise nothing.", "anchors": [{"file": "ramannoodle/structure/_displace.py", "symbols": ["get_displaced_positions", "get_ast_displaced_positions"]}, {"file": "ramannoodle/structure/utils.py", "symbols": ["displace_positions"]}]}
{"id": "C166", "title": "Graph networks as polarizability models of phonons and trajectories", "statement": "calc_polarizabilities of a graph network does not depend on the network's mode or on batches evaluated before. Translating each configuration rigidly (and moving atoms to periodic images) changes nothing, so vibrations that move the crystal rigidly have Raman tensor zero and a drifting crystal has the same spectrum as one at rest. Predicted components stay within a fixed number of standard deviations of the mean for all configurations, and Raman tensors are bounded however large the displacement. Another order of the atoms gives the same predictions.", "quantifier": "all networks, weights, structures, configurations, batches and states of the network", "why_tests_cant": "Quantifies over all weights, all configurations and all histories of calls.", "anchors": [{"file": "ramannoodle/pmodel/torch/_gnn.py", "symbols": ["calc_polarizabilities", "forward"]}, {"file": "ramannoodle/dynamics/_phonon.py", "symbols": ["get_raman_spectrum"]}, {"file": "ramannoodle/dynamics/_trajectory.py", "symbols": ["get_raman_spectrum"]}, {"file": "ramannoodle/pmodel/torch/_utils.py", "symbols": ["batch_positions"]}]}
{"id": "C167", "title": "Degrees of freedom from the files on disk", "statement": "add_dof_from_files and add_art_from_files take, for every path in order, the positions and the dielectric tensor that the file describes (OUTCAR and vasprun.xml; for models without polarizabilities only the positions, also from POSCAR and XDATCAR) and use the displacements from the reference structure. An empty list and other formats give ValueError whatever the files are; the first file that is missing, unreadable or of another number of atoms decides the exception; non-finite coordinates give InvalidDOFException. The model is left alone in all these cases. Lattice and elements of the files are ignored, and a file with one atom is taken as all atoms at its place.", "quantifier": "all models, file systems, paths, formats and orders", "why_tests_cant": "Quantifies over all contents of all files and over all models.", "anchors": [{"file": "ramannoodle/pmodel/_interpolation.py", "symbols": ["add_dof_from_files", "_read_dof"]}, {"file": "ramannoodle/pmodel/_art.py", "symbols": ["add_art_from_files"]}, {"file": "ramannoodle/io/generic.py", "symbols": ["read_positions_and_polarizability", "read_positions"]}]}
{"id": "C168", "title": "Models built by any sequence of calls have the symmetry of the crystal", "statement": "In a crystal whose operations form a group of orthogonal matrices that commute with the lattice, build a model by any number of successful calls of add_dof, add_dof_from_files, add_dof_from_pymatgen, add_art, add_art_from_files and add_art_from_pymatgen, in any order. If the symmetry images of every measured displacement are pairwise equal, opposite or orthogonal and the data do not depend on which operation yields an image, then every symmetry operation permutes the degrees of freedom of the final model. Predictions for transformed configurations and Raman tensors of transformed vibrations are the turned ones, and with a centre of inversion vibrations of odd parity are invisible.", "quantifier": "all crystals of this kind, all scripts of calls, all data, all configurations and vibrations", "why_tests_cant": "Quantifies over all scripts (of any length) and all real data; tests build a few models.", "anchors": [{"file": "ramannoodle/pmodel/_interpolation.py", "symbols": ["add_dof", "add_dof_from_files", "add_dof_from_pymatgen", "_construct_and_add_interpolations"]}, {"file": "ramannoodle/pmodel/_art.py", "symbols": ["add_art", "add_art_from_files", "add_art_from_pymatgen"]}]}
{"id": "C169", "title": "Arguments of a wrong type or shape are reported", "statement": "For arguments that may be any Python value (None, booleans, numbers, texts, paths, lists, tuples, arrays): Phonons, PhononRamanSpectrum, MDRamanSpectrum, ReferenceStructure, PolarizabilityDataset, the mask setter, InterpolationModel, Trajectory and convolve_spectrum accept exactly documented arguments; otherwise the exception names the first argument that is not as documented, and is a TypeError ('<name> should have type ndarray, not <type>') if it has another type and a ValueError showing both shapes if it is an array of another shape. verify_structure and verify_trajectory accept exactly a (3,3) array, a list of values equal to 1..118 and an array of coordinates in the cell (or NaN); pathify_as_list accepts exactly a path or a list of at least one path. Exceptions to the rule: scale_polarizabilities reports a wrong standard deviation as 'mean'; a time step given as text is read like float() does, surrounding white space, signs, 'nan' and 'inf' included, a text of a number that is not positive gives a ValueError naming the time step, and a text that is no number gives one without the name; NaN passes as time step, width, temperature and laser wavenumber; a list among the atomic numbers gives Python's TypeError.", "quantifier": "all argument values, all shapes, all lengths", "why_tests_cant": "The repository tests a handful of wrong values per function; the claim is about all values and about which argument is blamed when several are wrong.", "anchors": [{"file": "ramannoodle/exceptions.py", "symbols": ["get_type_error", "verify_ndarray", "verify_ndarray_shape", "verify_list_len", "verify_positions"]}, {"file": "ramannoodle/io/_utils.py", "symbols": ["pathify", "pathify_as_list", "verify_structure", "verify_trajectory"]}, {"file": "ramannoodle/dynamics/_phonon.py", "symbols": ["Phonons"]}, {"file": "ramannoodle/dynamics/_trajectory.py", "symbols": ["Trajectory"]}, {"file": "ramannoodle/spectrum/_raman.py", "symbols": ["PhononRamanSpectrum", "MDRamanSpectrum", "get_bose_einstein_correction", "get_laser_correction"]}, {"file": "ramannoodle/spectrum/utils.py", "symbols": ["convolve_spectrum"]}, {"file": "ramannoodle/dataset/torch/_dataset.py", "symbols": ["PolarizabilityDataset", "scale_polarizabilities"]}, {"file": "ramannoodle/structure/_reference.py", "symbols": ["ReferenceStructure"]}]}
{"id": "C170", "title": "Dummy models are rehearsals of real ones", "statement": "Let a script of add_dof, add_dof_from_files, add_dof_from_pymatgen, add_art, add_art_from_files and add_art_from_pymatgen calls give a polarizability for every displacement. Run on a dummy model of the same structure, without polarizabilities (for add_art_from_pymatgen: with as many arbitrary ones), it is accepted if and only if the real model accepts it; otherwise both stop at the same call with the same exception. Both issue the same warnings and end with the same basis vectors and masks, get_dof_indexes and get_specification_tuples give the same answers, and masking keeps them in step. More generally, which calls are accepted and which degrees of freedom result does not depend on the values of polarizabilities, the reference polarizability or the dummy flag. Files with the displaced positions alone (POSCAR) rehearse calls with later output files of the same positions. A number of polarizabilities that does not fit is noticed by the real model only.", "quantifier": "all structures, all scripts of calls of any length, all polarizabilities, all spline routines whose success depends only on order and abscissae", "why_tests_cant": "Dummy models are tested with a few single calls; agreement of acceptance, exceptions, warnings and basis vectors concerns all sequences of calls in all crystals.", "anchors": [{"file": "ramannoodle/pmodel/_interpolation.py", "symbols": ["InterpolationModel", "add_dof", "add_dof_from_files", "add_dof_from_pymatgen", "_read_dof", "_get_dof", "_construct_and_add_interpolations"]}, {"file": "ramannoodle/pmodel/_art.py", "symbols": ["ARTModel", "add_art", "add_art_from_files", "add_art_from_pymatgen", "get_dof_indexes", "get_specification_tuples"]}]}
{"id": "C171", "title": "Files that are not valid UTF-8", "statement": "Bytes that are not UTF-8 never change what is read from an OUTCAR, POSCAR or XDATCAR: whatever a reader returns for such a file, it returns for every valid file with the same lines before those bytes (XDATCAR: unless a line quotes the message that the reader searches), and no trajectory is ever read from an OUTCAR with such bytes. An exception is UnicodeDecodeError, UnboundLocalError or InvalidFileException, or else every valid file with the same first lines raises it as well. The documented InvalidFileException is not what short files cause: when the very first read fails, all nine readers raise UnboundLocalError, because the handler of ValueError quotes a line that was never read. Within a table of numbers the exception is UnboundLocalError before the first row and InvalidFileException after it; while a header is searched it is UnicodeDecodeError (for the POTCAR block: UnboundLocalError). A readable POSCAR whose lines from number k on (from zero) are undecodable gives UnboundLocalError for k < 2, InvalidFileException for k < 5, UnicodeDecodeError up to the first coordinates, then UnboundLocalError, InvalidFileException, and no exception after the last coordinates.", "quantifier": "all lists of lines before the undecodable bytes, all numbers of atoms, all matrix inversion routines", "why_tests_cant": "The tests read well-formed text files; where the first undecodable byte falls among the reads is arbitrary.", "anchors": [{"file": "ramannoodle/io/vasp/outcar.py", "symbols": ["read_phonons", "read_trajectory", "read_positions_and_polarizability", "read_positions", "read_ref_structure", "read_structure_and_polarizability", "_get_atomic_symbol_from_potcar_line", "_read_atomic_symbols", "_read_positions", "_read_polarizability", "_read_lattice", "_read_eigenvector"]}, {"file": "ramannoodle/io/vasp/poscar.py", "symbols": ["read_positions", "read_structure", "read_ref_structure", "_read_lattice", "_read_atomic_symbols", "_read_positions"]}, {"file": "ramannoodle/io/vasp/xdatcar.py", "symbols": ["read_positions_ts"]}, {"file": "ramannoodle/io/_utils.py", "symbols": ["_skip_file_until_line_contains"]}]}
{"id": "C172", "title": "Arrays of integers", "statement": "NumPy keeps integer element types in in-place operations. convolve_spectrum gives the same result for peaks stored as integers as for floating-point peaks, but an integer output grid (such as np.arange(0, 1000)) is never usable: with at least one peak, every call that would succeed for the same grid stored as floating-point numbers ends in TypeError, and all others end as they would with floating-point numbers. If the reference structure was made with an integer array of positions, get_ast_displaced_positions is right for directions along a Cartesian axis and gives NaN for all other directions, and add_art accepts nothing: it always raises and leaves the model unchanged.", "quantifier": "all spectra, grids, line shapes and widths; all structures, atoms, directions, amplitudes, models and polarizabilities", "why_tests_cant": "The tests use floating-point arrays; the claim concerns all values of integer arrays and compares with all floating-point calls.", "anchors": [{"file": "ramannoodle/spectrum/utils.py", "symbols": ["convolve_spectrum"]}, {"file": "ramannoodle/structure/_displace.py", "symbols": ["get_ast_displaced_positions"]}, {"file": "ramannoodle/pmodel/_art.py", "symbols": ["add_art"]}]}
{"id": "C173", "title": "Masks of numbers", "statement": "The mask setter checks the number of entries only. With a mask of arbitrary numbers each degree of freedom contributes to predictions with the weight one minus its entry, so predictions are affine in the mask; zeros and ones act as False and True; get_masked_model and unmask replace any numbers by zeros and ones and give the same predictions as on a model with a Boolean mask. The text of the model counts masked degrees of freedom by the sum of the entries and can be silent about a mask that changes predictions.", "quantifier": "all interpolation models, all masks of real numbers, all batches of positions, all lists of indexes", "why_tests_cant": "The tests set a few Boolean masks; weights form a continuum.", "anchors": [{"file": "ramannoodle/pmodel/_interpolation.py", "symbols": ["mask", "calc_polarizabilities", "get_masked_model", "unmask", "__repr__"]}]}
{"id": "C174", "title": "What the width of a convolved spectrum means", "statement": "A peak convolved by convolve_spectrum has its maximum at its wavenumber, i/(width sqrt(2 pi)) for Gaussian and 2i/(pi width) for Lorentzian lines, and falls off strictly and symmetrically with the distance. The width of a Lorentzian peak is its full width at half maximum, that of a Gaussian peak is its standard deviation, so a Gaussian peak has half its height exactly at the distance sqrt(2 log 2) width: the same width makes Gaussian peaks between 2.35 and 2.36 times as broad as Lorentzian ones. Away from the peaks the convolved spectrum vanishes as the width goes to zero.", "quantifier": "all peaks, widths, output wavenumbers and spectra", "why_tests_cant": "Statements about all real output wavenumbers and widths, an integral and a limit.", "anchors": [{"file": "ramannoodle/spectrum/utils.py", "symbols": ["convolve_spectrum"]}]}
{"id": "C175", "title": "Corrections in the limits of physics", "statement": "The Bose-Einstein factor of a positive wavenumber lies strictly between kT/(hcw) and 1 + kT/(hcw), tends to 1 at low temperature and to its classical value at high temperature. Detailed balance holds up to a sign: the factor of -w is -exp(-hcw/(kT)) times that of w, their sum is 1, and two modes with equal tensors and opposite wavenumbers show it in a measured spectrum. The laser factor falls strictly up to the wavenumber of the laser, vanishes exactly there, and is positive again above, where no scattering is possible.", "quantifier": "all temperatures, wavenumbers, laser wavenumbers and Raman tensors", "why_tests_cant": "Limits and inequalities over all reals with a transcendental function.", "anchors": [{"file": "ramannoodle/spectrum/_raman.py", "symbols": ["get_bose_einstein_correction", "get_laser_correction", "PhononRamanSpectrum.measure"]}]}
{"id": "C176", "title": "Sum rules of signal and trajectory spectra", "statement": "The intensities of calc_signal_spectrum at positive wavenumbers add up to a value fixed by the energy, the sum and, for an even number of samples, the alternating sum of the signal. The total intensity of an uncorrected molecular-dynamics spectrum is therefore a closed expression in the Raman intensities of the polarizability changes between neighbouring steps, of the total change and (even number of changes) of the alternating sum, and at most (n - 1/2)/2 times the summed intensities of the n changes. The line at the highest wavenumber is missing for an even number of samples.", "quantifier": "all signals and trajectories of all lengths, all time steps", "why_tests_cant": "A Parseval-type identity over signals of every length and parity.", "anchors": [{"file": "ramannoodle/spectrum/utils.py", "symbols": ["calc_signal_spectrum", "_calc_autocorrelation"]}, {"file": "ramannoodle/spectrum/_raman.py", "symbols": ["MDRamanSpectrum.measure"]}]}
{"id": "C177", "title": "Amplitudes and polarizabilities that are not finite", "statement": "If an amplitude is NaN or infinite, or a polarizability or the reference polarizability of a model that is not a dummy has such an entry, add_dof raises and leaves the model as it was; so do add_dof_from_files and add_art_from_files for files whose tensors have such entries. Where finite polarizabilities would have been accepted the exception is SciPy's ValueError, not the documented InvalidDOFException. A dummy model does not look at the polarizabilities. Equal infinities count as repeated amplitudes, NaN never does. The constructor accepts a reference polarizability with NaN, after which no degree of freedom can be added.", "quantifier": "all models, displacements, amplitudes and polarizabilities including NaN and infinities, orders, spline routines, warning filters and files", "why_tests_cant": "Quantifies over all symmetry groups, all positions of the non-finite entries and all file contents.", "anchors": [{"file": "ramannoodle/pmodel/_interpolation.py", "symbols": ["InterpolationModel.add_dof", "InterpolationModel._get_dof", "InterpolationModel._construct_and_add_interpolations", "find_duplicates"]}, {"file": "ramannoodle/pmodel/_art.py", "symbols": ["ARTModel.add_art_from_files"]}]}
{"id": "C178", "title": "Spectra of predictions that are NaN", "statement": "A graph network that knows all elements predicts NaN, in all entries, for exactly those structures that share a block of 100 consecutive structures with one in which two bonded atoms coincide. One NaN in the diagonal or the upper triangle of one polarizability of a trajectory of at least two steps makes every intensity of its spectrum NaN, while wavenumbers and exceptions are those of a trajectory without NaN; so one collision in one snapshot costs the whole spectrum, silently. In the spectrum of phonons exactly the lines with such a Raman tensor are NaN and all other lines are unchanged, and with a network these are the vibrations for which bonded atoms coincide in one of the two displaced structures. Without NaN the results are those of the other properties.", "quantifier": "all networks, structures, trajectories, phonons, measurement options and NaN patterns; all ways to correlate that agree with the definition on finite signals and give NaN for the sum of squares of a signal with NaN", "why_tests_cant": "Quantifies over all networks and trajectories and over all positions of NaN.", "anchors": [{"file": "ramannoodle/dynamics/_trajectory.py", "symbols": ["Trajectory.get_raman_spectrum"]}, {"file": "ramannoodle/dynamics/_phonon.py", "symbols": ["Phonons.get_raman_spectrum"]}, {"file": "ramannoodle/spectrum/_raman.py", "symbols": ["PhononRamanSpectrum.measure", "MDRamanSpectrum.measure"]}, {"file": "ramannoodle/spectrum/utils.py", "symbols": ["calc_signal_spectrum", "_calc_autocorrelation"]}, {"file": "ramannoodle/pmodel/torch/_gnn.py", "symbols": ["PotGNN.calc_polarizabilities"]}]}
{"id": "C179", "title": "Dielectric tensors that are not 3x3", "statement": "Files may hold a dielectric tensor with another shape than 3x3 and are read without complaint. add_art_from_files does not check the shape: tensors that are all single rows, all single columns or all single numbers are silently repeated to 3x3 matrices, and the call does exactly what it would do with those matrices. Tensors of any other or of different shapes make it fail, with ValueError if 3x3 tensors would have succeeded, and leave the model unchanged. add_dof_from_files refuses every file list with a tensor that is not 3x3, leaves the model unchanged, and unless the displacements already fail raises ValueError instead of the documented exceptions.", "quantifier": "all file systems, formats, path arguments, structures, models, displacements and tensor contents", "why_tests_cant": "Quantifies over all files and over all shapes and contents of the tensors.", "anchors": [{"file": "ramannoodle/pmodel/_interpolation.py", "symbols": ["InterpolationModel.add_dof_from_files", "InterpolationModel.add_art_from_files", "InterpolationModel._read_dof", "InterpolationModel._get_dof"]}, {"file": "ramannoodle/io/vasp/vasprun.py", "symbols": ["_parse_polarizability"]}, {"file": "ramannoodle/io/vasp/outcar.py", "symbols": ["_read_polarizability"]}]}
{"id": "C180", "title": "OUTCAR trajectories of runs that were cut off", "statement": "A molecular dynamics OUTCAR file that was cut off anywhere, by a crash or because the run is still going on, and that can be read when complete, is either refused or gives the time step and the first frames of the complete file. No frame is assembled from missing or neighbouring lines. If the file ends at the end of a line, every frame is exactly a frame of the complete file. If it ends inside a line, only the last atom of the last frame can be elsewhere, and this does happen, without an exception.", "quantifier": "all file contents, all positions at which they are cut off, all matrix inversions", "why_tests_cant": "Quantifies over all files and all places at which they end.", "anchors": [{"file": "ramannoodle/io/vasp/outcar.py", "symbols": ["read_trajectory", "_read_next_cart_positions_ts", "_read_lattice", "_read_timestep"]}, {"file": "ramannoodle/io/_utils.py", "symbols": ["_skip_file_until_line_contains"]}]}
{"id": "C181", "title": "Phonons, structures and polarizabilities of OUTCAR files that were cut off", "statement": "If an OUTCAR file was cut off anywhere and can be read when complete, then every reader refuses the cut file or returns the data of the complete file up to the last row it needs. Phonons keep all positions, wavenumbers and displacements; only the displacement of the last atom in the last mode can differ, and not if the file ends at the end of a line. The readers of structures and polarizabilities keep elements, lattice and positions; all rows of the tensor but the last are right, or the tensor has no columns. The readers that stop after the positions keep elements and lattice, and the same holds for the rows of the positions. A wrong last row does occur, without an exception.", "quantifier": "all file contents, all positions at which they are cut off, all matrix inversions", "why_tests_cant": "Quantifies over all files and all places at which they end.", "anchors": [{"file": "ramannoodle/io/vasp/outcar.py", "symbols": ["read_phonons", "_read_eigenvector", "read_positions_and_polarizability", "read_structure_and_polarizability", "read_positions", "read_ref_structure", "_read_positions", "_read_polarizability"]}]}
{"id": "C182", "title": "What follows the data in an OUTCAR file does not matter", "statement": "If a reader of phonons, structures, positions or polarizabilities accepts an OUTCAR file that ends at the end of a line, then it returns exactly the same for every file that begins with it, however it goes on: with further steps, with other tensors, or with text that is not readable. For the readers that end with an array this needs that its rows are not empty; without it the claim is false.", "quantifier": "all file contents and continuations, all matrix inversions", "why_tests_cant": "Quantifies over all continuations of all files.", "anchors": [{"file": "ramannoodle/io/vasp/outcar.py", "symbols": ["read_phonons", "read_positions_and_polarizability", "read_structure_and_polarizability", "read_positions", "read_ref_structure"]}]}
{"id": "C183", "title": "POSCAR and XDATCAR files of any origin that were cut off", "statement": "If a POSCAR file, written by any program, was cut off anywhere and can be read when complete, then reading it raises an exception or returns the elements, the lattice and all positions of the complete file except possibly the last. If an XDATCAR file was cut off, reading it raises an exception or returns the first configurations of the complete file, except possibly the last position of the last one, provided that the complete file does not contain the text of the message by which the reader recognises the end of the file; without this condition the claim is false. If the file ends at the end of a line, there is no exception for the last position.", "quantifier": "all file contents, all positions at which they are cut off, all coordinate formats and layouts, all matrix inversions", "why_tests_cant": "Quantifies over all files and all places at which they end.", "anchors": [{"file": "ramannoodle/io/vasp/poscar.py", "symbols": ["read_structure", "read_positions", "_read_lattice", "_read_atomic_symbols", "_read_positions"]}, {"file": "ramannoodle/io/vasp/xdatcar.py", "symbols": ["read_positions_ts", "read_trajectory"]}]}
{"id": "C184", "title": "What follows the data in POSCAR and XDATCAR files", "statement": "If a POSCAR file ends with a complete line and can be read, then appending any text to it changes neither the structure nor the positions returned. Appending to an XDATCAR file anything that begins with white space (an empty line, for example) has no effect either: all configurations after it are ignored without a message. If a second header follows, as VASP writes it when the cell changes during the run (a title line, then a line of fewer than three words that does not begin with the letters of a coordinate format), reading raises an exception or returns only the configurations before it, never one of those after it; which of the two depends on the title.", "quantifier": "all file contents, all appended texts, all titles, all matrix inversions, all time steps", "why_tests_cant": "Quantifies over all files and everything that may follow in them; the repository's example files have one header and no trailing text.", "anchors": [{"file": "ramannoodle/io/vasp/poscar.py", "symbols": ["read_structure", "read_positions", "_read_lattice", "_read_atomic_symbols", "_read_positions"]}, {"file": "ramannoodle/io/vasp/xdatcar.py", "symbols": ["read_positions_ts", "read_trajectory"]}]}
{"id": "C185", "title": "Files of another size for a one-atom reference", "statement": "For a reference structure with a single atom, NumPy repeats its row when displacements are computed, so files with any number of atoms get past the check meant to refuse incompatible files. If at least one file does not have exactly one atom, add_dof_from_files and add_art_from_files (and likewise add_dof_from_pymatgen and add_art_from_pymatgen) still never accept the data: they raise InvalidDOFException or ValueError and leave the model as it was. Files of one common size whose displacements from the repeated row are all collinear pass the collinearity check and raise ValueError in add_dof_from_files instead of the documented InvalidDOFException; if they are not all collinear, InvalidDOFException is raised. A file whose size differs from that of the first raises ValueError if all files before it pass. When every file has one atom, the general model gives the same result as the one with matching sizes.", "quantifier": "all one-atom models with an invertible lattice and at least one symmetry operation, all lists of files with any numbers of atoms, all splines and orders", "why_tests_cant": "Quantifies over all files and all sizes; the repository tests no reference structure with a single atom.", "anchors": [{"file": "ramannoodle/pmodel/_interpolation.py", "symbols": ["add_dof_from_files", "_read_dof", "add_dof"]}, {"file": "ramannoodle/pmodel/_art.py", "symbols": ["add_art_from_files"]}, {"file": "ramannoodle/structure/utils.py", "symbols": ["calc_displacement"]}, {"file": "ramannoodle/structure/_symmetry_utils.py", "symbols": ["is_collinear_with_all", "are_collinear"]}]}
