{"id": "C01", "title": "A particle set exists only with equal-length columns", "statement": "ParticleSet(...) succeeds exactly when m, x, y, z, vx, vy, vz (and potential when given) all have the same length; every other combination of lengths raises ValueError, including length-1 columns that numpy would silently broadcast.", "quantifier": "every particle type, every choice of column contents and lengths, with and without potential", "why_tests_cant": "Tests remove one element from one column of one random set; the claim ranges over all length combinations, including the broadcasting ones where the arithmetic itself does not fail.", "anchors": ["galaxychop/data.py:ParticleSet.__attrs_post_init__", "galaxychop/data.py:ParticleSet._kinetic_energy__default", "galaxychop/data.py:ParticleSet._Jx__default"]}
{"id": "C02", "title": "Derived kinematics are the per-particle formulas", "statement": "For every accepted particle set and every index i: kinetic_energy_[i] = (vx^2+vy^2+vz^2)/2, (Jx_,Jy_,Jz_)[i] = r_i x v_i, and total_energy_[i] = kinetic_energy_[i] + potential[i] when a potential is given, total_energy_ is None otherwise; all derived arrays have the length of the set.", "quantifier": "all accepted particle sets of any size and all indices", "why_tests_cant": "Tests compare arrays of one seed; a swapped component or an off-by-one broadcast can agree on symmetric samples.", "anchors": ["galaxychop/data.py:ParticleSet"]}
{"id": "C03", "title": "A galaxy is accepted exactly when types match and potentials are all-or-none", "statement": "Galaxy(stars, dark_matter, gas) succeeds iff the three sets have types STARS, DARK_MATTER, GAS and either all or none carry a potential; a mixed potential raises ValueError (even when the types are also wrong) and otherwise a wrong type raises TypeError; has_potential_ of the result is the common value and len(galaxy) is the sum of the three lengths.", "quantifier": "all triples of particle sets", "why_tests_cant": "Eight potential combinations times 27 type combinations times all contents; tests cover a handful.", "anchors": ["galaxychop/data.py:Galaxy", "galaxychop/data.py:mkgalaxy"]}
{"id": "C04", "title": "galaxy_as_kwargs and mkgalaxy are inverse", "statement": "mkgalaxy(**galaxy_as_kwargs(g)) is equal to g for every galaxy g, and galaxy_as_kwargs(mkgalaxy(**kw)) returns exactly kw (with defaults filled in) whenever mkgalaxy accepts kw.", "quantifier": "every galaxy, every accepted keyword dictionary", "why_tests_cant": "Round-trip law over all inputs; center, star_align and potential all rest on it.", "anchors": ["galaxychop/data.py:galaxy_as_kwargs", "galaxychop/data.py:mkgalaxy"]}
{"id": "C05", "title": "to_dataframe: one row per selected particle, in order, with the right cells", "statement": "Galaxy.to_dataframe(ptypes, attributes) returns the requested columns in the requested order; its rows are the particles of the selected types in the order stars, dark matter, gas and within a type in input order; each cell is the named attribute of that particle (NaN potential/total energy when there is none).", "quantifier": "every galaxy, every selection of types, every list of valid attribute names (not all scalar), every row and column", "why_tests_cant": "Row alignment across three concatenated frames for arbitrary sizes (including empty types) and arbitrary column lists.", "anchors": ["galaxychop/data.py:Galaxy.to_dataframe", "galaxychop/data.py:ParticleSet.to_dataframe"]}
{"id": "C06", "title": "to_dataframe failure modes are exactly the documented guards", "statement": "Galaxy.to_dataframe fails with KeyError iff an attribute name is unknown (and some type is selected), with ValueError when no particle type is selected or when the non-empty requested columns are all scalar for some selected set (softening, or potential/total_energy of a set without potential); in every other case it succeeds.", "quantifier": "every galaxy, every ptypes filter, every attribute list", "why_tests_cant": "The error set is a universally quantified classification; a sample cannot show that no other input fails.", "anchors": ["galaxychop/data.py:Galaxy.to_dataframe", "galaxychop/data.py:ParticleSet.to_dataframe"]}
{"id": "C07", "title": "Particle-type coercion", "statement": "ParticleSetType.mktype accepts exactly the enum members, the strings whose upper-case form is a name (C119 says which they are) and the numeric values, maps each to the member it denotes, raises ValueError on everything else, and inverts humanize().", "quantifier": "all strings and all numbers", "why_tests_cant": "Infinite input domain; decompose() relies on it for every row.", "anchors": ["galaxychop/data.py:ParticleSetType.mktype", "galaxychop/data.py:ParticleSetType.humanize"]}
{"id": "C08", "title": "center puts the lowest-potential particle at the origin", "statement": "If galaxy has a potential whose lowest value is below +inf and the position of its lowest-potential particle (first one on ties, over stars then dark matter then gas, NaN ignored) is finite, then in center(galaxy) that same particle sits at exactly (0,0,0) and is_centered(center(galaxy)) is True for every finite rtol and every atol >= 0. When all positions are finite the second part holds for every potential, all-NaN included.", "quantifier": "every galaxy with potential, all sizes, ties and NaN potentials included, all tolerances", "why_tests_cant": "Depends on the argmin over a three-way concatenation and on index bookkeeping for any sizes; one random galaxy cannot exercise ties, empty types, or the minimum in each type.", "anchors": ["galaxychop/utils/_center.py:center", "galaxychop/utils/_center.py:is_centered"]}
{"id": "C09", "title": "center is a rigid translation and changes nothing else", "statement": "center(galaxy) has the same number of particles per type in the same order; every position is the old one minus one common vector (the old position of the lowest-potential particle); masses, velocities, potentials, softenings, kinetic and total energies are unchanged.", "quantifier": "every galaxy with potential and every particle", "why_tests_cant": "Frame condition over all columns and particles.", "anchors": ["galaxychop/utils/_center.py:center"]}
{"id": "C10", "title": "center is idempotent and translation invariant", "statement": "center(center(g)) = center(g); and translating all positions of g by any vector does not change center(g).", "quantifier": "every galaxy with finite positions and potential, every translation vector", "why_tests_cant": "Algebraic law over all galaxies and vectors.", "anchors": ["galaxychop/utils/_center.py:center"]}
{"id": "C11", "title": "is_centered decides distance of the lowest-potential particle from the origin", "statement": "is_centered(g, rtol, atol) is True iff each coordinate of the lowest-potential particle (potential below +inf) is finite and at most atol in absolute value (a finite rtol has no influence); NaN coordinates give False.", "quantifier": "every galaxy with potential, every tolerance", "why_tests_cant": "If-and-only-if over all galaxies and tolerances.", "anchors": ["galaxychop/utils/_center.py:is_centered"]}
{"id": "C12", "title": "The potential-energy life cycle is guarded", "statement": "center and is_centered raise ValueError on every galaxy without potential; potential raises ValueError on every galaxy with potential, hence always on its own output; an unknown backend raises KeyError; on success the result has_potential_.", "quantifier": "every galaxy, every backend name, any sequence of calls", "why_tests_cant": "State-machine guard over all call histories.", "anchors": ["galaxychop/utils/_center.py:center", "galaxychop/utils/_center.py:is_centered", "galaxychop/utils/_potential.py:potential"]}
{"id": "C13", "title": "star_align puts the stellar angular momentum on +z", "statement": "When the mass-weighted total angular momentum J of the stars inside r_cut has a non-zero component perpendicular to z, after star_align(g, r_cut) the same total (over the stars inside r_cut of the new galaxy) is exactly (0, 0, |J|), and is_star_aligned of the result with the same r_cut is True for all non-negative tolerances.", "quantifier": "every galaxy with finite data, every r_cut > 0 or None, every tolerance, exact arithmetic", "why_tests_cant": "Needs the rotation algebra and invariance of the r_cut mask for all configurations.", "anchors": ["galaxychop/utils/_align.py:star_align", "galaxychop/utils/_align.py:_get_rot_matrix", "galaxychop/utils/_align.py:is_star_aligned"]}
{"id": "C14", "title": "star_align is one proper rotation applied to everything", "statement": "Under the same condition there is a single orthogonal matrix of determinant +1 that maps every position and every velocity of stars, dark matter and gas to the new ones; hence distances, speeds, kinetic and total energies are preserved and every angular momentum vector is rotated by the same matrix; masses, potentials and softenings are unchanged.", "quantifier": "every galaxy with finite data, every particle of every type, exact arithmetic", "why_tests_cant": "Universal algebraic statement; rounding in tests hides sign or orientation errors (a reflection also aligns J).", "anchors": ["galaxychop/utils/_align.py:star_align", "galaxychop/utils/_align.py:_get_rot_matrix"]}
{"id": "C15", "title": "star_align is idempotent (false of the code)", "statement": "star_align(star_align(g)) should equal star_align(g), and aligning a galaxy that is already aligned should leave it aligned. The code divides by the perpendicular component of J, so any galaxy whose J already lies on the z axis (either direction), or that has no star in r_cut, comes back with NaN positions and velocities.", "quantifier": "every galaxy with finite data and every r_cut", "why_tests_cant": "Tests never align an exactly aligned galaxy; the failing set has measure zero in random data but contains every exact output of the function.", "anchors": ["galaxychop/utils/_align.py:star_align", "galaxychop/utils/_align.py:_get_rot_matrix"]}
{"id": "C16", "title": "r_cut selects the stars that define the alignment", "statement": "star_align raises ValueError for every r_cut <= 0; a r_cut larger than every stellar radius gives the same galaxy as no r_cut; and two galaxies that agree on the stars inside r_cut are rotated by the same matrix.", "quantifier": "every galaxy, every r_cut", "why_tests_cant": "Universal over radii and particle configurations.", "anchors": ["galaxychop/utils/_align.py:star_align", "galaxychop/utils/_align.py:_make_mask"]}
{"id": "C17", "title": "is_star_aligned decides alignment", "statement": "is_star_aligned(g, r_cut, rtol, atol) is True iff | Jz_tot - |J_tot| | <= atol + rtol*|J_tot| for the mass-weighted total over stars inside r_cut; in particular with zero tolerances it holds iff J_tot points along +z or is zero, and it is always True when no star is inside r_cut.", "quantifier": "every galaxy with finite data, all tolerances and r_cut", "why_tests_cant": "If-and-only-if over all galaxies.", "anchors": ["galaxychop/utils/_align.py:is_star_aligned"]}
{"id": "C18", "title": "potential computes the softened N-body sum for the right particle", "statement": "With the fortran backend, each particle i of the result (of whichever type) has potential -G * sum over all other particles j of every type of m_j / sqrt(|r_i-r_j|^2 + eps^2), with eps the largest softening among the types that have particles; masses, positions, velocities and softenings are unchanged.", "quantifier": "every galaxy without potential, every particle, exact arithmetic for the formula", "why_tests_cant": "Slicing pot[:n_s], pot[n_s:n], pot[n:] must hit the right particle for all sizes; formula is over all configurations.", "anchors": ["galaxychop/utils/_potential.py:potential", "galaxychop/utils/_potential.py:fortran_potential", "galaxychop/utils/fortran/potential.f95:fortran_potential"]}
{"id": "C19", "title": "Both potential backends agree (false of the code)", "statement": "potential(g, 'numpy') should equal potential(g, 'fortran') and be a function of the galaxy. The numpy backend divides with where= and no out=, so the diagonal (and coincident pairs without softening) is whatever memory held; and at coincident unsoftened particles fortran gives -inf where numpy skips the pair. They agree exactly when that memory is zero and no pair coincides unsoftened.", "quantifier": "every galaxy without potential, every content of uninitialised memory", "why_tests_cant": "Uninitialised memory is usually zero in a test process; a test cannot range over memory contents.", "anchors": ["galaxychop/utils/_potential.py:numpy_potential", "galaxychop/utils/_potential.py:fortran_potential"]}
{"id": "C20", "title": "The parallel potential loop is schedule independent", "statement": "The OpenMP loop of the fortran backend yields the same array for every order and interleaving in which threads execute the iterations.", "quantifier": "every number of particles and every schedule (interleaving of the inner steps of all iterations)", "why_tests_cant": "Schedules cannot be enumerated by tests.", "anchors": ["galaxychop/utils/fortran/potential.f95:fortran_potential"]}
{"id": "C21", "title": "Physical invariances of the potential", "statement": "The computed potential is never positive for non-negative masses, does not change when all positions are translated or mirrored/rotated by an orthogonal matrix, is linear in a common mass scale, and follows a permutation of the particles.", "quantifier": "every galaxy without potential, every translation, orthogonal matrix, scale and permutation; exact arithmetic", "why_tests_cant": "Metamorphic laws over infinite groups.", "anchors": ["galaxychop/utils/_potential.py:potential", "galaxychop/utils/fortran/potential.f95:fortran_potential"]}
{"id": "C22", "title": "jcirc returns one entry per star (false of the code)", "statement": "For every galaxy with at least one bound particle, all four arrays of jcirc(g) should have exactly len(g.stars) entries. The code allocates normalized_star_Jz with the number of bound stars: if an unbound star precedes a bound one jcirc raises IndexError, and if unbound stars only trail, normalized_star_Jz is shorter than the other arrays.", "quantifier": "every galaxy with potential, every cbins", "why_tests_cant": "The test galaxy has only bound stars; the failing region needs a particular order of unbound stars.", "anchors": ["galaxychop/utils/_circ.py:_jcirc"]}
{"id": "C23", "title": "Circularity stays in [-1, 1] or is NaN", "statement": "Whenever jcirc succeeds, every eps is NaN or satisfies -1 <= eps <= 1, and for every star whose raw ratio was outside that range all four outputs of that star are NaN.", "quantifier": "every galaxy, every cbins, any arithmetic with IEEE comparisons (including infinities from j_circ = 0)", "why_tests_cant": "Over all inputs including overflow and division by zero.", "anchors": ["galaxychop/utils/_circ.py:_jcirc"]}
{"id": "C24", "title": "Unbound stars are excluded", "statement": "Whenever jcirc succeeds, a star with total energy > 0, -inf or NaN has NaN normalized energy, eps and eps_r.", "quantifier": "every galaxy, every star", "why_tests_cant": "Index bookkeeping between full and bound arrays for all patterns of bound stars.", "anchors": ["galaxychop/utils/_circ.py:_jcirc"]}
{"id": "C25", "title": "eps carries the sign of Jz", "statement": "For every star with a non-NaN eps, eps is finite and positive, zero or negative exactly as the star's Jz is, and eps_r is non-negative, or NaN when no bound particle has angular momentum in the plane.", "quantifier": "every galaxy with finite data, every star, every positive cbins, exact arithmetic", "why_tests_cant": "Needs non-negativity of the interpolated j_circ for all profiles.", "anchors": ["galaxychop/utils/_circ.py:_jcirc"]}
{"id": "C26", "title": "Normalized energy lies in [-1, 0]", "statement": "Every non-NaN normalized_star_energy returned by jcirc is between -1 and 0.", "quantifier": "every galaxy, every star; any correctly rounded arithmetic", "why_tests_cant": "Universal bound; decomposition models histogram on exactly this range.", "anchors": ["galaxychop/utils/_circ.py:_jcirc"]}
{"id": "C27", "title": "jcirc needs a bound particle", "statement": "jcirc raises ValueError on every galaxy without potential and on every galaxy in which no particle has total energy <= 0 and finite from below; it does not raise ValueError for that reason otherwise.", "quantifier": "every galaxy", "why_tests_cant": "Universal error condition.", "anchors": ["galaxychop/utils/_circ.py:_jcirc"]}
{"id": "C28", "title": "Circularity does not depend on units or on rotation about z", "statement": "Multiplying all positions by a > 0 and all velocities by b > 0 (and the potential by b^2) leaves every output of jcirc unchanged, and so does rotating the galaxy about the z axis.", "quantifier": "every galaxy with potential, every a, b > 0, every rotation about z, exact arithmetic", "why_tests_cant": "Metamorphic law over all galaxies and factors.", "anchors": ["galaxychop/utils/_circ.py:_jcirc"]}
{"id": "C29", "title": "The circular-orbit profile is a valid interpolation table", "statement": "For positive cbins, in a galaxy with a bound particle of negative energy and one with non-zero Jz, the x returned by jcirc is strictly increasing and starts at -1, x and y have the same non-zero length, every y lies in [0, 1] and each (x, y) pair is the (normalized E, normalized |Jz|) of a bound particle of the galaxy.", "quantifier": "every galaxy with finite data, every positive cbins, exact arithmetic", "why_tests_cant": "np.interp silently returns garbage on an unsorted table; sortedness must hold for all binnings and galaxies.", "anchors": ["galaxychop/utils/_circ.py:_jcirc"]}
{"id": "C30", "title": "Every populated energy bin contributes to the profile (false of the code)", "statement": "Each energy bin that contains a particle with non-zero Jz should contribute one point to the circular profile. When no bound particle lies above the last bin edge, the code drops as many trailing points as there are points with y = 0: empty bins, bins whose particles have Jz = 0, bins in which just one of several particles has Jz != 0, and the first point if its particle has Jz = 0. So populated bins at high energy are lost, even when no bin is empty.", "quantifier": "every galaxy with finite data in which some bound particle has Jz != 0, every positive binning, exact arithmetic", "why_tests_cant": "Needs a galaxy with interior gaps and an empty last bin; none in the tests.", "anchors": ["galaxychop/utils/_circ.py:_jcirc"]}
{"id": "C31", "title": "attributes_matrix is aligned", "statement": "attributes_matrix(g, attributes) returns X with one row per particle (stars, dark matter, gas) and one column per requested attribute in the requested order, whatever mix of particle and circularity attributes is asked for; circularity attributes are NaN on dark matter and gas rows; y is the particle type of each row.", "quantifier": "every galaxy on which jcirc gives one entry per star, every non-empty attribute list including duplicates and ptypev", "why_tests_cant": "Two data frames are joined, deduplicated and reordered; alignment must hold for all lists.", "anchors": ["galaxychop/models/_base.py:GalaxyDecomposerABC.attributes_matrix", "galaxychop/models/_base.py:GalaxyDecomposerABC._get_jcirc_df"]}
{"id": "C32", "title": "decompose labels every particle slot and only valid stars", "statement": "For every stars-only decomposer and galaxy, when decompose succeeds, labels, ptypes and probabilities have one entry per particle of the galaxy; ptypes lists stars, dark matter, gas in order; labels and probabilities of dark matter, gas, and stars with a non-finite attribute are NaN; all other stars have a label.", "quantifier": "every galaxy, every split function returning one label per row, every attribute list without normalized_star_Jz, or any list when no star is unbound (see C22)", "why_tests_cant": "Universal over galaxies, masks and clustering outcomes.", "anchors": ["galaxychop/models/_base.py:GalaxyDecomposerABC.decompose", "galaxychop/models/_base.py:DynamicStarsDecomposerMixin.get_rows_mask"]}
{"id": "C33", "title": "The k-th clustered row gets the k-th label", "statement": "split receives exactly the rows of finite-valued stars, in galaxy order, and the label it returns for its k-th row is the label of the k-th such star; complete_labels(X, labels, mask)[mask] = labels and NaN elsewhere for every mask. Any other number of labels raises ValueError, except a single label, which numpy broadcasts.", "quantifier": "every mask, every label array of matching length; galaxies and attribute lists as in C32", "why_tests_cant": "Gather/scatter inverse over all masks.", "anchors": ["galaxychop/models/_base.py:GalaxyDecomposerABC.complete_labels", "galaxychop/models/_base.py:GalaxyDecomposerABC.decompose"]}
{"id": "C34", "title": "Probabilities follow the same scatter", "statement": "complete_probs returns None for None, otherwise an array with len(X) rows whose selected rows are the given rows in order and whose other rows are all NaN with the same width; a length mismatch that numpy cannot broadcast raises ValueError.", "quantifier": "every mask and probability matrix", "why_tests_cant": "Same as labels, over all shapes.", "anchors": ["galaxychop/models/_base.py:GalaxyDecomposerABC.complete_probs"]}
{"id": "C35", "title": "JThreshold cuts exactly at eps_cut", "statement": "With JThreshold(eps_cut=c), a star with finite eps is labelled 1 iff eps > c and 0 iff eps <= c (the boundary is spheroid); no other label appears; raising c can only move stars from disk to spheroid.", "quantifier": "every galaxy, every non-NaN cut in [-1, 1]", "why_tests_cant": "Boundary and monotonicity over all values.", "anchors": ["galaxychop/models/_threshold.py:JThreshold.split"]}
{"id": "C36", "title": "JThreshold rejects unusable cuts (false of the code at NaN)", "statement": "Constructing JThreshold should fail for every eps_cut that is not in [-1, 1]. It does for every number outside the interval and accepts the two end points, but NaN passes the check, and the labels are then uninitialised memory.", "quantifier": "every float", "why_tests_cant": "NaN slips through two one-sided comparisons; tests use -1.1 and 1.1.", "anchors": ["galaxychop/models/_threshold.py:JThreshold.check_eps_cut"]}
{"id": "C37", "title": "JHistogram labels every classified star once", "statement": "For an even number of bins (with enough digits for a zero edge) every star with finite eps gets label 0 or 1, never uninitialised memory, for every outcome of the random selection.", "quantifier": "every galaxy, every n_bin and digits for which a rounded edge other than the first is zero and the rounded edges are ordered and reach -1 and 1 (proved in exact arithmetic for every even n_bin with n_bin/2 < 2*10^digits), every random generator", "why_tests_cant": "Bins must cover [-1,1] without gap or overlap and sph/disk must partition them for every random draw.", "anchors": ["galaxychop/models/_histogram.py:JHistogram.split", "galaxychop/models/_histogram.py:JHistogram._make_corot_sph", "galaxychop/models/_histogram.py:JHistogram._make_disk"]}
{"id": "C38", "title": "JHistogram spheroid is mirror balanced and its size is seed independent", "statement": "In each co-rotating bin that mirrors a counter-rotating bin, exactly min(counter, co) stars are spheroid; hence the number of spheroid and disk stars does not depend on the random state, and the spheroid has at most as many co-rotating as counter-rotating stars.", "quantifier": "every galaxy, every n_bin, every pair of random generators", "why_tests_cant": "Quantifies over pairs of random histories.", "anchors": ["galaxychop/models/_histogram.py:JHistogram._make_corot_sph"]}
{"id": "C39", "title": "JHistogram: counter-rotating stars are never disk", "statement": "Every star whose eps lies below the zero edge is labelled spheroid and every star in a co-rotating bin without a counter-rotating mirror bin is labelled disk.", "quantifier": "every galaxy and random generator", "why_tests_cant": "Universal over random selections.", "anchors": ["galaxychop/models/_histogram.py:JHistogram.split", "galaxychop/models/_histogram.py:JHistogram._make_disk"]}
{"id": "C40", "title": "JHistogram fails cleanly when no edge is zero", "statement": "split raises IndexError iff n_bin > 0 and no rounded edge equals zero (in exact arithmetic: every odd n_bin below 2*10^digits), ValueError iff n_bin <= 0, AttributeError iff already the first rounded edge is zero (negative digits), and nothing else.", "quantifier": "every n_bin and digits", "why_tests_cant": "Universal over the hyper-parameters.", "anchors": ["galaxychop/models/_histogram.py:JHistogram._make_histogram"]}
{"id": "C41", "title": "JEHistogram labels every classified star once and respects the mirror bound", "statement": "Whenever JEHistogram.split returns, every star has label 0 or 1, counter-rotating stars are spheroid, and each co-rotating mirrored bin contributes at most as many spheroid stars as its counter-rotating bin has. The number of spheroid stars of a bin does not depend on the generator.", "quantifier": "every star set, n_bin, n_bin_E and random generator, with ordered energy edges and circularity edges as in C37", "why_tests_cant": "Nested energy binning and random selection.", "anchors": ["galaxychop/models/_histogram.py:JEHistogram.split", "galaxychop/models/_histogram.py:JEHistogram._make_corot_sph"]}
{"id": "C42", "title": "JEHistogram never fails on valid stars (false of the code)", "statement": "split should return for every set of stars with finite normalized energy in [-1,0] and eps in [-1,1]. np.histogram closes the last energy bin at 0 but the selection mask does not, so stars with energy exactly 0 can make the random selection ask for more particles than available (ValueError) or be dropped to the disk.", "quantifier": "every finite star set with energies in [-1, 0]", "why_tests_cant": "Needs a marginally bound particle (E = 0) in the larger bin.", "anchors": ["galaxychop/models/_histogram.py:JEHistogram._make_corot_sph"]}
{"id": "C43", "title": "KMeans and GaussianMixture pass the clustering through unchanged", "statement": "The labels (and probabilities) of decompose are exactly what the clustering backend returned for the matrix of (normalized energy, eps, eps_r) of finite stars, in order; if the backend returns labels below n_components so does decompose.", "quantifier": "every galaxy, every backend behaviour", "why_tests_cant": "Quantifies over the behaviour of scikit-learn.", "anchors": ["galaxychop/models/_kmeans.py:KMeans.split", "galaxychop/models/_gaussian_mixture.py:GaussianMixture.split"]}
{"id": "C44", "title": "AutoGaussianMixture always finds a number of components", "statement": "For c_bic >= 0 the selection succeeds for every table of finite BIC values and returns the least number in 2..15 whose scaled BIC exceeds the mean of the last five by at most c_bic; it fails only when no entry qualifies, which needs c_bic < 0 or non-finite BICs.", "quantifier": "every BIC table, every c_bic, exact arithmetic", "why_tests_cant": "Existence argument (minimum <= mean) over all tables.", "anchors": ["galaxychop/models/_gaussian_mixture.py:AutoGaussianMixture.split"]}
{"id": "C45", "title": "AutoGaussianMixture conserves probability", "statement": "With finite component means every gaussian contributes to exactly one of halo, bulge, cold disk, warm disk, so each star's four probabilities sum to the sum of its gaussian membership probabilities; the label is the first index of the largest of the four and lies in 0..3.", "quantifier": "every number of gaussians, means and membership matrices, exact arithmetic", "why_tests_cant": "Case split over the plane of means must be exhaustive and exclusive.", "anchors": ["galaxychop/models/_gaussian_mixture.py:AutoGaussianMixture.split"]}
{"id": "C46", "title": "AutoGaussianMixture does not depend on n_jobs", "statement": "The result is the same for every order in which parallel workers finish the candidate fits; if fits fail, the call fails for every order, with the error of one of the failing fits.", "quantifier": "every completion order of the 14 tasks (any number of tasks)", "why_tests_cant": "Schedules cannot be enumerated.", "anchors": ["galaxychop/models/_gaussian_mixture.py:AutoGaussianMixture.split"]}
{"id": "C47", "title": "Components holds equal-length arrays", "statement": "Components(labels, ptypes, probabilities) succeeds iff the lengths agree (probabilities only if given), otherwise ValueError; len is the common length.", "quantifier": "all arrays", "why_tests_cant": "All length combinations.", "anchors": ["galaxychop/models/_base.py:Components.__attrs_post_init__"]}
{"id": "C48", "title": "Components.to_dataframe keeps rows aligned", "statement": "Row i of Components.to_dataframe() contains labels[i], ptypes[i] and, if present, probs_0..probs_{k-1} equal to probabilities[i]; requested attributes appear in order with probabilities last; an unknown attribute raises KeyError. A frame without any column (only absent probabilities requested) has no rows.", "quantifier": "all components objects and attribute lists", "why_tests_cant": "Universal alignment.", "anchors": ["galaxychop/models/_base.py:Components.to_dataframe"]}
{"id": "C49", "title": "HDF5 round trip", "statement": "read_hdf5 of a file written by to_hdf5(g) with softenings s gives a galaxy with the same masses, positions, velocities and potentials per particle, in the same order, and softenings s; with the original softenings it equals g. If some stored value is NaN, reading raises TypeError instead.", "quantifier": "every galaxy, with or without potential, any type possibly empty, any target file content", "why_tests_cant": "Round trip over all galaxies and prior file contents.", "anchors": ["galaxychop/io.py:to_hdf5", "galaxychop/io.py:read_hdf5", "galaxychop/io.py:_df_to_table", "galaxychop/io.py:_table_to_dict"]}
{"id": "C50", "title": "Rewriting an HDF5 file: last write wins, the rest survives", "statement": "After any sequence of to_hdf5 calls on the same file with default options, read_hdf5 returns the last galaxy written (if it has no NaN, see C49), and every other dataset of the file is untouched; with append or overwrite disabled by the caller a write onto existing tables raises OSError and keeps what was there.", "quantifier": "every history of writes", "why_tests_cant": "Quantifies over histories.", "anchors": ["galaxychop/io.py:to_hdf5"]}
{"id": "C51", "title": "Metadata precedence", "statement": "After to_hdf5(..., metadata=md) every key of md has its given value in the file attributes even if it collides with a default key, all other default keys and the timestamp are present, and attributes with other names are kept. Metadata that cannot be stored raise TypeError when the tables are already replaced.", "quantifier": "every metadata dictionary and prior attributes", "why_tests_cant": "Universal over dictionaries.", "anchors": ["galaxychop/io.py:to_hdf5"]}
{"id": "C52", "title": "HDF5 writing is atomic (false of the code)", "statement": "A crash during to_hdf5 should leave a file that reads as the old or the new galaxy. The three tables are replaced one after another, so a crash between them leaves a file that reads without error as a mixture of both; only before the first deletion and after the last table is the content one of the two.", "quantifier": "every crash point", "why_tests_cant": "Crash points are not reachable by unit tests.", "anchors": ["galaxychop/io.py:to_hdf5"]}
{"id": "C53", "title": "read_npy assigns columns by name", "statement": "read_npy builds the galaxy whose attribute c is the column of the array named c, for every order of the column names, ignoring an id column; permuting names and array columns together changes nothing; a missing or unknown column name raises TypeError. Repeated names or a wrong number of names, and a potential file of the wrong length or next to a potential column, raise ValueError.", "quantifier": "every column order, every array; unknown columns other than softening", "why_tests_cant": "All permutations of columns.", "anchors": ["galaxychop/io.py:read_npy", "galaxychop/io.py:_table_to_dict"]}
{"id": "C54", "title": "Readers enforce the all-or-none potential rule", "statement": "read_npy and read_hdf5 raise ValueError when some but not all types come with a potential, and the galaxy read has a potential iff all three types had one.", "quantifier": "every input table triple", "why_tests_cant": "Universal.", "anchors": ["galaxychop/io.py:read_npy", "galaxychop/io.py:read_hdf5"]}
{"id": "C55", "title": "Plot dispatch only reaches public plot methods", "statement": "galaxy.plot(kind) raises ValueError for every kind that starts with an underscore, is one of the two data helpers, or does not name a callable attribute; otherwise it calls exactly that method with the given keyword arguments.", "quantifier": "every string", "why_tests_cant": "All strings.", "anchors": ["galaxychop/plot.py:GalaxyPlotter.__call__"]}
{"id": "C56", "title": "Plot data frames carry the label of each particle", "statement": "get_df_and_hue with an array or Components label puts label i on the row of particle i; if the number of labels differs from the number of rows it fails with ValueError when there is at least one row, and gives rows of NaN beside the labels when there is none; with a string label that attribute is present and is the hue; without label there is no hue.", "quantifier": "every galaxy, labels and attribute list", "why_tests_cant": "Universal alignment.", "anchors": ["galaxychop/plot.py:GalaxyPlotter.get_df_and_hue"]}
{"id": "C57", "title": "Circularity plots align decomposition labels with stars exactly when the masks coincide", "statement": "get_circ_df_and_hue given the Components of a stars-only decomposition of the same galaxy (same cbins) should put each star's label on that star's row. Rows are the stars finite in all four circularity attributes while labels are the finite labels, so it holds iff the two masks coincide. They do for the decompositions by normalized energy, eps and eps_r. Otherwise the call raises ValueError or, when no star is finite in all four, shows the labels beside rows of NaN, e.g. when all particles move in one plane.", "quantifier": "every galaxy and decomposition", "why_tests_cant": "Two independently computed masks must agree for all inputs.", "anchors": ["galaxychop/plot.py:GalaxyPlotter.get_circ_df_and_hue", "galaxychop/utils/_circ.py:JCirc.isfinite"]}
{"id": "C58", "title": "Label maps rename labels and nothing else", "statement": "With lmap a dict, every hue value found in the dict is replaced by its image and every other value is unchanged; with a function it is applied to each hue value; all other columns and the row order are unchanged. The same holds for circularity plots; without hue the map has no effect.", "quantifier": "every dict/function and data frame", "why_tests_cant": "Universal.", "anchors": ["galaxychop/plot.py:GalaxyPlotter.get_df_and_hue"]}
{"id": "C59", "title": "cbins validation", "statement": "A decomposer is constructed iff cbins is a tuple of exactly two floats, otherwise ValueError.", "quantifier": "every Python value", "why_tests_cant": "All values.", "anchors": ["galaxychop/models/_base.py:GalaxyDecomposerABC._bins_validator"]}
{"id": "C60", "title": "Header checker verdict", "statement": "tools/checkheader.py check exits with 0 iff every checked file starts with the header template up to trailing whitespace of lines; trailing spaces never change the verdict. A template that ends in a blank line (and is not all blank) is never found.", "quantifier": "every set of files and template whose lines end in newlines only (form feeds and similar separators excluded)", "why_tests_cant": "All texts.", "anchors": ["tools/checkheader.py:check_file_header", "tools/checkheader.py:CLI.check"]}
{"id": "C61", "title": "Plot methods hand seaborn the data they were asked for", "statement": "Every scatter, hist, kde and pairplot (and their circularity versions) that reaches seaborn passes the axes it was given, a frame with one row per shown particle in which every requested column that is not the hue holds the value of that particle, a hue that is a column of the frame, and the keyword arguments of the caller (pairplot adds kind and diag_kind only if they are missing). It reaches seaborn iff the frame can be built and the keyword arguments do not contain data or hue (TypeError otherwise).", "quantifier": "every galaxy, particle selection, attribute names, labels, label map and keyword arguments", "why_tests_cant": "All combinations of labels, maps, selections and keyword arguments.", "anchors": ["galaxychop/plot.py:GalaxyPlotter.pairplot", "galaxychop/plot.py:GalaxyPlotter.scatter", "galaxychop/plot.py:GalaxyPlotter.hist", "galaxychop/plot.py:GalaxyPlotter.circ_pairplot", "galaxychop/plot.py:GalaxyPlotter.circ_hist"]}
{"id": "C62", "title": "Accessors of a galaxy agree with its table", "statement": "For every valid galaxy and each particle type, kinetic_energy_, potential_energy_, total_energy_ and angular_momentum_ give the same arrays as the columns of to_dataframe for that type (None and NaN columns without a potential), and for galaxies built from input arrays particle i has kinetic energy (vx^2 + vy^2 + vz^2)/2 and angular momentum position cross velocity of the i-th entries of that type.", "quantifier": "every galaxy, every arithmetic, every particle", "why_tests_cant": "Over all galaxies; the tests compare shapes and a few sums.", "anchors": ["galaxychop/data.py:Galaxy.kinetic_energy_", "galaxychop/data.py:Galaxy.potential_energy_", "galaxychop/data.py:Galaxy.total_energy_", "galaxychop/data.py:Galaxy.angular_momentum_", "galaxychop/data.py:Galaxy.to_dataframe"]}
{"id": "C63", "title": "Centre first, align second", "statement": "In exact arithmetic, centering and then aligning (with a positive or absent r_cut) gives a galaxy that is_centered and is_star_aligned both accept for all non-negative tolerances, and aligning keeps a galaxy centred. The other order does not work: there is a galaxy for which aligning and then centering gives a galaxy that is_star_aligned rejects.", "quantifier": "every galaxy with potential whose stars inside r_cut have angular momentum off the z axis; one galaxy for the negative half", "why_tests_cant": "The tests run each step alone on random galaxies and compare with tolerances.", "anchors": ["galaxychop/utils/_center.py:center", "galaxychop/utils/_center.py:is_centered", "galaxychop/utils/_align.py:star_align", "galaxychop/utils/_align.py:is_star_aligned"]}
{"id": "C64", "title": "Labels do not depend on units or on the azimuth", "statement": "For every decomposer that uses circularity attributes only (all decomposers of the package do), decompose gives the same result (labels, probabilities or exception) after a change of units (lengths by a > 0, velocities by b > 0, potentials by b^2) and after a rotation of the galaxy about the z axis.", "quantifier": "every galaxy in exact arithmetic, every decomposer with circularity attributes, any cbins, sort, search and random generator", "why_tests_cant": "A relation between two runs over all galaxies and all factors.", "anchors": ["galaxychop/models/_base.py:GalaxyDecomposerABC.decompose", "galaxychop/models/_base.py:GalaxyDecomposerABC.attributes_matrix", "galaxychop/utils/_circ.py:_jcirc"]}
{"id": "C65", "title": "The table of circular orbits in double precision", "statement": "In IEEE-754 double precision with the default cbins (0.05, 0.005), whenever jcirc succeeds: x and y have the same length, x starts with -1, increases strictly and stays in [-1, 0], every y is NaN or in [0, 1], and every pair comes from one bound particle. The same holds for all bin widths whose computed edges increase. It is false for other widths: np.arange(-1, -0.1, 0.03) overshoots -0.1 by rounding, the edges of cbins = (0.03, 0.005) are not sorted, and there is a galaxy whose x decreases (np.interp then gives meaningless values without an error).", "quantifier": "every galaxy of binary64 numbers including infinities and NaN, any sort and search routine; one galaxy for the negative half", "why_tests_cant": "The failure needs particle energies in a window of 8e-16; random galaxies never hit it.", "anchors": ["galaxychop/utils/_circ.py:_jcirc"]}
{"id": "C66", "title": "Histogram models in double precision", "statement": "In IEEE-754 double precision the rounded bin edges of _make_histogram are sorted and reach from -1 to 1 for every number of bins from 1 to 2^53 and every digits from 0 to 308; for an even number of bins 2m and digits up to 15 one of them is zero, and it is the middle one if m <= 10^digits; for an odd number of bins up to 10^digits none is, and _make_histogram raises IndexError. Hence JHistogram labels every star with circularity in [-1, 1] with 0 or 1, counter-rotating stars get 0, and not more co-rotating than counter-rotating stars get 0; JEHistogram returns such labels for stars of negative energy; decompose labels exactly the stars with finite circularity. Beyond 15 digits this is false: 98 bins with 16 digits raise IndexError although in exact arithmetic an edge is zero.", "quantifier": "all bin counts, digits, energy bin counts in the stated ranges, all lists of binary64 numbers and galaxies of binary64 numbers, every generator and memory content", "why_tests_cant": "A rounding error of one edge for one bin count would break the partition; there are 2^53 bin counts.", "anchors": ["galaxychop/models/_histogram.py:JHistogram._make_histogram", "galaxychop/models/_histogram.py:JHistogram.split", "galaxychop/models/_histogram.py:JEHistogram.split"]}
{"id": "C67", "title": "Histogram decompositions of galaxies", "statement": "Whenever jcirc succeeds, decompose with JHistogram succeeds and every star with finite circularity has label 0 or 1, 0 if it is counter-rotating and 1 if it lies in a co-rotating bin without mirror bin. With JEHistogram the same holds for stars with finite energy and circularity if their normalized energies are below zero; in exact arithmetic it is enough that no star has total energy exactly zero. Without this condition decompose can raise ValueError.", "quantifier": "every galaxy, cbins, generator, sort, search and memory content; edges sorted and covering [-1, 1], which holds in exact arithmetic and in binary64 (C66)", "why_tests_cant": "All galaxies and all generator states.", "anchors": ["galaxychop/models/_histogram.py:JEHistogram.split", "galaxychop/models/_histogram.py:JHistogram.split", "galaxychop/models/_base.py:GalaxyDecomposerABC.decompose"]}
{"id": "C68", "title": "What the circularities depend on", "statement": "The circularities are determined by whether the galaxy has potentials, the energies and the J components of the stars, and those of the bound dark matter and gas particles in order. Masses, softenings, unbound dark matter and gas particles, and whether a particle is dark matter or gas do not enter; unbound stars added at the end get NaN and change nothing for the others. Hence decompose gives the same labels to the stars when masses and softenings change (potentials kept) or the dark matter and gas are replaced by particles with the same bound orbits. Bound dark matter does matter: removing one bound particle changes the circularity of a star.", "quantifier": "every galaxy, every arithmetic with IEEE comparisons, every sort and memory content, every decomposer that uses the attributes of the circularity, every split that works row by row for the second decompose statement", "why_tests_cant": "Independence of a value from all other inputs is a statement about pairs of inputs, of any size.", "anchors": ["galaxychop/utils/_circ.py:_jcirc", "galaxychop/utils/_circ.py:jcirc", "galaxychop/models/_base.py:GalaxyDecomposerABC.decompose"]}
{"id": "C69", "title": "Time reversal and mirror images", "statement": "Reversing all velocities, or mirroring positions and velocities in x or in y, leaves the normalized energies, eps_r and the circular-orbit table (x, y) as they were and flips the sign of normalized Jz and eps of every star (zeros may keep their sign in floating point); mirroring in z changes nothing at all. The call raises the same error or succeeds in both cases. This holds exactly, including rounding, in IEEE-754 double precision.", "quantifier": "every galaxy, bin width, sort and memory content, in exact arithmetic and in binary64", "why_tests_cant": "A bit-for-bit symmetry for all floating-point inputs cannot be sampled.", "anchors": ["galaxychop/utils/_circ.py:_jcirc", "galaxychop/utils/_circ.py:jcirc", "galaxychop/data.py:ParticleSet.angular_momentum_"]}
{"id": "C70", "title": "The order of the particles", "statement": "Rearranging the particles of a galaxy, also between dark matter and gas, and using a sort that orders equal keys differently, leaves the circular-orbit table and the circularities, normalized energy and JThreshold label of each star as they were, provided bound particles with the same |Jz| have the same energy, the most bound particles have the same |Jz|, and the first star is bound. With ties in |Jz| this fails: exchanging two dark matter particles changes the circularity of a star.", "quantifier": "every pair of galaxies that are rearrangements of each other, every pair of correct sorts, every arithmetic with IEEE comparisons and signs; raw hypotheses on the particles in exact arithmetic", "why_tests_cant": "Permutations of galaxies of any size and every behaviour of an unstable sort cannot be enumerated.", "anchors": ["galaxychop/utils/_circ.py:_jcirc", "galaxychop/utils/_circ.py:jcirc", "galaxychop/models/_threshold.py:JThreshold.split"]}
{"id": "C71", "title": "The analysis does not depend on the frame", "statement": "Moving a galaxy by a rotation and a translation before computing potential, center, star_align and the circularities (or the decomposition) gives the same circularities and labels, for both backends, if the angular momentum of the stars is not along the z axis in either frame. After potential and center the moved galaxy is the rotated original. If the angular momentum lies on the z axis in one of the frames, star_align produces NaN there and decompose raises ValueError, while it succeeds in the other frame.", "quantifier": "every finite galaxy without potentials, rotation, translation, backend and cut radius, exact arithmetic; every decomposer that uses the attributes of the circularity", "why_tests_cant": "Equality of two whole analyses for all rotations and translations; in floating point a test sees only approximate equality.", "anchors": ["galaxychop/utils/_potential.py:potential", "galaxychop/utils/_center.py:center", "galaxychop/utils/_align.py:star_align", "galaxychop/utils/_circ.py:jcirc", "galaxychop/models/_base.py:GalaxyDecomposerABC.decompose"]}
{"id": "C72", "title": "Constructing decomposers", "statement": "Every decomposer class takes keyword arguments only: positional arguments and unknown names (such as the documented seed of JHistogram) raise TypeError before anything happens. A constructed object has the hyperparameters of its class in order, cbins first, each with the given value or its default; cbins is a pair of floats and random_state, if the class has one, a generator: the one given, or a new one that no other object refers to, in the state of the seed. With accepted seeds, construction succeeds iff cbins (if given) is a tuple of two floats and, for JThreshold, eps_cut (if given) is a number not above 1 nor below -1. Without arguments every class can be constructed.", "quantifier": "every class, every set of keyword arguments and Python values, every state of the session, every behaviour of the libraries", "why_tests_cant": "All combinations of classes, argument names and argument types.", "anchors": ["galaxychop/models/_base.py:hparam", "galaxychop/models/_base.py:GalaxyDecomposerABC.__init_subclass__", "galaxychop/models/_base.py:GalaxyDecomposerABC._bins_validator", "galaxychop/models/_base.py:GalaxyDecomposerABC.__repr__", "galaxychop/models/_threshold.py:JThreshold.check_eps_cut"]}
{"id": "C73", "title": "Seeded decomposers are reproducible and do not disturb each other", "statement": "In every session (constructions, decompose calls, assignments, other uses of generators, in any order) the answers of a decomposer whose generator nobody else uses are those it gives on its own. So two decomposers of the same class with the same hyperparameters and the same seed give the same answers to the same calls, whatever else happens in their sessions, and JThreshold does so without a seed. The order in which parallel workers finish does not change results. Nothing changes the hyperparameters of an object; assignments raise AttributeError. What does not hold: a second call of the same seeded decomposer on the same galaxy can give other labels, and two decomposers that were given the same generator influence each other.", "quantifier": "every session, every class, every behaviour of numpy's generator and of scikit-learn that is a function of its arguments and the generator state", "why_tests_cant": "Non-interference over all interleavings of an unbounded number of operations.", "anchors": ["galaxychop/models/_base.py:GalaxyDecomposerABC.decompose", "galaxychop/models/_histogram.py:JHistogram.split", "galaxychop/models/_histogram.py:JEHistogram.split", "galaxychop/models/_kmeans.py:KMeans.split", "galaxychop/models/_gaussian_mixture.py:GaussianMixture.split", "galaxychop/models/_gaussian_mixture.py:AutoGaussianMixture.split"]}
{"id": "C74", "title": "The analysis does not depend on the units", "statement": "Take a galaxy without potentials and the same galaxy in other units: masses times mu, positions and softenings times a, velocities times b, with a, b > 0 and mu = b^2 a, which keeps the gravitational constant. Then potential gives potentials times b^2, center chooses the same particle, star_align with r_cut times a applies the same rotation, and the circularities and decompositions after these steps are equal. This holds for the compiled backend, and for the numpy backend if the entries it leaves unwritten are zero. Without the relation between mu, a and b it does not hold.", "quantifier": "every galaxy with at least one particle and finite data whose stars have angular momentum off the z axis after centring, every choice of units, r_cut, bins and decomposer on circularity attributes; exact arithmetic", "why_tests_cant": "A relation between two runs over all galaxies and all scale factors; rounding hides it in a numerical test.", "anchors": ["galaxychop/utils/_potential.py:potential", "galaxychop/utils/_center.py:center", "galaxychop/utils/_align.py:star_align", "galaxychop/utils/_circ.py:jcirc"]}
{"id": "C75", "title": "No negative mass, no positive potential", "statement": "With the numbers the code really uses (double precision columns, single precision backends, rounding at every step, overflow and NaN included): if no mass is negative, no potential computed by the compiled backend is positive. The same holds for the numpy backend if the uninitialised entries it sums are not negative; with a negative entry there it can give positive potentials.", "quantifier": "every galaxy without potentials, any number of particles, any positions and softenings including infinities and NaN, every constant G that is not negative, compiled code that rounds or fuses the squares of a distance in any order", "why_tests_cant": "All inputs of two IEEE formats, including overflow and underflow in the intermediate steps.", "anchors": ["galaxychop/utils/_potential.py:potential", "galaxychop/utils/_potential.py:fortran_potential", "galaxychop/utils/_potential.py:numpy_potential", "galaxychop/utils/fortran/potential.f95"]}
{"id": "C76", "title": "Heavier particles never make a potential shallower", "statement": "Take two galaxies with the same positions and softenings where no particle of the first is heavier than the same particle of the second. Then no potential in the second galaxy is greater than in the first, for both backends, in single precision with all rounding errors. It need not be strictly lower: a mass change below single precision changes nothing.", "quantifier": "every pair of galaxies without potentials, any number of particles, any floating point data, any contents of uninitialised memory (the same in both runs), every constant G that is not negative, compiled code that rounds or fuses the squares of a distance in any order", "why_tests_cant": "A relation between two runs that must survive rounding at every step.", "anchors": ["galaxychop/utils/_potential.py:potential", "galaxychop/utils/_potential.py:fortran_potential", "galaxychop/utils/_potential.py:numpy_potential", "galaxychop/utils/fortran/potential.f95"]}
{"id": "C77", "title": "Accuracy of the single precision potential", "statement": "For n particles whose data has moderate size in single precision, and with a softening or no two particles at the same single precision position, every potential of the compiled backend is finite and differs from minus G times the exact softened N-body sum of the single precision data by at most (n+6)/2^23 of its value. Separation in double precision is not enough: two stars 2^-10 apart get finite potentials, and after a translation by 2^16 the compiled backend gives minus infinity for both while the numpy backend gives zero.", "quantifier": "every galaxy with at most 2^22 particles, coordinates and softenings zero or of size 2^-30 to 2^50, masses zero or 2^-40 to 2^50, G between 2^-30 and 1", "why_tests_cant": "An error bound over all inputs in a range; a test has no exact reference for it.", "anchors": ["galaxychop/utils/_potential.py:potential", "galaxychop/utils/_potential.py:fortran_potential", "galaxychop/utils/_potential.py:numpy_potential", "galaxychop/utils/fortran/potential.f95"]}
{"id": "C78", "title": "Centring in double precision", "statement": "With the numbers the code really uses (double precision, every operation rounded): after center, each coordinate is the exact distance from the particle with the lowest potential up to a relative error of 2^-53. It is zero only for particles with the same coordinate as that particle, and the order of the particles along each axis does not change. If the galaxy was first moved by a vector t, the error of a centred coordinate is at most (|x+t|+|c+t|)/2^51. So independence of the origin is only approximate: two separate stars moved by 2^60 both end at the origin.", "quantifier": "every galaxy of doubles with potentials, any number of particles, coordinates up to 2^1022 (2^1021 for the moved galaxy)", "why_tests_cant": "An error bound over all doubles including subnormal differences; a test compares with a tolerance on a few values.", "anchors": ["galaxychop/utils/_center.py:center"]}
{"id": "C79", "title": "AutoGaussianMixture selection in double precision", "statement": "In double precision, if c_bic is at least 0.1 and no BIC exceeds 2^40 in size, the automatic choice of the number of Gaussians always finds a candidate: rounding never makes the choice fail, and it moves the criterion by at most 2^-10. With c_bic = 0 the choice can fail: if all BICs equal -0.11, their rounded mean is lower than each of them, no candidate is left and a ValueError is raised. The four probabilities it returns for a star are finite and not negative, and their sum is the sum of that star's memberships up to a relative error of n/2^52 for n Gaussians.", "quantifier": "every outcome of the fits (any BICs up to 2^40, any memberships between 0 and 1), every c_bic of at least 0.1, any number of stars", "why_tests_cant": "The failure depends on the rounding of a mean of five numbers; the success has to hold for all of them.", "anchors": ["galaxychop/models/_gaussian_mixture.py:AutoGaussianMixture.split"]}
{"id": "C80", "title": "Sign of the circularity in double precision", "statement": "In double precision, if no |Jz| of the circular profile is below 2^-50 of the largest |Jz|, then a circularity never has the sign opposite to the star's Jz, and no projected circularity is negative, for all rounding errors, underflow and overflow. If the profile touches zero this fails: there is a galaxy of four stars where jcirc with the default bins gives eps = -1/2 for a star with positive Jz, and a negative eps_r.", "quantifier": "every galaxy of doubles, any number of particles, every choice of increasing bins, every admissible sort and table search", "why_tests_cant": "The wrong sign needs an energy one unit in the last place away from a profile point; the theorem covers all energies.", "anchors": ["galaxychop/utils/_circ.py:jcirc"]}
{"id": "C81", "title": "star_align in double precision", "statement": "In double precision, star_align applies to all positions and velocities of stars, dark matter and gas one exact rotation (determinant 1), the one that takes the total stellar angular momentum as computed to the positive z axis, with an error per coordinate of at most 2^-47 of the sum of the sizes of the coordinates (plus 2^-1070); lengths are kept up to a relative error of 2^-45. Masses and potentials do not change. The condition is that the components of the total are at most 2^200 in size and that one of its x and y components is at least 2^-200. Without it the function fails silently: for a star with J of size 2^-540 the returned coordinates x and y are not finite, and for one of size 2^540 x and z are zero and y is not finite.", "quantifier": "every galaxy of doubles with coordinates up to 2^990, any number of particles, every cutting radius, every order of the additions in np.sum and np.dot, with or without fused multiply-add in np.dot", "why_tests_cant": "A bound for all rounding errors of nine matrix entries and of every particle, including underflow.", "anchors": ["galaxychop/utils/_align.py:star_align", "galaxychop/utils/_align.py:_get_rot_matrix"]}
{"id": "C82", "title": "The galaxy returned by star_align is star aligned in double precision", "statement": "In double precision, is_star_aligned(star_align(galaxy)) is True with the default tolerances (and with every rtol of at least 2^-17) if the angular momenta of the stars do not nearly cancel: the number of stars plus 20, times the sum of mass times size of the position times size of the velocity, is at most 2^28 times the length of the exact total. Without that condition it can be False: for two stars whose angular momenta of size 2^50 add up to (-2, 2, -4), star_align returns a galaxy for which is_star_aligned is False.", "quantifier": "every galaxy of doubles with up to 2^30 stars, masses, coordinates and velocities up to 2^200; any dark matter and gas; every order of the additions in np.sum and np.dot, with or without fused multiply-add in np.dot", "why_tests_cant": "The bound holds for all rounding errors of the sums over any number of stars; the failing galaxy needs a cancellation to 14 digits.", "anchors": ["galaxychop/utils/_align.py:star_align", "galaxychop/utils/_align.py:_get_rot_matrix", "galaxychop/utils/_align.py:is_star_aligned"]}
{"id": "C83", "title": "Accuracy of the numpy backend, and agreement of the backends", "statement": "For a galaxy as in C77, every potential of the numpy backend is finite and differs from minus G times (the exact softened N-body sum plus the number found in the uninitialised diagonal entry) by at most (n+6)/2^23 of its value, in whatever order np.sum adds. Hence, if the diagonal entries are zero, the two backends differ by at most (n+6)/2^22 of the potential. If not, they disagree: with 2^20 in memory, two stars get -8 - 2^-7 from the numpy backend and -2^-7 from the compiled one.", "quantifier": "every galaxy with at most 2^22 particles with data of moderate size as in C77, every order of additions, diagonal entries zero or between 2^-93 and 2^103", "why_tests_cant": "A bound over all inputs in a range and over all summation orders; uninitialised memory cannot be set by a test.", "anchors": ["galaxychop/utils/_potential.py:numpy_potential", "galaxychop/utils/_potential.py:fortran_potential", "galaxychop/utils/_potential.py:potential"]}
{"id": "C84", "title": "Energies and angular momenta in double precision", "statement": "In double precision the columns derived by ParticleSet are finite and close to the exact ones: kinetic energy up to a relative error of 5/2^53, total energy up to 7/2^53 of the kinetic energy plus the size of the potential, each component of the angular momentum up to 2^-51 of the sizes of its two products (plus a few times 2^-1074). So the bound test E <= 0 of jcirc is right for every particle whose exact energy is farther from zero than that error. Closer to zero it errs in both directions: a star with positive energy is kept as bound and a star with negative energy is dropped as unbound.", "quantifier": "every particle set of doubles, any number of particles, coordinates and velocities up to 2^490 and potentials up to 2^980 in size", "why_tests_cant": "An error bound over all doubles in the range; a wrong test result needs an energy within a few units in the last place of zero.", "anchors": ["galaxychop/data.py:ParticleSet", "galaxychop/utils/_circ.py:_jcirc"]}
{"id": "C85", "title": "More particles and smaller softenings never make a potential shallower", "statement": "With the compiled backend and the numbers the code really uses: adding particles without negative mass, anywhere in the galaxy, never raises the potential of the particles that were there (the types present and the softenings being the same); and if no mass is negative, reducing softenings never raises a potential. Neither holds for the numpy backend: an eighth particle of mass zero changes the order of the additions and makes a potential shallower, and two particles at the same place lose their attraction when the softening is reduced to zero. The first particle of a type brings its softening along and can make all potentials shallower with either backend.", "quantifier": "every galaxy without potentials, every set of added particles, all masses, positions and softenings including infinities and NaN; three galaxies for the negative parts; compiled code that rounds or fuses the squares of a distance in any order", "why_tests_cant": "A comparison of two runs for all floating-point inputs; the failures of the numpy backend need sums that round differently.", "anchors": ["galaxychop/utils/_potential.py:potential", "galaxychop/utils/fortran/potential.f95:fortran_potential", "galaxychop/utils/_potential.py:numpy_potential"]}
{"id": "C86", "title": "Accuracy of the circularity in double precision", "statement": "In double precision, if the Jz of the bound particles are finite, every finite circularity with a finite energy satisfies |eps * L - Jz / max|Jz|| <= 2^-49, where L is the exact height, at the energy returned for the star, of the polygon through the returned points (x, y) of the profile; and if the in-plane angular momenta Jr are finite, every finite projected circularity satisfies |eps_r * L - Jr / max Jr| <= (1 + |eps_r|) 2^-50. This includes underflow and slopes between energies that almost coincide: two points of the profile are never closer than 2^-112, so the interpolation does not overflow.", "quantifier": "every galaxy of doubles, any number of particles, every choice of increasing bins, every admissible sort and table search, every star", "why_tests_cant": "The bound is on the rounding of a division by a difference of two energies that may agree in almost all digits; a test compares a few energies with a tolerance.", "anchors": ["galaxychop/utils/_circ.py:jcirc"]}
{"id": "C87", "title": "What the printed form of the objects says", "statement": "repr(galaxy) is Galaxy(stars=.., dark_matter=.., gas=.., potential=..) with the particle numbers in decimal notation, and two galaxies print alike iff they have the same three numbers and the same potential flag. center and star_align do not change repr(galaxy); potential changes it only in the flag, from False to True. repr of a particle set determines its type, size, printed softening and potential flag and nothing else. repr of components depends on their number, the set of labels that occur (NaN counted once) and whether there are probabilities. The number printed for the result of decompose is len(galaxy), and nan is among its labels when the galaxy has dark matter or gas.", "quantifier": "every galaxy and particle set of any size, every pair of them, every r_cut and backend; decompose as in C32", "why_tests_cant": "That no two different galaxies print alike unless the numbers agree ranges over all pairs of sizes; the tests compare two fixed strings.", "anchors": ["galaxychop/data.py:ParticleSet.__repr__", "galaxychop/data.py:Galaxy.__repr__", "galaxychop/models/_base.py:Components.__repr__"]}
{"id": "C88", "title": "Units that differ by powers of two change no bit of the circularity", "statement": "Let galaxy2 be galaxy with all coordinates multiplied by 2^i and all velocities by 2^j (potentials by 2^(2j)), masses unchanged, in IEEE double precision. Then jcirc(galaxy2) is jcirc(galaxy), the same double precision numbers in all six arrays and an exception on one exactly when on the other, and any decomposer working on the circularity attributes returns the same components. For other factors this fails: with lengths multiplied by 3 JThreshold(eps_cut=0.1) gives a star another label. It fails too when angular momenta underflow.", "quantifier": "every galaxy of any size whose coordinates and velocities are 0 or between 2^-200 and 2^200 in both units and whose potentials are 0, between 2^-400 and 2^400 in both units, or not finite; every |i|, |j| <= 400; every bin0, bin1, every argsort", "why_tests_cant": "The equality is bit for bit over all doubles in the range and all exponents, through cancellations, square roots and divisions.", "anchors": ["galaxychop/utils/_circ.py:_jcirc", "galaxychop/data.py:ParticleSet", "galaxychop/models/_base.py:GalaxyDecomposerABC.decompose"]}
{"id": "C89", "title": "center and star_align commute bit for bit with units that differ by powers of two", "statement": "Let galaxy2 be galaxy with masses multiplied by 2^l, coordinates and softenings by 2^i, velocities by 2^j and potentials by 2^p, in IEEE double precision. Then center(galaxy2) is center(galaxy) in the new units, and star_align(galaxy2, r_cut=2^i r_cut) is star_align(galaxy, r_cut=r_cut) in the new units, the same double precision numbers up to the exact factors; an exception is raised for one exactly when it is for the other. For other factors this fails: with lengths multiplied by 3 the aligned y of one star, and the centered x of another, is another double. It fails too without bounds: in units in which the angular momentum has size 2^-540 the aligned coordinates are not finite.", "quantifier": "every galaxy whose masses, coordinates and velocities are 0 or between 2^-40 and 2^40 in both units (more generally multiples of 2^-92 of bounded size), with at most 2^30 stars for star_align, every |l|, |i|, |j| <= 400, every r_cut in range, every way of adding arrays that depends only on their length, including numpy's pairwise summation and left to right, every way of computing dot products, with or without fused multiply-add, that is the same for all numbers", "why_tests_cant": "The equality is bit for bit over all doubles in the range, all exponents and all orders of summation, through sums of thousands of terms, square roots and divisions.", "anchors": ["galaxychop/utils/_center.py:center", "galaxychop/utils/_align.py:star_align", "galaxychop/utils/_align.py:_get_rot_matrix"]}
{"id": "C90", "title": "potential commutes bit for bit with units that differ by powers of two", "statement": "potential reads doubles, computes in IEEE single precision and stores doubles. Let galaxy2 be galaxy with masses multiplied by 2^l and coordinates and softenings by 2^i. Then potential(galaxy2) is potential(galaxy) with masses and lengths in the new units and every potential multiplied by 2^(l-i), the same double precision numbers up to the exact factor, including infinities and NaN of particles that coincide without softening. For other factors this fails: with lengths multiplied by 3 the potentials are not divided by 3. It fails without bounds: in units of length 2^70 times smaller (about a centimetre instead of a kiloparsec) the squared distances overflow in single precision and all potentials are zero.", "quantifier": "every galaxy without potential of fewer than 2^24 particles, masses 0 or between 2^-35 and 2^35, coordinates and softenings 0 or between 2^-20 and 2^20 in both units, every |l|, |i| <= 400, every gravitational constant between 2^-20 and 1; compiled backend, or numpy backend with zeros in fresh memory and any order of summation that depends only on the length; compiled code that rounds or fuses the squares of a distance, in a way that is the same for all numbers", "why_tests_cant": "The equality is bit for bit over all doubles in the range and all exponents, through two formats, sums of millions of terms, square roots and divisions.", "anchors": ["galaxychop/utils/_potential.py:potential", "galaxychop/utils/_potential.py:fortran_potential", "galaxychop/utils/_potential.py:numpy_potential", "galaxychop/utils/fortran/potential.f95"]}
{"id": "C91", "title": "From raw particles to components, units that differ by powers of two change no bit", "statement": "Let galaxy2 be a galaxy without potential in units of length, velocity and mass that are 2^i, 2^j and 2^(i+2j) times smaller, so that the gravitational constant has the same value. Then star_align(center(potential(galaxy2)), r_cut=2^i r_cut) is star_align(center(potential(galaxy)), r_cut=r_cut) in the new units, bit for bit, and an exception is raised for one exactly when it is for the other. If no aligned coordinate or velocity is a nonzero number below 2^-200 or above 2^200, then jcirc of the two results is the same in all six arrays and every decomposer working on circularity attributes returns the same components.", "quantifier": "every galaxy as in C90 with velocities 0 or between 2^-40 and 2^40 in both units, every |i|, |j| <= 100, both backends (numpy with zeros in fresh memory), every r_cut in range, every bin0, bin1, every argsort, every decomposer on circularity attributes, every order of summation that depends only on the length, dot products with or without fused multiply-add, computed in a way that is the same for all numbers", "why_tests_cant": "The equality is bit for bit over all doubles in the range and all exponents, through the whole computation; a test compares a few galaxies up to a tolerance.", "anchors": ["galaxychop/utils/_potential.py:potential", "galaxychop/utils/_center.py:center", "galaxychop/utils/_align.py:star_align", "galaxychop/utils/_circ.py:jcirc", "galaxychop/models/_base.py:GalaxyDecomposerABC.decompose"]}
{"id": "C92", "title": "Particles given in other units", "statement": "mkgalaxy accepts masses, positions, velocities and potentials as arrays (in the default units) or as quantities in any equivalent unit. The galaxy is, for to_dataframe and everything computed from it, the galaxy of the numbers converted to the default units, and stays so through potential, center and star_align, which mix the caller's quantities with their own arrays. A unit of another kind raises ValueError. Hence in exact arithmetic two descriptions of the same particles in different units give the same results and the same errors everywhere. kinetic_energy_, total_energy_ and the angular momenta are always in the documented units, and so are the potentials that potential computes. potential_energy_ is not in the documented unit (km/s)**2 when the caller gave potentials in another one: it returns the caller's quantity.", "quantifier": "every combination of arrays and quantities with any units for each of the 24 attributes, every arithmetic for which converting to the same unit changes nothing (in particular IEEE doubles), every backend and cut radius; exact arithmetic for the comparison of two descriptions", "why_tests_cant": "All combinations of units, and the equality of the results of two descriptions of the same particles.", "anchors": ["galaxychop/data.py:ParticleSet", "galaxychop/data.py:mkgalaxy", "galaxychop/data.py:galaxy_as_kwargs", "galaxychop/data.py:Galaxy.potential_energy_", "galaxychop/utils/_center.py:center", "galaxychop/utils/_align.py:star_align", "galaxychop/utils/_potential.py:potential"]}
{"id": "C93", "title": "JThreshold labels in double precision", "statement": "In double precision every label of JThreshold(eps_cut) is 0 or 1; a star with label 1 satisfies Jz/max|Jz| >= eps_cut * L - 2^-49 and a star with label 0 satisfies Jz/max|Jz| <= eps_cut * L + 2^-49, where L is the exact height, at the returned energy of the star, of the polygon through the returned profile. Hence a labelled star farther than 2^-49 from the border has the label of the exact rule eps > eps_cut. Some margin is needed: a star with circularity exactly 1/3 is above the double 1/3, and JThreshold(eps_cut=1/3) puts it into the spheroid.", "quantifier": "every galaxy of doubles whose bound particles have finite Jz, any number of particles, every choice of increasing bins, every admissible sort and table search, every finite cut, every labelled star with finite energy", "why_tests_cant": "A bound on the rounding error of all decisions for all doubles; a test sees a few galaxies far from the border.", "anchors": ["galaxychop/models/_threshold.py:JThreshold.split", "galaxychop/utils/_circ.py:_jcirc", "galaxychop/models/_base.py:GalaxyDecomposerABC.decompose"]}
{"id": "C94", "title": "The most bound star, when it does not rotate, has no circularity", "statement": "In double precision, when a star has the lowest energy of all bound particles and every particle with that energy has Jz = 0, then jcirc returns NaN as the circularity of that star, while its normalised energy (for a negative energy) is kept and equals -1, and JThreshold gives it no label. In particular, after center, a star of lowest potential that is also the most bound particle sits at the origin and never gets a circularity.", "quantifier": "every galaxy of doubles, any number of particles of any kind, every choice of increasing bins, every admissible sort and table search, every cut that is not NaN", "why_tests_cant": "A test sees a few galaxies and may drop the NaN entries before it compares; this says that it appears for every galaxy of this form.", "anchors": ["galaxychop/utils/_circ.py:_jcirc", "galaxychop/utils/_circ.py:jcirc", "galaxychop/utils/_center.py:center", "galaxychop/models/_threshold.py:JThreshold.split"]}
{"id": "C95", "title": "The runtime_warnings argument of jcirc", "statement": "jcirc with runtime_warnings equal to default, ignore, always, module or once returns or raises what jcirc does with the default; an unknown action raises AssertionError. With runtime_warnings=\"error\" it returns what the default returns, raises what the default raises, or raises RuntimeWarning. In double precision with finite angular momenta, when the default returns, error raises RuntimeWarning exactly when an in-plane angular momentum overflows (for any particle, bound or not), or all bound particles have energy zero, or no bound particle has Jz, or an energy bin holds at least two particles and no normalised Jz, or there is a bound star and no bound particle has Jx or Jy, or the raw circularity or projected circularity of a bound star is not finite. When error returns, every star has finite energy, eps and eps_r with -1 <= eps <= 1, or NaN in all three. When the most bound particle is a star without rotation, error always raises RuntimeWarning.", "quantifier": "every galaxy, any number of particles; for the cases of RuntimeWarning every galaxy of doubles with finite angular momenta, every choice of increasing bins, every admissible sort and table search", "why_tests_cant": "The set of galaxies that raise is described exactly, for all doubles; no test of the project passes runtime_warnings.", "anchors": ["galaxychop/utils/_circ.py:jcirc", "galaxychop/utils/_circ.py:_jcirc"]}
{"id": "C96", "title": "Arrays shared between galaxies and what a write to one changes", "statement": "mkgalaxy, center, star_align and potential never change an array that existed before the call, whether they return or raise, and they return the galaxy that the current content of the arrays determines. mkgalaxy copies arrays given without unit and keeps quantities by reference. The galaxy that center returns holds the same mass, velocity and potential arrays as its argument; star_align keeps the mass and potential arrays; potential keeps the mass, position and velocity arrays; everything else is new. So writing to a mass of the result writes to the mass of the argument, and writing to a position of a centred galaxy leaves the argument as it was. No two attributes of a galaxy share an array if no quantity is given twice, and center, star_align and potential keep it so. Writing to a position changes this position only: energies and angular momenta stay those of the old position. In every session of calls and writes, a galaxy keeps its value unless a write hits one of the arrays it holds.", "quantifier": "every memory, every galaxy and every arguments whose arrays exist, every finite session of calls and item writes", "why_tests_cant": "Sharing is not visible in return values: tests compare results of fresh galaxies, and a session of writes of any length cannot be enumerated.", "anchors": ["galaxychop/data.py:ParticleSet", "galaxychop/data.py:galaxy_as_kwargs", "galaxychop/data.py:mkgalaxy", "galaxychop/utils/_center.py:center", "galaxychop/utils/_align.py:star_align", "galaxychop/utils/_potential.py:potential"]}
{"id": "C97", "title": "A bare string where a tuple of names is expected", "statement": "to_dataframe(ptypes=s) with a string s, and the plots with it, behave as with the tuple of those names among stars, dark_matter, gas that occur in s as substrings; the name of a type selects this type only, and a string with none of the names raises ValueError. to_dataframe(attributes=s) and pairplot(attributes=s) behave as with the tuple of the characters of s; for some selected particle type the call succeeds exactly when every character is m, x, y or z, with one column per distinct character in order of appearance, and raises KeyError otherwise (\"Jz\" and \"potential\" included).", "quantifier": "every galaxy, every string, every attributes and labels", "why_tests_cant": "Tests pass tuples and lists only; the claim is about all strings, including overlapping names.", "anchors": ["galaxychop/data.py:Galaxy.to_dataframe", "galaxychop/data.py:ParticleSet.to_dataframe", "galaxychop/plot.py:GalaxyPlotter.get_df_and_hue"]}
{"id": "C98", "title": "From the keyword arguments of a decomposer to its decomposition", "statement": "For an object made by Cls(**kwargs), decompose(galaxy) computes the circularity with the cbins given (0.05 and 0.005 if not given) and then: JThreshold cuts eps at eps_cut (0.6); JHistogram works with n_bin (100) and digits (2) on eps; JEHistogram with n_bin (100), digits (2) and n_bin_E (20) on energy and eps in this order; KMeans passes energy, eps and eps_r of the stars to scikit-learn's KMeans with n_clusters=n_components (2), init (k-means++), n_init (10), max_iter (300), tol (1e-4), verbose (0), algorithm (auto) and returns its labels without probabilities; GaussianMixture passes them to scikit-learn's GaussianMixture with n_components (2), covariance_type (full), tol (1e-3), reg_covar (1e-6), max_iter (100), n_init (10), init_params (kmeans), weights_init, means_init, precisions_init (None), warm_start (False), verbose (0), verbose_interval (10) and returns its predictions and probabilities; AutoGaussianMixture passes the same arguments, except n_components, to every fit and selects with c_bic (0.1). Each value is the keyword argument of that name, or the default in parentheses.", "quantifier": "every keyword arguments the constructor accepts, every galaxy, every library behaviour, in any session", "why_tests_cant": "Tests check a few constructor calls; they cannot tell two swapped hyperparameters apart when the library gives the same labels for both.", "anchors": ["galaxychop/models/_base.py:GalaxyDecomposerABC", "galaxychop/models/_threshold.py:JThreshold", "galaxychop/models/_histogram.py:JHistogram", "galaxychop/models/_histogram.py:JEHistogram", "galaxychop/models/_kmeans.py:KMeans.split", "galaxychop/models/_gaussian_mixture.py:GaussianMixture.split", "galaxychop/models/_gaussian_mixture.py:AutoGaussianMixture.split"]}
{"id": "C99", "title": "Energy bookkeeping of the computed potentials", "statement": "For a galaxy without potential whose particles do not coincide without softening, potential(galaxy, backend='fortran') gives potentials for which, in exact arithmetic: (1) the sum of m*potential over all particles of all types is twice the sum of -G*m_i*m_j/sqrt(|r_i-r_j|^2+eps^2) with every unordered pair taken once; (2) at every star, the potential in the whole galaxy plus that in the galaxy of the stars alone equals the potential without gas plus the potential without dark matter (when the stars have the largest softening); (3) with equal softening, sum over stars of m*(potential with dark matter - potential without) equals sum over dark matter of m*(potential with stars - potential without); (4) with non-negative masses and G, if all softened distances from a particle lie between a and b, its potential lies between -G*M/a and -G*M/b with M the mass of all other particles.", "quantifier": "every number of particles of each type, all masses, positions and softenings, every content of uninitialised memory", "why_tests_cant": "Tests compare a few potentials with recorded numbers; a wrong weight for pairs of one kind of particles can be consistent with any finite set of records.", "anchors": ["galaxychop/utils/_potential.py:potential", "galaxychop/utils/_potential.py:fortran_potential", "galaxychop/utils/fortran/potential.f95:fortran_potential"]}
{"id": "C100", "title": "How often the histogram models make a star spheroid", "statement": "Run JHistogram.split from every state of a finite set of generator states on which each call of choice is a permutation of the states and takes every entry equally often. Then a star in a circularity bin below zero is labelled 0 in every state, a star of a bin mirrored to one with n_c stars, in a bin of n stars, in exactly the fraction min(n_c, n)/n of the states, and a star beyond the mirrored bins in none. Hence the mean mass of the spheroid is all mass below zero plus the sum over mirrored bins of min(n_c, n)/n times the mass of the bin. For JEHistogram, whenever it returns for one state it returns for all; in a mirrored bin with n <= n_c every star is always spheroid, otherwise a star of energy bin j is in the fraction min(n_cj, n_j)/n_j of the states, where n_cj and n_j count the stars of the two circularity bins in that energy bin, and a star outside all energy bins in none.", "quantifier": "all lists of stars, all numbers of bins and digits for which the edges are sorted, every generator, all finite sets of fair states, every content of uninitialised memory", "why_tests_cant": "Tests fix one seed; a selection biased towards some stars, or using the count of another bin for the draw, shows only over all states of the generator.", "anchors": ["galaxychop/models/_histogram.py:JHistogram.split", "galaxychop/models/_histogram.py:JHistogram._make_corot_sph", "galaxychop/models/_histogram.py:JEHistogram.split", "galaxychop/models/_histogram.py:JEHistogram._make_corot_sph"]}
{"id": "C101", "title": "AutoGaussianMixture as c_bic and the memberships vary", "statement": "For a fixed state of the generator and fixed fits, raising c_bic never raises the number of Gaussians that AutoGaussianMixture.split fits and never turns a result into an error; between two values of c_bic that choose the same number, labels, probabilities and the state of the generator afterwards are the same. In exact arithmetic with non-negative memberships and means that are not NaN, the label of a star has at least a quarter of the star's memberships behind it, all of Gaussians of the last fit whose means lie in the region of that label (eps >= 0.85: 2, 0.5 <= eps < 0.85: 3, below 0.5: 0 for energy >= -0.75, else 1); so no star gets the label of a region without a mean, and a Gaussian that has more than half of the memberships of a star decides its label.", "quantifier": "every scikit-learn behaviour (arbitrary fits, BICs and memberships), all c_bic, all matrices, every order of the workers, any arithmetic for the choice", "why_tests_cant": "Tests fix one data set and one c_bic; monotonicity and the bound on the memberships are statements about all pairs of cuts and all mixtures.", "anchors": ["galaxychop/models/_gaussian_mixture.py:AutoGaussianMixture.split"]}
{"id": "C102", "title": "The histogram models depend on bins only, and doubles get the labels of exact arithmetic", "statement": "JHistogram.split gives the same labels, the same generator state or the same error for two lists of circularities, even in two different arithmetics, if the number of the zero edge is the same and each star lies in the same bins; for JEHistogram.split also the same energy bins are needed. With n_bin = 2m, m a divisor of 10**digits and at most 14 digits, each edge computed in double precision is the double nearest to i/m - 1. Then the split of any doubles, also infinite or NaN, is the exact split of the numbers the doubles stand for, where the double nearest to an edge stands for that edge and every other double for its own value; for JEHistogram if in addition the energies are more than 2^-52 away from the inner energy edges (up to 2^53 energy bins). So labels equal the exact labels of the same values unless some circularity is the double nearest to an edge without being the edge. Without that condition they differ: 0.06 next to -0.05 with the default parameters.", "quantifier": "all lists of doubles, all m dividing 10**digits, all generators, states and memory contents", "why_tests_cant": "The doubles on or next to an edge are a handful out of 2^64; tests on sampled circularities practically never hit them, and no test runs exact arithmetic beside the floats.", "anchors": ["galaxychop/models/_histogram.py:JHistogram.split", "galaxychop/models/_histogram.py:JHistogram._make_histogram", "galaxychop/models/_histogram.py:JEHistogram.split"]}
{"id": "C103", "title": "Decomposing a galaxy in doubles with a histogram model gives the labels of the exact circularities", "statement": "Take any galaxy in double precision whose circularities can be computed, default or other increasing energy bins, and JHistogram with n_bin = 2m, m a divisor of 10**digits and at most 14 digits. Let w be the exact circularity of each star with a finite computed one: Jz divided by the largest |Jz| of the bound particles and by the height of the polygon of circular orbits at the star's computed normalized energy. If |w - edge| * height is more than 2^-48 for each inner edge, decompose returns, and its labels on these stars are the labels of JHistogram.split in exact arithmetic on w clamped to [-1, 1], with the same generator and state; all other particles get NaN. For JEHistogram the same holds whenever the exact split returns, if in addition the computed normalized energies are more than 2^-52 away from the inner energy edges. Without the margin the labels differ: a star with circularity 540431955284458/9007199254740967, just below 0.06, next to one near -0.05.", "quantifier": "all galaxies in doubles, all m dividing 10**digits, all generators, states and memory contents", "why_tests_cant": "Tests have no exact circularity to compare with, and sampled stars practically never fall within rounding distance of a bin edge.", "anchors": ["galaxychop/models/_base.py:GalaxyDecomposerABC.decompose", "galaxychop/models/_histogram.py:JHistogram.split", "galaxychop/models/_histogram.py:JEHistogram.split", "galaxychop/utils/_circ.py:jcirc"]}
{"id": "C104", "title": "star_align in double precision: totals on the z axis and a second alignment", "statement": "In double precision, for every order of the additions: for every r_cut that star_align accepts, if the stars inside r_cut have finite masses and coordinates and move in the plane z = 0 (z = vz = 0), or no star is inside r_cut, star_align returns a galaxy in which x, y, vx and vy of every particle are NaN, dark matter and gas included, and jcirc of that galaxy raises ValueError. The NaN also appear whenever the x and y components of the total as computed are zero. is_star_aligned can be True for such a galaxy before the call. A second star_align, both without r_cut: take at most 2^30 stars, particles whose masses, positions and velocities are finite and at most 2^200 in size, and computed totals whose components are at most 2^200 with one of x and y at least 2^-200 in size, before and after the first alignment. If the number of stars plus 20, times the sum of mass times size of the position times size of the velocity, is at most K <= 2^28 times the length of the exact total, the second alignment is a rotation up to rounding that keeps z and vz of every particle up to (K+1)/2^46 of the size of the position or velocity, plus 2^-1070. x and y are not kept: for one star at (1,2,3) with velocity (3,5,7) y is below -3 after the first alignment and within 1/1000 of 0 after the second; for one star at (1,0,0) with velocity (0,1,1) the second alignment gives NaN.", "quantifier": "all galaxies in doubles, all orders of summation, with or without fused multiply-add in np.dot; all accepted cuts for the NaN cases, no cut for the second alignment", "why_tests_cant": "Whether the computed total is exactly on the axis depends on rounding; tests with random positions never see the NaN case and never align twice.", "anchors": ["galaxychop/utils/_align.py:star_align", "galaxychop/utils/_align.py:_get_rot_matrix", "galaxychop/utils/_align.py:is_star_aligned", "galaxychop/utils/_circ.py:jcirc"]}
{"id": "C105", "title": "What the header checker prints", "statement": "The check command of tools/checkheader.py, with its output sent to a file or pipe. If the template and all files can be read and every source is a directory or has the suffix .py, it prints one line for each file with a wrong header (with --verbose for each file), each file once, in the order in which the files are first met, then a rule and a verdict; the exit code is 0 iff all headers match. The exit code does not depend on --verbose, --verbose only adds lines, and without it the exit code is 0 iff the output is the rule and the good verdict. Whether the exit code is 0 does not depend on the order of the sources. If a .py source is missing only the text of the error is printed, and if a source is neither a directory nor a .py file nothing is printed and ValueError leaves the command: in both cases wrong headers of the sources before it are not reported. With a missing .py file and a .txt file the order of the two decides between exit code 1 and ValueError.", "quantifier": "all file systems, templates, sources and flags", "why_tests_cant": "The tool has no tests; the lost reports need a particular order of sources.", "anchors": ["tools/checkheader.py:CLI.check"]}
{"id": "C106", "title": "How the histogram spheroid grows with stars and bins", "statement": "JHistogram.split: adding stars of which neg are counter-rotating and pos are not enlarges the spheroid by at least neg and at most 2 neg + pos stars, whatever the random generators do. In double precision, taking n_bin = 2mq instead of 2m, where mq divides 10**digits and digits <= 14, never enlarges the spheroid, and decomposing a galaxy with the two settings labels the same number of stars and never more of them spheroid; in exact arithmetic mq < 2*10**digits is enough. JEHistogram.split never puts more stars into the spheroid than JHistogram.split with the same circularity bins, and in exact arithmetic multiplying the number of energy bins by a whole number never enlarges its spheroid. False without these conditions: 6 bins instead of 4 can enlarge the spheroid of JHistogram, 4 circularity bins instead of 2 that of JEHistogram, and in double precision 60 energy bins instead of the default 20 can enlarge that of JEHistogram.", "quantifier": "all lists of circularities (and energies), all numbers of bins as stated, all generators and states", "why_tests_cant": "It compares the results of all pairs of inputs and settings; tests use single settings.", "anchors": ["galaxychop/models/_histogram.py:JHistogram.split", "galaxychop/models/_histogram.py:JEHistogram.split"]}
{"id": "C107", "title": "Equality and hashing of decomposers, galaxies and components", "statement": "Decomposers: those of different classes are not equal; two JThreshold with float arguments that are not NaN are equal iff cut and bin widths are equal numbers; a decomposer of another class made with a seed (or with none) is not equal to any decomposer made before it, whatever the seeds; one made with the same arguments, without NaN or values of unknown type, and with the generator of another one is equal to it. Where equal numbers are identical (one zero), equal decomposers whose hyperparameters have the same types are the same object to every caller. Equal decomposers have the same hash or both have none; hash of a decomposer raises TypeError iff one of its hyperparameters is a list or a tuple that contains a list at some depth. JHistogram(n_bin=2, random_state=g) equals JHistogram(n_bin=2.0, random_state=g) but only the first can decompose, and JThreshold(eps_cut=nan) need not equal itself. Data: == of two galaxies with the same number of stars, at least two, raises ValueError unless they share the masses of the stars; of a galaxy with itself it is True or raises ValueError, depending on the version of attrs; == of the components of two or more particles with others of as many particles raises ValueError; hash of galaxies, particle sets and components raises TypeError.", "quantifier": "all decomposers, hyperparameters, sessions, galaxies and components; both ways attrs compares", "why_tests_cant": "No test compares objects; the facts about seeds and generators are about all sessions.", "anchors": ["galaxychop/models/_base.py:GalaxyDecomposerABC.__init_subclass__", "galaxychop/models/_base.py:Components", "galaxychop/data.py:ParticleSet", "galaxychop/data.py:Galaxy"]}
{"id": "C108", "title": "Profile, circularities and threshold labels in doubles agree with exact arithmetic on the same coordinates", "statement": "Take a galaxy with coordinates in doubles far from overflow, the default bin widths, and let M be the size of the lowest energy and J the largest |Jz| of bound particles in exact arithmetic. Suppose rounding moves no energy across zero and moves bound energies and angular momenta by at most theta*M and theta*J (theta <= 1/4), and that, for delta >= 3*theta + 2^-49, the choices of jcirc are clear by a margin of order delta: no bound particle next to zero energy or to an inner bin edge, one deepest particle, no Jz next to zero, distinct |Jz| in a bin, second largest not next to 99% of the largest. If jcirc succeeds in doubles then it succeeds in exact arithmetic, the two tables have the same length and are made of the same particles in the same order, the first one the deepest, and the computed corners are within delta of the exact normalised values. If the exact corners are at least gamma apart, a finite computed circularity times the height P of the exact circular orbit differs from the exact normalised Jz by at most 2*delta + 2*delta/gamma, and from the exact circularity times P by as much. If every bound star is a corner of the table, or is clear of the circular orbit and of cut*P by that bound, JThreshold gives the same labels and ptypes in doubles as in exact arithmetic.", "quantifier": "all galaxies in doubles that satisfy the stated margins, all finite cuts; every sorting order that numpy may use", "why_tests_cant": "Tests cannot run the code in exact arithmetic and sample a few galaxies.", "anchors": ["galaxychop/utils/_circ.py:jcirc", "galaxychop/utils/_circ.py:_jcirc", "galaxychop/models/_threshold.py:JThreshold.split"]}
{"id": "C109", "title": "Doubles near a galaxy of real numbers have its profile, circularities and threshold labels", "statement": "Take a galaxy in doubles and, for every particle, a particle of real numbers whose specific energy and angular momentum about z differ from the computed ones by known bounds, for whatever reason (rounding, an approximate potential). With M the size of the lowest energy and J the largest |Jz| of bound particles of the real numbers, suppose no energy crosses zero and the bounds are at most theta*M and theta*J for bound particles (theta <= 1/4). Then jcirc with the default bin widths succeeds in doubles iff it succeeds for the real numbers. If moreover the choices of jcirc for the real numbers are clear by a margin of order delta >= 3*theta + 2^-49, both tables are made of the same particles in the same order and corners differ by at most delta; with corners at least gamma apart, circularities times the height P of the circular orbit differ by at most 2*delta + 2*delta/gamma; and if every bound star is a corner or clear of the circular orbit and of cut*P by that bound, JThreshold gives the same labels and ptypes.", "quantifier": "all galaxies in doubles, all reference particles of real numbers that satisfy the stated margins, all finite cuts; every sorting order that numpy may use", "why_tests_cant": "Tests compare one run with stored output; they cannot say for which perturbations of the input the labels stay.", "anchors": ["galaxychop/utils/_circ.py:jcirc", "galaxychop/utils/_circ.py:_jcirc", "galaxychop/models/_threshold.py:JThreshold.split"]}
{"id": "C110", "title": "From raw particles to labels: single precision potential and double precision circularities follow exact gravity", "statement": "Take a galaxy without potentials of at most 2^22 particles whose positions, masses and softening are single precision numbers of moderate size, no two particles in the same place unless there is a softening, velocities far from overflow. Let E_i be the exact specific energy of particle i in the softened gravity of all others and Jz_i its exact angular momentum, M the size of the lowest energy, J the largest |Jz| of bound particles. Suppose the error bounds of the computation (relative (n+6)/2^23 of the potential, C77, plus rounding in doubles, C84) move no energy across zero and are at most theta*M and theta*J for bound particles, theta <= 1/4, and the choices of jcirc on E_i/M, Jz_i/J are clear by a margin of order delta >= 3*theta + 2^-49. Then potential() succeeds in the code's arithmetic and in exact arithmetic; on the results jcirc with the default bin widths succeeds in doubles iff in exact arithmetic; both tables of circular orbits are made of the same particles in the same order, with corners within delta; with corners gamma apart, a finite circularity times the height P of the circular orbit is the exact normalised Jz up to 2*delta + 2*delta/gamma; and if every bound star is a corner or clear of the circular orbit and of cut*P by that bound, JThreshold gives the labels and ptypes of exact arithmetic. The same holds for the numpy backend for every order of its additions when the uninitialised diagonal of its buffer holds zeros.", "quantifier": "all galaxies that satisfy the stated margins, both backends, every order of the numpy additions, every sorting order, all finite cuts", "why_tests_cant": "It joins the whole pipeline to exact arithmetic, which no test can run, for all galaxies.", "anchors": ["galaxychop/utils/_potential.py:potential", "galaxychop/utils/_circ.py:jcirc", "galaxychop/models/_threshold.py:JThreshold.split"]}
{"id": "C111", "title": "The histogram models give in doubles the labels of exact arithmetic when no star is close to an edge", "statement": "Under the hypotheses of C109 (a galaxy in doubles and a galaxy of real numbers with energies and angular momenta within theta of each other, choices of jcirc clear by delta >= 3*theta + 2^-49, corners of the table of circular orbits gamma apart), if every bound star is a corner of the table or clear of the circular orbit by 2*delta + 2*delta/gamma, then the same stars have a circularity in both; it is exactly +1 or -1 and the same in both for the corners, and for the others eps times the height P of the circular orbit is the exact normalised Jz up to 2*delta + 2*delta/gamma. If moreover the number of circularity bins is 2m with m a divisor of 10^digits, digits <= 14, and the stars that are not corners are clear of the inner edges, |Jz/J - (k/m - 1)*P| > 3*delta + 2*delta/gamma for 0 < k < 2m, then JHistogram succeeds in both, and with the same random generator in the same state the labels are equal. The same holds for JEHistogram when in addition the normalised energies of bound stars are more than 2*delta away from k/n - 1 for 0 < k <= n, n the number of energy bins. From raw particles, with the potential computed in single precision by either backend, the same holds against exact gravity under the hypotheses of C110.", "quantifier": "all galaxies that satisfy the stated margins, every random generator that draws without replacement and every state of it, all admissible numbers of bins, both backends, every sorting order", "why_tests_cant": "Exact arithmetic cannot be run, and the labels depend on a random generator and on the galaxy.", "anchors": ["galaxychop/models/_histogram.py:JHistogram.split", "galaxychop/models/_histogram.py:JEHistogram.split", "galaxychop/utils/_circ.py:jcirc", "galaxychop/utils/_potential.py:potential"]}
{"id": "C112", "title": "After center and star_align, doubles give the labels of exact arithmetic outside a margin", "statement": "Let a galaxy of doubles have a particle c that is strictly the lowest in potential beyond the error of the potentials, coordinates and masses far from overflow, and stars whose total angular momentum about c is not along the z axis and is at least 2^-48 times the load of the stars (number of stars + 4, times the sum of mass times size of position times size of velocity). With a cutoff radius only the stars inside count here, and no star may be within the margin of C117 of the cutoff. Then center followed by star_align succeeds in doubles, for every order of additions, and in real arithmetic. Masses and potentials stay; every computed energy is within |v|^2/2^45 + |phi|/2^50 + 2*eta of the exact energy of the input particle; every computed Jz is within |r||v|*(2^-44 + load/(2^48*|J|)) of the exact angular momentum of the input particle about the axis through c along the exact total angular momentum of the stars, and is exactly zero for particles at c or at rest. If these errors are at most theta times the normalisations M and J, the choices of jcirc are clear by delta >= 3*theta + 2^-49 in exact arithmetic, and different particles do not become equal by rounding, then jcirc succeeds for both galaxies or for none, the tables of circular orbits have the same particles with corners within delta, finite circularities times the height of the circular orbit agree up to 2*delta + 2*delta/gamma, and JThreshold, JHistogram and JEHistogram give the same labels when the stars are clear of threshold and bin edges as in C109 and C111.", "quantifier": "all galaxies that satisfy the stated margins, every cutoff radius or none, every order of the additions (products in np.dot rounded or fused) in the matrix products and sums, every sorting order, every random generator that draws without replacement, all thresholds and admissible numbers of bins", "why_tests_cant": "Exact arithmetic cannot be run, and a test sees one galaxy with one direction of the axis.", "anchors": ["galaxychop/utils/_center.py:center", "galaxychop/utils/_align.py:star_align", "galaxychop/utils/_align.py:_get_rot_matrix", "galaxychop/utils/_circ.py:jcirc", "galaxychop/models/_threshold.py:JThreshold.split", "galaxychop/models/_histogram.py:JHistogram.split", "galaxychop/models/_histogram.py:JEHistogram.split"]}
{"id": "C113", "title": "From raw particles through potential, center and star_align, the labels are those of exact arithmetic outside a margin", "statement": "Take a galaxy without potentials, of at most 2^22 particles whose positions, masses and softening are single precision numbers of moderate size, no two particles in the same place unless there is a softening. Let phi be the exact potential in the softened gravity of all other particles and eta = (n+6)/2^23*|phi| the bound of the error of the computed one (C77, C83). Suppose one particle c is lowest in phi by more than the eta, the stars have a total angular momentum about c that is not along the z axis and not small against their load, and the margins of C112 hold for the exact energies and for the exact angular momenta about the axis through c along that total. Then potential, center and star_align in succession succeed, in single and double precision with every order of the additions and in exact arithmetic, and unless rounding makes two different particles equal the conclusions of C112 hold for the results: jcirc succeeds for both or for none, the tables of circular orbits are made of the same particles with corners within delta, finite circularities agree, and JThreshold, JHistogram and JEHistogram give the same labels when the stars are clear of the threshold and the bin edges. This holds for the compiled backend, and for the numpy backend when the memory left on the diagonal by np.divide holds zeros.", "quantifier": "all galaxies that satisfy the stated margins, every cutoff radius or none, all contents of unused memory of the compiled backend, every order of the additions and every mixture of rounded and fused products in np.dot, every sorting order, every random generator that draws without replacement, all thresholds and admissible numbers of bins", "why_tests_cant": "Exact arithmetic cannot be run, and a test sees one galaxy, one order of the additions and one content of memory.", "anchors": ["galaxychop/utils/_potential.py:potential", "galaxychop/utils/fortran/potential.f95", "galaxychop/utils/_center.py:center", "galaxychop/utils/_align.py:star_align", "galaxychop/utils/_circ.py:jcirc", "galaxychop/models/_threshold.py:JThreshold.split", "galaxychop/models/_histogram.py:JHistogram.split", "galaxychop/models/_histogram.py:JEHistogram.split"]}
{"id": "C114", "title": "Which energy bins contribute to the profile, in double precision", "statement": "In double precision, let some bound particle have non-zero Jz and some negative energy, let the Jz of the bound particles be finite and the computed bin edges increase from -1 and stay negative (true for the default cbins). Then jcirc, when it succeeds, puts a point into an energy bin exactly when the bin contains a bound particle and either a bound particle lies above the last edge, or the number of the bin plus the number of points with y = 0 (at least one) is below the number of edges. So with a bound particle above the last edge every populated bin has a point; without one no bin whose number exceeds the number of bound particles has a point, whatever it contains. For three stars at energies -1, -0.5, -0.25 and the default cbins only the point at -1 is left, the other two stars get a circularity above 1 and so NaN in all attributes; adding a dark matter particle of energy -1/1024 gives all three the circularity 1.", "quantifier": "every galaxy of doubles with a bound particle, any number of particles of each type, every cbins whose computed edges increase from -1 and are negative, every admissible sort and search; one galaxy for the numbers", "why_tests_cant": "The tests never leave the range above the last edge empty, and the sign is a smooth profile that is too short.", "anchors": ["galaxychop/utils/_circ.py:_jcirc"]}
{"id": "C115", "title": "star_align with different linear algebra libraries", "statement": "np.dot in star_align may add the three products in any order and may round each product or fuse it with an addition (fused multiply-add), depending on the library numpy uses. Under the conditions of C81 two such libraries give the same masses and potentials and positions and velocities that differ by at most 2^-46 of the sum of the sizes of the coordinates (plus 2^-1069). They need not give the same doubles: for one star at (1,2,3) with velocity (2,-1,5) x is the same but z and vz differ between rounding every product and a chain of fused multiply-adds. Under the conditions of C112 the labels of JThreshold, and of JHistogram with the same random generator, after center and star_align are the same on two machines with different libraries, orders of summation and tie breaking in sorts.", "quantifier": "every galaxy of doubles with coordinates up to 2^990, any number of particles, every cutting radius, every order of the additions, every mixture of rounded and fused products; for the labels all galaxies with the margins of C112; one galaxy for the difference", "why_tests_cant": "A test runs on one machine with one library; it cannot compare the bits or labels of another.", "anchors": ["galaxychop/utils/_align.py:star_align"]}
{"id": "C116", "title": "potential with numpy 2 and with compilers that fuse multiply-adds", "statement": "numpy 2 multiplies the float32 sums by the float64 constant G in double precision where numpy 1 does it in single precision, and a compiler may fuse the squares of the compiled loop with the additions. For input in the range of C77 the potential of every particle with either backend is still within (n+6)*2^-23 of the softened sum, relative, for n particles (for numpy the diagonal entries count as terms, as in C83). Potential, centring, aligning and labelling lead to the labels of exact arithmetic under the conditions of C113. The potentials can differ in bits: for two stars of masses 1 and 1 + 2^-23 at distance one and G = 1 - 2^-24 numpy 1 gives the first the potential -1 and numpy 2 gives -(1 + 2^-24 - 2^-47); for two stars of mass one at distance (3495/512, 7857/1024) a compiler that fuses and one that does not give potentials that differ in the last place.", "quantifier": "every galaxy within the ranges of C77 and C83 respectively the margins of C113, any number of particles up to 2^22, every mixture of rounded and fused products, every order of the additions; two galaxies for the differences", "why_tests_cant": "A test runs with one numpy and one compiler; it cannot compare with the others or cover all inputs.", "anchors": ["galaxychop/utils/_potential.py:potential", "galaxychop/utils/_potential.py:fortran_potential", "galaxychop/utils/_potential.py:numpy_potential", "galaxychop/utils/fortran/potential.f95"]}
{"id": "C117", "title": "The cutoff radius of star_align in double precision", "statement": "Let r_cut be a positive double and let no star have a squared distance from the origin that is within 2^-47 of the square of its size of the squared cutoff. Then in doubles, with every library for sums and dot products, star_align with r_cut turns every particle by the very matrix that star_align without r_cut uses for the galaxy that keeps only the stars whose exact distance is less than r_cut, and is_star_aligned with r_cut gives the answer it gives without r_cut for that galaxy. With such a cutoff, centring and aligning lead to the labels of exact arithmetic under the conditions of C112 (from raw particles C113, on different machines C115 and C116) for the stars inside. On the edge this fails: with a star at (0,1,0), a star at (1,1,0) and r_cut the double next to the square root of two, the second star is inside in exact arithmetic and outside in doubles, and ends at height 1 instead of 3/5.", "quantifier": "every galaxy of doubles with star coordinates up to 2^200 and clear of the cutoff, any number of particles, every positive r_cut, every function in the place of np.sum and np.dot; one galaxy on the edge", "why_tests_cant": "Exact arithmetic cannot be run, and a test sees one galaxy and one cutoff.", "anchors": ["galaxychop/utils/_align.py:star_align", "galaxychop/utils/_align.py:_make_mask", "galaxychop/utils/_align.py:is_star_aligned"]}
{"id": "C118", "title": "Equality and hashing of circularities and plotters", "statement": "The results of two calls of jcirc for galaxies with the same number of stars, at least two, cannot be compared: == raises ValueError, even for the same galaxy and bins. One result compared with itself gives True or raises ValueError, depending on the version of attrs. galaxy.plot == galaxy.plot is True or raises ValueError in the same way, although each access makes a new plotter; the plotters of two different galaxy objects compare as the galaxies do, with the same exception. hash of a result of jcirc and of a plotter raises TypeError. For one star == does not raise at the star arrays, and a result with NaN circularity is different from itself when attrs compares attribute by attribute; a galaxy where this happens is given.", "quantifier": "every galaxy and bins for which jcirc returns, every arithmetic with IEEE comparisons, every sort and memory content, both ways attrs compares; one galaxy for the last part", "why_tests_cant": "No test compares these objects, and the results hold for galaxies of every size.", "anchors": ["galaxychop/utils/_circ.py:JCirc", "galaxychop/utils/_circ.py:jcirc", "galaxychop/plot.py:GalaxyPlotter", "galaxychop/data.py:Galaxy.plot"]}
{"id": "C119", "title": "Exactly 1132 strings name a particle type", "statement": "With the upper-case table of Unicode that str.upper uses, ParticleSetType.mktype(s) returns a type for a string s exactly when s, written in lower case with each long s as s and each ligature of (long) s and t as the two letters s and t, is the name of that type in lower case; otherwise it raises ValueError. So an ASCII string is accepted exactly when it is a name in any letter case, but \"ﬆars\" and \"gaſ\" (with a long s) are accepted too. There are exactly 96 strings for the stars, 1024 for the dark matter and 12 for the gas.", "quantifier": "every string of Unicode characters", "why_tests_cant": "There are infinitely many strings; a count of the accepted ones needs a proof that no other is accepted.", "anchors": ["galaxychop/data.py:ParticleSetType.mktype", "galaxychop/data.py:ParticleSetType.humanize"]}
{"id": "C120", "title": "Softenings and cutoff radii given as quantities", "statement": "The documentation of ParticleSet calls softening a Quantity with default unit kpc, but a softening that is a quantity with a unit of length is refused: mkgalaxy returns no galaxy, and raises TypeError at once if it is the softening of the stars. mkgalaxy returns a galaxy exactly when each softening is a number, an array with one entry, a string that spells a number or a dimensionless quantity with one entry, and then it is the galaxy for these numbers. star_align(galaxy, r_cut=q) for a quantity q with a unit of length raises ValueError as soon as one star has a finite distance other than zero from the origin; if there is none, all units give the same result, that of the bare number.", "quantifier": "every galaxy in any units, every softening and cutoff of these kinds, every system of units in which a length is not equivalent to a number", "why_tests_cant": "No test gives quantities here, and the exceptions depend on all stars.", "anchors": ["galaxychop/data.py:ParticleSet", "galaxychop/data.py:mkgalaxy", "galaxychop/utils/_align.py:star_align", "galaxychop/utils/_align.py:_make_mask"]}
{"id": "C121", "title": "star_align turns a nearly aligned galaxy by an angle that tiny changes decide", "statement": "In double precision, let star_align be given a galaxy for which the total angular momentum of the stars inside r_cut, as computed, has a z component other than zero and a part across the z axis of at most e times the whole, e at most 1. Then star_align turns all positions and velocities of stars, dark matter and gas about the z axis by one angle, the one that takes the part across the z axis to the positive y direction, and if the total points down also by half a turn about the x axis, with an error per coordinate of at most e + 2^-47 times the sum of the sizes of the coordinates (plus 2^-1070). The angle depends on the direction of the part across the axis and not on how small it is. So tiny changes turn the galaxy round: a star at (1,0,0) with velocity (0,1,2^-100) and one with velocity (0,1,-2^-100) are both star aligned with the default tolerances, and star_align moves the first to x = -1 and the second to x = 1. In the same way aligning twice is not aligning once: with one star at (-2,0,-3) and velocity (-1,-1,0) the galaxy returned is star aligned with the default tolerances, and aligning it again changes the sign of x, y and vx.", "quantifier": "every galaxy of doubles with coordinates up to 2^990 whose total is at most 2^200 and has a part across the z axis of at least 2^-200, any number of particles, every cutting radius, every order of the additions in np.sum and np.dot, with or without fused multiply-add in np.dot; three galaxies of one star in the arithmetic of the model", "why_tests_cant": "The bound is for all galaxies and all rounding errors; a test that aligns a nearly aligned galaxy sees one angle, which the rounding of its machine decides.", "anchors": ["galaxychop/utils/_align.py:star_align", "galaxychop/utils/_align.py:_get_rot_matrix", "galaxychop/utils/_align.py:is_star_aligned"]}
