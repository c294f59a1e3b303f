# Design

Formal model of galaxy-chop (pinned commit in /repo) in Lean 4, with machine-checked proofs of the
properties in `properties.jsonl`. The code is never run; the model is tied to the code only by
reading. Every definition cites the file and lines it models.

## Layers

1. `Verif/Py.lean`: Python exceptions as values (`PyErr`, `Except PyErr`), ordered dictionaries.
2. `Verif/Num.lean`: the interface `Num F` of a floating point type (operations only, no laws), and
   `NumOrd F`, a small list of laws about comparisons that IEEE-754 numbers satisfy (NaN compares
   false, the rest is a total preorder). `Verif/Ext.lean`: `Ext K`, numbers of an ordered field `K` with
   +inf, -inf and NaN, IEEE rules for the special values and exact arithmetic for finite values.
   Structural theorems hold for every `Num F` (hence for binary64 with any rounding), order theorems
   for every `NumOrd F`, algebraic theorems for `Ext K`, `K` an ordered field (with square roots
   where the code takes them; the reals are an instance, Q is used to evaluate counterexamples).
   `Verif/Binary.lean`: `Flt fmt`, IEEE-754 binary arithmetic with rounding to nearest even, gradual
   underflow, overflow and signed zeros; `Float64` is the binary64 instance. `Lemmas/Binary.lean` proves
   that it satisfies every law class used here (`NumOrd`, `NumIEEE`, `NumDiv`; `NumNeg` in `Lemmas/Neg.lean`), so all theorems stated
   for those classes hold for it; `Lemmas/BinaryErr.lean` proves that rounding is to a nearest
   representable number and bounds the errors, `Lemmas/BinarySqrt.lean` the same for the square root,
   `Lemmas/FltOrder.lean` that the operations are monotone, `Lemmas/BinaryClose.lean` tracks relative
   errors through a computation, `Lemmas/BinaryAdd.lean` covers sums and differences, `Lemmas/BinaryFuzzy.lean` errors relative to a scale, `Lemmas/Summation.lean` sums in any order, `Lemmas/Fused.lean` dot products with or without fused multiply-add, `Lemmas/FltScale.lean` and `Lemmas/SumScale.lean` multiplication by powers of two. `Verif/Single.lean`: conversion between formats, binary32.
3. `Verif/Np.lean`, `Verif/Pd.lean`: the numpy and pandas operations the code uses, on lists.
4. The model of the package, one Lean file per Python file.
5. `Verif/Spec/`: small independent specifications; `Verif/Props/`: property theorems with
   non-vacuity examples; lemmas elsewhere.

Non-determinism is explicit: random generators, unstable `argsort`, scikit-learn, uninitialised
memory, thread schedules and crash points are parameters or relations, and theorems quantify over them.

## Plan per property

| id | title | how |
|---|---|---|
| C01 | A particle set exists only with equal-length columns | `ParticleSet.new` computes the derived columns with numpy broadcasting in attrs order, then checks lengths. Proof: success iff equal lengths, every other shape yields ValueError (any `Num F`). |
| C02 | Derived kinematics are the per-particle formulas | Same constructor; index-wise lemmas on `zipWith`. Any `Num F`. |
| C03 | A galaxy is accepted exactly when types match and potentials are all-or-none | `Galaxy.new` in attrs order (default of has_potential_ first, then post-init). Case analysis. |
| C04 | galaxy_as_kwargs and mkgalaxy are inverse | kwargs as association lists with string keys, `galaxyAsKwargs`, `mkgalaxyKw`. Round trip by evaluation of the 27 keys. |
| C05 | to_dataframe: one row per selected particle, in order, with the right cells | `Pd.DF` data-frame layer; rows characterised against `Spec.particles`. |
| C06 | to_dataframe failure modes are exactly the documented guards | Same; exact classification of `Except` results. |
| C07 | Particle-type coercion | `mktype` over a value type (member/str/number). |
| C08 | center puts the lowest-potential particle at the origin | `center` branch by branch over any `Num F` with IEEE order laws (`NumOrd`). |
| C09 | center is a rigid translation and changes nothing else | same. |
| C10 | center is idempotent and translation invariant | exact arithmetic `Ext K` (K any ordered field). |
| C11 | is_centered decides distance of the lowest-potential particle from the origin | any `NumOrd F`. |
| C12 | The potential-energy life cycle is guarded | any `Num F`. |
| C13 | star_align puts the stellar angular momentum on +z | `starAlign` refined to a rotation of a list of vectors over an ordered field with square roots. |
| C14 | star_align is one proper rotation applied to everything | same, `Matrix.specialOrthogonalGroup`. |
| C15 | star_align is idempotent (false of the code) | false: counterexample theorem for every aligned galaxy; `_partial` for the negative direction. |
| C16 | r_cut selects the stars that define the alignment | structural. |
| C17 | is_star_aligned decides alignment | exact arithmetic. |
| C18 | potential computes the softened N-body sum for the right particle | `potential` with separate float32 type; refinement to the N-body sum. |
| C19 | Both potential backends agree (false of the code) | uninitialised memory is an explicit argument; counterexamples + conditional agreement. |
| C20 | The parallel potential loop is schedule independent | small-step interleaving machine for the loop; every complete execution ends in the same array. |
| C21 | Physical invariances of the potential | corollaries of 18. |
| C22 | jcirc returns one entry per star (false of the code) | false: counterexamples, exact failure condition and partial theorem. |
| C23 | Circularity stays in [-1, 1] or is NaN | any `NumOrd F`. |
| C24 | Unbound stars are excluded | any `NumOrd F`. |
| C25 | eps carries the sign of Jz | exact arithmetic, interpolation between non-negative values. |
| C26 | Normalized energy lies in [-1, 0] | `NumOrd` plus two monotonicity laws of division. |
| C27 | jcirc needs a bound particle | any F. |
| C28 | Circularity does not depend on units or on rotation about z | exact arithmetic: normalised arrays are equal. |
| C29 | The circular-orbit profile is a valid interpolation table | exact arithmetic. |
| C30 | Every populated energy bin contributes to the profile (false of the code) | false: concrete counterexample evaluated in the kernel over Q, plus the case in which it holds. |
| C31 | attributes_matrix is aligned | data-frame layer. |
| C32 | decompose labels every particle slot and only valid stars | generic `decompose` over arbitrary `split`. |
| C33 | The k-th clustered row gets the k-th label | gather/scatter lemmas. |
| C34 | Probabilities follow the same scatter | same. |
| C35 | JThreshold cuts exactly at eps_cut | `NumOrd`. |
| C36 | JThreshold rejects unusable cuts (false of the code at NaN) | `NumOrd`; NaN counterexample with junk memory. |
| C37 | JHistogram labels every classified star once | generic over edges (monotone list) then exact edges discharged. |
| C38 | JHistogram spheroid is mirror balanced and its size is seed independent | random generator is an oracle constrained only by its contract. |
| C39 | JHistogram: counter-rotating stars are never disk | same. |
| C40 | JHistogram fails cleanly when no edge is zero | same. |
| C41 | JEHistogram labels every classified star once and respects the mirror bound | same. |
| C42 | JEHistogram never fails on valid stars (false of the code) | false: counterexample over Q; partial for energies < 0. |
| C43 | KMeans and GaussianMixture pass the clustering through unchanged | scikit-learn is an arbitrary function parameter. |
| C44 | AutoGaussianMixture always finds a number of components | exact arithmetic. |
| C45 | AutoGaussianMixture conserves probability | exact arithmetic. |
| C46 | AutoGaussianMixture does not depend on n_jobs | slots filled in any order. |
| C47 | Components holds equal-length arrays | direct. |
| C48 | Components.to_dataframe keeps rows aligned | data-frame layer. |
| C49 | HDF5 round trip | file as a map of tables; write/read composed. |
| C50 | Rewriting an HDF5 file: last write wins, the rest survives | induction over histories of writes. |
| C51 | Metadata precedence | dict update lemmas. |
| C52 | HDF5 writing is atomic (false of the code) | false: prefix of the primitive writes; counterexample. |
| C53 | read_npy assigns columns by name | dict lemmas. |
| C54 | Readers enforce the all-or-none potential rule | same. |
| C55 | Plot dispatch only reaches public plot methods | strings. |
| C56 | Plot data frames carry the label of each particle | data-frame layer. |
| C57 | Circularity plots align decomposition labels with stars exactly when the masks coincide | exact outcome in both cases; the clustering decomposers are in the good case; counterexamples for the other. |
| C58 | Label maps rename labels and nothing else | map lemmas. |
| C59 | cbins validation | value type. |
| C60 | Header checker verdict | text functions over lists of characters. |
| C61 | Plot methods hand seaborn the data they were asked for | the call to seaborn is the result of the model; frames from C05/C56. |
| C62 | Accessors of a galaxy agree with its table | data-frame layer. |
| C63 | Centre first, align second | exact arithmetic, C08/C13 composed; negative half by one galaxy over Q. |
| C64 | Labels do not depend on units or on the azimuth | C28 lifted through `decompose`. |
| C65 | The table of circular orbits in double precision | `Float64`; order of the computed edges by kernel evaluation, the rest for every galaxy. |
| C66 | Histogram models in double precision | `Float64`; error bounds of linspace and round for every bin count. |
| C67 | Histogram decompositions of galaxies | C37/C41 lifted through `decompose`. |
| C68 | What the circularities depend on | congruence of `jcirc` in the constants of motion of the bound particles; negative half by one galaxy over Q. |
| C69 | Time reversal and mirror images | sign laws of IEEE arithmetic (`NumNeg`), proved for `Ext K` and for binary64. |
| C70 | The order of the particles | the profile takes the largest or second largest absolute Jz of each bin, which permutations keep when ties agree; counterexample over Q. |
| C71 | The analysis does not depend on the frame | isometry invariance of the potential, translation of the centre, alignment up to a rotation about z (C28). |
| C72 | Constructing decomposers | attrs-generated `__init__` as a function on keyword dictionaries and a heap of generators. |
| C73 | Seeded decomposers are reproducible and do not disturb each other | induction over sessions with a privacy invariant; counterexamples by evaluating a session. |
| C74 | The analysis does not depend on the units | scaling of the potential, of the centre and of the total angular momentum, then C28, C64 and C68. |
| C75 | No negative mass, no positive potential | binary64 and binary32; monotone rounding, induction over the sum. |
| C76 | Heavier particles never make a potential shallower | same, as a relation between two runs. |
| C77 | Accuracy of the single precision potential | relative errors of each operation composed; sizes bounded so that nothing under- or overflows. |
| C78 | Centring in double precision | a difference of two doubles has a relative error of 2^-53 even where it underflows; negation by a concrete galaxy. |
| C79 | AutoGaussianMixture selection in double precision | error of a sum of five numbers; relative errors through the class sums. |
| C80 | Sign of the circularity in double precision | error of one interpolation step against the smallest profile value; negation by a concrete galaxy. |
| C81 | star_align in double precision | errors relative to a scale (`Fuzzy`) through the nine matrix entries and the products; any order of additions. |
| C82 | The returned galaxy is star aligned in double precision | the same errors through both totals and `np.isclose`; negation by two stars that nearly cancel. |
| C83 | Accuracy of the numpy backend, and agreement of the backends | relative errors through any tree of additions; the diagonal entry as one more term. |
| C84 | Energies and angular momenta in double precision | absolute errors of each operation; negations by two stars within an ulp of zero energy. |
| C85 | More particles and smaller softenings never make a potential shallower | induction over the loop of the larger galaxy; monotone rounding, square root and quotient. |
| C86 | Accuracy of the circularity in double precision | forward error of the five operations of `np.interp` and of the two quotients; a bin edge lies between two profile points, and a negative edge is at most -2^-57. |
| C87 | What the printed form of the objects says | decimal notation is injective and has no comma, so the text can be split. |
| C88 | Units that differ by powers of two change no bit of the circularity | rounding commutes with powers of two between the smallest normal and the largest number; numbers of the computation are multiples of a power of two that is not too small. |
| C89 | center and star_align commute bit for bit with units that differ by powers of two | as C88, with arrays added in any order that depends only on their length; masses, lengths, velocities and potentials have factors of their own. |
| C90 | potential commutes bit for bit with units that differ by powers of two | as C89, with the conversions between double and single precision and the infinities of coinciding particles. |
| C91 | From raw particles to components, units that differ by powers of two change no bit | composition of C90, C89 and C88; the units of mass, length and velocity leave G as it is. |
| C92 | Particles given in other units | the attributes as quantities; reading through `arr_` commutes with building, centring, aligning and `potential`. |
| C93 | JThreshold labels in double precision | C86 through the comparison with the cut; one galaxy within the margin. |
| C94 | The most bound star, when it does not rotate | the first height of the table is zero; two different doubles never divide to one, so no other particle enters the first place. |
| C95 | The runtime_warnings argument of jcirc | a second copy of the computation that can stop after each operation, related to the first step by step; the warnings in terms of the particles. |
| C96 | Arrays shared between galaxies | the functions on a memory of arrays, related to the value model step by step; old memory is a prefix of new memory; sessions by induction. |
| C97 | A bare string where a tuple of names is expected | the functions with string arguments reduce to those with tuples; substrings as infixes. |
| C98 | From the keyword arguments of a decomposer to its decomposition | the attributes of the object by C72, read back under their names; defaults written out. |
| C99 | Energy bookkeeping of the computed potentials | C18, the potential as the pull of all particles minus that of the particle itself; double sums over pairs. |
| C100 | How often the histogram models make a star spheroid | Fair generator as a hypothesis; the draws before a bin permute the states, so each bin can be counted alone. |
| C101 | AutoGaussianMixture as c_bic and the memberships vary | C44 for two cuts; the largest of four sums against their total. |
| C102 | Bins decide everything; doubles against exact arithmetic | the split sees the tests `inBin` only; computed edges are `srnd` of the exact ones; rounding is monotone and fixes doubles. |
| C103 | Histogram models on galaxies in doubles | `decompose_rows` reduces decompose to the split; C92-style error bound of eps; margin keeps eps on the same side of each computed edge; C102. |
| C104 | star_align in doubles: axis and second alignment | zeros and NaN through the matrix, for every order of summation; C81 applied to the galaxy C81 returned, with the error of the totals from C82. |
| C105 | Output of the header checker | the results dictionary is the files at their first occurrence; C60 for the verdicts. |
| C106 | Size of the histogram spheroid | the size is a sum of minima of bin counts (C38); a refinement splits each term of the sum, and the minimum of sums is at least the sum of minima. |
| C107 | `==` and `hash` of the objects | C72 for the attributes of a decomposer and the freshness of its generator; arrays of two or more entries have no truth value. |
| C108 | Doubles against exact arithmetic on the same coordinates | C84 for energies and angular momenta; a margin keeps every choice of the profile (`ProfileTransfer`), so the tables have the same particles; two polygons with close corners are close (`PolygonClose`); at a corner `np.interp` is exact. |
| C109 | Doubles near a galaxy of real numbers | the proof of C108 with any reference energies and angular momenta and any error bounds; C108 is an instance. |
| C110 | From raw particles to labels | C77 and C83 bound the error of the potential in single precision, C84 that of the energies; C109 with the exact softened gravity as reference. |
| C111 | Histogram models with a margin | C109 gives the circularities; outside the margin a star falls into the same bin of both arithmetics (C102, C103 for the edges in doubles), so the generator is asked the same questions. From raw particles through C110. |
| C112 | Centring, aligning and labels | The error of the rotation matrix is relative to the load of the stars over their total, so the third row of the matrix is the direction of the exact total up to that; then C109 and C111 with the rotated particles of real numbers as reference. |
| C113 | From raw particles to labels | C77 and C83 give the potentials C112 asks for; energies and momenta do not depend on the stored potential, so the conclusions of C112 move from the galaxy with computed potentials to the raw one. |
| C114 | Bins in double precision | Normalised values are finite and 0/positive is 0, so a chosen point has y = 0 exactly in a quiet bin, as in C30; a number lies in at most one bin, so n particles leave all but n bins quiet. |
| C115 | Linear algebra libraries | A dot product with rounded or fused products in any order has an error of 2n/2^53 of the sizes plus 3n - 3/2 times the smallest double (induction over `Fused`); the rest of C81 and C112 goes through. |
| C116 | Other builds around potential | The error bound of C77 and C83 holds for the sum before the product with `G`; one more rounding in double precision is smaller than one in single precision. Sums of squares are followed through `Fused` instead of the order of the source. |
| C117 | Cutoff radius in doubles | The computed squared radius is within a few units in the last place of the exact one, the square root is correctly rounded, so outside a margin the mask is the exact one; the rest is C112 for the stars inside. The square root of two shows that the edge is not decided correctly. |
| C118 | Equality and hashing of circularities and plotters | As C107: the first array attribute decides; arrays of two or more entries have no truth value. |
| C119 | Exactly 1132 strings name a particle type | The words a table of characters maps to a given word are enumerated by a recursion over the word, proved complete and without repetition. |
| C120 | Softenings and cutoff radii given as quantities | Case analysis of `float` and of comparisons with quantities, before the constructor of C92. |
| C121 | star_align turns a nearly aligned galaxy by an angle that tiny changes decide | The exact rotation of C81 compared with a turn about the z axis; the galaxies of one star are computed. |

## Trusted base

* The Lean 4.33.0 kernel (and the parser/elaborator, as far as the reading of the statements goes).
  Mathlib's theorems are checked by the same kernel.
* Axioms. Every theorem named in `MANIFEST.json` depends on a subset of Lean's three standard axioms:
  `propext`, `Quot.sound`, `Classical.choice`. 463
  of them need all three; C03_galaxy_accepts_iff, C20_schedule_independent, C20_no_race,
  C43_label_range, C46_parallel, C48_default, C48_unknown, C51_none,
  C96_stale, C96_write_elsewhere, Header.C105_exit and C107_classes need `propext` and `Quot.sound`;
  C33_label_count, C34_row_count, Header.C60_trailing_spaces_template, Header.C105_verbose, C118_plotters
  and C118_one_star need
  `propext` only; C107_no_hash and C118_no_hash need none.
  No other axiom appears: no axiom is declared in this project, there is no `sorry`, no `native_decide`
  and no `bv_decide`; concrete evaluations use `decide`, `decide +kernel` or `rfl`, which the kernel checks.
* The translation from Python (and one Fortran file) to Lean, made by reading. Each definition cites the
  lines it stands for. The mutation log in `seeded/LOG.jsonl` tests the theorems, not the translation.
* The descriptions of the libraries below.

## What is modelled

| file in /repo | model |
|---|---|
| galaxychop/data.py: `ParticleSetType`, `ParticleSet`, `Galaxy`, `mkgalaxy`, `galaxy_as_kwargs`, all accessors and `to_dataframe` | `Verif/Data.lean`, `Verif/Pd.lean` |
| galaxychop/data.py: attributes given as quantities with units, through `mkgalaxy`, `center`, `star_align`, `potential` | `Verif/Quantity.lean` |
| galaxychop/data.py, utils: which arrays `mkgalaxy`, `center`, `star_align` and `potential` copy and which they share; writes to items | `Verif/Heap.lean` |
| galaxychop/data.py, plot.py: `to_dataframe` and `get_df_and_hue` with bare strings | `Verif/BareString.lean` |
| galaxychop/io.py: `read_npy`, `read_hdf5`, `to_hdf5` with every primitive write | `Verif/Io.lean` |
| galaxychop/plot.py: dispatch, frames, label maps, every plot method up to the seaborn call | `Verif/Plot.lean` |
| galaxychop/utils/_center.py, _align.py, _circ.py, _potential.py, fortran/potential.f95 | `Verif/Center.lean`, `Align.lean`, `Circ.lean`, `Potential.lean` |
| galaxychop/utils/_circ.py: the argument `runtime_warnings` | `Verif/CircWarn.lean` |
| galaxychop/models/_base.py: `Components`, `GalaxyDecomposerABC` (constructor checks, `attributes_matrix`, `complete_labels`, `complete_probs`, `decompose`), `DynamicStarsDecomposerMixin` | `Verif/Base.lean` |
| galaxychop/models/_threshold.py, _histogram.py, _kmeans.py, _gaussian_mixture.py | `Verif/Threshold.lean`, `Histogram.lean`, `Cluster.lean` |
| galaxychop/models/_base.py: `hparam`, `__init_subclass__`, `GalaxyDecomposerABC.__repr__`, the constructors of the six classes and sessions of several decomposers | `Verif/Models.lean` |
| `__repr__` of `ParticleSet`, `Galaxy`, `Components` | `Verif/Repr.lean` |
| `==` and `hash` of decomposers, `ParticleSet`, `Galaxy`, `Components`, `JCirc`, `GalaxyPlotter` | `Verif/Equality.lean` |
| galaxychop/data.py: `str.upper` in `mktype` | `Verif/Upper.lean` |
| galaxychop/data.py: the converter of `softening`; `r_cut` as a quantity | `Verif/Softening.lean` |
| tools/checkheader.py: header comparison, exit code, printed lines | `Verif/Header.lean`, `HeaderOutput.lean` |

## What is not modelled

* Abstract classes, `_decorators.py` (`doc_inherit`), docstrings, package `__init__` files, `setup.py`, `resource/`, the test suite.
* Units outside `Verif/Quantity.lean`: the other files have numbers in the default units, which C92 shows
  to be enough.
* Arrays that overlap in part (views into one buffer), read-only arrays.
* Warnings other than `RuntimeWarning` in `jcirc`; what is printed, except by checkheader.py.
* The insides of scikit-learn, joblib and seaborn: they are arbitrary functions. `np.load`.
* Arrays as `r_cut`; binding of `**kwargs` in plots beyond name clashes.
* checkheader.py: colours, the command line parser, files that cannot be decoded.
* Memory limits, interrupts, and crashes other than during `to_hdf5`.

## Assumptions about libraries

* `uttr` attaches the default unit to arrays, keeps a quantity in the unit it has, raises ValueError when
  that unit is not equivalent, and `arr_` converts to the default unit; converting to the same unit
  changes nothing (header of `Verif/Quantity.lean`).
* Multiplying an array by a unit copies it; a quantity is kept, the same object; `attr.asdict` returns the
  stored quantities; a data frame holds copies (header of `Verif/Heap.lean`).
* `float` of arrays, strings and quantities, and comparisons of quantities with numbers without unit, are as
  in the header of `Verif/Softening.lean`.
* The characters whose upper-case form consists of letters of the names of the particle types are those
  listed in `Verif/Upper.lean` (read off the Unicode data of Python 3.11).
* `np.argsort` (default, unstable) returns some sorting permutation (`ArgsortOK`); the binary search of
  `np.interp` returns some admissible interval (`LocateOK`).
* `Generator.choice(replace=False)` returns the requested number of entries at different positions, and
  raises ValueError when more are requested than there are (`Rng.OK`).
* The generated `__init__` of attrs binds keyword-only arguments, converts, then validates, in the order
  of the attributes with inherited ones first; frozen objects raise on assignment.
* `np.random.default_rng` returns a generator it is given, and otherwise a new one that depends on the seed
  only; clustering is a function of its arguments and the state of the generator.
* The generated `__eq__` and `__hash__` of attrs use all attributes in order (header of `Verif/Equality.lean`).
* `np.empty` returns arbitrary memory; `np.divide(where=...)` without `out` leaves it.
* `np.histogram` with explicit edges counts half-open bins, the last one closed.
* numpy warns after an element-wise operation when the result is NaN and no operand is, or infinite and
  all operands are finite; comparisons, `min`, `max`, `interp` and `arange` do not warn. The actions of
  `warnings.simplefilter` are those of Python 3.12 and earlier.
* Table.from_pandas masking and the h5py write sequence as written in the header of `Verif/Io.lean`.
* `np.sum` is a left fold in `Flt` (numpy sums pairwise). C75, C81, C82 and C83 hold for every order of
  the additions (`Added` in `Verif/Spec/Summation.lean`, which also has the pairwise order of numpy) and
  C76 for every monotone sum, the pairwise one included. C77 is about the compiled backend, which adds in
  a loop. C79 has a sum of five numbers, which numpy adds from left to right too, and class sums the code
  accumulates itself. C89, C90 and C91 hold for every order that depends only on the length of the array
  (`SameOrder`). No other theorem in binary arithmetic uses the order of a sum.
* `np.dot` of three terms adds the products in some order; each product is rounded, or fused with an
  addition (`Fused` in `Verif/Spec/Summation.lean`). C81, C82, C104, C112, C113, C115 and C121 hold for every
  such dot product, C89, C90 and C91 for every one that is computed in the same way for all numbers
  (`SameDot` in `Verif/Spec/SameDot.lean`); the model itself rounds each product and adds from left to right.
* `x ** 2` of a numpy double is the correctly rounded `x * x`.
* The compiled Fortran adds the particles in the order of the loop, and its square root is correctly
  rounded. The three squares of a distance may be added in any order and fused with the additions in C75,
  C76, C77, C83, C85, C110, C111, C113 and C116 (`Num.dot` in `fortranDist`), and in C90 and C91 in an order
  that is the same for all particles.
* A float32 array times `G` stays float32 (numpy before 2.0, or a Python float as `G`) in `singleEnv`, and
  is a float64 array (numpy 2) in `wideEnv`, which C116 uses.
* Behaviour that depends on the library version: assigning a length-one array to a scalar slot
  (`_circ.py`, deprecated since numpy 1.25) works; `isfinite` on arrays of different lengths raises
  ValueError (numpy 1.24 or later); `np.arange` with step zero raises ZeroDivisionError (Python floats);
  `Series.argmin` of NaN only returns -1 (newer pandas may raise); `isclose` with an infinite tolerance.
* `Ext` has one zero (the code divides only by absolute values, roots and sums of those); particle
  numbers are exact as floats (below 2^53).
* A Fortran OpenMP loop interleaves the steps of its iterations; each iteration owns its private
  variables (`Props/Omp.lean`).

## Properties that are false of the code

The negation is proved for each, with what remains true:

| id | what happens |
|---|---|
| C15 | `star_align` of an aligned galaxy gives NaN positions and velocities |
| C19 | the numpy backend of `potential` reads uninitialised memory; backends differ at coincident particles |
| C22 | an unbound star before a bound one: IndexError; trailing unbound stars: a shorter array |
| C30 | trailing populated bins are dropped from the circular profile when other bins are empty or have points with Jz = 0 |
| C36 | JThreshold accepts NaN and returns uninitialised memory as labels |
| C42, C67 | JEHistogram raises ValueError when stars have energy exactly zero |
| C52 | a crash during `to_hdf5` leaves a readable mixture |
| C57 | circularity plots raise (or misplace labels) when some star has a label but no finite eps_r |
| C63 | aligning before centring does not give an aligned galaxy |
| C65 | `cbins = (0.03, 0.005)` gives unsorted edges in double precision |
| C66 | 98 bins with 16 digits: IndexError in double precision though an exact edge is zero |
| C70 | exchanging two dark matter particles with the same absolute Jz in one bin changes the circularity of a star |
| C71 | a galaxy whose stars rotate about the z axis already: `star_align` gives NaN and `decompose` raises ValueError |
| C73 | calling a seeded decomposer twice on the same galaxy can give different labels |
| C74 | without the relation between the units: velocities times five alone make a bound star unbound |
| C75 | the numpy backend gives positive potentials when the uninitialised entries are negative |
| C77 | two stars that single precision merges get potential -inf (compiled) or zero (numpy) |
| C78 | two separate stars, moved by 2^60 and then centred, are both at the origin |
| C79 | with `c_bic = 0` and fourteen equal BICs of -0.11 the choice of the number of Gaussians raises ValueError in double precision |
| C80 | a star with positive Jz gets eps = -1/2 and a negative eps_r in double precision (a profile point with zero Jz, one unit in the last place away) |
| C81 | for one star with a J of size 2^-540 or 2^540 `star_align` returns coordinates that are not finite |
| C82 | two stars with J of size 2^50 that add up to (-2, 2, -4): `is_star_aligned(star_align(g))` is False |
| C83 | with 2^20 in the uninitialised diagonal the numpy potentials of a pair are -8 - 2^-7, the compiled ones -2^-7 |
| C84 | a star with v = 1 + 2^-52 and potential -(1/2 + 2^-52) is unbound and passes `E <= 0`; another one is bound and does not |
| C85 | an eighth star of mass 0 raises a numpy potential from -1 - 5/2^23 to -1 - 4/2^23; a pair at one place has numpy potential -1 with softening 1 and 0 with softening 0; one gas particle with softening 3 raises both potentials of a pair of stars |
| C88 | two stars at distances 1 and 0.1: with lengths multiplied by 3 `JThreshold(eps_cut=0.1)` gives the second one another label |
| C89 | `star_align` of a star at (0, 1, 1), and `center` of stars at 0.1 and 0.5: with lengths multiplied by 3 other doubles result; with lengths multiplied by 2^-540 the aligned coordinates are not finite |
| C90 | `potential` of two stars at distance 1: with lengths multiplied by 3 the potentials are not divided by 3; with lengths multiplied by 2^70 they are zero |
| C92 | `potential_energy_` of a galaxy whose potentials were given in (m/s)^2 is in (m/s)^2, not in the documented (km/s)^2 |
| C93 | without a margin: a star with circularity 1/3, above the double 1/3, is in the spheroid of `JThreshold(eps_cut=1/3)` |
| C94 | after `center` the star at the origin, if it is the most bound particle, has no circularity and no label |
| C95 | with the star of C94 `runtime_warnings="error"` always raises |
| C102 | stars at 0.06 and -0.05 (doubles), default JHistogram: labels 1, 0; exact arithmetic on the same values gives 0, 0 |
| C103 | three stars with Jz/J = 1, just below 0.06, near -0.05: decompose gives 1, 1, 0; exact circularities give 1, 0, 0 |
| C104 | stars in the plane z = 0: star_align returns NaN for all particles; one star at (1,2,3), velocity (3,5,7): a second star_align turns it about the z axis |
| C105 | a wrong header is not reported when a missing file follows; the order of a missing .py file and a .txt file decides between exit code 1 and ValueError |
| C106 | 6 bins instead of 4, for JEHistogram 4 circularity bins instead of 2, and in doubles 60 energy bins instead of 20 can enlarge the spheroid |
| C107 | `JHistogram(n_bin=2, random_state=g)` equals `JHistogram(n_bin=2.0, random_state=g)`, and only the first can decompose; `JThreshold(eps_cut=nan)` need not equal itself; galaxies with two or more stars cannot be compared |

## Mutation tests

`seeded/LOG.jsonl` has one line per wrong program: the definition edited, the edit, the claim it breaks, the
theorems that failed and the theorems tightened because of it.

A theorem counts as failed when its proof, unchanged, no longer compiles with the edited definition. This
shows that the proof depends on what was edited, not by itself that the statement is false of the wrong
program. Four edits are likely not wrong programs at all, as their lines say (`q_hash`, `io_cols`,
`y_tuples`, `v_cutsign`); the theorems listed there failed because of their proofs. Where no theorem of the claim failed, the line is
kept, with the theorems added or tightened afterwards.
