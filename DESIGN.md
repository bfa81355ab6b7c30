# Formal model of nuSQuIDS: design

Source: `/repo` (C++), read as text, never built or run here. Model and proofs: `lean/Verif/`, Lean 4.33.0 with single
Mathlib modules. This file says, for each property of `properties.jsonl`, what is modelled and how it is proved. The
second half gives the trusted base, what is not modelled, and every place where the code contradicts a property.

## Layout

Each area has a folder `lean/Verif/<Area>/`:

* `Model.lean`: definitions that follow the C++ function by function; each carries the file and lines it models and
  says where it simplifies.
* `Spec.lean` (when the statement needs vocabulary): the small independent specification used by the theorems.
* `Lemmas.lean`: helper lemmas.
* `Props.lean`: the property theorems `cNN_...`, each followed by an `example` that meets its hypotheses.

## Conventions

* Undefined behaviour and exceptions are distinct outcomes: `Outcome.ok v | Outcome.throws e | Outcome.ub` (or an
  `Option`/`Except` with the same meaning, stated at the definition).
* `double` is modelled by an arbitrary linearly ordered field `K` (executable at `Rat`) or by the reals when roots,
  logarithms or exponentials occur. Rounding, NaN and infinities are not modelled, except where the property is about
  them (validation of tables), where a value type with `nan`/`inf` constructors is used.
* `size_t`, `unsigned int` are natural numbers unless the property is about their width; then the reduction modulo
  2^32 or 2^64 is explicit in the model.
* If the code violates a property: the theorem about the part that holds is named `..._partial`, the violation is
  proved as `..._violated` (a concrete witness), and the disagreement is listed below.

## Plan per property

| id | model | proof |
|----|-------|-------|
| C01 | offset computation of the chained proxies, of the index-list subscript, `getCoordinate`, over lists of extents | induction over the extents: bound, injectivity, surjectivity, agreement |
| C02, C03 | `insert`/`erase` as the chunk-copy loops over the flat element list | induction over the number of outer iterations; position arithmetic related to multi-indices |
| C04 | `resize` as the code's sequence of insert/erase calls | fold induction with the C02/C03 theorems |
| C05 | `reshape` with the 32-bit product accumulation of the code | direct; violation by a witness; partial for products below 2^32 |
| C06 | a heap of arrays with the operations as steps | invariant by induction over operations |
| C07 | insert loop with an oracle for throwing element operations, ghost live-object count | invariant of the loop and its rollback |
| C08 | odometer loop of `sum(dim)` | loop invariant: the odometer enumerates indices in order |
| C09 | `applyOp` pointer walk | loop invariant relating the two input positions to the current index |
| C10, C11 | scalar operators, `front`, `back` | direct; violations by witness |
| C12 | nested lists as a tree; shape checker, initialiser | structural induction on the tree |
| C13-C15 | small-step transition system: queue, stop flag, worker program counters, enqueuers, destructor | invariants over reachable states; progress lemma and decreasing measure |
| C16, C17 | address arithmetic over `Nat` with explicit 8-bit and 64-bit truncation | omega / modular arithmetic; violation for exponents >= 8 |
| C18-C20 | intervals, stack machine of `integrate`, `fastInt` | invariant: stack plus committed intervals partition the range; ring identities for the rules |
| C21-C24 | `AkimaSpline::initialize` loop with carried values, `operator()` | loop invariant to closed form, field identities |
| C25, C26 | cell search, coefficient formulas, evaluation | `ring` on the coefficient formulas, search lemma |
| C27 | accumulation loops | induction on the loop |
| C28 | lines as token lists | induction over lines |
| C29 | handle machine with a release log | invariant over operations |
| C30 | chunk loop | induction over dimensions |
| C31 | matrices over the complex numbers | matrix algebra |
| C32, C33 | a typed record store for HDF5 groups; each class's write/read pair | round-trip by cases; violations by witness |
| C34, C35 | real geometry with `sqrt`; table lookup | real algebra; violation of the normalisation |
| C36 | association map with insert-if-absent | induction over operations |
| C37-C43, C46 | one lifecycle state machine of the API with guards, caches, switches, time, position | invariants by induction over API calls; violations by concrete call sequences |
| C44, C45 | field-by-field copies/moves | by cases; violations by witness |
| C47 | cache pointer arithmetic in bytes | modular arithmetic for all sizes |
| C48-C50 | the loops of `UpdateInteractions` as finite sums and folds | sums over nodes; equality of the two code paths; violations by witness |
| C51, C52, C53 | formulas of the code with all branches | field algebra; violations by witness |
| C54-C56 | density matrices with a unitary mixing matrix | matrix algebra, trace identities |
| C57, C58 | save/restore as write to / read from a keyed store | round-trip; violations by witness; injectivity of names |
| C59-C63 | atmospheric wrapper: search, interpolation, node loop, thread pool reuse, names, flag | order lemmas; reuse of C13-C15; violations by witness |
| C64-C70 | cross sections and tau decay | maps; real analysis with explicit antiderivatives; index bounds; violations by witness |
| C71-C73 | lifecycle model (step sign), target densities, constant-density shortcut on matrices | invariant over calls; field algebra; derivative of the matrix exponential; violations by witness |
| C74 | the loops of `GammaRho`, `InteractionsRho`, `UpdateInteractions` as folds over buffers | sums over explicit rates; both code paths |
| C75 | byte addresses of rows, sizes of members per configuration | modular arithmetic through C16; violations by witness |
| C76 | in-place sign flips of the CP phases around each rotation | fold induction; conjugation of the mixing matrix; trace identities |
| C77 | `AkimaSpline::initialize` (as C21-C24) | closed form of the slopes, field identities |
| C78, C79 | `fastInt` and the averages on top of C18-C20 | loop invariants: values of committed intervals between bounds; simulation between two unit systems |
| C80 | Glashow formula | real algebra; violation below threshold |
| C81 | storage of arrays: `step` machine over blocks and arrays with faults | invariant over histories; violations (leaks, wrong size or allocator) |
| C82 | iterators as distances in the buffer | induction over the loop; laws by arithmetic; violation for `rend()` |
| C83 | evaluation with averaged oscillations | matrix algebra over diagonal Hamiltonians; violation with three flavours |
| C84 | atmospheric evaluation, sum over flavours | linearity of evolution and interpolation |
| C85 | `ReadText`, `ReadHDF`: what accepted files guarantee | inversion of the readers, witnesses for the checks that are missing |
| C86 | NumPy arrays as bytes with strides; the converters of the Python bindings | induction over the loops on top of C04; round trip; violations by witness |
| C87 | `nuSQUIDSDecoh`: matrix of coefficients, basis of SQuIDS and of Gell-Mann as explicit matrices | loop invariant; linear algebra over the basis; violations by witness |
| C88 | examples NSI and LV: `step` machines over the setters, operators as complex 3 by 3 matrices | induction over histories; witnesses for stale operators |
| C89 | example cross section as real functions | integrals |
| C90 | example Earth with rescaled layers: tables of rows | list induction; witnesses for tables of another length |
| C91 | the refinement loop of `integrate` run for a number of turns | every sub-interval ends after finitely many turns: it is too narrow, or its estimates are small; induction over the number of halvings left |
| C92 | flag, uncertainty and list of contributing sub-intervals of the loop | invariant of the loop; witness for a flag without cause |
| C93 | the atmospheric object as list of nodes | induction over histories of calls: every node on its own track; C40 for each node |
| C94 | dataspaces, hyperslabs and transfers; writing and reading of the eight tables | one lemma for a table of any rank (rows of a quotient and remainder), then the eight tables; violations for every number of nodes not a multiple of four |
| C95 | the atmospheric object with the values at its nodes; its file as groups by name and shared tables; writing and reading | every reachable node is settled (an invariant of C57); induction over the nodes; queries are a function of what is preserved; violations by witness |
| C96 | the bodies of C34 and C35 as they are; a table is followed by a continuous function | clamped spline as a composition with max and min; chords of a circle; violations by witness (edge, sign, long track) |
| C97 | projectors, picture and Hamiltonian of C38, C52 and C83 joined: state in flavour space solves the Schrödinger equation | differentiate the change of picture; uniqueness from the norm of the difference; violations by witness (basis changed on the way, neutron matter with a sterile flavour) |
| C98 | the equation of motion with losses and gains as assembled by `PreDerive`, `UpdateInteractions`, `GammaRho`, `InteractionsRho`; exact solutions | smallest eigenvalue by compactness and a strict perturbation; induction over the nodes from the highest; norm of the difference for uniqueness; exchange of the order of the sums for the count |
| C99 | the array of emitted flux under every history of `Set_NeutrinoSources`, `Set_Body` and `PreDerive`; the equation of C98 with sources; `EmittingVacuum` | trace and flavour contents of exact solutions have the emission as derivative; positivity of the difference by the argument of C98 |
| C100 | `Set_Body`, `Set_Track` and `EvolveState` (without positivisation) around the equation of C98, one leg after the other; the shortcut and what it does to later legs | solutions of consecutive legs glue to one solution through the whole medium, which is unique (C98); cuts by induction over the list |
| C101 | the same with `ReverseTrack` | the distance of two solutions, weighted by an exponential of the bound on the losses, does not decrease, so solutions equal at the end are equal; induction over the list |
| C102 | what `WriteStateHDF5` saves of the members of C100 as one record, `ReadStateHDF5` into a new object (`Resume.lean`) | objects with the same parameters have the same equation of motion at the nodes they have; uniqueness (C98) and induction over the list |
| C103 | the positivised branch of `EvolveState` around the equation of C98: number of steps, `Evolve` and `PositivizeFlavors` in turn, the last step (`Stepwise.lean`) | states stay non-negative (C98), so no step is corrected; induction over the steps, glued to one solution, which is unique |
| C104 | `SetBodyTrack`, case by case, with unchecked reads of the parameters as `ub` and `exit(1)` as an outcome; what the file holds is what `GetId`, `GetBodyParams`, `GetTrackParams`, `GetX` report (nothing writes such files any more) (`Body/Legacy.lean`) | round-trip by cases; violations for all inputs of a kind |
| C105 | the equation of motion of C98 and the legs of C100 as they are; media that are continuous within finitely many layers, up to their ends, and stay on one side of the two values `1e-10` at which the code changes its formulas | global existence for linear equations (Picard-Lindelöf of Mathlib, pieces glued), node by node from the top as the gain of a node comes from above; layers and legs by induction; uniqueness by C98 and C101 |
| C106 | `EvolveProjectors` with the filter, `HI`, `GammaRho`, `InteractionsRho` on filtered projectors; the filter is any function of the frequency with the assumed pass and stop bands | linear algebra of the filtered projectors, C55 for conservation, a diagonal Hamiltonian leaves the diagonal alone; violations: a filtered projector with a negative eigenvalue, no filter in the mass basis |
| C107 | `SolarTransitions`: `SOP` with matrices over ℂ and any eigensystem the library may return; `SolarModel` with its literal tables of limits, the integration is a rule with nodes and weights | unitary matrices that diagonalise the same matrix, spectral theorem for existence, folds for the mean; violations by witness or for all inputs |
| C108 | `_FArray` with its recursion over dimensions, `SUBasis`, `_PrintSUVector`, `PrintState` on arrays that know whether they are complex; `GetState` through the casts of the bindings | closed form of the diagonal members by induction, traces of products case by case, completeness by counting dimensions; violations for all inputs |
| C109 | construction, subscripts and `insert` of C01, C02 with sizes and offsets modulo 2^64 and an allocator of finite size (`Wide.lean`) | refinement of the unbounded model below 2^64; two indices 2^64 apart in row-major order; violations for all such extents |
| C110 | `Set_IncludeOscillations` at any time on the objects of C97: `H0` asks the switch, `H0_array` and the projectors do not | linear algebra of the readings; C97 and uniqueness of solutions after a new initial state; violations by half an oscillation (readings, equation of motion, projectors between nodes) |
| C111 | construction, `Set_EarthModel`, `SetAtmosphereHeight`: bodies and tracks of the nodes, distances seen by `density` | invariant by induction over the calls; square of the distance at the end as a strictly monotone function of the height |
| C112 | `ReadStateHDF5` with what it leaves of the object at each point of failure, and the sizes of the arrays beside the members that count them | refinement of the reading of C57; case analysis over the points of failure, frame lemmas for the setters; violations for all objects in use (flavours, types) and by witness (switches, body) |
| C113 | Python objects as far as the conversion looks at them (kind, length, how they are iterated over); `convertible`, `all_elements_convertible`, `construct` | induction over the elements; violations for all generators, views, dictionaries, long lists and wrong lengths |
| C114 | sequences as far as `ListToVectorBool` looks at them; evaluations as functions of the flags to a value and flags; the functions for Python that copy | induction over the items; violations for all reports, strings, very long and faulty sequences |
| C115 | no new code: two objects related by a map of nodes and a pair of types; `GetCrossSections` of C70, the initial states and evolutions of C76 and C95-C98 | the part of the whole satisfies the equation of the part, which determines it; induction over tracks; `GetCrossSections` for both succeeds exactly if for each |
| C116 | one object of a file (attributes, ranks of data sets) and the open identifiers; the helper functions call by call | induction over histories with fresh identifiers and typed attributes as invariant; violations for all objects |
| C117 | a file as a list of characters: lines, blanks, signs, digits, points and exponents as the library takes them, and `%.15g` digit by digit | a grammar of decimal numbers with its own value: what is written by it is taken whole and conversely; induction over words and lines reduces reading characters to reading the tokens of C28; printing by the value of 15 digits with zeros stripped |
| C118 | `ReadStateHDF5` of the atmospheric object with what it leaves of the object at each point of failure, node by node with the reading of C112 | refinement of the reading of C95; induction over the zeniths for what a failure leaves; frame lemmas for evolution and writing; independence of a later reading; violations for all objects that were ready |
| C119 | the progress bar character by character, its counter over all evaluations of the derivative, and the headings and switches of the atmospheric object with one thread and with several | arithmetic of truncation; induction over the evaluations and over the zeniths; witnesses for tracks of no length, for the counter and for the switch of a node |
| C120 | the settings of decoherence of all zeniths under the calls of the atmospheric wrapper, nodes of a state file as never set up | every zenith simulates one object of C87; witnesses for four flavours, state files and single nodes |
| C121 | the settings of the integrator of every zenith under the setters, their overloads with an index, the nodes, evolutions and state files | induction over histories: the last call that gives a value; the missing check and the file by statement |
| C122 | the default bodies: the numbers of EARTH_MODEL_PREM.dat and of three columns of bs05_agsop.dat, with the constructors and lookups of C96 | an Akima cubic lies between its control points, those between neighbouring chords: a row by row condition implies bounds everywhere, over every ordered field; the condition checked on the two tables in the kernel, in exact rationals |
| C123 | the loops of the flavour-ratio example; the rest is the model of C83 and C97 | in vacuum the state of the interaction picture is constant; what averaging leaves of a projector is its diagonal (C83); sums exchanged |
| C124 | `getResourcePath`, the flag in the generated header, the substitution made by `make install` on the bytes of a library | induction over what `sed` does to a text; the pattern has no border (checked in the kernel), so that no occurrence is missed |
| C125 | the terms given to the integrator (those of C97 and C98) and the reading of contents; the integrator itself is any sequence of states with bounded errors | the distance of two solutions is constant (the trace of the square of the difference), or not increasing with absorption; triangle inequality and induction over the steps |
| C126 | `test/run_tests`: the loop over the tests with its variables, the report line by line, the counts made from it by `grep` and the exit status | induction over the tests; where a text without colon can lie in a line with one; witnesses for five violations |
| C127 | the model of C88 joined with the equation of motion of C97 | change of picture with a further rotating operator; uniqueness; eigenvectors of the witnesses for the two violations |
| C128 | the components of the state under the derivative of C87, joined with the equation of motion of C97 | the state scaled up again solves the equation of motion, which has one solution; scalar equations for the coherences; witness for the pre-built phases |
| C129 | the loop over the options, the packages given by hand, the searches for HDF5, Python and Boost, the prefix and the version in `configure` | induction over the options and over the directories; witnesses for the six disagreements |
| C130 | the equation of motion of C97, the mixing matrices of C76, the Earth of C34 and C96 | a solution run backwards and transposed solves the reversed equation, the derivative from the right being one from the left where it is continuous; the trace of the product of two solutions is constant |

## Trusted base

* Lean's kernel and the axioms `propext`, `Classical.choice`, `Quot.sound`. No theorem of the manifest depends on any other (checked with
  `#print axioms` and by the gate); many depend on fewer. There is no `sorry`, no `native_decide`, no axiom of our own.
* That the models are read faithfully from `/repo`: the code is not executed here. Each definition cites the lines it follows. The
  definitions are mutation-tested (`seeded/LOG.jsonl`): realistic bugs are planted in a copy and the claim's theorems have to fail.
  A line of the log says which declarations no longer compiled and which property theorems fail with them, themselves or through a lemma; that is
  a broken proof, not a proof of the negation. Attempts nothing objected to are in the log as well, with an empty list of theorems and a note.
* The C++ library, HDF5, GSL and the base class SQuIDS behave as stated below.

### Assumed of SQuIDS (not in the repository)

* `SU_vector` of dimension n is a Hermitian n by n matrix; `+`, `-` and multiplication by a number are those of matrices; the product of two is
  the trace of the matrix product; `Projector(n,i)` has a one at (i,i).
* `RotateToB1(params)` is `U A U†` with `U` a product of rotations by the mixing angles and CP phases, one for each pair of states, in an order
  that depends on the dimension only; `Evolve(H,t)` is `e^(iHt) A e^(-iHt)`, `UTransform(H, it)` its inverse.
* `ini(..., t0)` sets the clock and the initial time and leaves other switches alone; `Evolve(dt)` calls `PreDerive` at the start, advances the
  clock by dt, integrates numerically if a term is enabled (`AnyNumerics`), and otherwise only calls `PreDerive` at the end;
  `Set_*RhoTerms` recompute `AnyNumerics`.
* The setters of the integrator keep what they are given, and an integration does not change it (C121).
* `params.Set*` accepts ordered indices below `SQUIDS_MAX_HILBERT_DIM` (6) and throws otherwise.
* `GetExpectationValue(op,rho,ei)` evolves `op` with `H0` over the time since the initial time. The versions with `scale` and `avr` do the same
  except that the components of a pair of levels whose phase difference exceeds `scale` in size are set to zero. `GetIntermediateState` returns
  some state (C83 holds for any; the ranges need a positive one).
* `LowPassFilter(buffer, cutoff, scale)` multiplies what oscillates at a frequency (difference of two diagonal elements of the Hamiltonian) by a
  factor between zero and one, the same for both signs, one up to `cutoff - scale` and zero above `cutoff + scale` (C106 holds for any such).
* C107: `RotateToB0(params)` undoes `RotateToB1(params)`; `GetEigenSystem` returns orthonormal eigenvectors as columns;
  `GetTransformationMatrix` has flavours as rows and mass states as columns.
* `estate` and `state` refer to the same density matrices when `PositivizeFlavors` runs.
* `Derive` gives each density matrix the derivative `-i[HI,ρ] - {GammaRho,ρ} + InteractionsRho`, all evaluated after `PreDerive` with the states
  of that time in `estate` (C98). `InteractionsRho` is asked for only while `Set_OtherRhoTerms(true)` is in force (C87).
* The integrator: C55, C97-C103, C105 and C106 are about exact solutions of the differential equation; the error of the numerical integration (GSL) is not modelled.
  A solution is continuous and has the stated derivative from the right except at finitely many times, so media whose density jumps between layers are
  covered, whatever the value at the jump (`Density/Off.lean`).
* `squids::Const`: the physical constants are parameters (positive where a theorem says so), except where the code has literals.
* C87, C108: the basis of SQuIDS is the identity, then in row `r` and column `c` the real (above the diagonal) or imaginary (below) part of the coherence
  between `r` and `c`, with the sign stated in the code, and on the diagonal the generalised Gell-Mann matrices.

### Assumed of the C++ library and HDF5

* `std::vector`, `std::map`, `std::shared_ptr`, `std::future` behave as the standard says; the mutex gives mutual exclusion and the condition
  variable may wake spuriously (C13-C15 quantify over all interleavings). Memory order weaker than that of the mutex is not used by the code.
* `malloc` returns multiples of 8 (C16, C75: any such address).
* An HDF5 group is a store of named attributes and datasets that returns what was written; links may share an object. Failure of single calls is
  modelled only where the property is about it (C29, C112, C116).
* Text streams (C117; C locale): `getline` as in the standard; `operator>>(double&)` skips blanks, takes sign, digits, point, digits, exponent as
  libstdc++ does (`num_get::_M_extract_float`), and fails without digits, with an exponent without digits, or when no finite double is near;
  `operator<<` with `precision(15)` prints as `%.15g`, correctly rounded. Negative zero is zero.
* Attributes (C116): creating one fails exactly if the name is taken or the file cannot be written; `H5Tset_size` refuses 0 and leaves 1; reading and
  writing with the type of the attribute copies bytes, numbers are converted to numbers only; calls with invalid identifiers fail and do nothing; the
  functions `H5LT…` close what they open, and `H5LTset_attribute_string` replaces. The machine is little-endian.
* `H5Fcreate` takes `H5F_ACC_TRUNC` or `H5F_ACC_EXCL` and fails for `H5F_ACC_RDWR`; creating a group that exists fails (C62, C95).
* HDF5 transfers (C94): a hyperslab selects coordinates in each dimension, a transfer pairs the selected elements of memory and file in row-major
  order and fails if their numbers differ, `H5S_ALL` for both takes the extents of the dataset and knows nothing about the size of the buffer.
* NumPy: `PyArray_GETCONTIGUOUS` returns the array itself or a row-major copy of the same type and byte order, with a new reference;
  `NpyIter_New` without `NPY_ITER_ZEROSIZE_OK` fails for an array without elements and else visits a row-major array in order, some elements at a
  time (C86). `zeros` makes a real array; writing a complex number to an element of it keeps the real part, adding a complex array to it in place is
  an error; `np.array` of a list of arrays is complex if one of them is; `np.complex` exists, as it did before version 1.24 (C108).
* Calling a member function through a pointer to members with other parameters is undefined; dropping `const` only is taken to be harmless (C108).
* Python and Boost.Python: `PyObject_GetIter` gives a new iterator or the object itself; `extract<double>::check` accepts exactly integers and
  floating-point numbers, and the extraction raises for integers beyond the range of `double`; `convertible` is called once per call (C113). A call that returns while an exception is set fails (C114).

## What is modelled

| file | modelled | not modelled |
|------|----------|--------------|
| `marray.h` | extents, subscripts, coordinates, insert, erase, resize, reshape, copy/move/swap, initialiser lists, sums, broadcasting, scalar operators, front/back, iterators, ownership of storage with allocator propagation, exception safety of insert | `compressed_pair`, wrap-around of 64-bit sizes outside C109 |
| `ThreadPool.h` | whole class | exceptions thrown by `std::thread` or by allocation |
| `aligned_alloc.h` | whole file, with 64-bit arithmetic (C17) | where the system places memory (any address, C16) |
| `AdaptiveQuad.h` | whole file | rounding, NaN and infinite integrands (an integrand with a pole at zero, for which the exact loop would not end, gives NaN there) |
| `tools.h/.cpp` | Akima spline, bi- and tricubic interpolators, linspace, logspace, quickread/quickwrite by tokens (C28) and by characters (C117), basis changes, H5Handle/H5File, chunk shapes, attributes and the identifiers opened for them and for arrays (C116) | `gsl_matrix_complex_print`, `h5ObjectExists`, opening of files |
| `body.h/.cpp` | all bodies and tracks: geometry, densities, serialisation, registry | contents of the density tables but EARTH_MODEL_PREM.dat and columns 1, 3, 6 of bs05_agsop.dat (C122, generated from the files by shifting the decimal point); files are read as in C28 |
| `nuSQuIDS.h/.cpp` | initialisation, setters/getters, guards, caches, evolution, interactions, Hamiltonian, potentials, states, expectation values, positivisation, state files of the current version, bodies, tracks and interaction tables of older ones, copies/moves, progress bar, atmospheric wrapper | debugging output, subclass overrides and the empty hooks (`GammaScalar`, `InteractionsScalar`, `AddToWriteHDF5`, `AddToReadHDF5`), the low-pass filter outside C56 and C106, other branches for state files older than 1.11 |
| `xsections.h/.cpp` | all classes: tables, files, legacy tables, Glashow, library, averages | data file contents, double differential cross sections (constant zero or throwing) |
| `taudecay.h/.cpp` | all spectra, tables | text output |
| `resources/python/src/nuSQUIDSpy.h` | the converters between NumPy arrays and `marray` (66-198), `VecToList` (54-64; C113) | the lists of exported classes and functions except the casts of `GetState` (C108) |
| `resources/python/src/nuSQUIDSpy.cpp` | `ListToVectorBool` and the three functions around `EvalFlavor` (26-64; C114) | the lists of exported classes and functions |
| `resources/python/inc/container_conversions.h` | the conversion of Python objects to `std::vector<double>` (84-110, 141-254), the only one that is registered (`nuSQUIDSpy.cpp` 465) | the conversion to tuples and the other policies, which nothing uses |
| `resources/python/bindings/nuSQUIDSTools.py` | the basis of SU(N), `_PrintSUVector`, `PrintState` (C108) | plots, the injection of the methods |
| `examples/Decoherence` | `nuSQUIDSDecoh`, `nuSQUIDSDecohAtm` (C87, C120); the evolution without interactions or emitting bodies (C128) | its `main` |
| `examples/NSI/NSI.h`, `examples/LV/LV.h` | both classes (C88, C127); `examples/Atm_BSM/NSI.h` is the first again | their `main` |
| `examples/Extended_Source/nu_source.h` | the class (C99) | its `main` |
| `examples/Astrophysical_neutrino_flavor_ratio/main.cpp` | the averaged formula and its agreement with the evaluation (C123) | printing, `is_avg` |
| `examples/Xsections/exCross.*`, `examples/Bodies/exBody.*` | both classes (C89, C90) | their `main` |
| `resources/user_contributions/SolarTransitions` | `SOP` and `SolarModel` (C107); adaptive integration is replaced by a rule with fixed nodes and weights, the same for both integrals | `main`, contents of the tables except the first and last radius, `DMDensity` |
| `resources.cpp`, `configure` | `getResourcePath`, `resource_paths.h` (658-684), the `sed` of the installation (865-866; C124); the options, the packages given by hand, the searches for HDF5, Python and Boost, prefix and version (C129) | `pkg-config`, the compilers, the Makefile |
| `test/run_tests` | the loop, the report, the statistics, the exit status (C126) | what is shown on the terminal for tests named on the command line; `grep` with patterns instead of fixed names |
| `binder/`, other `examples/`, the tests themselves | nothing | everything |

Arithmetic on `double` is exact in the models (an ordered field, the rationals or the reals) except in C70, where a value may also be NaN or
infinite, in C28 and C67, where the digits written matter, and in C19, where the decimal weights are taken as written. Statements about
equality of two computations are therefore statements up to rounding.

## Disagreements found

Each is proved with a witness; the theorem is named in brackets.

### Containers, allocation, quadrature

* `marray.h`, index-list subscript: the product of trailing extents is an `int`; beyond 2^31 the wrong element is addressed
  (`c01_list_subscript_violated`), and `sum(dim)` leaves its buffer (`c08_sum_violated`).
* `marray.h`, `insert`, `resize`, `reshape`: products accumulated in 32 bits. {0,2^32} grows to {1,2^32} without elements
  (`c02_insert_violated`, `c04_resize_violated`, `c06_size_violated`), erasing a row of {2,2^32} loses the other (`c03_erase_violated`); erasing nothing at the end is refused (`c03_nothing_at_end_violated`); two elements can be reshaped to {2^31+1,2} (`c05_reshape_violated`).
* `marray.h` 1591: scalar / array computes array / scalar (`c10_scalar_div_violated`). 1290: const `back()` returns `size()-1`
  (`c11_const_back_violated`).
* `marray.h` 733, 763: an initialiser of the wrong shape or size is refused after the block was obtained; the block leaks
  (`c81_shape_leak_violated`, `c81_range_leak_violated`). 768: a range is assigned to elements that were never constructed
  (`c81_range_assigns_violated`). 353: the write position advances before the element is constructed, so when it throws one element too many
  is destroyed (`c81_initializer_throws_violated`).
* `marray.h` 489, 502, 529: when an element throws during an assignment the new block is released with the old size and the old allocator
  (`c81_assignment_throws_violated`, `c81_assignment_allocator_violated`). 515 and 923: move assignment replaces the allocator of the target but
  leaves the source with the old block and its own allocator, and `swap` exchanges blocks without their allocators; with different allocators the
  blocks are released through the wrong one (`c81_move_assignment_violated`, `c81_swap_violated`).
* `marray.h` 1280-1285: `rend()` is a pointer before the buffer, also `rbegin()` of an empty array (`c82_rend_violated`).
* `nuSQUIDSpy.h` 158-161: the iterator over an array without elements is a null pointer and is used (`c86_empty_violated`). 176-187: the byte order
  of the array is not looked at, so that 1 in the other order arrives as 256 (`c86_byte_order_violated`), and elements are read through a pointer
  to their type even if they are not aligned (`c86_alignment_violated`).
* `aligned_alloc.h`: the offset is stored in one byte; alignments of 2^8 and more break `deallocate` (`c16_violated`).
* `AdaptiveQuad.h`: decimal weights off by 4e-16 (`c19_thirteen_point_violated`); with reversed limits the supplied endpoint values are used
  for, and handed back as, those of the other limit (`c20_supplied_violated`, `c20_handed_back_violated`). `outOfTolerance` is also set if all
  sub-intervals that contribute meet the tolerance but one cannot be split again (`c92_flag_violated`).
* `xsections.cpp` 50-91 `fastInt`: takes a function with equal end values for constant (documented there; `c19_fastInt_violated`). Average over a
  bin of zero width is 0/0 in the base class (`c19_average_violated`).
* `marray.h` 1329, 954, 1011: products of extents are computed modulo 2^64, so an array of 2^32 by 2^32 elements is made without memory
  (`c109_construct_violated`, `c109_empty_violated`) and growing {2^31, 0, 2^31} writes beyond an empty buffer (`c109_insert_violated`).

### Tools

* Akima spline: not C1 at a corner (two equal chords on each side; inherent to the method with the code's fall-back; `c22_smooth_violated`).
* `tools.cpp` 572 tricubic constructor: reads `xslice[j]` where the y derivative is meant: the f_yz table is wrong and a grid with more y than x
  coordinates is read out of bounds (`c26_constructor_violated`, `c26_mixed_table_violated`, `c26_yz_violated`, `c26_xz_violated`).
* `quickwrite` prints 15 digits (`c28_entries_violated`); `quickread` rejects a file with a blank or comment line between rows and loses the
  columns if one follows the data (`c28_blank_between_violated`, `c28_blank_after_violated`); empty tables lose their shape (`c28_empty_violated`).
* `quickread` does not refuse what is not a number: a row ends there, so of comma separated values only the first column is read
  (`c117_cut_violated`), columns with `inf` or `nan` disappear with all that follow (`c117_nonfinite_violated`), `1.0-300` is two columns
  (`c117_glued_violated`), and the largest double, printed with 15 digits, is out of range (`c117_largest_violated`).
* `H5File` accepts an invalid identifier, and a moved-from one closes identifier 0 (`c29_file_invalid_violated`, `c29_file_moved_violated`).
* Chunk shape of an array with an empty dimension: division by zero or a zero entry (`c30_empty_violated`).
* `addH5Attribute<std::string>` and `addStringAttribute` never close the type they make (`c116_string_type_violated`), write an empty string as a
  null byte (`c116_empty_violated`), and like the functions for numbers ignore that the name is taken (`c116_taken_violated`).
* `readDoubleAttribute`, `readUIntAttribute` and `readArrayH5` leave an attribute or data set open when they throw for a string or another rank,
  so the file stays open (`c116_kept_violated`).
* The switch of the interactions is read from a state file into `char auxchar[20]` without looking at its size, or at whether it is there
  (`c116_switch_violated`); names of bodies and tracks are read from numbers too (`c116_number_as_name_violated`).

### Bodies and tracks

* `SunASnu` read from a file has radius 695980 km instead of 694439 km (`c32_sunasnu_violated`); its tracks come back with the end position as
  impact parameter (`c33_sunasnu_violated`). The constant-density flag is not saved (`c32_constant_flag_violated`).
* `EarthAtm` tracks: reversal, height and radius are not saved (`c33_reversed_violated`, `c33_height_violated`, `c33_cosine_violated`).
* `EarthAtm` density: the table is entered at r/(R+h) instead of r/R (`c35_fraction_violated`).
* `VariableDensity` has density and electron fraction 0 beyond its table, `Sun` and `SunASnu` beyond theirs, where `Earth` keeps the value of the last
  row (`c96_edge_violated`). Between the rows of a table without negative entries both can be negative (`c96_sign_violated`). An Earth track longer
  than the diameter throws half way (`c96_long_track_violated`).
* In state files of the first version (`SetBodyTrack`): the end position of a `SunASnu` track is taken for its impact parameter
  (`c104_sunasnu_violated`); Earth, Sun and atmosphere always come back with the standard tables, the atmosphere with the standard height,
  although the file has the tables (`c104_tables_violated`, `c104_height_violated`); reversed tracks through the atmosphere come back
  unreversed (`c104_reversed_violated`); an unknown identifier ends the process with `exit(1)` (`c104_unknown_violated`); missing parameters are
  read beyond the end of the array (`c104_short_violated`).

### nuSQUIDS

* With the progress bar on, a track of no length makes `EvolveState` convert a NaN or an infinity to an `int` (`c119_length_violated`). The counter of the
  bar counts all evaluations of the derivative, bar or no bar, and is never reset: after 2^31 of them it overflows (`c119_counter_violated`).
* Evaluation does not check flavour and node indices, nor the energy in the mass basis (`c37_index_violated`, `c37_mass_range_violated`).
* Switching oscillations after setting the state evolves with the old vacuum Hamiltonian (`c38_switch_violated`).
* Positivised evolution: wrong length for tracks not starting at zero, wrong direction backwards, unset step in the single-energy constructor
  (`c40_positivised_violated` in general, `c40_offset_start_violated`, `c40_backwards_violated`, `c40_no_step_violated`).
* The constant-density shortcut leaves the object in a mode in which later evolutions are not integrated (`c42_shortcut_sticks_violated`), and
  misreads a state left by an interaction-basis evolution (`c73_interaction_picture_violated`).
* The step sign is flipped at each backward evolution (`c71_second_backwards_violated`).
* Settings changed after the interaction tables were made are ignored or index unsized buffers; after a failed initialisation unfinished tables are
  used (`c43_*_violated`, `c75_switched_on_later_violated`).
* Copies of interaction structures lose the targets and equality ignores targets and shapes (`c44_*_violated`). Moves lose the clock offset and
  six settings; move assignment keeps the destination's mark that the tables are filled, so the tables of a source that had none are used
  (`c45_*_violated`).
* Mixing-parameter setters and getters accept the index equal to the number of flavours (`c46_off_by_one_violated`).
* The evolution cache is reused after the number of flavours changed (`c47_stale_cache_violated`).
* External sources are added once per particle type without oscillations (`c49_sources_violated`), so with both types an evolution gains
  twice what the body emits (`c99_twice_violated`), and an object for neutrinos alone gains half of what an object for both types gains for
  neutrinos (`c115_sources_violated`).
* `current_external_flux` is cleared by `Set_NeutrinoSources(true)` only. A body that does not emit leaves the array alone (body.h 133), so
  after an evolution through an emitting body it goes on emitting what that body emitted last (`c99_stale_violated`).
* The constant-density shortcut asks whether interactions are off, not whether sources are on. `EmittingVacuum` inherits `IsConstantDensity() = true`
  from `Vacuum`, so with the shortcut allowed (it is not by default) nothing it emits is added (`c99_shortcut_violated`).
* Several tracks in a row do not compose if one takes the shortcut and a later one does not (`c100_shortcut_violated`), or positivised
  (`c100_positivised_violated`); a positivised evolution there and back ends at a later time (`c101_positivised_violated`).
* Positivised, a track that does not start at zero is evolved by its final position instead of its length, and a track run backwards with a
  positive step is evolved forwards (`c103_offset_violated`, `c103_backwards_violated`, with what the object then reads; the clock is C40).
* Re-injection with unequal proton and neutron cross sections multiplies the summed rate by each abundance (`c50_mixed_rates_violated`).
* Matter without electrons: potential with the wrong sign and doubled (`c52_neutron_matter_violated`); vacuum has a positive nucleon density
  (`c72_vacuum_violated`).
* `GetHamiltonian`: vacuum term counted twice in the mass basis; null dereference on an unready object (`c53_*_violated`).
* `PositivizeFlavors` with filters, or after switching oscillations off, changes other flavours (`c56_*_violated`).
* Averaging some but not all oscillations gives negative flavour contents with three flavours (`c83_negative_violated`).
* State files: basis and other settings not saved, one energy with both types cannot be read, files without tables cannot be read, reading into an
  object in use keeps its start time, writing reads a missing extent (`c57_*_violated`). An evolution continued
  from a file therefore goes wrong in the mass basis and loses its sources (`c102_mass_basis_violated`, `c102_sources_violated`).
* Interaction tables in state files: the test for padding of the differential tables looks at a fifth extent of an array that has two; if it finds
  the number of energies there, rows are stored shifted (`c94_padding_test_violated`, `c94_padding_lost_violated`). Without padding the size of the
  datasets is not compared with that of the object: overrun or shifted entries (`c94_wrong_size_violated`).
* `nc_factors` is promised 32-byte aligned but uses the default allocator, and is not padded after reading a file
  (`c75_nc_factors_violated`, `c75_nc_factors_read_violated`).
* `Set_Basis` after the initial state has been set keeps the stored matrices, which then stand for other states: the contents read change
  at once (`c97_basis_change_violated`). In matter without electrons the wrong potentials of C52 are a multiple of the identity for three
  flavours, hence harmless, but not with a sterile one, whose coherences with the others then turn the wrong way (`c97_neutrons_violated`).
* `Set_IncludeOscillations` after the initial state sets the flag only. In the interaction basis switching off undoes, and switching on does
  after the fact, all oscillations since the initial state (`c110_off_violated`, `c110_on_violated`); the projectors of the last step stay in use, so that
  for instance muon neutrinos feel the potential of the electrons (`c110_projectors_violated`), and differ between nodes although
  `UpdateInteractions` takes them to be the same (`c110_nodes_violated`). In the mass basis the switch has no effect until the next
  initial state (`c110_mass_violated`).
* With the low-pass filter, filtered projectors are not positive: absorbing one flavour can be told to create neutrinos
  (`c106_absorption_violated`). The filter is not applied in the mass basis, so that the result depends on the working basis
  (`c106_bases_violated`).
* `ReadStateHDF5` stores the number of flavours, the type and the switches of the file before it refuses a newer version or an unknown body or track; the
  object then goes on with them: evolution and evaluation read outside the projectors (`c112_flavours_violated`, `c112_types_violated`), or
  use the switches or the body of the file (`c112_switches_violated`, `c112_body_violated`).

### nuSQUIDSAtm

* An evolution with several threads sets the progress bar switch of every node to that of the object, so that a node's own setting is lost
  (`c119_switch_violated`).
* `Set_EarthModel` and `SetAtmosphereHeight` leave the tracks of the nodes as they were: with any other height than at construction no neutrino
  ends at the surface (`c111_replaced_violated`, `c111_raised_violated`).
* Positivised evolution along a track that does not start at zero is too long for that node (`c93_positivised_violated`; as in C40).
* Interpolation between nodes with oscillations leaves the range of the node values; at nodes it is wrong after moving nodes separately, replacing the
  Earth, or in the mass basis; one-node grids and missing types read outside arrays; the documented log-energy interpolation is linear in energy
  (`c59_*_violated`).
* With several threads an exception of a node is lost (`c60_error_violated`).
* `evalThreads` and `iinistate` have no value in some constructors; the default cross-section library reaches one node only (`c61_*_violated`,
  `c63_*_violated`).
* Nodes closer than 1e-6 in cos(zenith) have the same group name (`c62_close_nodes_violated`); such an
  object is not saved (`c95_close_nodes_violated`).
* `WriteStateHDF5` without permission to overwrite never succeeds; one energy with both types is saved and not read; the number of threads, the positivity
  constraint and the cross-section library are not saved, and the constructor from a file leaves the number of threads without a value (`c95_*_violated`).
* A state file that cannot be read leaves an object that was ready with new nodes and the old flags: queries read outside the arrays of the nodes that were
  not read (`c118_query_violated`), evolution with several threads reports success (`c118_threads_violated`), and a file without zeniths or energies is
  read into arrays of no particular size (`c118_foreign_violated`).
* `nuSQuIDS.h` 1684-1742: the overloads of the integrator's setters with an index do not check it (`c121_refused_violated`); a state file carries none of
  these settings (`c121_file_violated`).

### Cross sections

* Legacy tables: reading past the end at E = Emax, negative index below Emin, non-uniform text files accepted (`c66_*_violated`).
* Text files transpose differential tables, drop z values, refuse nodes that print alike; HDF5 files return the electron's tables for the muon, refuse
  non-square tables, move totals; legacy HDF5 files drop the nodes (`c67_*_violated`).
* Text files: the range of the first table of muon and tau is compared with nothing (`c85_text_first_file_violated`), and of a differential table only
  the first group of rows is looked at, so that it may end before the range does (`c85_text_groups_violated`).
* Tau spectra: the leptonic channel and the total are negative above the tau energy (`c69_above_violated`; the tables only use energies below).
* Glashow tables are not validated (`c70_glashow_violated`, `c70_glashow_negative_violated`); the total cross section is not cut below the muon
  threshold, where it grows without bound (`c80_below_threshold_violated`); the branching fractions of the source sum to 1.0013 (`c68_branching`).

### Examples

* `nuSQUIDSDecoh.cpp` 151-161, `RandomizePhase`: the entries 0, 3, 8 of the numbering of SQuIDS are zeroed where those of Gell-Mann are meant, so that
  the imaginary part of one coherence is kept and a difference of populations is damped (`c87_phase_violated`); this makes the term also depend on
  the phases of the interaction picture (`c87_any_basis_violated`); with two flavours the ninth of four entries is written (`c87_phase_two_violated`).
* `nuSQUIDSDecoh.cpp` 77-88: the signs noted there are not applied, so that entries of a matrix between the Gell-Mann matrices 2, 5, 7 and the others
  act with the wrong sign (`c87_gellMann_violated`).
* `nuSQUIDSDecoh.cpp` 6-8, 28-29: enabling decoherence does not switch on the term in the solver, which nuSQuIDS does for objects with interactions or
  sources only. In all others, single energies among them, decoherence does nothing (`c87_solver_violated`).
* `Astrophysical_neutrino_flavor_ratio/main.cpp` 127-130: "full averaging can be obtained by setting the scale to zero" fails for mass states of equal
  mass, which have no phase that exceeds zero; they stay coherent and the formula of 157-165 gives other numbers (`c123_degenerate_violated`).
* `nuSQUIDSDecoh.h`, the atmospheric wrapper: full matrices are always taken in the numbering of Gell-Mann, so that none is accepted from four flavours on
  (`c120_matrix_violated`); after reading a state file the nodes are never set up (`c120_file_violated`); the getters report the first node, whatever
  was set on others (`c120_node_violated`).
* `NSI.h`: the rotated operator is made by the constructor and `Set_mutau` only. After `Set_MixingAngle` or `Set_CPPhase` it is that of the old mixing
  (`c88_nsi_mixing_violated`), after reading a file that of the old strength (`c88_nsi_file_violated`).
* `LV.h` 33-60: the attributes are written to an object `c_values` that nobody creates, so nothing is saved, and reading uses variables that were not
  set (`c88_lv_file_violated`); `Set_LV_Operator` does not change what is saved (`c88_lv_operator_violated`); `dump_probabilities` tests twice for
  neutrinos and prints nothing for antineutrinos (`c88_lv_dump_violated`).
* `exBody.cpp` 15-45, `Mod`: reads the default table again whatever table the Earth was made from (`c90_mod_violated`). The local `arraysize` hides the
  member, so that saving an Earth made from a shorter table reads past the end (`c90_save_short_violated`) and one from a longer table loses rows
  (`c90_save_long_violated`).
* `SolarProbabilities.cpp` 14-24: eigenvectors sorted by level are combined with the mass states in the order of their numbers, which is wrong if the
  masses are not increasing, as in the inverted ordering (`c107_ordering_violated`). The projector on electron neutrinos is the one of the mixing at
  construction (`c107_stale_violated`).
* `SolarModel.cpp` 11-15: the first abscissa is never set, and GSL reads it (`c107_table_violated`). The range of radii that is accepted is larger than
  the table (`c107_domain_violated`).
* `SolarProbabilities.cpp` 40: at the ends of the energy range, which `nuFlux` accepts, the normalisation is one over zero (`c107_edges_violated`); 46
  and 62: for negative energies every line counts as close (`c107_negative_violated`).

### Python tools

* `nuSQUIDSTools.py` 60-73: the matrices of `SUBasis` below the diagonal have the opposite sign of those of SQuIDS (`c108_sign_violated`).
* `nuSQUIDSTools.py` 163-168: from two flavours on, printing a vector always fails, since complex matrices are added to a real array
  (`c108_print_violated`, `c108_state_violated`).
* `nuSQUIDSTools.py` 203: the number of nodes is accepted as the number of a node, and for larger ones the function goes on after the message, into
  `GetState`, which reads beyond the states (`c108_node_violated`).
* `nuSQUIDSpy.h` 313: `GetState`, which is not overloaded, is cast to a function of one parameter and called so; the number of the density matrix is
  whatever happens to be there (`c108_cast_violated`).
* `container_conversions.h` 158, 191-195: iterators are admitted, then refused because they have no length (`c113_generator_violated`). 200, 235: an
  object with a length that is its own iterator, like `array.flat` of NumPy, is used up by the test and gives an empty vector
  (`c113_view_violated`). 191: the length is kept in an `int`, so that lists of 2^31 elements or more are refused or fail the assertion at 201
  (`c113_long_violated`), which also a wrong `__len__` does (`c113_length_violated`). 179-182: a dictionary is converted to its keys
  (`c113_dict_violated`).
* `nuSQUIDSpy.cpp` 56-64: which scales were averaged is never reported to Python (`c114_report_violated`), nor by the atmospheric evaluation to C++
  (`nuSQuIDS.h` 1425; `c114_atmospheric_violated`), since the flags are taken by value. 36: strings are sequences (`c114_string_violated`). 44: the
  length is kept in an `int` (`c114_long_violated`). 47-49: a null item is used (`c114_null_violated`).

#### The test script

* C126: `run_tests` ends with the status of `tee`, so `make test` succeeds whatever the tests do (`c126_status_violated`).
* C126: a test without reference output does not set `RESULT`; what the test before it had to say is written again below its entry
  (`c126_stale_violated`).
* C126: the statistics are counted in a report that also contains what tests print, so that a failing test that prints `: Pass` counts as a success, too
  (`c126_statistics_violated`). Without any test the script reports one (`c126_none_violated`).
* C126: a failure counts as expected if the name of the test is part of a line of the list, as of the name of another test (`c126_listed_violated`).

### New physics in the equation of motion

* C127: `AddToPreDerive` of both classes rotates the operator in every working basis, though in the mass basis the state is not stored rotating. In vacuum
  the evolution is then that of the sum of the operator and twice the mass term, seen from a rotating frame (`c127_mass_doubled`,
  `c127_mass_violated`).
* C127: the operator is rotated with the mixing of the neutrinos only. With a CP phase the antineutrinos see another operator; it may be the one of
  the opposite sign (`c127_antineutrino_violated`).

### Decoherence in the equation of motion

* C128: the pre-built model of randomised phases, for three flavours in vacuum, mixes the populations of the first two mass states: a neutrino that is one
  of them ends as an equal mixture of both (`c128_phase_violated`). Its matrix has the zero of C87 at the wrong place. A matrix given by hand does what is
  claimed (`c128_phase_partial`).

### The script `configure`

* C129: any argument that begins with `--with-python-bindings` switches the bindings on, `--with-python-bindings=no` too (`c129_bindings_violated`).
* C129: a package of which only one directory is given is found automatically and the directory ignored, without a warning. A copy of GSL that has only a
  shared library is replaced by another one. The headers of SQuIDS are not looked for (`c129_copy_violated`).
* C129: the test for the header of HDF5 lacks its `-e` (146), so that a directory without it is accepted (`c129_hdf5_violated`).
* C129: the `break` in the search for the Python library leaves the inner loop only, so that the linker is always told the last directory of the list,
  whichever has the library (`c129_python_violated`).
* C129: where the headers of Boost are but not its library for Python, the search ends, though the next place may have both; a library without any headers
  is enough for the bindings to be built; and with the library in one place and the headers in the next, the linker is told a directory of the latter,
  even if the latter has the library too, under a later suffix (`c129_boost_violated`).
* C129: a prefix that does not exist yet is replaced by the directory of the source (`c129_prefix_violated`), because `cd` fails and nothing looks at it.

## Observed while reading, not stated as theorems

* `GetStates` of the atmospheric object returns energy node 0 only.
* The overloads `Set_h(h, idx)` and so on say that `idx` is an energy node; it is a zenith.
* `addTarget` with an lvalue or a `shared_ptr` to a derived class does not compile.
* `WriteText` to a prefix where files of the older naming exist is shadowed by them on reading.
* Legacy `ReadText` compares an extent with itself; the legacy HDF5 constructor does not check all extents.
* The tables treat the Glashow current as neutral current; their differential cross section is positive also for outgoing energies above the
  incoming one.
* The averaged evaluations ask for a vector with one flag per flavour; SQuIDS (not available here) is understood to report one per pair of levels, more from four flavours
  on, and the single-energy overloads check no length at all.
* `nuSQUIDSDecoh.h` 92: the matrix of GSL is released with `delete` instead of `gsl_matrix_complex_free`.
* `nuSQUIDSTools.py`: `PrintH0` and `PrintHI` call `H0` and `HI`, which the bindings do not export; Python 3 ignores `__metaclass__`, so that the methods are
  never added to the class; `np.complex` is gone since NumPy 1.24.
* `EvolveState` called again, or after reading a file, without `Set_Track` runs the whole length of the track from the current position, past its end.
* The overloads of `atan2`, `pow` and `hypot` for two arrays in `marray.h` use `result.end` without call and cannot be compiled if used; `tgmama` is a
  misspelt `tgamma`.
* `GetTables.py` saves the flavour composition under the name of the mass composition and goes on without its argument.
* The matrix of decoherence acts on the state as stored. If it damps the two parts of a coherence differently, the mass basis and the interaction picture
  give different evolutions, since the parts turn into each other only in the former.
* `configure` writes `-I…/inlude` for the tests (919); they compile only if the headers are found in another way.
* `configure` looks for `$PVM-mt` among the names of the Boost library (275), a variable that is never set.
