{"id": "C01", "title": "marray indexing is a bijection onto the storage", "statement": "For an array with extents e_0..e_{k-1}, every in-range multi-index addresses one element inside [begin,end); different multi-indices address different elements; every element is addressed; chained subscripts m[i][j].. and the index-list subscript m[{i,j,..}] address the same element; getCoordinate recovers each index of the element it is given.", "quantifier": "every rank, every list of extents, every in-range multi-index and every storage position", "why_tests_cant": "Rank and extents are unbounded; a test fixes a few shapes and cannot rule out aliasing or an escape for another one.", "anchors": ["include/nuSQuIDS/marray.h: subscript_proxy operator[]", "include/nuSQuIDS/marray.h: marray::operator[](std::initializer_list/Container)", "include/nuSQuIDS/marray.h: marray::getCoordinate"]}
{"id": "C02", "title": "marray::insert keeps old elements and puts the value in the new slices", "statement": "After insert(dim,pos,num,val) the extent of dim has grown by num and no other extent changed; the element at an index whose dim-coordinate is < pos is the old element at the same index; with dim-coordinate in [pos,pos+num) it is val; with dim-coordinate >= pos+num it is the old element num positions back.", "quantifier": "every rank, shape, dimension, position (including 0 and the end), count and content", "why_tests_cant": "The chunk arithmetic depends on the product of the extents before and after dim; errors show only for particular rank/dim/position combinations.", "anchors": ["include/nuSQuIDS/marray.h: marray::insert"]}
{"id": "C03", "title": "marray::erase removes exactly the requested slices", "statement": "After erase(dim,pos,num) the extent of dim has shrunk by num; the element at an index whose dim-coordinate is < pos is the old element there, otherwise it is the old element num positions further; insert followed by erase of the same range restores the original array.", "quantifier": "every rank, shape, dimension, position, count and content", "why_tests_cant": "As for insert: unbounded combination of rank, dimension and position; the inverse law is over all contents.", "anchors": ["include/nuSQuIDS/marray.h: marray::erase", "include/nuSQuIDS/marray.h: marray::insert"]}
{"id": "C04", "title": "marray::resize preserves the common part and default-fills the rest", "statement": "After resize (one dimension, or all dimensions) the array has the requested extents, each element whose index is in range both before and after keeps its value and every other element is a value-initialised T.", "quantifier": "every rank, old shape, new shape and content", "why_tests_cant": "Resizing all dimensions is a sequence of inserts/erases on a moving layout; only a proof covers every mixture of growing and shrinking.", "anchors": ["include/nuSQuIDS/marray.h: marray::resize(size_type,size_type)", "include/nuSQuIDS/marray.h: marray::resize(const Container&)"]}
{"id": "C05", "title": "marray::reshape accepts exactly the shapes with the same number of elements", "statement": "reshape(newExtents) succeeds if and only if the number of extents equals the rank and their product equals size(); on success the sequence of elements from begin() to end() is unchanged and the extents are the requested ones; on failure nothing changes.", "quantifier": "every array and every list of new extents", "why_tests_cant": "The product is over unbounded extents; tests with small shapes never reach the width at which the product is accumulated.", "anchors": ["include/nuSQuIDS/marray.h: marray::reshape"]}
{"id": "C06", "title": "marray size bookkeeping survives every history of operations", "statement": "After any sequence of construction, copy, move, swap, assignment, insert, erase, resize and reshape, size() equals the product of the extents and equals the number of elements from begin() to end(), for every array involved, including moved-from ones.", "quantifier": "every finite sequence of operations on any number of arrays", "why_tests_cant": "Invariant over unbounded histories.", "anchors": ["include/nuSQuIDS/marray.h: constructors, operator=, swap, insert, erase, resize, reshape"]}
{"id": "C07", "title": "marray::insert gives the strong exception guarantee when element moves may throw", "statement": "If, during insert, some element copy, move or fill throws, the exception reaches the caller and the array has the same extents and the same elements as before; every element constructed in new storage has been destroyed and nothing is destroyed twice.", "quantifier": "every array, position and every point at which an element operation can throw", "why_tests_cant": "The failure point is any of the element operations of an unbounded loop, including failure while rolling back.", "anchors": ["include/nuSQuIDS/marray.h: marray::insert (lines 948-1056)"]}
{"id": "C08", "title": "marray::sum over a dimension is the sum along that dimension", "statement": "sum(dim)[idx] is the sum over k of m[idx with k inserted at dim]; sum_same_rank(dim) has the same values with extent 1 in that dimension; sum() is the sum of all elements.", "quantifier": "every rank, shape, dimension, content and result index", "why_tests_cant": "The routine walks the array with a hand-written odometer; off-by-one errors need particular ranks and extents.", "anchors": ["include/nuSQuIDS/marray.h: marray::sum", "include/nuSQuIDS/marray.h: marray::sum_same_rank"]}
{"id": "C09", "title": "Array arithmetic broadcasts like trailing-dimension broadcasting", "statement": "For arrays of any ranks, a op b throws if and only if some pair of trailing-aligned extents differ and neither is 1; otherwise the result has the larger rank and the pairwise maximum (stretched) extents and its element at idx is a[idx restricted to a] op b[idx restricted to b], where a coordinate along a stretched dimension is read as 0 and missing leading dimensions are dropped.", "quantifier": "every pair of ranks, shapes, contents and result index", "why_tests_cant": "Pairs of shapes are unbounded and the pointer walk has carry logic that only some shapes exercise.", "anchors": ["include/nuSQuIDS/marray.h: detail::applyOp", "include/nuSQuIDS/marray.h: operator+,-,*,/ (marray,marray)"]}
{"id": "C10", "title": "Scalar-array arithmetic computes the written operation on each element", "statement": "For a scalar f and array a: (a+f)[i]=a[i]+f, (f+a)[i]=f+a[i], (a-f)[i]=a[i]-f, (f-a)[i]=f-a[i], (a*f)[i]=a[i]*f, (f*a)[i]=f*a[i], (a/f)[i]=a[i]/f and (f/a)[i]=f/a[i], extents unchanged.", "quantifier": "every array, scalar and index", "why_tests_cant": "A law over all values; a symmetric test value (f=a[i] or f=1,a=1) hides a swapped operand.", "anchors": ["include/nuSQuIDS/marray.h: scalar operators (lines 1392-1593)"]}
{"id": "C11", "title": "front() and back() name the first and last element", "statement": "For a non-empty array, front() is the element at position 0 and back() the element at position size()-1 of the iteration order, for const and non-const arrays alike.", "quantifier": "every non-empty array", "why_tests_cant": "Law over all contents and shapes, for both overloads.", "anchors": ["include/nuSQuIDS/marray.h: marray::front", "include/nuSQuIDS/marray.h: marray::back"]}
{"id": "C12", "title": "Nested-list and iterator construction put every value at its index or throw", "statement": "Constructing from a nested initialiser list throws if and only if the list is not rectangular with the declared extents; otherwise element [i][j].. is the nested list's i-th,j-th,.. entry. Assigning such a list to an array does the same with the extents of the array. Constructing from an iterator range throws if and only if its length differs from the product of extents; otherwise the k-th element in iteration order is the k-th of the range.", "quantifier": "every rank, extents, nested list and range", "why_tests_cant": "Ragged lists come in unboundedly many forms and depths.", "anchors": ["include/nuSQuIDS/marray.h: initializer_shape_checker", "include/nuSQuIDS/marray.h: multidimensional_initializer", "include/nuSQuIDS/marray.h: marray constructors"]}
{"id": "C13", "title": "ThreadPool runs every accepted task exactly once", "statement": "For a pool with at least one worker, when the destructor returns each task whose enqueue call returned normally has been run exactly once, by one worker, and no other task has been run; a task whose enqueue threw is never run.", "quantifier": "every number of workers, every number of tasks and every interleaving of enqueuers, workers, notifications and the destructor", "why_tests_cant": "Interleavings are unbounded; a test explores a few schedules.", "anchors": ["include/nuSQuIDS/ThreadPool.h: ThreadPool::ThreadPool", "include/nuSQuIDS/ThreadPool.h: ThreadPool::enqueue", "include/nuSQuIDS/ThreadPool.h: ThreadPool::~ThreadPool"]}
{"id": "C14", "title": "ThreadPool starts tasks in submission order", "statement": "The order in which tasks are taken from the queue is the order in which their enqueue calls took effect, whatever the number of workers.", "quantifier": "every schedule", "why_tests_cant": "Order is a property of all interleavings.", "anchors": ["include/nuSQuIDS/ThreadPool.h: worker loop", "include/nuSQuIDS/ThreadPool.h: ThreadPool::enqueue"]}
{"id": "C15", "title": "ThreadPool shutdown always completes", "statement": "Once the destructor has requested the stop, provided the pool has at least one worker (or no pending task) and each running task finishes, no reachable state is stuck: some thread can always take a step until all workers have exited, the number of remaining steps is bounded, and afterwards the queue is empty. No notification is lost in a way that leaves a task waiting forever.", "quantifier": "every schedule, including spurious and missed wake-ups", "why_tests_cant": "Deadlock freedom ranges over all interleavings.", "anchors": ["include/nuSQuIDS/ThreadPool.h: worker loop", "include/nuSQuIDS/ThreadPool.h: ThreadPool::~ThreadPool"]}
{"id": "C16", "title": "aligned_allocator returns aligned in-bounds storage and frees what it got", "statement": "allocate(n) returns an address that is a multiple of the alignment, with n*sizeof(T) usable bytes and the bookkeeping byte inside the block obtained from the system; deallocate of that address releases exactly the block start that allocate obtained.", "quantifier": "every n, element size, alignment exponent and block address the system may return", "why_tests_cant": "The system may return any address; tests see only the ones malloc happens to give (always 16-aligned).", "anchors": ["include/nuSQuIDS/aligned_alloc.h: allocate", "include/nuSQuIDS/aligned_alloc.h: deallocate"]}
{"id": "C17", "title": "aligned_allocator never under-allocates through overflow", "statement": "allocate(n) throws bad_alloc if and only if n > max_size(); whenever it does not throw, the byte count n*sizeof(T)+alignment it requests fits in size_t without wrap-around.", "quantifier": "every n up to SIZE_MAX, element size and alignment exponent", "why_tests_cant": "Needs n near 2^64, which no test can allocate.", "anchors": ["include/nuSQuIDS/aligned_alloc.h: max_size", "include/nuSQuIDS/aligned_alloc.h: allocate"]}
{"id": "C18", "title": "AdaptiveQuad covers the requested range exactly once", "statement": "The committed sub-intervals whose contributions are added to the result form a partition of [a,b] (adjacent, in order, no gap, no overlap), and every point at which the integrand is called lies in [a,b].", "quantifier": "every integrand, tolerance, range and refinement history", "why_tests_cant": "The refinement tree depends on the integrand and is unbounded.", "anchors": ["include/nuSQuIDS/AdaptiveQuad.h: integrate", "include/nuSQuIDS/AdaptiveQuad.h: Interval::evaluate"]}
{"id": "C19", "title": "Quadrature is exact on low-degree polynomials", "statement": "For polynomial integrands up to the advertised degree the value of each rule, of AdaptiveQuad::integrate and of the cross-section averaging built on it equals the exact integral, for every interval and tolerance; in particular the average of a constant cross section over any energy bin is that constant.", "quantifier": "every coefficient vector, interval and tolerance", "why_tests_cant": "Law over all coefficients and intervals, and over every escalation path of the fast integrator.", "anchors": ["include/nuSQuIDS/AdaptiveQuad.h: Interval::evaluate", "include/nuSQuIDS/AdaptiveQuad.h: integrate", "src/xsections.cpp: fastInt", "src/xsections.cpp: AverageTotalCrossSection"]}
{"id": "C20", "title": "Swapping integration limits negates the integral", "statement": "integrate(f,b,a,tol,opt) = -integrate(f,a,b,tol,opt'), where the caller-provided endpoint values refer to the points they were given for; the endpoint values handed back also refer to the caller's own a and b.", "quantifier": "every integrand, range, tolerance and endpoint option", "why_tests_cant": "Law over all integrands; symmetric integrands hide a swapped endpoint.", "anchors": ["include/nuSQuIDS/AdaptiveQuad.h: integrate (reverse handling)", "include/nuSQuIDS/AdaptiveQuad.h: Options"]}
{"id": "C21", "title": "AkimaSpline passes through every data point and is continuous", "statement": "For every accepted table, spline(x_i)=y_i for every i including the last; the pieces meeting at each node agree there; a query between two nodes uses the segment of that interval, a query before the first node the first segment and a query after the last the last segment; getAbscissas/getOrdinates return the input data.", "quantifier": "every table with at least three points and every query", "why_tests_cant": "Unbounded tables; numeric tests sample points of a few tables.", "anchors": ["src/tools.cpp: AkimaSpline::initialize", "include/nuSQuIDS/tools.h: AkimaSpline::operator()", "src/tools.cpp: getAbscissas", "src/tools.cpp: getOrdinates"]}
{"id": "C22", "title": "AkimaSpline has a continuous first derivative", "statement": "At each interior node the derivative of the left piece and the derivative of the right piece are equal, so getAbscissaDerivatives is the derivative of the interpolant at every node.", "quantifier": "every accepted table and interior node", "why_tests_cant": "Only degenerate slope patterns break it; random tests never produce exactly equal slopes.", "anchors": ["src/tools.cpp: AkimaSpline::initialize"]}
{"id": "C23", "title": "AkimaSpline reproduces straight lines exactly", "statement": "If all data points lie on one straight line the spline equals that line for every x, including outside the table.", "quantifier": "every line, every choice of abscissas, every query", "why_tests_cant": "Law over all lines and abscissas.", "anchors": ["src/tools.cpp: AkimaSpline::initialize", "include/nuSQuIDS/tools.h: AkimaSpline::operator()"]}
{"id": "C24", "title": "AkimaSpline rejects exactly the unusable tables", "statement": "Construction throws if and only if the numbers of abscissas and ordinates differ, there are fewer than three points, or the abscissas are not strictly increasing.", "quantifier": "every pair of vectors", "why_tests_cant": "Quantifies over all malformed inputs.", "anchors": ["include/nuSQuIDS/tools.h: AkimaSpline(std::vector,std::vector)", "src/tools.cpp: AkimaSpline::initialize"]}
{"id": "C25", "title": "BiCubicInterpolator reproduces its grid and is continuous", "statement": "At every grid node the interpolant equals the tabulated value; on an edge shared by two cells both cells give the same value; for every query (inside or outside the table) the cell chosen is a cell of the grid, so no table access is out of range; the constructor throws if and only if the coordinate counts do not match the table or, for a non-empty table, one of the axes has fewer than three or not strictly increasing coordinates; bilinear data are reproduced exactly everywhere.", "quantifier": "every grid, table, node and query", "why_tests_cant": "Unbounded grids and real-valued queries, 16 coefficients per cell.", "anchors": ["src/tools.cpp: BiCubicInterpolator"]}
{"id": "C26", "title": "TriCubicInterpolator reproduces its grid and its tabulated derivatives", "statement": "The cell polynomial takes the given values and the given first and mixed derivatives at all eight corners; at every grid node the interpolant equals the tabulated value, and it is continuous; construction succeeds on every well-formed grid; the derivative tables are the spline derivatives along the named axes, so that f(x,y,z)=y*z is reproduced exactly.", "quantifier": "every grid, table and cell", "why_tests_cant": "64 coefficient formulas over 64 unknowns: only an algebraic proof covers them.", "anchors": ["src/tools.cpp: TriCubicInterpolator", "src/tools.cpp: get_coeffs", "src/tools.cpp: evaluate_polynomial"]}
{"id": "C27", "title": "linspace and logspace produce the requested grid", "statement": "linspace(a,b,n) and logspace(a,b,n) return exactly n values, throw for n=0, return the single value b for n=1, and for n>=2 start at a, end exactly at b, and are equally spaced (in value, respectively in logarithm), strictly increasing when a<b.", "quantifier": "every range and number of points", "why_tests_cant": "Quantifies over all n and ranges.", "anchors": ["src/tools.cpp: linspace", "src/tools.cpp: logspace"]}
{"id": "C28", "title": "Text tables survive write and read", "statement": "quickread of what quickwrite produced returns a table with the same numbers of rows and columns and the same entries; comment lines and blank lines anywhere in the file do not change the result; a file whose data rows have different lengths is rejected.", "quantifier": "every table, and every placement of blank and comment lines", "why_tests_cant": "Placement of blank/comment lines and table sizes are unbounded.", "anchors": ["src/tools.cpp: quickread", "src/tools.cpp: quickwrite"]}
{"id": "C29", "title": "Each HDF5 identifier is released exactly once", "statement": "Over any sequence of constructions, moves, move-assignments, swaps and destructions of handle objects, each valid identifier handed to a handle is released exactly once by the time all handles are gone, never while another live handle owns it, and an invalid identifier makes construction throw.", "quantifier": "every sequence of operations on any number of handles", "why_tests_cant": "Unbounded histories.", "anchors": ["include/nuSQuIDS/tools.h: H5Handle", "include/nuSQuIDS/tools.h: H5File"]}
{"id": "C30", "title": "HDF5 chunk shapes are valid for every array shape", "statement": "The chunk shape chosen when writing an array has one entry per dimension, each at least 1 and at most the extent of a non-empty dimension, and the chunk occupies at most the target size of 64 KiB.", "quantifier": "every array shape", "why_tests_cant": "Shapes are unbounded.", "anchors": ["include/nuSQuIDS/tools.h: writeArrayH5"]}
{"id": "C31", "title": "Change of basis helpers are mutually inverse and preserve the trace", "statement": "For unitary U, change_basis_UMUC and change_basis_UCMU undo one another, preserve the trace and map Hermitian matrices to Hermitian matrices.", "quantifier": "every dimension, unitary matrix and matrix", "why_tests_cant": "Law over all unitary matrices.", "anchors": ["src/tools.cpp: gsl_matrix_complex_change_basis_UMUC", "src/tools.cpp: gsl_matrix_complex_change_basis_UCMU"]}
{"id": "C32", "title": "Bodies survive serialisation", "statement": "A body written with Serialize and read back with the matching Deserialize reports the same density, composition (ye), radius and parameters at every track position, for every body type.", "quantifier": "every body type, every parameter choice and every track position", "why_tests_cant": "Parameters and positions are unbounded; a test checks one instance of one type.", "anchors": ["src/body.cpp: *::Serialize", "src/body.cpp: *::Deserialize"]}
{"id": "C33", "title": "Tracks survive serialisation", "statement": "A track written with Serialize and read back with Deserialize has the same current position, initial position, final position, baseline, and extra parameters, for every track type, constructor and after ReverseTrack.", "quantifier": "every track type, constructor arguments, current position and reversal state", "why_tests_cant": "Parameters are unbounded and include non-default atmosphere heights and reversed tracks.", "anchors": ["src/body.cpp: *::Track::Serialize", "src/body.cpp: *::Track::Deserialize", "include/nuSQuIDS/body.h: Track::ReverseTrack"]}
{"id": "C34", "title": "Earth and atmosphere track geometry is consistent", "statement": "For every zenith angle, Earth radius and production height, the EarthAtm track starts at radius R+h, ends at radius R, stays between those radii outside the Earth and never leaves the sphere of radius R+h; its length is h for vertical downgoing and 2R+h for vertical upgoing; for Earth tracks the two ends of the chord are on the surface and the profile is symmetric about the midpoint.", "quantifier": "every zenith angle, radius, height and position along the track", "why_tests_cant": "Real-valued angles and positions.", "anchors": ["src/body.cpp: EarthAtm::Track", "src/body.cpp: EarthAtm::density", "src/body.cpp: Earth::density"]}
{"id": "C35", "title": "EarthAtm evaluates the Earth model at the fractional Earth radius", "statement": "At a track position at distance r <= R from the centre the density and composition are those of the table at r/R (clamped to the tabulated range); above the surface the density is the atmospheric one.", "quantifier": "every table, radius, atmosphere height and position", "why_tests_cant": "Relation over all positions; with a thin atmosphere the numerical difference is small and passes tolerance-based tests.", "anchors": ["src/body.cpp: EarthAtm::density", "src/body.cpp: EarthAtm::ye"]}
{"id": "C36", "title": "Type registry returns what was registered", "statement": "A lookup of a registered body or track type name returns the creator registered first under that name; an unregistered name throws; registering other names does not change it.", "quantifier": "every sequence of registrations and lookups", "why_tests_cant": "Unbounded histories.", "anchors": ["src/body.cpp: registerBody/registerTrack/GetBodyDeserializer/GetTrackDeserializer"]}
{"id": "C37", "title": "Evolution and evaluation are refused until the object is fully set up", "statement": "After any history of API calls, EvolveState succeeds only if a body, a track, the energies and an initial state have been set and no later call invalidated the state; otherwise it throws and changes nothing. The evaluation calls throw when energies are missing, when the requested energy is out of range, or when antineutrinos are asked of a neutrino-only object.", "quantifier": "every history of API calls", "why_tests_cant": "Histories are unbounded.", "anchors": ["src/nuSQuIDS.cpp: EvolveState", "src/nuSQuIDS.cpp: Set_initial_state", "src/nuSQuIDS.cpp: EvalFlavor", "src/nuSQuIDS.cpp: Set_E", "src/nuSQuIDS.cpp: Set_Track", "src/nuSQuIDS.cpp: Set_Body"]}
{"id": "C38", "title": "Evolution always uses the current oscillation parameters", "statement": "Whenever EvolveState is accepted, the projectors and vacuum Hamiltonian in use were computed from the mixing angles, phases, mass differences, energies and oscillation switch currently reported by the getters.", "quantifier": "every history of API calls", "why_tests_cant": "A stale cache appears only for particular orders of calls.", "anchors": ["src/nuSQuIDS.cpp: Set_MixingAngle", "src/nuSQuIDS.cpp: Set_CPPhase", "src/nuSQuIDS.cpp: Set_SquareMassDifference", "src/nuSQuIDS.cpp: iniProjectors", "src/nuSQuIDS.cpp: iniH0", "include/nuSQuIDS/nuSQuIDS.h: Set_IncludeOscillations"]}
{"id": "C39", "title": "CP phases reported are the ones set", "statement": "After any sequence of calls the value of Get_CPPhase(i,j) is the one last given to Set_CPPhase(i,j) (default otherwise), for neutrino, antineutrino and both modes; internal sign flips for antineutrinos are always undone.", "quantifier": "every history of API calls, number of flavours and mode", "why_tests_cant": "Parity of the number of flips over unbounded histories.", "anchors": ["src/nuSQuIDS.cpp: AntineutrinoCPFix", "src/nuSQuIDS.cpp: iniProjectors", "src/nuSQuIDS.cpp: SetIniFlavorProyectors"]}
{"id": "C40", "title": "EvolveState propagates over the track length", "statement": "EvolveState advances the state by exactly FinalX - InitialX of the current track, with or without positivisation, for every track.", "quantifier": "every track, positivisation scale and direction", "why_tests_cant": "Tracks not starting at zero and any scale; most tests use tracks starting at 0.", "anchors": ["src/nuSQuIDS.cpp: EvolveState"]}
{"id": "C41", "title": "During evolution the track position runs from its initial to its final coordinate", "statement": "In any history of Set_Track, Set_initial_state and EvolveState where each EvolveState is preceded by setting its track, the position passed to the body starts at the track's InitialX, however many segments were evolved before.", "quantifier": "every chain of track segments", "why_tests_cant": "Chains are unbounded.", "anchors": ["src/nuSQuIDS.cpp: Set_Track", "src/nuSQuIDS.cpp: EvolveState", "src/nuSQuIDS.cpp: PreDerive"]}
{"id": "C42", "title": "The constant-density shortcut does not affect later evolutions", "statement": "After EvolveState through a constant-density body with the shortcut enabled, a later EvolveState through any other body integrates exactly as it would have if the shortcut had never been used.", "quantifier": "every history of bodies and evolutions", "why_tests_cant": "Only histories mixing constant and varying bodies expose it.", "anchors": ["src/nuSQuIDS.cpp: EvolveState (lines 1233-1305)"]}
{"id": "C43", "title": "Interaction tables follow the cross sections and options in force", "statement": "After SetNeutrinoCrossSections, or after switching tau regeneration or the Glashow resonance on, the next EvolveState uses tables computed for that setting; a failed initialisation is not later treated as complete.", "quantifier": "every order of configuration calls, failures and evolutions", "why_tests_cant": "Orders of calls are unbounded.", "anchors": ["src/nuSQuIDS.cpp: InitializeInteractions", "include/nuSQuIDS/nuSQuIDS.h: SetNeutrinoCrossSections", "src/nuSQuIDS.cpp: Set_TauRegeneration", "src/nuSQuIDS.cpp: Set_GlashowResonance"]}
{"id": "C44", "title": "Copies of the interaction tables are equivalent to the original", "statement": "A copy- or move-constructed or assigned InteractionStructure has the same contents as the source, including target list, and operator== is true exactly when all tables agree in shape and content and the target lists agree.", "quantifier": "every structure", "why_tests_cant": "Quantifies over all contents.", "anchors": ["include/nuSQuIDS/nuSQuIDS.h: InteractionStructure"]}
{"id": "C45", "title": "A moved nuSQUIDS object behaves like the original", "statement": "After move construction or move assignment, every setting and the state of the destination equal those the source had before.", "quantifier": "every reachable source and destination state", "why_tests_cant": "Dozens of members and unbounded prior histories.", "anchors": ["src/nuSQuIDS.cpp: nuSQUIDS(nuSQUIDS&&)", "src/nuSQuIDS.cpp: operator=(nuSQUIDS&&)"]}
{"id": "C46", "title": "Parameter indices out of range are rejected", "statement": "Set_/Get_ MixingAngle, CPPhase and SquareMassDifference accept exactly indices smaller than the number of flavours and throw for all others; a get after a set returns the value set; setting invalidates the state.", "quantifier": "every index pair, number of flavours and value", "why_tests_cant": "Boundary at every flavour count.", "anchors": ["src/nuSQuIDS.cpp: Set_MixingAngle", "src/nuSQuIDS.cpp: Get_MixingAngle", "src/nuSQuIDS.cpp: Set_CPPhase", "src/nuSQuIDS.cpp: Set_SquareMassDifference"]}
{"id": "C47", "title": "The interaction cache layout is sound", "statement": "For every number of flavours >= 2, particle types and energies >= 1 and every 8-byte aligned buffer, the cache vectors lie inside the buffer, do not overlap, each has the alignment promised, and the internal fatal error is never raised.", "quantifier": "every numneu, nrhos, ne and buffer address", "why_tests_cant": "The allocator can return any alignment; numneu and ne are unbounded.", "anchors": ["src/nuSQuIDS.cpp: SetUpInteractionCache", "include/nuSQuIDS/nuSQuIDS.h: round_up_to_aligned"]}
{"id": "C48", "title": "Interactions only move flux to lower energies and never create negative flux", "statement": "The re-injection terms at an energy node depend only on fluxes at strictly higher nodes; with non-negative fluxes, tables and widths all re-injection terms and inverse lengths are non-negative; the highest node receives nothing.", "quantifier": "every number of energy nodes, flavours, targets, tables and states", "why_tests_cant": "Nested loops over unbounded sizes with index arithmetic.", "anchors": ["src/nuSQuIDS.cpp: UpdateInteractions", "src/nuSQuIDS.cpp: InteractionsRho"]}
{"id": "C49", "title": "Interaction terms are the same with and without oscillations", "statement": "When the projectors do not depend on energy, the interaction (re-injection) term computed by the no-oscillation code path equals the one computed by the oscillation code path, including tau regeneration, Glashow and external sources.", "quantifier": "every configuration, tables and state", "why_tests_cant": "Two independent implementations over unbounded sizes.", "anchors": ["src/nuSQuIDS.cpp: UpdateInteractions", "src/nuSQuIDS.cpp: InteractionsRho"]}
{"id": "C50", "title": "In-scattering weights each target by its own interaction rate", "statement": "The NC re-injection from node e2 to e1 is the sum over targets of (number density of the target) x (its NC cross section at e2) x (its own normalised spectrum e2->e1) x flux x width.", "quantifier": "every composition, table and flux", "why_tests_cant": "Differs only when targets have different cross sections and spectra; single-target tests cannot see it.", "anchors": ["src/nuSQuIDS.cpp: UpdateInteractions", "src/nuSQuIDS.cpp: GetTargetNumberFractions"]}
{"id": "C51", "title": "Target number densities account for all the mass and composition", "statement": "With proton and neutron targets, (m_e+m_p) n_p + m_n n_n equals the mass density and n_p/(n_p+n_n) equals the electron fraction, for every electron fraction in [0,1]; target fractions sum to one and are non-negative.", "quantifier": "every density and electron fraction, including 0 and 1", "why_tests_cant": "Real-valued inputs with special cases at the ends.", "anchors": ["src/nuSQuIDS.cpp: GetTargetNumberDensities", "src/nuSQuIDS.cpp: GetTargetNumberFractions"]}
{"id": "C52", "title": "Matter potential follows density and composition", "statement": "The potential added for neutrinos is c*rho*(ye - (1-ye)/2) for nu_e, -c*rho*(1-ye)/2 for nu_mu and nu_tau, zero for sterile flavours; for antineutrinos it is the negative; this holds for every ye in [0,1].", "quantifier": "every density, electron fraction, flavour count and mode", "why_tests_cant": "The end point ye=0 is a special case in the code.", "anchors": ["src/nuSQuIDS.cpp: HI"]}
{"id": "C53", "title": "GetHamiltonian is vacuum term plus matter potential", "statement": "GetHamiltonian at an energy node returns the vacuum Hamiltonian plus the matter potential at the track position, in each working basis.", "quantifier": "every state, basis, energy node and track position", "why_tests_cant": "All bases and states.", "anchors": ["src/nuSQuIDS.cpp: GetHamiltonian", "src/nuSQuIDS.cpp: HI", "src/nuSQuIDS.cpp: H0"]}
{"id": "C54", "title": "Reading back an initial state returns it", "statement": "Immediately after Set_initial_state(v,basis), EvalFlavorAtNode (basis flavor) or EvalMassAtNode (basis mass) returns v for each flavour, node and particle type, for any mixing.", "quantifier": "every unitary mixing, flavour count, node count and input", "why_tests_cant": "Law over all unitary matrices and inputs.", "anchors": ["src/nuSQuIDS.cpp: Set_initial_state", "src/nuSQuIDS.cpp: EvalFlavorAtNode", "src/nuSQuIDS.cpp: EvalMassAtNode"]}
{"id": "C55", "title": "Oscillations conserve the total flux", "statement": "Evolution by any Hermitian Hamiltonian over any time leaves the sum over flavours of EvalFlavorAtNode unchanged and keeps each of them between 0 and the total for a non-negative state.", "quantifier": "every Hermitian Hamiltonian, time, state and flavour count", "why_tests_cant": "Real-valued law.", "anchors": ["src/nuSQuIDS.cpp: EvolveState (constant density path)", "src/nuSQuIDS.cpp: EvalFlavorAtNode"]}
{"id": "C56", "title": "Positivisation removes negative flavour content and nothing else", "statement": "After PositivizeFlavors every flavour content is >= 0; flavours that were non-negative keep their content; negative ones become 0.", "quantifier": "every state, mixing and flavour count", "why_tests_cant": "Depends on orthogonality of the projectors for all mixings.", "anchors": ["src/nuSQuIDS.cpp: PositivizeFlavors"]}
{"id": "C57", "title": "A saved state read back behaves like the original", "statement": "ReadStateHDF5 of what WriteStateHDF5 wrote gives an object that reports the same energies, parameters, switches, body, track, time and the same flavour and mass contents at every node.", "quantifier": "every reachable object state", "why_tests_cant": "Histories and settings are unbounded.", "anchors": ["src/nuSQuIDS.cpp: WriteStateHDF5", "src/nuSQuIDS.cpp: ReadStateHDF5", "src/nuSQuIDS.cpp: ReadStateHDF5Internal"]}
{"id": "C58", "title": "Parameter names in state files do not collide", "statement": "Different parameters (angle, phase, mass difference and index pair) are stored under different names for every supported number of flavours.", "quantifier": "every flavour count up to the library maximum and every index pair", "why_tests_cant": "String concatenation of indices is injective only up to a bound.", "anchors": ["src/nuSQuIDS.cpp: WriteStateHDF5", "src/nuSQuIDS.cpp: ReadStateHDF5"]}
{"id": "C59", "title": "Atmospheric EvalFlavor interpolates safely and exactly at nodes", "statement": "For every zenith and energy inside the grid all table accesses are inside the grid; at a grid node the result is the node's value; between nodes the result lies between the four surrounding node values; outside the grid the call throws.", "quantifier": "every grid and every query", "why_tests_cant": "Real-valued queries, arbitrary grids including one-node grids.", "anchors": ["include/nuSQuIDS/nuSQuIDS.h: nuSQUIDSAtm::EvalFlavor", "include/nuSQuIDS/nuSQuIDS.h: nuSQUIDSAtm::LinInter"]}
{"id": "C60", "title": "Threaded evolution equals serial evolution", "statement": "nuSQUIDSAtm::EvolveState gives the same node states and the same error behaviour for every number of threads.", "quantifier": "every thread count, schedule and failing node", "why_tests_cant": "All schedules and failing nodes.", "anchors": ["include/nuSQuIDS/nuSQuIDS.h: nuSQUIDSAtm::EvolveState", "include/nuSQuIDS/ThreadPool.h"]}
{"id": "C61", "title": "Atmospheric setters act on all nodes and getters agree", "statement": "After any sequence of setter calls on the atmospheric object all nodes have the same parameter values and each getter returns the last value set; the number of evaluation threads is never 0.", "quantifier": "every history of calls and node count", "why_tests_cant": "Unbounded histories and node counts.", "anchors": ["include/nuSQuIDS/nuSQuIDS.h: nuSQUIDSAtm setters/getters", "include/nuSQuIDS/nuSQuIDS.h: Set_EvalThreads"]}
{"id": "C62", "title": "Every zenith node is saved under its own name", "statement": "WriteStateHDF5 of the atmospheric object stores each zenith node under a different group name and reading looks up the same names.", "quantifier": "every strictly increasing list of cos(zenith) nodes", "why_tests_cant": "Names are rounded decimal strings; only close nodes collide.", "anchors": ["include/nuSQuIDS/nuSQuIDS.h: nuSQUIDSAtm::WriteStateHDF5", "include/nuSQuIDS/nuSQuIDS.h: nuSQUIDSAtm::ReadStateHDF5"]}
{"id": "C63", "title": "Atmospheric object refuses to evolve or evaluate before an initial state", "statement": "On an atmospheric object on which no initial state has been set, EvolveState, EvalFlavor and WriteStateHDF5 throw.", "quantifier": "every constructor and history without Set_initial_state", "why_tests_cant": "Depends on the value of a member no constructor sets; a test sees whatever memory happens to hold.", "anchors": ["include/nuSQuIDS/nuSQuIDS.h: nuSQUIDSAtm constructors", "include/nuSQuIDS/nuSQuIDS.h: iinistate"]}
{"id": "C64", "title": "Cross-section library never replaces an entry", "statement": "After any sequence of addTarget calls a lookup returns the object given in the first call for that target, a repeated addTarget throws and leaves the library unchanged, and targets never added are reported absent.", "quantifier": "every sequence of calls", "why_tests_cant": "Unbounded histories.", "anchors": ["src/xsections.cpp: CrossSectionLibrary", "include/nuSQuIDS/xsections.h: CrossSectionLibrary::addTarget"]}
{"id": "C65", "title": "Table cross sections are total on their domain and zero for steriles", "statement": "TotalCrossSection is 0 for sterile flavours, throws above the table, is non-negative, scales linearly below the table and is continuous at the lower table edge unless the documented 10 GeV cut applies; the differential cross section is 0 for steriles and non-negative.", "quantifier": "every table, energy, flavour, type and current", "why_tests_cant": "Real-valued energies and arbitrary tables.", "anchors": ["src/xsections.cpp: NeutrinoDISCrossSectionsFromTables::TotalCrossSection", "src/xsections.cpp: SingleDifferentialCrossSection"]}
{"id": "C66", "title": "Legacy table interpolation never reads outside its tables", "statement": "For every energy accepted by the legacy cross-section class (Emin <= E <= Emax) all table accesses are in range and the value lies between the two neighbouring table values, interpolated linearly in the logarithm of the energy; differential cross sections are interpolated linearly in both logarithms, next to the diagonal from the corners that are not zero.", "quantifier": "every table size and accepted energy including both ends", "why_tests_cant": "The upper end is a single energy value that random tests miss.", "anchors": ["src/xsections.cpp: NeutrinoDISCrossSectionsFromTables_V1::TotalCrossSection", "src/xsections.cpp: V1::SingleDifferentialCrossSection"]}
{"id": "C67", "title": "Differential tables keep their orientation through text and HDF5 files", "statement": "A table written by WriteText (or WriteHDF) and read back by ReadText (or ReadHDF) has the same value for each (incoming energy, z) pair and each flavour, for every number of energies and z values.", "quantifier": "every table shape and content, every flavour", "why_tests_cant": "Square symmetric tables hide a transposition; identical flavours hide aliasing.", "anchors": ["src/xsections.cpp: WriteText", "src/xsections.cpp: ReadText", "src/xsections.cpp: WriteHDF", "src/xsections.cpp: ReadHDF"]}
{"id": "C68", "title": "Glashow cross section is normalised", "statement": "The differential cross section integrated over all outgoing energies equals the muonic branching fraction times the total cross section; it is zero for outgoing energy above the incoming one and for every other flavour, type or current.", "quantifier": "every energy", "why_tests_cant": "Integral law over all energies.", "anchors": ["src/xsections.cpp: GlashowResonanceCrossSection"]}
{"id": "C69", "title": "Tau decay spectra are normalised probability densities", "statement": "Each decay channel spectrum integrates to one over the allowed range and is non-negative there, the branching ratios sum to one so that the total spectrum integrates to one, and it vanishes for outgoing energy above the tau energy.", "quantifier": "every tau energy and outgoing energy", "why_tests_cant": "Integral and sign laws over all energies.", "anchors": ["src/taudecay.cpp: TauDecayTo*", "src/taudecay.cpp: SetParameters"]}
{"id": "C70", "title": "Interaction tables are validated", "statement": "If table construction completes, every stored total and normalised differential cross section for active flavours is finite and non-negative, and spectrum x total equals the differential cross section supplied; if some value is negative or not finite it throws.", "quantifier": "every cross-section provider and energy grid", "why_tests_cant": "All providers.", "anchors": ["src/nuSQuIDS.cpp: GetCrossSections"]}
{"id": "C71", "title": "The integration step points along the track", "statement": "Whenever EvolveState runs, the step size handed to the integrator is positive for a track that runs forwards and negative for one that runs backwards, whatever was evolved before.", "quantifier": "every history of calls and every track", "why_tests_cant": "Depends on the whole history of earlier evolutions.", "anchors": ["src/nuSQuIDS.cpp: EvolveState"]}
{"id": "C72", "title": "Isoscalar target density is proportional to the mass density", "statement": "With isoscalar targets the nucleon number density times half of (m_e+m_p+m_n) equals the mass density, for every density including vacuum.", "quantifier": "every density and electron fraction", "why_tests_cant": "A threshold replaces thin media by a constant; tests use dense media.", "anchors": ["src/nuSQuIDS.cpp: GetTargetNumberDensities"]}
{"id": "C73", "title": "Constant-density shortcut gives the exact solution", "statement": "For a body of constant density without interactions EvolveState gives each node the value at the end of the track of the solution of d rho/dt = -i[H,rho] with H the vacuum plus matter Hamiltonian and the present state as initial value, forwards and backwards, and the flavour contents are traces with the flavour projectors.", "quantifier": "every density, electron fraction, length, mixing, energy and starting state", "why_tests_cant": "Law about a differential equation over all real parameters and histories.", "anchors": ["src/nuSQuIDS.cpp: EvolveState (constant density path)", "src/nuSQuIDS.cpp: HI", "src/nuSQuIDS.cpp: EvalFlavorAtNode"]}
{"id": "C74", "title": "Attenuation and re-injection are the sums over rates they stand for", "statement": "GammaRho is half the total interaction rate (neutral and charged current on all targets at their number densities, plus scattering on electrons for electron antineutrinos if the Glashow resonance is on) on each active flavour projector, nothing on sterile ones and zero with interactions off. In InteractionsRho tau regeneration adds, at each node, nu_tau from all decays of taus of the same type and nu_e, nu_mu from leptonic decays of taus of the other type, the taus being those made by charged currents at all higher nodes; the Glashow resonance adds equal amounts of the three antineutrino flavours; external sources add the given flux of every flavour once.", "quantifier": "every number of nodes, table content, composition, state, particle-type mode and previous buffer content", "why_tests_cant": "Nested sums over nodes and targets accumulated in reused buffers by two separately written code paths; a swapped index or type cancels in symmetric test cases.", "anchors": ["src/nuSQuIDS.cpp: GammaRho", "src/nuSQuIDS.cpp: InteractionsRho", "src/nuSQuIDS.cpp: UpdateInteractions"]}
{"id": "C75", "title": "Interaction rows are used within bounds and are as aligned as promised", "statement": "Every entry UpdateInteractions reads or writes through a pointer to a row of the tables, inverse lengths, local buffers and factor arrays lies inside that array, and every pointer it declares 32-byte aligned to the compiler is a multiple of 32, whichever address the system allocator returned and however the object was configured, read from a file or reconfigured.", "quantifier": "every number of nodes, flavours, targets, particle types and options, every allocation address, every order of initialisation, reading and switching options", "why_tests_cant": "Alignment depends on addresses the allocator happens to return and a broken promise usually goes unnoticed until a compiler vectorises the loop; writes outside an empty array may go unnoticed too.", "anchors": ["src/nuSQuIDS.cpp: UpdateInteractions", "src/nuSQuIDS.cpp: InitializeInteractionVectors", "src/nuSQuIDS.cpp: InitializeInteractions", "src/nuSQuIDS.cpp: ReadStateHDF5", "include/nuSQuIDS/aligned_alloc.h: allocate", "include/nuSQuIDS/nuSQuIDS.h: round_up_to_aligned"]}
{"id": "C76", "title": "Antineutrinos use the conjugate mixing matrix and the parameters survive", "statement": "iniProjectors and SetIniFlavorProyectors leave all mixing angles and CP phases as they were, although they flip the phases before each rotation; the flavour projectors stored for antineutrinos (a single antineutrino object or type 1 of a both-object) are those of the complex-conjugate mixing matrix and those for neutrinos of the matrix itself; hence vacuum oscillations obey CPT: neutrinos from a to b as antineutrinos from b to a, and without phases both types oscillate alike.", "quantifier": "every number of flavours, mixing angles, phases, mass differences, energies, times, particle types and numbers of nodes", "why_tests_cant": "Angles and phases are continuous and a flipped sign is invisible at the default phase zero; the flips are done in place and could accumulate.", "anchors": ["src/nuSQuIDS.cpp: AntineutrinoCPFix", "src/nuSQuIDS.cpp: iniProjectors", "src/nuSQuIDS.cpp: SetIniFlavorProyectors", "src/nuSQuIDS.cpp: Set_CPPhase"]}
{"id": "C77", "title": "AkimaSpline slopes are exact for parabolas, between adjacent chords and local", "statement": "If the abscissas are equally spaced and the points lie on one parabola, the spline is that parabola everywhere, extrapolation included. At interior nodes the tabulated derivative lies between the slopes of the two adjacent chords, so increasing data give no negative slope there. The value in an interval depends only on its ends and the two nearest points on either side.", "quantifier": "every accepted table, every node, interval and query", "why_tests_cant": "A wrong weight or a wrong extrapolated end slope still interpolates and still looks smooth on sampled tables.", "anchors": ["src/tools.cpp: AkimaSpline::initialize"]}
{"id": "C78", "title": "Averaged cross sections lie between the bounds of the cross section", "statement": "AverageTotalCrossSection and AverageSingleDifferentialCrossSection return a value between any non-negative lower and upper bound the cross section has on the bin (up to 2 parts in 10^16), positive for a positive cross section, whichever quadrature rule is used, however often the bin is subdivided and in whichever order the edges are given.", "quantifier": "every cross section, bin, tolerance outcome and number of refinements", "why_tests_cant": "The adaptive procedure has unboundedly many refinement histories; a negative or misplaced weight shows only for integrands that reach the later rules.", "anchors": ["src/xsections.cpp: fastInt", "src/xsections.cpp: AverageTotalCrossSection", "src/xsections.cpp: AverageSingleDifferentialCrossSection", "include/nuSQuIDS/AdaptiveQuad.h: integrate"]}
{"id": "C79", "title": "Averaged cross sections do not depend on the units", "statement": "Expressing energies in other units leaves the average and the way the call ends unchanged; expressing a non-negative cross section in other units multiplies the average by the factor.", "quantifier": "every cross section, bin, positive unit factor and number of refinements", "why_tests_cant": "Relates two runs of an adaptive procedure whose branches depend on tolerances; an absolute threshold anywhere would break it only at some scales.", "anchors": ["src/xsections.cpp: fastInt", "src/xsections.cpp: AverageTotalCrossSection", "include/nuSQuIDS/AdaptiveQuad.h: integrate"]}
{"id": "C80", "title": "The Glashow cross section is a Breit-Wigner resonance above a threshold", "statement": "The total cross section for electron antineutrinos is the Breit-Wigner form in the squared centre-of-mass energy 2 m_e E with the threshold factor of muon production, is zero at and below the threshold energy and positive above; outgoing energies are distributed as their squares.", "quantifier": "every energy and every set of positive constants", "why_tests_cant": "Law over all energies; the region below threshold is not sampled by physics tests.", "anchors": ["src/xsections.cpp: GlashowResonanceCrossSection::TotalCrossSection", "src/xsections.cpp: GlashowResonanceCrossSection::SingleDifferentialCrossSection"]}
{"id": "C81", "title": "Array storage is released exactly once, with its own allocator and size", "statement": "In every history of constructions, copies, moves, assignments, swaps, insertions, erasures and destructions of arrays, some of which throw because memory runs out or an element cannot be copied, every block obtained from an allocator belongs to exactly one living array, is released exactly once through an equal allocator with the size it was obtained with, after exactly its elements were destroyed; once all arrays are gone no block is left.", "quantifier": "every history, every element type (trivial or not), every setting of the allocator propagation traits, every point of failure", "why_tests_cant": "Leaks and mismatched releases need a failing element or unequal allocators at one particular point of a history; tests run with the default allocator and elements that never throw.", "anchors": ["include/nuSQuIDS/marray.h: marray constructors", "include/nuSQuIDS/marray.h: copy_assign", "include/nuSQuIDS/marray.h: move_assign", "include/nuSQuIDS/marray.h: swap", "include/nuSQuIDS/marray.h: destroy_buffer", "include/nuSQuIDS/aligned_alloc.h: aligned_allocator"]}
{"id": "C82", "title": "Array iterators obey the laws of random access iterators", "statement": "Walking from begin() to end() visits every element once in storage order, walking from rbegin() to rend() visits them in reverse order, all without leaving the buffer; for both kinds advancing, difference, increments, subscripts and comparisons agree with each other.", "quantifier": "every array and every iterator and offset", "why_tests_cant": "Laws over all offsets; pointers just outside the buffer do not fail visibly.", "anchors": ["include/nuSQuIDS/marray.h: iterator_base", "include/nuSQuIDS/marray.h: iterator_type", "include/nuSQuIDS/marray.h: reverse_iterator_type", "include/nuSQuIDS/marray.h: begin, end, rbegin, rend"]}
{"id": "C83", "title": "Averaged evaluation keeps the total and gives sensible probabilities", "statement": "EvalFlavor with averaging of fast oscillations: the contents of all flavours add up to the whole state whatever the scale; they lie between nothing and the whole; if no phase difference exceeds the scale they are the unaveraged contents, and if all do they are the incoherent sum over mass states. EvalMass is not affected by averaging. The call is refused exactly without energies, for a particle type that is not propagated, outside the energy range, or with a vector of averages of the wrong length; the single-energy overloads read the same numbers.", "quantifier": "every state, mixing, masses, time, energy and averaging scale, any number of flavours", "why_tests_cant": "Continuous phases and scales; the case of some averaged and some kept phases is entered only for particular ratios of masses, time and scale.", "anchors": ["src/nuSQuIDS.cpp: EvalFlavor(flv,EE,rho,scale,avr)", "src/nuSQuIDS.cpp: EvalMass(flv,EE,rho,scale,avr)", "src/nuSQuIDS.cpp: EvalFlavor(flv,scale,avr)", "src/nuSQuIDS.cpp: EvalMass(flv,scale,avr)"]}
{"id": "C84", "title": "Atmospheric flavour contents add up to the interpolated total", "statement": "For every zenith and energy inside the grid the contents EvalFlavor returns for all flavours add up to a number between the totals of the four surrounding node states, and to the common total if all nodes have the same; this holds in both overloads, whatever the clocks of the nodes, the random production height and the averaging scale.", "quantifier": "every object that is ready, every query inside the grid, every height and averaging scale", "why_tests_cant": "Conservation over continuous zeniths, energies, times and scales, with different evolution times on neighbouring nodes.", "anchors": ["include/nuSQuIDS/nuSQuIDS.h: nuSQUIDSAtm::EvalFlavor (both overloads)"]}
{"id": "C85", "title": "Tables that were read cover the range they announce and answer everywhere in it", "statement": "Whenever tables of cross sections are read from a file without an error, their energy range is positive and not empty, there are tables for the three active flavours, each of them begins and ends with that range, and every total and differential cross section below the end of the range can be computed and is positive. Files without a flavour in the name are used if all are there, otherwise those of the flavours, none of which may be missing.", "quantifier": "every set of text files and every HDF5 file that is accepted, every flavour, particle type, current and energy", "why_tests_cant": "Quantifies over the contents of input files; a table that is too short is extrapolated silently.", "anchors": ["src/xsections.cpp: read1DInterpolationFromText", "src/xsections.cpp: read2DInterpolationFromText", "src/xsections.cpp: readFlavorText", "src/xsections.cpp: ReadText", "src/xsections.cpp: readFlavorHDF5", "src/xsections.cpp: ReadHDF"]}
{"id": "C86", "title": "Arrays keep their shape and elements between Python and marray", "statement": "A NumPy array of numbers passed where a marray of the same rank is expected arrives with its shape and with every element at its index, whatever its strides; everything else is refused; a marray given to Python arrives with its shape and elements, so that there and back changes nothing; and no reference to the array is leaked or given back twice.", "quantifier": "every rank, shape, element type, stride and byte order of the array, every object that is not such an array, every number of elements the iterator handles at a time", "why_tests_cant": "Layouts and types are unbounded; a wrong element order or a leaked reference produces no error.", "anchors": ["resources/python/src/nuSQUIDSpy.h: marray_to_numpyarray::convert", "resources/python/src/nuSQUIDSpy.h: marray_from_python::convertible", "resources/python/src/nuSQUIDSpy.h: marray_from_python::construct"]}
{"id": "C87", "title": "Decoherence acts as its matrix and its models say", "statement": "The matrix of decoherence coefficients is stored in the numbering of the basis its user chose and given back as set; the term subtracted from the evolution equation is the operator with that matrix, scaled with the chosen power of the energy, and nothing when switched off; it conserves the number of neutrinos exactly if the first row is zero; neutrino loss damps the whole state, randomised states everything but the number, randomised phases the coherences but no population. Once a matrix is given and decoherence enabled, the term is part of the equation that is solved. (The last fails for objects without interactions, whose solver never asks for the term.)", "quantifier": "every number of flavours, matrix, energy, power and state", "why_tests_cant": "Wrong numbering or signs give plausible damping of other components.", "anchors": ["examples/Decoherence/nuSQUIDSDecoh.cpp: MapBasisVectorConventions", "examples/Decoherence/nuSQUIDSDecoh.cpp: Set_DecoherenceGammaMatrix", "examples/Decoherence/nuSQUIDSDecoh.cpp: Set_DecoherenceGammaMatrixDiagonal", "examples/Decoherence/nuSQUIDSDecoh.cpp: Get_DecoherenceGammaMatrix", "examples/Decoherence/nuSQUIDSDecoh.cpp: DRho", "examples/Decoherence/nuSQUIDSDecoh.cpp: InteractionsRho"]}
{"id": "C88", "title": "The new-physics term in the Hamiltonian is that of the current parameters", "statement": "In the examples for non-standard interactions and Lorentz violation, after any sequence of calls the operator added to the Hamiltonian is the hermitian flavour matrix of the parameters given last, rotated with the current mixing and evolved to the current position, with opposite signs for neutrinos and antineutrinos and the chosen power of the energy; an evolution whose operator is missing or no longer matches the mixing is refused; parameters saved are read back with their operator; printed probabilities are those of the neutrinos the object has.", "quantifier": "every history of calls, mixing matrix, parameters, energy and position", "why_tests_cant": "An operator left over from earlier parameters gives plausible oscillations of another model.", "anchors": ["examples/NSI/NSI.h: Set_mutau", "examples/NSI/NSI.h: HI", "examples/NSI/NSI.h: AddToPreDerive", "examples/LV/LV.h: Set_LV_OpMatrix", "examples/LV/LV.h: HI", "examples/LV/LV.h: AddToReadHDF5"]}
{"id": "C89", "title": "The example cross sections are normalised", "statement": "The differential cross section of the example integrates over the outgoing energies allowed to its total cross section, which is the scale times the energy, is never negative and vanishes outside of the outgoing energies allowed, for charged and neutral currents; other currents are refused, and the share of the currents does not change their sum.", "quantifier": "every energy above zero, flavour and neutrino type", "why_tests_cant": "A numerical integral agrees only within its error and for the energies tried.", "anchors": ["examples/Xsections/exCross.cpp: TotalCrossSection", "examples/Xsections/exCross.cpp: SingleDifferentialCrossSection"]}
{"id": "C90", "title": "Rescaled layers of the Earth", "statement": "An Earth made from a table of layers with three factors has the radii and electron fractions of the table and its densities times the factor of their layer; giving factors anew has the effect of having made it with them; what is saved are its columns.", "quantifier": "every table of layers, default table and factors", "why_tests_cant": "The error shows only for tables of another length than the default one.", "anchors": ["examples/Bodies/exBody.cpp: EarthMod", "examples/Bodies/exBody.cpp: Mod", "src/body.cpp: EarthAtm::Serialize"]}
{"id": "C91", "title": "Adaptive quadrature always ends", "statement": "integrate, and with it the averages of cross sections, ends after finitely many evaluations for every integrand that is bounded between the limits, and for every integrand at all if the range does not touch zero; the outcome does not depend on how long one waits.", "quantifier": "every integrand, pair of limits (in either order), tolerance and supplied endpoint values", "why_tests_cant": "Non-termination cannot be observed by a test; the refinement depends on the values of an arbitrary integrand.", "anchors": ["include/nuSQuIDS/AdaptiveQuad.h: integrate", "include/nuSQuIDS/AdaptiveQuad.h: canSubdivide", "src/xsections.cpp: AverageTotalCrossSection"]}
{"id": "C92", "title": "Adaptive quadrature reports its quality truthfully", "statement": "After integrate the flag outOfTolerance is set exactly if some sub-interval that contributes to the result has an unacceptable uncertainty (its 4-point and 7-point estimates differ by more than the absolute tolerance aimed at); the uncertainty reported is that of the result by 13 points against 7 if nothing was subdivided, and otherwise the root of the summed squares of the differences on the contributing sub-intervals, scaled by the ratio of the errors on the whole range.", "quantifier": "every integrand, pair of limits, tolerance and run", "why_tests_cant": "Relates the report to every sub-interval of an unbounded refinement.", "anchors": ["include/nuSQuIDS/AdaptiveQuad.h: integrate", "include/nuSQuIDS/AdaptiveQuad.h: outOfTolerance", "include/nuSQuIDS/AdaptiveQuad.h: uncertainty"]}
{"id": "C93", "title": "Every zenith is evolved along its own track", "statement": "An atmospheric object always has one node per zenith, on the track of that zenith. Set_initial_state is accepted exactly if the array has one entry per zenith, energy, neutrino kind (if both are evolved) and flavour and the basis is flavour or mass; then every node is at the start of its track, otherwise nothing changes. EvolveState that succeeds advances every node by the length of its own track.", "quantifier": "every history of calls, number of zeniths, energies and flavours, every array shape and basis", "why_tests_cant": "Histories and grids are unbounded; a node on the wrong track gives plausible fluxes.", "anchors": ["include/nuSQuIDS/nuSQuIDS.h: nuSQUIDSAtm::nuSQUIDSAtm", "include/nuSQuIDS/nuSQuIDS.h: nuSQUIDSAtm::Set_initial_state", "include/nuSQuIDS/nuSQuIDS.h: nuSQUIDSAtm::EvolveState"]}
{"id": "C94", "title": "Interaction tables survive the state file entry by entry", "statement": "WriteStateHDF5 stores each interaction table under its own name without the padding of its rows: the entry of the dataset at any indices is that of the table. ReadStateHDF5 puts every entry back at the same indices, whether or not the rows are padded, with zero padding. A file whose tables have another size, or one without its targets or one of its tables, is refused. Files from before version 1.11 give every entry to the isoscalar nucleon and the tau spectra to both kinds of neutrino.", "quantifier": "every number of energies, targets, flavours and neutrino kinds, every content of the tables, every file with the eight tables", "why_tests_cant": "The padding depends on the number of energies modulo four, and a shifted row looks like another plausible cross section.", "anchors": ["src/nuSQuIDS.cpp: nuSQUIDS::WriteStateHDF5", "src/nuSQuIDS.cpp: nuSQUIDS::ReadStateHDF5", "src/nuSQuIDS.cpp: nuSQUIDS::InitializeInteractionVectors"]}
{"id": "C95", "title": "An atmospheric object survives its state file", "statement": "WriteStateHDF5 of an atmospheric object that holds an initial state succeeds and ReadStateHDF5 of the file, into a new object or one in use, gives an object with the same zeniths, energies and Earth, nodes that report the same as those saved and may be evolved, the same oscillation parameters and the same answer to every EvalFlavor query, on nodes or between; with interactions all nodes share the tables of the first; the settings are those of the object saved.", "quantifier": "every history of calls, number of zeniths, energies and flavours, every content of the nodes and every query", "why_tests_cant": "The nodes are written and read one by one under names made from rounded zeniths, the tables by one node only; histories and grids are unbounded.", "anchors": ["include/nuSQuIDS/nuSQuIDS.h: nuSQUIDSAtm::WriteStateHDF5", "include/nuSQuIDS/nuSQuIDS.h: nuSQUIDSAtm::ReadStateHDF5", "include/nuSQuIDS/nuSQuIDS.h: nuSQUIDSAtm::EvalFlavor", "src/nuSQuIDS.cpp: nuSQUIDS::ReadStateHDF5Internal"]}
{"id": "C96", "title": "The density profile of a body follows its table", "statement": "For every table a constructor accepts there is one continuous function per column that has the tabulated value at every row and stays at the value of the first and of the last row before and after the table, and at every position of every track of the body the density and the electron fraction (for the Sun the hydrogen fraction, from which it is derived) are these functions at the fractional distance from the centre, or for a linear profile at the position; so they are never undefined, never jump and are not negative if the table is not.", "quantifier": "every accepted table, every baseline up to the diameter, every impact parameter up to the radius, every position", "why_tests_cant": "The values between the rows and beyond the ends are those of an interpolation over all real positions and all tables; tests compare a few points of the tables shipped.", "anchors": ["src/body.cpp: VariableDensity::density", "src/body.cpp: Earth::density", "src/body.cpp: Sun::rdensity", "src/body.cpp: SunASnu::density", "src/body.cpp: EarthAtm::density", "src/tools.cpp: AkimaSpline::initialize"]}
{"id": "C97", "title": "What is read after an evolution is the solution of the Schrödinger equation in flavour space", "statement": "The stored matrix stands for a state in flavour space: in the mass basis after rotation by the mixing matrix, in the interaction basis after undoing the picture as well. EvalFlavor reads the diagonal of that state; Set_initial_state in flavours makes it diagonal with the given contents. While the stored matrix follows the equation handed to the integrator (PreDerive and HI), in either working basis, the state follows the Schrödinger equation with the vacuum Hamiltonian plus the potential of each flavour, reversed for antineutrinos; so what is read at any time is determined by the state at the start and does not depend on the working basis, and in vacuum it is the textbook oscillation probability.", "quantifier": "every number of flavours from three, mixing matrix, masses, energy, neutrino type, profile of density and electron fraction, every solution and every time", "why_tests_cant": "The interaction picture mixes time, projectors and Hamiltonian; a wrong sign or time offset agrees at t=0 and in special cases. Tests compare a few numbers in one basis.", "anchors": ["src/nuSQuIDS.cpp: nuSQUIDS::PreDerive", "src/nuSQuIDS.cpp: nuSQUIDS::EvolveProjectors", "src/nuSQuIDS.cpp: nuSQUIDS::HI", "src/nuSQuIDS.cpp: nuSQUIDS::EvalFlavorAtNode", "src/nuSQuIDS.cpp: nuSQUIDS::Set_initial_state", "src/nuSQuIDS.cpp: nuSQUIDS::Set_Basis"]}
{"id": "C98", "title": "Evolution with interactions keeps fluxes positive, determined from above, linear, and never makes neutrinos from nothing", "statement": "While the states follow the equation handed to the integrator (commutator with HI, anticommutator with GammaRho, plus InteractionsRho, with the tables, body and projectors as PreDerive and UpdateInteractions leave them), states that are positive at the start stay positive and no flavour content read later is negative, whatever interactions, tau regeneration, Glashow resonance and sources are on; the states at an energy node depend on the starting states at that node and above only; a weighted count of neutrinos that no reaction table increases never grows; combinations of evolutions with non-negative coefficients are evolutions; and with oscillations off each flavour keeps at least the exponential of minus the interaction lengths passed, exactly that at the highest node.", "quantifier": "every number of flavours from three, working basis, neutrino type, tables, options, profile of density, electron fraction and sources, every solution with positive start, every node, type, flavour and time", "why_tests_cant": "Positivity and causality in energy are statements about all solutions of a coupled system of matrix equations; tests see one numerical solution, where a small negative value is taken for rounding.", "anchors": ["src/nuSQuIDS.cpp: nuSQUIDS::PreDerive", "src/nuSQuIDS.cpp: nuSQUIDS::HI", "src/nuSQuIDS.cpp: nuSQUIDS::GammaRho", "src/nuSQuIDS.cpp: nuSQUIDS::InteractionsRho", "src/nuSQuIDS.cpp: nuSQUIDS::UpdateInteractions", "src/nuSQuIDS.cpp: nuSQUIDS::EvalFlavorAtNode"]}
{"id": "C99", "title": "A body adds the neutrinos it emits", "statement": "With neutrino sources enabled, the content of each energy node and type grows along the track by exactly the integral of what the body in force emits at the positions passed (injected_neutrino_flux), flavour by flavour when there are no oscillations and in total when there are; with interactions what is emitted is attenuated from the point of emission on, and a balanced count of neutrinos grows by no more than the emission. Emission only adds: no content is smaller with sources than without. What is added at a time depends neither on the times the integrator probed before nor on the bodies in force earlier, and a body that does not emit adds nothing. For the exponential source of the example the total gained is length*(exp(-x0/length)-exp(-x/length)).", "quantifier": "every number of flavours from three, working basis, neutrino type, emission profile, tables, every history of Set_NeutrinoSources, Set_Body and evaluations, every solution, node, type, flavour and time", "why_tests_cant": "The source term is added in three different places depending on the options; tests do not run a body that emits, let alone two bodies in a row or with all combinations of options.", "anchors": ["src/nuSQuIDS.cpp: nuSQUIDS::PreDerive", "src/nuSQuIDS.cpp: nuSQUIDS::InteractionsRho", "src/nuSQuIDS.cpp: nuSQUIDS::UpdateInteractions", "include/nuSQuIDS/nuSQuIDS.h: nuSQUIDS::Set_NeutrinoSources", "include/nuSQuIDS/body.h: Body::injected_neutrino_flux", "examples/Extended_Source/nu_source.h: EmittingVacuum::injected_neutrino_flux"]}
{"id": "C100", "title": "Evolving along several tracks composes", "statement": "Set_Body, Set_Track and EvolveState repeated for several bodies and tracks give what one evolution through the same sequence of media gives: the clock ends at the start plus the sum of the lengths, and states and readings depend only on the densities, electron fractions and sources met on the way, not on where the way is cut into tracks, at which positions of which bodies the pieces lie, or where the clock stood. In particular a track cut at any positions and evolved piece by piece, and in a uniform medium any tracks of the same total length, give the same readings as one track.", "quantifier": "every number of flavours from three, working basis, neutrino type, tables and options, every list of forward tracks through any bodies, every start state, node, type and flavour", "why_tests_cant": "The concatenation test cuts one vacuum track in the middle and compares within a tolerance; that every way of cutting a path gives the same answer, in matter, with interactions and sources, is a statement about all solutions and all cuts.", "anchors": ["src/nuSQuIDS.cpp: nuSQUIDS::Set_Body", "src/nuSQuIDS.cpp: nuSQUIDS::Set_Track", "src/nuSQuIDS.cpp: nuSQUIDS::EvolveState", "src/nuSQuIDS.cpp: nuSQUIDS::PreDerive", "test/track_concatenate.test.cpp: main"]}
{"id": "C101", "title": "Evolving there and back changes nothing", "statement": "Evolving along a track, reversing it with ReverseTrack and evolving again leaves the clock, the states and all readings as they were before, in vacuum and matter, with oscillations, interactions, tau regeneration and sources as long as the interaction rates along the track are bounded; and so does going along any number of tracks through any bodies and then back along each, reversed, in the opposite order.", "quantifier": "every number of flavours from three, working basis, neutrino type, tables and options, every list of tracks, every start state, node, type and flavour", "why_tests_cant": "The time reversal test follows one neutrino through a few bodies without interactions and compares within a tolerance; that going back undoes everything is a uniqueness statement about the equation of motion solved from its end.", "anchors": ["src/nuSQuIDS.cpp: nuSQUIDS::EvolveState", "src/nuSQuIDS.cpp: nuSQUIDS::Set_Track", "include/nuSQuIDS/body.h: Track::ReverseTrack", "test/time_reversal.test.cpp: main"]}
{"id": "C102", "title": "An evolution can be saved, read and continued", "statement": "An object saved with WriteStateHDF5 and read with ReadStateHDF5 into a new object stands at the same time with the same states and readings; and taken from there along any further bodies and tracks with Set_Body, Set_Track and EvolveState it can go wherever the saved object can go, and at the end its clock, states and readings are those the saved object has after the same tracks, whatever position the saved track stood at.", "quantifier": "every number of flavours from three, working basis, neutrino type, tables and options, every state reached, every list of further tracks, every node, type and flavour", "why_tests_cant": "The test saves one object halfway along one vacuum track without interactions and compares within a tolerance; that nothing the rest of the evolution depends on is lost in the file is a statement about every later evolution.", "anchors": ["src/nuSQuIDS.cpp: nuSQUIDS::WriteStateHDF5", "src/nuSQuIDS.cpp: nuSQUIDS::ReadStateHDF5", "src/nuSQuIDS.cpp: nuSQUIDS::EvolveState", "src/nuSQuIDS.cpp: nuSQUIDS::Set_Track", "test/track_concatenate_hdf5.test.cpp: main"]}
{"id": "C103", "title": "Positivisation leaves an exact evolution alone", "statement": "Switched on with Set_PositivityConstrain, positivisation only corrects what the numerical integration makes negative: if the contents of all nodes are nowhere negative at the start and the equation of motion is solved exactly, EvolveState with positivisation, in steps of any size, can evolve an object exactly when EvolveState without it can, and leaves it at the same time with the same states and readings.", "quantifier": "every number of flavours from three, working basis, neutrino type, sensible tables and options, every non-negative state, every track, every positive step whose number of steps fits an int, every node, type and flavour", "why_tests_cant": "A test of positivisation compares one evolution within a tolerance; that no step changes an exact solution and that the steps add up to the track is a statement about every medium, step and track.", "anchors": ["src/nuSQuIDS.cpp: nuSQUIDS::EvolveState", "src/nuSQuIDS.cpp: nuSQUIDS::PositivizeFlavors", "src/nuSQuIDS.cpp: nuSQUIDS::Set_PositivityConstrain", "src/nuSQuIDS.cpp: nuSQUIDS::Set_PositivityConstrainStep"]}
{"id": "C104", "title": "Bodies and tracks of first-version state files are restored", "statement": "Read from a state file of the first version, which has the identifier and parameters of the body and the parameters and position of the track, body and track are those whose GetId, GetBodyParams, GetTrackParams and GetX the file has, for every body class of that version; a file with an identifier that is not known or with too few parameters is rejected with an exception.", "quantifier": "every body of the seven classes, every track through it at every position, every identifier and list of parameters", "why_tests_cant": "No test reads such a file; a test would have one file per class at best, with default tables and heights.", "anchors": ["src/nuSQuIDS.cpp: nuSQUIDS::SetBodyTrack", "src/nuSQuIDS.cpp: nuSQUIDS::ReadStateHDF5", "include/nuSQuIDS/body.h: Body::GetBodyParams", "include/nuSQuIDS/body.h: Track::GetTrackParams"]}
{"id": "C105", "title": "Every evolution has exactly one result", "statement": "The equation of motion that PreDerive, HI, GammaRho and InteractionsRho give the integrator always has a solution, and only one: from every state without negative contents, forwards along any tracks through media whose density, electron fraction and emission are continuous within finitely many layers, with whatever combination of oscillations, interactions, tau regeneration, Glashow resonance and sources; without tau regeneration from every state and in both directions. So EvolveState, if it integrates exactly, can always be carried out and never has a choice: clock, states and readings at the end of any sequence of tracks are determined.", "quantifier": "every number of flavours from three, working basis, neutrino type, sensible tables and options, every layered medium, state and sequence of tracks", "why_tests_cant": "A test runs one evolution and sees one number; that the right-hand side never runs away, jumps or branches where a solution could end or split is a statement about all media and states.", "anchors": ["src/nuSQuIDS.cpp: nuSQUIDS::PreDerive", "src/nuSQuIDS.cpp: nuSQUIDS::HI", "src/nuSQuIDS.cpp: nuSQUIDS::GammaRho", "src/nuSQuIDS.cpp: nuSQUIDS::InteractionsRho", "src/nuSQuIDS.cpp: nuSQUIDS::UpdateInteractions", "src/nuSQuIDS.cpp: nuSQUIDS::EvolveState"]}
{"id": "C106", "title": "A low-pass filter removes fast oscillations and nothing else", "statement": "Set_EvolLowPassCutoff and Set_EvolLowPassScale make EvolveProjectors suppress what oscillates faster than the cut-off. Without a positive cut-off, in the mass basis, without oscillations, or if no two mass states oscillate faster than the lower end of the ramp, the equation of motion is the unfiltered one. Filtered projectors are Hermitian, have trace one and add up to one; oscillating neutrinos keep their number and no flavour falls below zero or exceeds the whole; if everything is filtered, no mass state changes. Absorption still removes the absorbed, and the evolution does not depend on the working basis. (The code keeps all but the last two.)", "quantifier": "every cut-off, ramp and filter function of the assumed kind, every number of flavours from three, object, medium, options, state and time", "why_tests_cant": "Tests with the filter compare a smooth curve with an oscillating one by eye; that a filtered projector can be negative, so that absorption creates neutrinos, needs three mass states with a cut-off between their frequencies and the right state.", "anchors": ["src/nuSQuIDS.cpp: nuSQUIDS::EvolveProjectors", "src/nuSQuIDS.cpp: nuSQUIDS::PreDerive", "src/nuSQuIDS.cpp: nuSQUIDS::Set_EvolLowPassCutoff", "src/nuSQuIDS.cpp: nuSQUIDS::Set_EvolLowPassScale", "src/nuSQuIDS.cpp: nuSQUIDS::HI", "src/nuSQuIDS.cpp: nuSQUIDS::GammaRho"]}
{"id": "C107", "title": "Solar survival probabilities are means of level probabilities", "statement": "The user contribution SolarTransitions diagonalises, in the flavour basis, the mass term plus the potential of the electron neutrino; its survival probability always exists, lies between zero and one and does not depend on the eigenvectors chosen if the levels are distinct; without matter it is the averaged vacuum probability; it is the one of the current parameters. nuFlux follows the table of components and limits; the integrals add every continuous component and, once and at its own energy, each line closer than one percent; PeeSquare is a mean of the probabilities over the production regions and a number at every energy of the model; every radius from centre to surface has a flux; a model can be made from its table; energies outside the range give no flux.", "quantifier": "every number of flavours, mixing, masses, energy, density and choice of eigenvectors; every radius, energy, component, table, set of nodes and probability", "why_tests_cant": "One run prints a curve for one mixing and the normal ordering. The wrong pairing needs an inverted ordering, the stale projector a setter after construction, the uninitialised abscissa often happens to be zero, and the ends of the energy range are single points.", "anchors": ["resources/user_contributions/SolarTransitions/SolarProbabilities.cpp: SOP::SolarOscillationProbability", "resources/user_contributions/SolarTransitions/SolarProbabilities.cpp: SOP::Hamiltonian", "resources/user_contributions/SolarTransitions/SolarProbabilities.cpp: SOP::PeeSquare", "resources/user_contributions/SolarTransitions/SolarProbabilities.cpp: SOP::RadialIntegratedFluxes", "resources/user_contributions/SolarTransitions/SolarModel.cpp: SolarModel::splineinit", "resources/user_contributions/SolarTransitions/SolarModel.cpp: SolarModel::nuFlux"]}
{"id": "C108", "title": "The matrices of SUBasis are a basis, and states can be printed in it", "statement": "SUBasis of the Python tools gives one matrix per component: the identity first, then hermitian matrices without trace, orthogonal to each other and all of the same size, so that every hermitian matrix has components and they are unique; they are the matrices SQuIDS has the components of. _PrintSUVector adds them up to the matrix of a vector, PrintState does so for each node and refuses other numbers, and GetState of Python gives the state that GetState of C++ gives, with and without the number of the density matrix. (The code keeps the part before the semicolon, and reads the states of nodes if the density matrix is given.)", "quantifier": "every number of flavours, component, hermitian matrix, vector, list of states, node and density matrix", "why_tests_cant": "No test runs the Python tools; a look at the matrices for three flavours would not show that the recursion gives a complete orthogonal system for every number of flavours, nor the sign, and a call without the second argument often happens to find a zero there.", "anchors": ["resources/python/bindings/nuSQUIDSTools.py: _FArray", "resources/python/bindings/nuSQUIDSTools.py: __DirectSum", "resources/python/bindings/nuSQUIDSTools.py: SUBasis", "resources/python/bindings/nuSQUIDSTools.py: _PrintSUVector", "resources/python/bindings/nuSQUIDSTools.py: PrintState", "resources/python/src/nuSQUIDSpy.h: RegisterBasicNuSQuIDSPythonBindings", "include/nuSQuIDS/nuSQuIDS.h: nuSQUIDS::GetState"]}
{"id": "C109", "title": "Arrays too large for 64 bits are refused", "statement": "A multidimensional array is made, or grown, only if all its elements fit: otherwise constructor and insert throw. So every index within the extents of an array that exists has an element of its own, and offsets never wrap around. (True if the product of the extents is below 2^64.)", "quantifier": "every rank and list of extents of 64 bits, every size of the memory, every index, insertion and value", "why_tests_cant": "The extents that matter have a product of 2^64 or more, which a test would have to guess; the wrapped product asks for little or no memory, so nothing fails where the array is made.", "anchors": ["include/nuSQuIDS/marray.h: marray::compute_total_size", "include/nuSQuIDS/marray.h: marray::marray", "include/nuSQuIDS/marray.h: marray::insert", "include/nuSQuIDS/marray.h: marray::operator[]"]}
{"id": "C110", "title": "Oscillations may be switched off and on between evolutions", "statement": "Set_IncludeOscillations can be called at any time: it changes nothing that is read at that moment, and from then on flavours are changed by interactions alone (off) or oscillate from where they are (on), with projectors on the flavours themselves, the same at all energies while off. (True if a new initial state is set after the switch, whatever happened before. Without one, mass contents are safe; flavour contents jump in the interaction basis, the mass basis goes on as before, and projectors of the last step stay in use.)", "quantifier": "every number of flavours, object, working basis, time, medium, node and type, and both settings", "why_tests_cant": "Tests choose the setting once, before the initial state. The jump is invisible at the start of the clock, in the mass basis and after whole oscillations.", "anchors": ["src/nuSQuIDS.cpp: nuSQUIDS::Set_IncludeOscillations", "src/nuSQuIDS.cpp: nuSQUIDS::H0", "src/nuSQuIDS.cpp: nuSQUIDS::iniH0", "src/nuSQuIDS.cpp: nuSQUIDS::PreDerive", "src/nuSQuIDS.cpp: nuSQUIDS::HI", "src/nuSQuIDS.cpp: nuSQUIDS::EvalFlavorAtNode", "src/nuSQuIDS.cpp: nuSQUIDS::UpdateInteractions"]}
{"id": "C111", "title": "Neutrinos of an atmospheric object go from the top of its atmosphere to the surface", "statement": "Whatever Earth an atmospheric object has been given, and whatever height its atmosphere has been set to, the neutrinos of every zenith node start at the top of the atmosphere and end at the surface, where the detector is. (True as constructed. After Set_EarthModel or SetAtmosphereHeight true exactly if the height is still the one at construction, 22 km: the tracks are not rebuilt, so with a higher atmosphere neutrinos stop above the surface, with a lower one they end below it, in every direction.)", "quantifier": "every list of cosines, Earth table, height, and every sequence of Set_EarthModel and SetAtmosphereHeight", "why_tests_cant": "Tests construct an object and evolve it with the Earth it made; the height has to be changed afterwards, and then results are plausible but belong to another path.", "anchors": ["include/nuSQuIDS/nuSQuIDS.h: nuSQUIDSAtm::nuSQUIDSAtm", "include/nuSQuIDS/nuSQuIDS.h: nuSQUIDSAtm::Set_EarthModel", "src/body.cpp: EarthAtm::SetAtmosphereHeight", "src/body.cpp: EarthAtm::MakeTrackWithCosine", "src/body.cpp: EarthAtm::density"]}
{"id": "C112", "title": "A state file that cannot be read does no harm", "statement": "If ReadStateHDF5 throws, the object is as it was, or at least refuses to be evolved until a new initial state is set, and is never asked for elements its arrays do not have. (True if there is no such file or group, if the object had no state, if the file is of an object of the same kind, and for everything that fails after the object has been initialised again, such as missing tables. False before: numneu, NT and the switches are read into the object before the versions, the body and the track are looked at, so after the refusal of a newer file the object goes on, with the flavours, types, switches or body of the file and its own arrays and state.)", "quantifier": "every object, every file, every pair of library versions and every point of failure", "why_tests_cant": "Needs a file of a later version, or an unknown track, read into an object in use, and use of the object after the exception was caught.", "anchors": ["src/nuSQuIDS.cpp: nuSQUIDS::ReadStateHDF5", "src/nuSQuIDS.cpp: nuSQUIDS::init", "src/nuSQuIDS.cpp: nuSQUIDS::EvolveState", "src/nuSQuIDS.cpp: nuSQUIDS::EvolveProjectors", "src/nuSQuIDS.cpp: nuSQUIDS::EvalFlavor"]}
{"id": "C113", "title": "A vector made from a Python object has the elements of the object", "statement": "A Python list, tuple, range or other iterable of numbers given where the library wants a std::vector<double> arrives with the same numbers in the same order; whatever contains something that is no number, strings, and whatever raises an exception while it is gone through, are refused, and a number that does not fit raises an exception. A vector given to Python is a list of its numbers, and comes back as it was. (True of lists and tuples below 2^31 elements and of ranges, and no iterable that can be gone through twice is ever converted to other numbers. Generators are refused although the code admits iterators; an iterator with a length is used up by the test and arrives empty; lists of 2^31 elements or more are refused or abort, as does an object with a wrong length; of a dictionary the keys are taken.)", "quantifier": "every object, number of elements and elements", "why_tests_cant": "The project has no tests of the conversion; the test and the construction go through the object separately, which shows only for objects that cannot be gone through twice, and the length is cut to 32 bits only for very long lists.", "anchors": ["resources/python/inc/container_conversions.h: from_python_sequence::convertible", "resources/python/inc/container_conversions.h: from_python_sequence::all_elements_convertible", "resources/python/inc/container_conversions.h: from_python_sequence::construct", "resources/python/inc/container_conversions.h: variable_capacity_policy::set_value", "resources/python/src/nuSQUIDSpy.h: VecToList::convert"]}
{"id": "C114", "title": "The flags of the averaged evaluations arrive from Python and report what was averaged", "statement": "A Python sequence of flags given to an averaged evaluation arrives as a std::vector<bool> with the same flags in the same order, other objects are refused, the value is the one the library computes, and afterwards the flags of the caller say which scales were averaged. (True up to the last part, below 2^31 flags. The report is lost: the three functions for Python, and the atmospheric evaluation in C++ too, work on a copy. Strings are taken for true flags, of more than 2^32 flags the remainder arrives, and a sequence that cannot give an item it claims to have leads to the use of a null pointer.)", "quantifier": "every sequence, number of flags, flags and evaluation", "why_tests_cant": "The project has no tests of the Python functions, and the returned value does not depend on the report.", "anchors": ["resources/python/src/nuSQUIDSpy.cpp: ListToVectorBool::convertible", "resources/python/src/nuSQUIDSpy.cpp: ListToVectorBool::construct", "resources/python/src/nuSQUIDSpy.cpp: EvalFlavorWrapperEnergy", "resources/python/src/nuSQUIDSpy.cpp: EvalFlavorWrapper", "resources/python/src/nuSQUIDSpy.cpp: EvalFlavorWrapperAtm", "include/nuSQuIDS/nuSQuIDS.h: nuSQUIDSAtm::EvalFlavor"]}
{"id": "C115", "title": "An object for one type, or for some energies, gives what an object for both types, or for all energies, gives", "statement": "An object for neutrinos or antineutrinos alone, given what an object for both types is given, sets the same initial states, has the same projectors and tables, and evolves and is read like that type of the other; without interactions the same holds for an object for some of the energies. (True without tau regeneration, which couples the types by design. False with sources, interactions and no oscillations: sources are added once for each type an object has.)", "quantifier": "every number of flavours, energies, tables, medium, list of tracks, initial values, node, type and time, and both directions", "why_tests_cant": "Tests run one object at a time; objects for one and both types are never compared, and few of the indices of types and energies on which tables, projectors and rates depend occur in any one test.", "anchors": ["src/nuSQuIDS.cpp: nuSQUIDS::Set_initial_state", "src/nuSQuIDS.cpp: nuSQUIDS::SetIniFlavorProyectors", "src/nuSQuIDS.cpp: nuSQUIDS::GetCrossSections", "src/nuSQuIDS.cpp: nuSQUIDS::PreDerive", "src/nuSQuIDS.cpp: nuSQUIDS::HI", "src/nuSQuIDS.cpp: nuSQUIDS::UpdateInteractions", "src/nuSQuIDS.cpp: nuSQUIDS::InteractionsRho", "src/nuSQuIDS.cpp: nuSQUIDS::EvalFlavorAtNode"]}
{"id": "C116", "title": "What is put into an HDF5 file comes out, and nothing stays open", "statement": "Attributes and arrays that the helper functions add to an object of an HDF5 file are read back as they were, and nothing else in it changes; what cannot be added or read is reported; and every function closes the identifiers it opened, whether it returns or throws, so that a file that is closed is closed. (True of numbers, strings that are not empty and arrays under free names, and of the identifiers exactly if no string is added, no string is read as a number by the functions of the bodies and no array is read with another rank; a file is kept open exactly in the last two cases. An empty string comes back as a null byte, an attribute whose name is taken is silently not written, names are read from numbers, and the switch of the interactions is read into 20 bytes whatever its size.)", "quantifier": "every history of calls on an object, every name, number, string and rank", "why_tests_cant": "Identifiers that stay open show only as files that cannot be opened again, after failures or thousands of files; lost attributes and empty strings do not occur in the state files of the tests.", "anchors": ["include/nuSQuIDS/tools.h: addH5Attribute", "include/nuSQuIDS/tools.h: readH5Attribute", "src/tools.cpp: addH5Attribute<std::string>", "src/tools.cpp: readH5Attribute<std::string>", "include/nuSQuIDS/tools.h: writeArrayH5", "include/nuSQuIDS/tools.h: readArrayH5", "src/body.cpp: addStringAttribute", "src/body.cpp: addDoubleAttribute", "src/body.cpp: readDoubleAttribute", "src/body.cpp: addUIntAttribute", "src/body.cpp: readUIntAttribute", "src/nuSQuIDS.cpp: getStringAttribute", "src/nuSQuIDS.cpp: nuSQUIDS::ReadStateHDF5"]}
{"id": "C117", "title": "The characters of a text table mean what they say", "statement": "A text file is read, character by character, as the table of the numbers that stand in it: every decimal number, in whichever of the usual ways it is written, is taken whole and with its value, nothing else is taken for a number, blanks and line ends may be chosen freely, and what is not a number is refused; what quickwrite prints for a number is a decimal number with the value rounded to 15 digits, and the file is read as the table that was printed. (True except that what is not a number is not refused: it ends its row silently, also directly behind a number, as in comma separated values; numbers need no blank between them; columns with infinities or NaN disappear with all that follow; and the largest double is printed as a number that is out of range.)", "quantifier": "every text, every table of doubles and every way to write a decimal number", "why_tests_cant": "There are infinitely many ways to write numbers and to place blanks; the tables of the tests are regular, and damaged or differently formatted files lose columns without any error.", "anchors": ["src/tools.cpp: quickread", "src/tools.cpp: quickwrite"]}
{"id": "C118", "title": "An atmospheric state file that cannot be read does no harm", "statement": "If ReadStateHDF5 of an atmospheric object throws, the object is as it was, or at least refuses to be evolved, asked or written, and a good file can be read afterwards as if nothing had happened. (True if there is no such file, for objects that were not ready, for writing, for evolution with one thread, and for a later reading. False else: the grid is replaced and the nodes are made anew before the first one is read, while the flags keep their values, so that an object that was ready says it still is; a query beyond the zenith of the node that failed reads the state of a node that has none, with several threads evolution reports success, and a file without zeniths or energies is not refused at all.)", "quantifier": "every object, every file, every pair of library versions and every point of failure", "why_tests_cant": "Needs a file that is incomplete or of a later version read into an object in use, and use of the object after the exception was caught.", "anchors": ["include/nuSQuIDS/nuSQuIDS.h: nuSQUIDSAtm::ReadStateHDF5", "include/nuSQuIDS/nuSQuIDS.h: nuSQUIDSAtm::EvalFlavor", "include/nuSQuIDS/nuSQuIDS.h: nuSQUIDSAtm::EvolveState", "src/nuSQuIDS.cpp: nuSQUIDS::ReadStateHDF5Internal", "src/nuSQuIDS.cpp: nuSQUIDS::ReadStateHDF5"]}
{"id": "C119", "title": "The progress bar shows the part of the way that is behind", "statement": "With the progress bar on, every hundredth evaluation of the derivative and the end of EvolveState write a line of fixed width with as many full cells as seventieths of the way and as percentage as many hundredths as are behind, forwards and backwards; with it off nothing is written, and it never disturbs an evolution. In the atmospheric object each node's bars are below its own zenith, threads draw no bars, and all switches are afterwards as before. (Undefined for tracks of no length and after 2^31 evaluations; threads overwrite the switches of nodes that differ from the object's.)", "quantifier": "every track, position, sequence of evaluations, state of the counter, grid and number of threads", "why_tests_cant": "A test would have to capture the terminal, use degenerate tracks, or evaluate the derivative two thousand million times.", "anchors": ["src/nuSQuIDS.cpp: nuSQUIDS::ProgressBar", "src/nuSQuIDS.cpp: nuSQUIDS::PreDerive", "src/nuSQuIDS.cpp: nuSQUIDS::EvolveState", "include/nuSQuIDS/nuSQuIDS.h: nuSQUIDSAtm::EvolveState", "include/nuSQuIDS/nuSQuIDS.h: nuSQUIDSAtm::Set_ProgressBar"]}
{"id": "C120", "title": "Decoherence settings of the atmospheric object are those of every zenith", "statement": "After any sequence of the atmospheric object's calls about decoherence, every zenith has the matrix accepted last and the power, energy scale and switch given last, exactly as one object on which the same calls were made; the getters report them and are refused if there is no zenith; a call is refused exactly if the object of one zenith refuses it and then changes nothing anywhere. (Full matrices for four or more flavours are always refused, after reading a state file nothing is set up, and the getters do not see a setting made on one node.)", "quantifier": "every number of zeniths and flavours, matrix and history of calls", "why_tests_cant": "Tests set decoherence once, with three flavours, on an object made from grids.", "anchors": ["examples/Decoherence/nuSQUIDSDecoh.h: nuSQUIDSDecohAtm", "include/nuSQuIDS/nuSQuIDS.h: nuSQUIDSAtm::GetnuSQuIDS", "include/nuSQuIDS/nuSQuIDS.h: nuSQUIDSAtm::ReadStateHDF5"]}
{"id": "C121", "title": "The settings of the integrator reach the zeniths they are for", "statement": "After any sequence of calls each zenith integrates with the step, step bounds and error bounds given last to all zeniths, to its index or to its own node, and with the method given last; what was never given is as in a new object; a step changes its sign with every evolution backwards. A node that does not exist is refused and a state file keeps the settings. (The overloads with an index do not check it, and a state file carries none of the settings.)", "quantifier": "every history of calls, number of zeniths and value", "why_tests_cant": "Wrong settings change accuracy and running time of some zeniths only.", "anchors": ["include/nuSQuIDS/nuSQuIDS.h: nuSQUIDSAtm::Set_h", "include/nuSQuIDS/nuSQuIDS.h: nuSQUIDSAtm::Set_h_max", "include/nuSQuIDS/nuSQuIDS.h: nuSQUIDSAtm::Set_h_min", "include/nuSQuIDS/nuSQuIDS.h: nuSQUIDSAtm::Set_abs_error", "include/nuSQuIDS/nuSQuIDS.h: nuSQUIDSAtm::Set_rel_error", "include/nuSQuIDS/nuSQuIDS.h: nuSQUIDSAtm::Set_GSL_step", "src/nuSQuIDS.cpp: nuSQUIDS::init", "src/nuSQuIDS.cpp: nuSQUIDS::EvolveState"]}
{"id": "C122", "title": "The Earth and the Sun that come with the project are ordinary matter everywhere", "statement": "The bodies made without naming a table are accepted by their constructors, and at every position of every track, between the rows of the table as well as at them, the density and the electron fraction stay in the range of real matter: for the Earth between 1.02 and 13.0886 g/cm3 and between 0.4555 and 0.5058, above its surface a positive density of at most 0.0012 and 0.494; for the Sun up to 0.98308 of its radius between 0.000945 and 150.6 and between 0.6823 and 0.8792, and beyond that nothing. So in the default Earth the thresholds below which the code changes the potential or the number of nucleons are never met.", "quantifier": "every track up to the diameter, impact parameter up to the radius, atmosphere height, position and unit", "why_tests_cant": "The interpolation can leave the range of the rows anywhere between them; tests look at single points.", "anchors": ["src/body.cpp: Earth::Earth", "src/body.cpp: Sun::Sun", "src/body.cpp: SunASnu::SunASnu", "src/body.cpp: EarthAtm::EarthAtm", "src/body.cpp: Earth::density", "src/body.cpp: EarthAtm::density", "src/body.cpp: Sun::rdensity", "src/body.cpp: Sun::rxh", "src/tools.cpp: AkimaSpline::initialize", "data/astro/EARTH_MODEL_PREM.dat", "data/astro/bs05_agsop.dat"]}
{"id": "C123", "title": "Averaged out over a long way through vacuum, the beam has the flavour ratios of the mixing matrix", "statement": "A single-energy beam of any flavour contents that has travelled through vacuum, read with the scale set to zero, has in each flavour the sum over initial flavours of the content times the sum over mass states of |U|^2 |U|^2, as computed in the example from the transformation matrix; the same holds for any scale that all phases exceed. With a scale that none exceeds, the reading is that without averaging. The sum over flavours is the total of the beam.", "quantifier": "three or more flavours, neutrinos or antineutrinos, all mixing matrices, masses, energies, initial contents, distances and scales", "why_tests_cant": "The example prints both numbers for one mixing matrix and leaves the comparison to the reader; equal masses are never tried.", "anchors": ["examples/Astrophysical_neutrino_flavor_ratio/main.cpp: main", "src/nuSQuIDS.cpp: nuSQUIDS::EvalFlavor", "src/nuSQuIDS.cpp: nuSQUIDS::Set_initial_state", "src/nuSQuIDS.cpp: nuSQUIDS::PreDerive", "src/nuSQuIDS.cpp: nuSQUIDS::HI"]}
{"id": "C124", "title": "The library finds its data: those named in the environment, of the source, or installed with it", "statement": "getResourcePath returns the directory named by NUSQUIDS_DATA_PATH if that is set. Otherwise the library as built returns the data directory of the source and the library written by make install the one the data are installed to, wherever in the library the flag between the two lies. Installing keeps the length of the library and changes no byte but flags, from A to B; installing again changes nothing.", "quantifier": "every library as a sequence of bytes, every position of the flag, all surroundings of it, environments and directories", "why_tests_cant": "Tests run in the build tree; the installed library is patched by sed and is tested by nothing.", "anchors": ["src/resources.cpp: getResourcePath", "configure: getInstallBit", "configure: REPLACE_INSTALL_FLAG"]}
{"id": "C125", "title": "The errors of the integrator add up but do not grow", "statement": "If each step of the integrator misses by at most some amount where the exact solution of the equation it is given would have led from where the step began (sizes measured by the root of the sum of the squares of all entries), then, as long as neutrinos only oscillate, no flavour content read at the end is further from that of the exact solution than the sum of these amounts and of the error of the initial state; in particular two beams that start close to each other arrive as close. With interactions, too, an error at a node does not grow if the states at all higher energies are without error.", "quantifier": "all working bases, media, mixings, numbers and lengths of steps, exact or not, with any errors and any initial error, flavours, types and nodes", "why_tests_cant": "Tests compare with stored outputs to a few digits at the tolerance used; how errors of one step spread over a long path is not visible in them.", "anchors": ["src/nuSQuIDS.cpp: EvolveState", "src/nuSQuIDS.cpp: PreDerive", "src/nuSQuIDS.cpp: HI", "src/nuSQuIDS.cpp: GammaRho", "src/nuSQuIDS.cpp: EvalFlavorAtNode"]}
{"id": "C126", "title": "The test script reports what the tests did", "statement": "The report of run_tests has one entry for each test, in order. It says Pass exactly if the test has a reference output, compiles, runs and prints the reference (or, for a test that must not compile, if the required error appears and the cleaned test runs), NOT RUN exactly if the reference is missing, and that a failure was expected exactly if the test failed and is listed. Below the entry stands what that test had to say. The numbers of the last line count these entries, and a failure shows in the exit status.", "quantifier": "all lists of tests, names, references, results of the compiler and the tests, lists of expected failures, and every way diff may print a difference", "why_tests_cant": "Nothing tests the script that runs the tests; all other tests are believed because of it.", "anchors": ["test/run_tests", "configure: target test of the Makefile"]}
{"id": "C127", "title": "With new physics the readings solve the Schrödinger equation with the new term", "statement": "While the stored state follows the equation of motion of the example classes for non-standard interactions or Lorentz violation, what is read for each flavour is the diagonal element of the solution, with the same start, of the Schrödinger equation in flavour space with vacuum and matter as without them plus the operator last given: three times the potential of electrons times the strength between muon and tau, or the operator times the power of the energy, reversed for antineutrinos. The total flux is conserved and no flavour becomes negative or exceeds it. Without an operator the evolution is refused.", "quantifier": "all media along the track, energies, masses, mixings, histories of setters, strengths, operators and powers, states and times", "why_tests_cant": "The examples have no test; their results are only plotted, for one choice of basis and without CP violation.", "anchors": ["examples/NSI/NSI.h:14-51", "examples/LV/LV.h:23-74", "src/nuSQuIDS.cpp:278-298 nuSQUIDS::PreDerive", "src/nuSQuIDS.cpp:334-361 nuSQUIDS::HI"]}
{"id": "C128", "title": "The evolution with decoherence is the damped one", "statement": "While the stored state follows the derivative with decoherence switched on, at a rate that is the one asked for times the given power of the energy: with neutrino loss every reading is that of the evolution without decoherence times the exponential of minus rate times distance; with randomised states the reading tends exponentially to an equal share for each flavour and the total is kept; with randomised phases, in vacuum, the mass states keep their shares and each coherence is damped exponentially. From a positive start the readings stay between zero and the total. A matrix with a zero first row never changes the total. Switched off, or if SQuIDS was never told to ask for the term, the evolution is the ordinary one.", "quantifier": "all numbers of flavours of at least three, media along the track, energies, masses, mixings, histories of calls, rates, working bases, states and times", "why_tests_cant": "The example has no test; its main program plots one pre-built model for one choice of parameters.", "anchors": ["examples/Decoherence/nuSQUIDSDecoh.cpp:151-161 Set_DecoherenceGammaMatrix", "examples/Decoherence/nuSQUIDSDecoh.cpp:198-224 DRho, InteractionsRho", "src/nuSQuIDS.cpp:374-387 nuSQUIDS::InteractionsRho", "src/nuSQuIDS.cpp:334-361 nuSQUIDS::HI"]}
{"id": "C129", "title": "The script configure does what its options say", "statement": "After any sequence of the options of the help text every directory has the value last given to it, whether directly or as that of a package, and the Python bindings are switched on exactly if asked for. Help ends the script with success, any other argument with an error. A copy of GSL, HDF5 or SQuIDS that is given and is there is used; without one, that or the automatically found one, nothing is configured. HDF5 is found exactly if one of the directories of its compiler wrapper has the library and one has the headers, and what is used are the first of each; the Python library that is found is the one linked. The Python bindings are built exactly if asked for and if Python, NumPy and, in one of the places, the headers of Boost and its library for Python are there, and with these. The installation goes to the prefix given. The version number and its three parts determine each other.", "quantifier": "all sequences of arguments, values of options, lists of directories, contents of the file system and version numbers", "why_tests_cant": "No test runs the script with any options; it is run once by hand in front of the build.", "anchors": ["configure:442-512 options", "configure:514-565 packages given by hand", "configure:602-604 ensure_found", "configure:130-149 find_hdf5", "configure:220-247 try_find_python", "configure:249-309 try_find_boost", "configure:567-600 PYTHON_BINDINGS", "configure:606-610 PREFIX", "configure:349-355 VERSION"]}
{"id": "C130", "title": "Oscillations in matter have the symmetries of their equation", "statement": "Running an experiment backwards, through the medium in reverse order and with complex conjugate mixing, exchanges the initial and the final flavour: what the first reads in flavour b when started in a, the second reads in a when started in b; with fluxes instead of single flavours, the final contents weighed with the other's initial contents agree. Through the Earth from end to end, and without CP phases, the same object gives the same for a to b as for b to a. Equal contents of all flavours stay equal in any medium. Of what runs from each single flavour give in one flavour, the sum is one. In vacuum only the ratio of distance and energy counts.", "quantifier": "all numbers of flavours, mixing angles, phases, masses, energies, both working bases, neutrinos and antineutrinos, all profiles continuous except at finitely many places, all accepted tables of the Earth and all chords", "why_tests_cant": "Tests compare a few probabilities at fixed parameters with stored numbers; none runs a medium backwards.", "anchors": ["src/nuSQuIDS.cpp:334-360 HI", "src/nuSQuIDS.cpp:287-289 PreDerive", "src/nuSQuIDS.cpp:1520-1528 EvalFlavorAtNode", "src/body.cpp:370-416 Earth::density, Earth::ye"]}
