{"id": "C01", "title": "Range volume and strides are row-major for every construction history", "statement": "After any sequence of range constructions, resizes, extrudes, expands, shifts, sets and assignments, stride(i) is the product of length(j) over j>i (so the last stride is 1), volume() is the product of all lengths (0 for a zero-dimensional range), and length(i)=upper(i)-lower(i).", "quantifier": "all dimension counts, all integer bounds, all finite sequences of range API calls", "why_tests_cant": "dimension count and bounds are unbounded and the claim is about every mutation history", "anchors": ["src/lib/range.cpp: range::setup, extrude, expand, shift, set, resize, operator=, volume, stride, length", "src/lib/range.h"]}
{"id": "C02", "title": "Range edits touch only the dimension they name", "statement": "set(d,lo,hi) makes dimension d exactly [lo,hi) and leaves all others alone; expand(d,a,b) adds a/b to the bounds of d; shift(d,s) translates d and preserves every length, every stride and the volume; extrude(lo,hi) appends one dimension and multiplies the volume of a non-empty-dimensional range by hi-lo. An out-of-range d is undefined behaviour, never a silent success.", "quantifier": "all ranges, all dimensions, all integer arguments", "why_tests_cant": "infinite input space", "anchors": ["src/lib/range.cpp: set, expand, shift, extrude"]}
{"id": "C03", "title": "includes() is box containment", "statement": "For ranges with positive lengths, a.includes(b) holds exactly when both have the same number of dimensions and every cell of b is a cell of a; includes is reflexive and transitive, and mutual inclusion means operator==.", "quantifier": "all pairs/triples of ranges", "why_tests_cant": "quantifies over all cells of all boxes", "anchors": ["src/lib/range.cpp: includes", "src/lib/range.h: operator=="]}
{"id": "C04", "title": "Range equality is an equivalence and determines everything observable", "statement": "operator== is reflexive, symmetric, transitive, agrees with equality of bounds, != is its negation, and equal ranges report the same strides and volume; copying or assigning a range yields an equal one.", "quantifier": "all ranges", "why_tests_cant": "infinite input space", "anchors": ["src/lib/range.h: operator==, operator!=", "src/lib/range.cpp: range(const range&), operator="]}
{"id": "C05", "title": "An indexer visits every cell of its sub-range exactly once, in row-major order, and stops", "statement": "For every sub-range with positive lengths contained in the super-range, the loop for(idx=indexer(sub,sup); idx.exists(); idx.next()) terminates after exactly sub.volume() iterations; the index tuples seen are exactly the cells of sub, each once, in lexicographic (last dimension fastest) order.", "quantifier": "all dimension counts, all sub/super ranges, all loop bodies", "why_tests_cant": "sizes and dimensions unbounded; termination is a universal claim", "anchors": ["src/lib/indexer.cpp: indexer(sub,sup), next, recursive_increment_dim, increment, exists"]}
{"id": "C06", "title": "linear_index is always the row-major offset of the current index, and is a bijection", "statement": "At every step of such a traversal linear_index() equals sum((index(d)-sup.lower(d))*sup.stride(d)), lies in [0, sup.volume()), and two different cells never share a linear index; every offset in [0,volume) is some cell's.", "quantifier": "all reachable indexer states", "why_tests_cant": "inductive invariant over all steps and shapes", "anchors": ["src/lib/indexer.cpp: linear_index, recursive_increment_dim, increment"]}
{"id": "C07", "title": "Indexers over foreign ranges are empty", "statement": "If the requested sub-range is not included in the super-range (including a different number of dimensions, or zero dimensions), exists() is false from the start and the loop body never runs.", "quantifier": "all pairs of ranges", "why_tests_cant": "negative claim over all inputs", "anchors": ["src/lib/indexer.cpp: indexer(sub,sup)"]}
{"id": "C08", "title": "final_linear_index is one past the last visited offset", "statement": "For every non-empty included sub-range, final_linear_index() is 1 + the linear index of the last cell of the sub-range, and every visited linear index lies in [linear_index at start, final_linear_index()).", "quantifier": "all sub/super ranges", "why_tests_cant": "used as the loop bound of every solver kernel, for every shape", "anchors": ["src/lib/indexer.cpp: final_linear_index"]}
{"id": "C09", "title": "Iterating an empty sub-range does nothing", "statement": "Iterating a sub-range that is included in the super-range but has zero length in some dimension runs the loop body zero times.", "quantifier": "all included sub-ranges with an empty dimension", "why_tests_cant": "termination claim over all shapes (FALSE of the code: the loop never terminates)", "anchors": ["src/lib/indexer.cpp: indexer(sub,sup), recursive_increment_dim", "src/lib/range.cpp: includes"]}
{"id": "C10", "title": "increment/decrement move the indexer by one cell and undo each other", "statement": "increment(d) then decrement(d) restores index and linear_index, increments in different dimensions commute, and after any sequence of them linear_index() is still the row-major offset of the current index.", "quantifier": "all indexers and all finite sequences of increments/decrements", "why_tests_cant": "unbounded histories", "anchors": ["src/lib/indexer.cpp: increment, decrement"]}
{"id": "C11", "title": "Storage size always equals the range volume", "statement": "After any sequence of constructions, resizes, fills, pulls and swaps between same-shape containers, the container holds exactly volume() elements, so element access through any indexer made by the container while it exists is in bounds.", "quantifier": "all histories of container operations, all shapes", "why_tests_cant": "unbounded histories", "anchors": ["src/lib/indexer_interface.h: resize, indexer, operator[], swap, pull, fill"]}
{"id": "C12", "title": "fill(range,value) writes exactly the cells of the range", "statement": "For a sub-range without empty dimensions: after fill(sub,v) every cell of sub reads v and every other cell is unchanged; if sub is not inside the container an exception is thrown and nothing changes. fill(v) makes every cell v.", "quantifier": "all containers, sub-ranges without empty dimensions (for included empty ones the loop does not end, C09), values", "why_tests_cant": "all shapes and contents", "anchors": ["src/lib/indexer_interface.h: fill"]}
{"id": "C13", "title": "pull copies the k-th source cell to the k-th destination cell and nothing else", "statement": "pull(src,from,to) with from, to non-empty, inside their containers and of equal volume stores the k-th cell (row-major) of from into the k-th cell of to for every k; all other destination cells are unchanged; for equal shapes this is a translation. A volume mismatch throws and changes nothing.", "quantifier": "all shapes, contents and range pairs", "why_tests_cant": "all shapes and contents", "anchors": ["src/lib/indexer_interface.h: pull(interface,from,to)"]}
{"id": "C14", "title": "pull(src) makes this container's contents equal to src's", "statement": "After a.pull(b) for containers of equal volume, the k-th cell of a equals the k-th cell of b.", "quantifier": "all pairs of equal-volume containers", "why_tests_cant": "all shapes (FALSE of the code when the ranges differ: arguments are swapped and nothing is copied)", "anchors": ["src/lib/indexer_interface.h: pull(interface)"]}
{"id": "C15", "title": "swap exchanges contents and is an involution", "statement": "a.swap(b) exchanges the element sequences, leaves both ranges alone, doing it twice restores both, and a volume mismatch throws with both unchanged.", "quantifier": "all containers", "why_tests_cant": "all contents", "anchors": ["src/lib/indexer_interface.h: swap"]}
{"id": "C16", "title": "Pointer access by global coordinates agrees with indexer access", "statement": "data(index) for a cell inside the container addresses the same element as operator[] through an indexer positioned at that cell, for every cell and shape.", "quantifier": "all cells of all containers", "why_tests_cant": "all shapes", "anchors": ["src/lib/indexer_interface.h: data(const int*), data(indexer), operator[]"]}
{"id": "C17", "title": "Assigning a data chunk reproduces its shape and contents; copy-construction reproduces its contents", "statement": "b=a gives b the same range and the same value in every cell, whatever b held before. A copy-constructed container holds the same values as the original.", "quantifier": "all chunks with positive lengths", "why_tests_cant": "all shapes and contents (second half FALSE of the code: the copy constructor only copies the shape)", "anchors": ["src/data/datachunk.cpp: operator=", "src/lib/indexer_interface.h: indexer_interface(const indexer_interface&)"]}
{"id": "C18", "title": "Chunk layout: mesh + ghost layers + basis points + components, ghosts around the mesh only", "statement": "extended_datachunk::resize(mesh,data,g) allocates mesh expanded by g on both sides of every mesh dimension followed by the data dimensions; internal_range is mesh x data; for each mesh dimension d the lower/upper external ranges are the g layers just outside and the lower/upper internal ranges the g layers just inside, all inside the allocation when the mesh and data lengths are positive, external and internal cells disjoint, external ranges of different faces disjoint.", "quantifier": "all meshes, data ranges and ghost counts", "why_tests_cant": "all shapes", "anchors": ["src/data/extended_datachunk.cpp: resize", "src/data/datachunk.cpp: resize"]}
{"id": "C19", "title": "A variable has one chunk whose capacity is prod(N_d+2g)*points*components", "statement": "Constructing a variable on a mesh of positive volume yields exactly one chunk; its volume is the product of (length(d)+2*ghosts) times basis points times the number of components, with the component dimension last and contiguous (stride 1).", "quantifier": "all meshes, bases, component lists and ghost counts", "why_tests_cant": "all shapes", "anchors": ["src/data/dataset.cpp: resize", "src/variable/variable.cpp: variable::variable"]}
{"id": "C20", "title": "copy_to copies cell by cell within and across chunks", "statement": "copy_to(A,from,B,to) with non-empty in-bounds ranges of equal volume (disjoint if A is B) stores the k-th cell of from into the k-th cell of to and leaves all other cells of B alone; a volume mismatch throws with nothing changed.", "quantifier": "all chunks, ranges and contents", "why_tests_cant": "all shapes and contents", "anchors": ["src/data/functions.h: copy_to"]}
{"id": "C21", "title": "copy_to out of bounds is rejected", "statement": "copy_to with a destination range outside the destination chunk does not modify the chunk.", "quantifier": "all chunks and ranges", "why_tests_cant": "negative claim over all inputs (FALSE of the code: element 0 is overwritten)", "anchors": ["src/data/functions.h: copy_to"]}
{"id": "C22", "title": "multiply_by_scalar scales exactly the requested cells once", "statement": "For a range without empty dimensions multiply_by_scalar(rng,s) multiplies every cell of rng by s exactly once and leaves every other cell alone; a range that is not inside the chunk changes nothing.", "quantifier": "all chunks, ranges, scalars", "why_tests_cant": "all shapes", "anchors": ["src/data/datachunk.cpp: multiply_by_scalar"]}
{"id": "C23", "title": "full_copy makes the destination buffer equal to the source", "statement": "full_copy(A,B) with equal volumes makes every element of B equal to the element of A at the same offset; otherwise it throws and B is unchanged.", "quantifier": "all chunks", "why_tests_cant": "all contents", "anchors": ["src/data/functions.h: full_copy"]}
{"id": "C24", "title": "bc_periodic fills every face ghost cell with its periodic image", "statement": "For every list of mesh dimensions, after bc_periodic each ghost cell in a listed dimension's external ranges holds the value of the internal cell N_d away (same other coordinates), provided every listed dimension has at least as many cells as ghost layers; interior cells, corner ghosts and ghosts of unlisted dimensions are unchanged.", "quantifier": "all mesh shapes, ghost counts, component counts, dimension lists, contents", "why_tests_cant": "all shapes and contents", "anchors": ["src/solver/bc_periodic.cpp: solve", "src/data/extended_datachunk.cpp: resize"]}
{"id": "C25", "title": "bc_copy_out mirrors the interior into the ghosts", "statement": "After bc_copy_out each face ghost cell of a listed dimension holds the value of its mirror image across the boundary face; all other cells are unchanged (N_d >= ghost layers).", "quantifier": "all shapes, dimension lists, contents", "why_tests_cant": "all shapes and contents", "anchors": ["src/solver/bc_copy_out.cpp: solve"]}
{"id": "C26", "title": "bc_no_slip mirrors the interior and reverses all three momentum components", "statement": "After bc_no_slip on a variable with at least 4 components, each face ghost cell of a listed dimension holds the mirror interior value, multiplied by -1 for components 1,2,3; all other cells are unchanged.", "quantifier": "all shapes, dimension lists, contents", "why_tests_cant": "all shapes and contents", "anchors": ["src/solver/bc_no_slip.cpp: solve"]}
{"id": "C27", "title": "bc_conducting_wall mirrors the interior and reverses components 0..3 (E and Bx)", "statement": "After bc_conducting_wall on a variable with at least 4 components, each face ghost cell holds the mirror value, multiplied by -1 for components 0,1,2,3, unchanged sign for components >= 4; all other cells are unchanged. (The source comment says only the electric field, components 0..2, is reversed: that stronger reading is false.)", "quantifier": "all shapes, dimension lists, contents", "why_tests_cant": "all shapes and contents", "anchors": ["src/solver/bc_conducting_wall.cpp: solve"]}
{"id": "C28", "title": "bc_free_slip reverses only the wall-normal momentum", "statement": "After bc_free_slip, ghost cells hold the mirror value with only the momentum component normal to the wall reversed.", "quantifier": "all shapes, dimension lists, contents", "why_tests_cant": "all contents (FALSE of the code: it is identical to bc_no_slip)", "anchors": ["src/solver/bc_free_slip.cpp: solve"]}
{"id": "C29", "title": "Boundary conditions never change the interior and are idempotent", "statement": "Every boundary-condition solver leaves every interior cell and the chunk's shape unchanged, and applying it twice gives the same result as once, for any list of dimensions, in any order, with repeats.", "quantifier": "all shapes, dimension lists, contents", "why_tests_cant": "all histories of BC applications", "anchors": ["src/solver/bc_*.cpp: solve"]}
{"id": "C30", "title": "A wall boundary condition either applies the sign flip or reports an error", "statement": "bc_no_slip / bc_free_slip / bc_conducting_wall on a variable with fewer than 4 components throws.", "quantifier": "all variables with fewer than 4 components", "why_tests_cant": "negative claim (FALSE of the code: the flip is silently skipped)", "anchors": ["src/solver/bc_no_slip.cpp", "src/data/datachunk.cpp: multiply_by_scalar"]}
{"id": "C31", "title": "range_set tiles the super-range", "statement": "Every cell of the super-range belongs to exactly one sub-range of range_set(super,subdivisions), and sub-ranges contain no other cells, for all positive subdivision counts (lengths below 2^24 so the float division is exact enough).", "quantifier": "all super-ranges and subdivision counts", "why_tests_cant": "all shapes", "anchors": ["src/lib/range_set.cpp: setup"]}
{"id": "C32", "title": "range_set sub-ranges are well-formed ranges", "statement": "Every sub-range of a range_set has lower <= upper in every dimension, so its volume is non-negative and the volumes add up to the super-range's.", "quantifier": "all super-ranges and subdivision counts", "why_tests_cant": "FALSE of the code for uneven splits (length 5 into 4 gives an inverted range); proved under size*(k-1) <= length", "anchors": ["src/lib/range_set.cpp: setup"]}
{"id": "C33", "title": "The variable manager is a map from variable ids to storage", "statement": "Over any history of output_variable requests on ids with pairwise distinct names (or identical ids), asking twice for the same id returns the same storage with the last written contents, different ids never share storage, and creating a variable leaves all others unchanged.", "quantifier": "all finite histories of requests and writes", "why_tests_cant": "unbounded histories", "anchors": ["src/variable/variable_manager.cpp: output_variable, add_variable, input_variable", "src/variable/variable_id.h: operator<"]}
{"id": "C34", "title": "Reading a variable that was never created reports an error", "statement": "input_variable(id) for an id that does not exist throws an exception.", "quantifier": "all managers and missing ids", "why_tests_cant": "FALSE of the code: the exception object is built but not thrown and the end iterator is dereferenced", "anchors": ["src/variable/variable_manager.cpp: input_variable"]}
{"id": "C35", "title": "variable_id ordering is a strict weak order", "statement": "operator< on variable ids is irreflexive, asymmetric and transitive, with == ids exactly the incomparable ones, and ids that share a name but not component names are rejected by an exception whichever way they are compared.", "quantifier": "all pairs/triples of ids", "why_tests_cant": "FALSE in general: basis operator< is not asymmetric; proved when basis names and point counts are ordered consistently", "anchors": ["src/variable/variable_id.h: operator<, operator==", "src/basis/basis.h: operator<"]}
{"id": "C36", "title": "unique_clone never repeats a name", "statement": "In any history of unique_clone calls on any ids (including clones of clones), all returned ids have pairwise different names, and each keeps the components and basis of its source.", "quantifier": "all finite histories of clone calls", "why_tests_cant": "unbounded histories", "anchors": ["src/variable/variable_id.h: unique_clone, unique_tag"]}
{"id": "C37", "title": "Solvers check their variable lists before touching any data", "statement": "euler, maxwell, lorentz_force, current_source, ssprk3, rk1, ssprk2_advection, swap and brio_wu throw when the number of input/output variables is wrong, and then the variable manager is unchanged.", "quantifier": "all managers and all id lists of the wrong length", "why_tests_cant": "all list lengths and states", "anchors": ["src/solver/*.cpp: solve"]}
{"id": "C38", "title": "solver::swap exchanges the contents of each pair", "statement": "For an even list of existing, pairwise different variables, swap.solve exchanges the contents of variables 2i and 2i+1 and changes nothing else; doing it twice restores everything; an odd list throws with nothing changed.", "quantifier": "all even lists, all contents", "why_tests_cant": "all list lengths and contents", "anchors": ["src/solver/swap.cpp: solve"]}
{"id": "C39", "title": "solver::fill resets every element including ghosts", "statement": "After fill.solve every element (interior and ghost) of every output variable equals the fill value; other variables are unchanged.", "quantifier": "all variables and shapes", "why_tests_cant": "all shapes and contents", "anchors": ["src/solver/fill.cpp: solve"]}
{"id": "C40", "title": "write_vtk emits one value per mesh cell, x fastest, of the right component", "statement": "For meshes of 1, 2 or 3 dimensions the values written for component i are, in order with the first dimension varying fastest, the interior values of component i: exactly grid.volume() of them, all reads in bounds.", "quantifier": "all mesh shapes, component counts, contents", "why_tests_cant": "all shapes and contents", "anchors": ["src/data/datachunk.cpp: write_VTK", "src/variable/variable.cpp: write_vtk"]}
{"id": "C41", "title": "VTK header and data agree on the number of cells", "statement": "The number of cells implied by the DIMENSIONS line (product of max(points-1,1)) equals the CELL_DATA count and the number of values per scalar.", "quantifier": "all 1-3 dimensional grids with positive lengths", "why_tests_cant": "all shapes", "anchors": ["src/grid/rectilinear.cpp: write_vtk", "src/variable/variable_manager.cpp: write_vtk"]}
{"id": "C42", "title": "VTK geometry places cells at their centroids", "statement": "The cell centre implied by ORIGIN and SPACING for cell 0 equals the grid centroid of cell 0.", "quantifier": "all grids", "why_tests_cant": "FALSE of the code: ORIGIN is the domain centre", "anchors": ["src/grid/rectilinear.cpp: write_vtk, centroid"]}
{"id": "C43", "title": "write_vtk rejects bad requests", "statement": "write_vtk throws when a requested variable does not exist or when the variables do not share a basis, and writes no variable data for a non volume-average basis.", "quantifier": "all managers and request lists", "why_tests_cant": "all states", "anchors": ["src/variable/variable_manager.cpp: write_vtk", "src/variable/variable.cpp: write_vtk"]}
{"id": "C44", "title": "A rectilinear grid divides its width evenly and its centroids increase", "statement": "dx(d)*length(d)=width(d); consecutive centroids differ by dx(d); for a grid whose index range starts at 0 every centroid lies strictly inside (start, start+width) and the first/last are half a cell from the ends (exact arithmetic).", "quantifier": "all grids, all cells", "why_tests_cant": "all sizes", "anchors": ["src/grid/rectilinear.cpp: rectilinear, centroid, dx, xc"]}
{"id": "C45", "title": "Rectilinear centroids start at the domain start for any index range", "statement": "centroid(d, lower(d)) = start(d)+dx(d)/2 for every grid.", "quantifier": "all grids", "why_tests_cant": "FALSE of the code when lower(d) != 0", "anchors": ["src/grid/rectilinear.cpp: centroid, xc"]}
{"id": "C46", "title": "Structured-grid centroids are the midpoints of adjacent cells", "statement": "After construction or re-biasing, centroid(i) = start + sum_{j<i} dx(j) + dx(i)/2; biased cell widths sum to the (scaled) width and, with symmetric bias, are mirror symmetric.", "quantifier": "all sizes, all widths", "why_tests_cant": "all sizes; the width part is FALSE of the code for non-integer widths (width truncated to int)", "anchors": ["src/grid/structured.cpp: recalculate_xcs, bias_array, apply_bias_symmetric, apply_bias_linear"]}
{"id": "C47", "title": "ssprk3 is the Shu-Osher third-order scheme", "statement": "Running the three stages with rhs = L(q) recomputed from the stage input gives q1=q0+dt L(q0), q2=3/4 q0+1/4 q1+1/4 dt L(q1), q3=1/3 q0+2/3 q2+2/3 dt L(q2) at every element; on the linear problem q'=a q one step multiplies by 1+z+z^2/2+z^3/6 with z=a dt (exact arithmetic).", "quantifier": "all data, dt, element counts", "why_tests_cant": "all data and sizes", "anchors": ["src/solver/ssprk3.cpp: stage_0, stage_1, stage_2, solve"]}
{"id": "C48", "title": "ssprk3 keeps any bound that forward Euler keeps (SSP)", "statement": "If a forward-Euler step of size dt maps states with values in a convex set (interval) into it, so does a full ssprk3 step; and if rhs is zero the state is unchanged (exact arithmetic).", "quantifier": "all right-hand sides, data, intervals", "why_tests_cant": "quantifies over all operators L", "anchors": ["src/solver/ssprk3.cpp"]}
{"id": "C49", "title": "Time integrators only write their own stage", "statement": "ssprk3.solve with tag k writes only output variable k+1; rk1 writes only q_1; any other tag writes nothing; inputs and rhs are unchanged.", "quantifier": "all managers, tags, contents", "why_tests_cant": "all states", "anchors": ["src/solver/ssprk3.cpp: solve", "src/solver/rk1.cpp: solve"]}
{"id": "C50", "title": "The HLL flux is consistent", "statement": "When the reconstructed left and right states are equal (positive density and pressure) the HLL flux is the physical Euler flux of that state in every direction (exact arithmetic).", "quantifier": "all states, gamma>1, directions 0..2", "why_tests_cant": "continuum of states", "anchors": ["src/solver/euler.cpp: solve_HLL_mp, solve_HLL_fast"]}
{"id": "C51", "title": "Exactly one of the three HLL branches is used", "statement": "For every pair of states exactly one flux multiplier is 1 and the others 0.", "quantifier": "all pairs of states", "why_tests_cant": "FALSE of the code when sll>0 and srr<0 (two multipliers are 1); proved when sll<=srr", "anchors": ["src/solver/euler.cpp: fl_mult, fr_mult, fhll_mult"]}
{"id": "C52", "title": "Euler/Maxwell kernels never access memory out of bounds", "statement": "With at least 2 ghost layers, positive mesh lengths and matching component count (5 resp. 6), every read of q and every read/write of rhs in the kernel loop is inside the chunk, for every number of mesh dimensions.", "quantifier": "all mesh shapes and ghost counts >= 2", "why_tests_cant": "all shapes", "anchors": ["src/solver/euler.cpp: solve_HLL_mp", "src/solver/maxwell.cpp: solve_rusanov_mp"]}
{"id": "C53", "title": "Neighbouring cells agree on the flux through their shared face", "statement": "The flux a cell subtracts at its upper face is computed from the same four values by the same operations as the flux its upper neighbour adds at its lower face, so they are identical (bit for bit, in any deterministic arithmetic).", "quantifier": "all data, shapes, dimensions", "why_tests_cant": "all data; holds for floating point", "anchors": ["src/solver/euler.cpp: solve_HLL_mp", "src/solver/maxwell.cpp: solve_rusanov_mp"]}
{"id": "C54", "title": "Periodic runs conserve every component", "statement": "On a mesh with periodic ghosts in every dimension (N_d >= 2), the sum of the Euler or Maxwell right-hand side over all interior cells is zero for every component, and hence a full periodic ssprk3 step (boundary condition, reset, flux solver, stage, three times, swap) runs to its end and preserves the interior total of every component; so does any number of steps (exact arithmetic). For Euler the mesh has at most 4 dimensions (with more the kernel is undefined, C52); the integrator's buffers are 64-byte aligned (C68).", "quantifier": "all mesh shapes, data, dt, numbers of steps", "why_tests_cant": "unbounded histories and shapes", "anchors": ["src/solver/euler.cpp", "src/solver/maxwell.cpp", "src/solver/ssprk3.cpp", "src/solver/bc_periodic.cpp", "src/example/maxwell/wave_1D.cpp"]}
{"id": "C55", "title": "Uniform states are preserved", "statement": "If q is uniform over the whole chunk then the Euler and Maxwell kernels leave rhs unchanged (exact arithmetic).", "quantifier": "all uniform states, shapes", "why_tests_cant": "all shapes", "anchors": ["src/solver/euler.cpp", "src/solver/maxwell.cpp"]}
{"id": "C56", "title": "Every OpenMP schedule of the Euler, Maxwell and ssprk3 loops gives the sequential result", "statement": "For every interleaving of the individual memory reads and writes of the loop iterations (Euler: in the first four directions, the others being out of bounds by C52), the final memory is the one the sequential loop produces.", "quantifier": "all interleavings of all iterations, all data", "why_tests_cant": "all schedules", "anchors": ["src/solver/euler.cpp: omp parallel for", "src/solver/maxwell.cpp: omp parallel for", "src/solver/ssprk3.cpp: omp parallel for"]}
{"id": "C57", "title": "Every OpenMP schedule of the advection loop gives the sequential result", "statement": "Same claim for advection_iterate.", "quantifier": "all interleavings", "why_tests_cant": "FALSE of the code: two iterations update the same element without synchronisation; a lost update is exhibited", "anchors": ["src/solver/ssprk2_advection.cpp: advection_iterate"]}
{"id": "C58", "title": "The Rusanov flux is consistent with Maxwell's equations", "statement": "For equal left and right states the flux in direction d is the curl flux of Maxwell's equations: E-components c^2*(B rotated), B-components -(E rotated), zero for the normal components (exact arithmetic).", "quantifier": "all states, c, directions", "why_tests_cant": "continuum", "anchors": ["src/solver/maxwell.cpp: solve_rusanov_mp, solve_rusanov_fast"]}
{"id": "C59", "title": "The fast and the parallel kernels compute the same right-hand side", "statement": "solve_rusanov_fast and solve_rusanov_mp (and solve_HLL_fast / solve_HLL_mp) add the same amounts to every interior cell (exact arithmetic).", "quantifier": "all data and shapes", "why_tests_cant": "all shapes", "anchors": ["src/solver/maxwell.cpp", "src/solver/euler.cpp", "src/spatial_solver/functions.h"]}
{"id": "C60", "title": "The Lorentz source is com*(rho E + p x B) and the magnetic field does no work", "statement": "lorentz_force adds exactly com*(rho E + p x B) to the momentum and com*(p.E) to the energy of every interior cell, touches nothing else, and the internal energy rate e' - (p.p')/rho vanishes (exact arithmetic for the last part).", "quantifier": "all data, shapes", "why_tests_cant": "all shapes and data", "anchors": ["src/solver/lorentz_force.cpp: low_order_solve_idx, solve"]}
{"id": "C61", "title": "The current source is -sum_s q_s p_s/(m_s eps0) on E only", "statement": "current_source subtracts, in every interior cell, the sum over fluids (with at least 4 components) of charge/mass/eps0 times momentum k from rhs component k (k=0..2), in list order, and touches nothing else; charge/mass lists of different lengths are rejected.", "quantifier": "all fluid lists, shapes, data", "why_tests_cant": "all list lengths and shapes", "anchors": ["src/solver/current_source.cpp: fv_solve_idx, solve", "src/solver/current_source.h: setup"]}
{"id": "C62", "title": "The advection sweep conserves the total", "statement": "advection_iterate moves an amount out of one element and into another, so the sum over the whole chunk is unchanged by stage_0 and is the average of the two inputs' sums in stage_1 (exact arithmetic); all accesses are in bounds.", "quantifier": "all data, shapes, velocities", "why_tests_cant": "all shapes", "anchors": ["src/solver/ssprk2_advection.cpp: advection_iterate, advection_inout, stage_0, stage_1"]}
{"id": "C63", "title": "Initial-condition solvers set the documented primitive state", "statement": "shock_tube gives density 1 / rho_jump and pressure 1 / P_jump left / right of x=0 with zero momentum in every interior cell; brio_wu gives densities m*n, pressures Pl/Pr, Bx and By=+-By.", "quantifier": "all grids, all parameters", "why_tests_cant": "all cells and parameters (By part FALSE unless gamma=2: By is multiplied by 1/(gamma-1))", "anchors": ["src/solver/shock_tube.cpp", "src/solver/brio_wu_shock_tube.cpp"]}
{"id": "C64", "title": "electromagnetic_wave_1D sets a transverse wave moving in +dim", "statement": "In every cell E.B=0, the longitudinal E is zero, the Poynting flux along dim is c*s^2*|B_t|^2 >= 0 and transverse to dim it has no component from the wave fields, for dim=0,1,2 (exact arithmetic).", "quantifier": "all cells, parameters", "why_tests_cant": "continuum", "anchors": ["src/solver/electromagnetic_wave_1D.cpp: solve"]}
{"id": "C65", "title": "Initial conditions read only defined coordinates", "statement": "gaussian, magnetic_pulse and radial_shock_tube never read an uninitialised coordinate.", "quantifier": "all grids", "why_tests_cant": "FALSE of the code for grids with fewer than 3 dimensions", "anchors": ["src/solver/gaussian.cpp", "src/solver/magnetic_pulse.cpp", "src/solver/radial_shock_tube.cpp"]}
{"id": "C66", "title": "No signed overflow in shape arithmetic for realistic shapes", "statement": "If all bounds, and the product of max(1,length) over all dimensions, fit in a 32-bit int, and no dimension is reversed, then no intermediate result in range setup, volume, mutators with such a result, or construction of, iteration over and final_linear_index of an indexer over a sub-range without empty dimensions overflows.", "quantifier": "all ranges within the limits", "why_tests_cant": "2^64 shapes per dimension", "anchors": ["src/lib/range.cpp", "src/lib/indexer.cpp"]}
{"id": "C67", "title": "Exception assignment replaces the message", "statement": "After a=b the text of exception a is the text of b.", "quantifier": "all messages", "why_tests_cant": "FALSE of the code: assignment appends", "anchors": ["src/lib/exception.h: operator="]}
{"id": "C68", "title": "ssprk3 does not depend on the alignment of the buffers", "statement": "Every call of ssprk3.solve with valid variables is defined whatever the alignment of the element buffers; the buffers are std::vector<double>, which does not promise 64-byte alignment.", "quantifier": "all managers, tags, alignments", "why_tests_cant": "Whether a violated alignment promise shows depends on the compiler and on the allocator of the test machine.", "anchors": ["src/solver/ssprk3.cpp: stage_0, stage_1, stage_2", "src/lib/parallelization.h"]}
{"id": "C69", "title": "The advection stages apply limited upwind fluxes and transport in the right direction", "statement": "After stage_0 every mesh cell of the output is the input after the exchange of limited upwind fluxes in every direction, with the sign of the velocity deciding the upwind side; after stage_1 it is the average of input and first stage after the exchange over half the time step. On a linear field this is the exact transport (exact arithmetic). Nothing else changes.", "quantifier": "all meshes, data, velocities, time steps, states of the manager", "why_tests_cant": "all shapes and both signs of the velocity in every direction", "anchors": ["src/solver/ssprk2_advection.cpp: advection_iterate, advection_inout, stage_0, stage_1, solve"]}
{"id": "C70", "title": "The radial shock tube sets a ball", "statement": "A cell gets the inner state of radial_shock_tube if and only if its centre is nearer to the centre of the ball than the radius.", "quantifier": "all three-dimensional grids, all parameters (exact arithmetic)", "why_tests_cant": "continuum of cells and parameters (FALSE of the code: the third term of the squared distance multiplies z-cz by y-cz)", "anchors": ["src/solver/radial_shock_tube.cpp: solve"]}
{"id": "C71", "title": "gem_challenge sets a perturbed current sheet in equilibrium", "statement": "In every cell both fluids have the particle density n0 sech^2(x/lambda)+n1, pressures n T and momentum along z only, with the currents of the sheet; the electric field is zero; the magnetic field is the sheet plus its perturbation and has no divergence; without the perturbation the pressure gradient is the force J x B.", "quantifier": "all grids of up to three dimensions, all parameters with gamma /= 1 and positive masses and density (exact arithmetic)", "why_tests_cant": "continuum of cells and parameters; the equilibrium is a statement about derivatives", "anchors": ["src/solver/gem_challenge.cpp: solve"]}
{"id": "C72", "title": "Initial conditions stay inside their coordinate array", "statement": "shock_tube, radial_shock_tube, gaussian, magnetic_pulse and electromagnetic_wave_1D never write beyond double x[3].", "quantifier": "all grids", "why_tests_cant": "FALSE of the code for more than three dimensions; in practice the overrun is silent", "anchors": ["src/solver/shock_tube.cpp", "src/solver/radial_shock_tube.cpp", "src/solver/gaussian.cpp", "src/solver/magnetic_pulse.cpp", "src/solver/electromagnetic_wave_1D.cpp"]}
{"id": "C73", "title": "gem_challenge is defined for every list of output variables", "statement": "gem_challenge::solve throws or returns, for every list of output variable ids.", "quantifier": "all managers, all id lists", "why_tests_cant": "FALSE of the code: the number of outputs is not checked, and equal ids make __restrict__ pointers alias", "anchors": ["src/solver/gem_challenge.cpp: solve"]}
{"id": "C74", "title": "The Maxwell flux is the average flux with damping and does not create energy", "statement": "The wall flux is the average of both physical fluxes minus |c|/2 times the jump of the transverse fields; the jump of the energy variables times the flux is the jump of the energy flux minus a non-negative damping.", "quantifier": "all field states on both sides, all c (also negative), all directions (exact arithmetic)", "why_tests_cant": "continuum of states; a wrong sign of the damping shows only for negative c or after many steps", "anchors": ["src/solver/maxwell.cpp: solve_rusanov_mp", "src/solver/maxwell.cpp: solve_rusanov_fast"]}
{"id": "C75", "title": "The limited reconstruction creates no new extrema", "statement": "Both reconstructed wall values lie between the values of the two cells at the wall; in particular positive cell values give positive wall values.", "quantifier": "all four-cell neighbourhoods (exact arithmetic)", "why_tests_cant": "continuum of values (FALSE of the code at extrema: overshoot, and negative wall densities from positive cells)", "anchors": ["src/solver/euler.cpp: solve_HLL_mp", "src/solver/maxwell.cpp", "src/spatial_solver/functions.h"]}
{"id": "C76", "title": "Reconstruction of finite values is finite", "statement": "If the four cell values are finite, both wall values are.", "quantifier": "all four-cell neighbourhoods, with the special values of IEEE arithmetic", "why_tests_cant": "one difference in 2^64 triggers it (FALSE of the code: qc-qn = -1e-12 gives NaN)", "anchors": ["src/solver/euler.cpp: solve_HLL_mp", "src/spatial_solver/functions.h"]}
{"id": "C77", "title": "main reports the message of an exception", "statement": "If an example throws, main prints the text of the exception.", "quantifier": "all exceptions", "why_tests_cant": "FALSE of the code: what() returns a pointer into a destroyed temporary; often works by accident", "anchors": ["src/main.cpp: main", "src/lib/exception.h: what"]}
{"id": "C78", "title": "Self-assignment changes nothing", "statement": "r=r leaves a range, c=c a data chunk unchanged.", "quantifier": "all ranges and chunks", "why_tests_cant": "FALSE of the code: all bounds become 0; the chunk's copy loop then leaves its empty vector", "anchors": ["src/lib/range.cpp: operator=", "src/data/datachunk.cpp: operator="]}
{"id": "C79", "title": "The HLL flux of admissible states is finite", "statement": "For positive densities and pressures on both sides every component of the flux is finite.", "quantifier": "all pairs of states, with the special values of IEEE arithmetic", "why_tests_cant": "needs exactly equal signal speeds (FALSE of the code then: 0 * (x/0) is NaN)", "anchors": ["src/solver/euler.cpp: solve_HLL_mp", "src/solver/euler.cpp: solve_HLL_fast"]}
{"id": "C80", "title": "The reconstruction is second order", "statement": "On linear data both wall values are the value at the wall up to 1e-12.", "quantifier": "all linear data with nonzero denominators (exact arithmetic)", "why_tests_cant": "continuum of slopes, including slopes near -1e-12", "anchors": ["src/solver/euler.cpp: solve_HLL_mp", "src/solver/maxwell.cpp", "src/spatial_solver/functions.h"]}
{"id": "C81", "title": "The plasma program computes the scheme and writes the right files", "statement": "From the state the initial condition sets, every stage of the coupled program fills the ghost cells (walls, periodic), computes for both fluids flux differences plus Lorentz force and for the field flux differences plus current, and combines them as the SSP-RK3 stage says, touching no other variable; the program runs to its end for any number of frames and steps, file j shows the state after j frames, and if frame k is the first whose file cannot be created it ends with an exception and the files before it. (With buffers that lack the alignment the integrator assumes it is undefined, see C68.)", "quantifier": "all states, numbers of cells >= 2, frames, steps, sets of files that can be created; any arithmetic", "why_tests_cant": "the configured run is 125000 steps on 131072 cells; errors of coupling (stale ghost cells, wrong stage variable, right-hand side not reset) change values slightly and no reference output exists", "anchors": ["src/main.cpp", "src/example/plasma/gem_challenge.cpp", "src/example/plasma/two_fluid_brio_wu.cpp", "src/example/plasma/harris_current_sheet.cpp"]}
{"id": "C82", "title": "Walls are tight", "statement": "Where the ghost cells of a fluid are filled as at a no-slip wall, the numerical flux of mass and of energy through the lower and the upper wall is zero for every state, limiter and both branches of the HLL flux included. At a conducting wall in direction 0 no component of the magnetic field passes. For conducting walls in other directions the latter is false: the solver changes the sign of components 0-3 whatever the direction, so in direction 1 Bx (then tangential) flows through the wall.", "quantifier": "all states, meshes with at least 2 cells across, directions, cells at the wall (exact arithmetic)", "why_tests_cant": "a leak of order of the limiter's epsilon, or for particular wave speeds only, disappears in the rounding of a test; the direction error does not show in the examples, which all have walls in direction 0", "anchors": ["src/solver/bc_no_slip.cpp", "src/solver/bc_conducting_wall.cpp", "src/solver/euler.cpp", "src/solver/maxwell.cpp"]}
{"id": "C83", "title": "The plasma program conserves mass and magnetic field", "statement": "If every direction has walls or is periodic, a time step of the coupled program keeps the total mass of the electrons and of the ions; with walls in direction 0 only it keeps the totals of all three components of the magnetic field. For the program of main.cpp: in all files it writes the densities have the same sum, and so do the components of the magnetic field.", "quantifier": "all states, mesh sizes >= 2, numbers of frames and steps (exact arithmetic)", "why_tests_cant": "conservation over 125000 steps is a statement about all of them; a wrong ghost cell or flux sign at one face leaks slowly", "anchors": ["src/example/plasma/gem_challenge.cpp", "src/solver/euler.cpp", "src/solver/maxwell.cpp", "src/solver/ssprk3.cpp"]}
{"id": "C84", "title": "The two-fluid shock tube and the current sheet compute what they should", "statement": "two_fluid_brio_wu and harris_current_sheet: the state shown in file j is the result of j*num_steps time steps of the coupled two-fluid and field equations (three stages each, ghost cells filled at walls in the only direction, fluxes, Lorentz force and current source with the charges and masses of the program) from the state set by the initial condition; the program ends normally if every file can be created, with an exception at the first that cannot. In exact arithmetic the densities of each fluid and each component of the magnetic field have the same sum in all files.", "quantifier": "all mesh sizes >= 2, numbers of frames and steps, sets of files that can be created; any arithmetic for the run, exact for the sums", "why_tests_cant": "a program is tested for one size and one machine; that no step mixes up two of the 15 variables is a statement about every step", "anchors": ["src/example/plasma/two_fluid_brio_wu.cpp", "src/example/plasma/harris_current_sheet.cpp", "src/solver/brio_wu_shock_tube.cpp", "src/solver/gem_challenge.cpp"]}
{"id": "C85", "title": "The Sod shock tube computes what it should", "statement": "sod_shock_tube: the first state is gas at rest, density and pressure 1 left of the middle and 1/8 and 1/10 right of it; file j shows the state after j*num_steps three-stage steps of the gas equations with gamma 7/5 between no-slip walls in x, periodic in y; the program ends normally if every file can be created. In exact arithmetic the densities, and the energies, have the same sum in all files.", "quantifier": "all mesh sizes >= 2, numbers of frames and steps, sets of files that can be created; any arithmetic for the run, exact for the sums", "why_tests_cant": "comparison with the exact solution cannot tell a small leak at a wall from numerical diffusion", "anchors": ["src/example/euler/sod_shock_tube.cpp", "src/solver/shock_tube.cpp", "src/solver/euler.cpp", "src/solver/bc_no_slip.cpp"]}
{"id": "C86", "title": "The wave program computes what it should", "statement": "wave_1D: the first state is a plane wave along z with electric field (s,-s,0) and magnetic field (s,s,1); file j shows the state after j*num_steps three-stage steps of Maxwell's equations, periodic in all directions; the program ends normally if every file can be created. In exact arithmetic each of the six components has the same sum in all files.", "quantifier": "all mesh sizes >= 2, numbers of frames and steps, sets of files that can be created; any arithmetic for the run, exact for the sums", "why_tests_cant": "the sums are zero in a symmetric test whatever the fluxes", "anchors": ["src/example/maxwell/wave_1D.cpp", "src/solver/electromagnetic_wave_1D.cpp", "src/solver/maxwell.cpp", "src/solver/bc_periodic.cpp"]}
{"id": "C87", "title": "The pulse and advection programs are defined", "statement": "gaussian_pulse and advect_gaussian run without undefined behaviour. False: their initial conditions read the second and third coordinate of the cell centre, which the grids of one and two dimensions do not set.", "quantifier": "all mesh sizes, numbers of frames and steps, arithmetics", "why_tests_cant": "the uninitialised stack usually holds small numbers, so the program looks right on the machine where it is tried", "anchors": ["src/example/maxwell/gaussian_pulse.cpp", "src/example/advection/advect_gaussian.cpp", "src/solver/magnetic_pulse.cpp", "src/solver/gaussian.cpp"]}
{"id": "C88", "title": "The plasma programs start from the configured physical state", "statement": "Grid, constants and initial condition together: main.cpp's program (gem_challenge) starts from a current sheet with ions of 25 electron masses, ion inertial length 1, electron sound speed c/10, ions five times as hot, magnetic pressure balancing gas pressure, perturbed by a tenth of the field; harris_current_sheet likewise in one dimension; two_fluid_brio_wu from the Brio-Wu states. The sheet solves Ampere's law with the magnetic constant, c^2 eps0 mu0 = 1 to 1e-8, time step times number of steps is the intended end time, and cell widths are domain width over number of cells.", "quantifier": "all mesh sizes >= 2, all cells; exact arithmetic", "why_tests_cant": "a wrong constant or a swapped species changes the numbers but gives a plausible picture", "anchors": ["src/example/plasma/gem_challenge.cpp", "src/example/plasma/harris_current_sheet.cpp", "src/example/plasma/two_fluid_brio_wu.cpp", "src/solver/gem_challenge.cpp", "src/solver/brio_wu_shock_tube.cpp"]}
{"id": "C89", "title": "Periodic programs start from periodic states", "statement": "The states from which wave_1D and the program of main.cpp start have the period of their periodic domains. False: the constant used for pi is 3.14159263, so the wave and the perturbation of the sheet jump across the boundary. They are periodic to within 1e-7 of the amplitude, and the initial wave is the start of a travelling solution of Maxwell's equations.", "quantifier": "all coordinates; exact arithmetic", "why_tests_cant": "the jump of 1e-7 is below the resolution of a plot and of the scheme", "anchors": ["src/example/maxwell/wave_1D.cpp", "src/solver/electromagnetic_wave_1D.cpp", "src/solver/gem_challenge.cpp"]}
{"id": "C90", "title": "Time steps depend on the mesh values only and commute with translation", "statement": "A time step of gas, light or plasma exists from every state and is determined by the values in the cells of the mesh, whatever the ghost cells held. Along a periodic direction, moving the start by some cells moves all later states by as many; a state that does not vary along it never does. So sod_shock_tube stays uniform in y and wave_1D in x and y, in every file.", "quantifier": "all meshes with at least 2 cells per direction, states, numbers of steps, shifts; any arithmetic (bit for bit)", "why_tests_cant": "a stale ghost cell or an off-by-one at the seam of a periodic direction shows only for data that are not smooth there", "anchors": ["src/solver/euler.cpp", "src/solver/maxwell.cpp", "src/solver/bc_periodic.cpp", "src/solver/bc_no_slip.cpp", "src/solver/ssprk3.cpp", "src/example/euler/sod_shock_tube.cpp", "src/example/maxwell/wave_1D.cpp"]}
{"id": "C91", "title": "Problems of one dimension stay so", "statement": "In exact arithmetic: a gas that does not move along z on a mesh of fewer dimensions never does; in all files of sod_shock_tube the momenta along y and z are zero, in all files of wave_1D the electric field along z is 0 and the magnetic field along z is 1; in all files of two_fluid_brio_wu and harris_current_sheet the magnetic field along x is 3/4 and 0.", "quantifier": "all mesh sizes >= 2, numbers of frames and steps; exact arithmetic", "why_tests_cant": "a test prints a few values at one time; a slow drift of a component that should not change looks like rounding", "anchors": ["src/solver/euler.cpp", "src/solver/maxwell.cpp", "src/example/euler/sod_shock_tube.cpp", "src/example/maxwell/wave_1D.cpp", "src/example/plasma/two_fluid_brio_wu.cpp", "src/example/plasma/harris_current_sheet.cpp"]}
{"id": "C92", "title": "The scheme treats left and right alike", "statement": "Mirrored data give mirrored reconstructed states and mirrored fluxes, and negated data negated states. False for the reconstruction: 1e-12 is added to the denominators whatever their sign. It holds up to 2e-12 unless a denominator is zero, and exactly for the HLL and the Maxwell flux.", "quantifier": "all values, directions, gases, fields; exact arithmetic", "why_tests_cant": "the asymmetry is below rounding for data of size one, and tests of symmetric problems use a tolerance", "anchors": ["src/solver/euler.cpp", "src/solver/maxwell.cpp"]}
{"id": "C93", "title": "The reconstruction does not depend on the unit", "statement": "Values k times as large give reconstructed states k times as large. False: 1e-12 is added to differences of any unit. It holds up to (1+k)1e-12. In the program of main.cpp, in SI units, the mass density of the electrons is below 8e-16 everywhere at the start, and densities of this size are reconstructed as if constant in each cell: the scheme is of first order for them.", "quantifier": "all values and factors, all cells of the start state; exact arithmetic", "why_tests_cant": "the program runs and gives a smooth picture; only a convergence study in these units shows the lower order", "anchors": ["src/solver/euler.cpp", "src/example/plasma/gem_challenge.cpp", "src/solver/gem_challenge.cpp"]}
{"id": "C94", "title": "A time step moves information by at most six cells", "statement": "After k steps the values in a cell depend only on the initial values at most 6k moves between neighbouring cells away (two per stage, three stages): two runs that start with the same values there have the same values in the cell, whatever the values elsewhere. Gas, light and plasma, between walls or periodic.", "quantifier": "all meshes of at least two cells per direction, numbers of steps, initial values, time steps, arithmetics", "why_tests_cant": "all pairs of runs; a stray read far away changes nothing visible in a smooth problem", "anchors": ["src/solver/euler.cpp", "src/solver/maxwell.cpp", "src/solver/ssprk3.cpp", "src/solver/bc_periodic.cpp", "src/solver/bc_no_slip.cpp", "src/solver/bc_conducting_wall.cpp"]}
{"id": "C95", "title": "What is at rest stays at rest, and nothing happens far from the jump", "statement": "A uniform gas at rest and a uniform plasma at rest without electric field do not change, between walls too. So in every file of the shock tube programs the cells further than six cells per step from the jump show the initial values of their side.", "quantifier": "all meshes, numbers of frames and steps, uniform states; exact arithmetic", "why_tests_cant": "all sizes and run lengths", "anchors": ["src/example/euler/sod_shock_tube.cpp", "src/example/plasma/two_fluid_brio_wu.cpp", "src/solver/euler.cpp", "src/solver/maxwell.cpp", "src/solver/lorentz_force.cpp", "src/solver/current_source.cpp"]}
{"id": "C96", "title": "What advect_gaussian computes after an initial condition that returns", "statement": "Its own initial condition is undefined (C87). After any that returns, each step takes the stored field to the two-stage limited upwind result with velocity -1 in both directions; file j shows the state after j frames; the program ends normally if all files can be created, with an exception at the first that cannot. In exact arithmetic the sum over the array with its ghost cells never changes.", "quantifier": "all meshes, initial conditions that return, time steps, numbers of frames and steps, patterns of files that cannot be created; arithmetics", "why_tests_cant": "all sizes, fields and run lengths; the program cannot be run as it is", "anchors": ["src/example/advection/advect_gaussian.cpp", "src/solver/ssprk2_advection.cpp", "src/solver/bc_periodic.cpp", "src/solver/swap.cpp"]}
{"id": "C97", "title": "The domain of advect_gaussian is not periodic", "statement": "A uniform field would stay uniform in a periodic domain. The periodic conditions of the program are never set up and do nothing: with the zeros of a new variable in the ghost cells a uniform field is changed by the first step even in cells away from the ghost cells. It stays uniform at least 2 cells from the lower and 4 from the upper sides.", "quantifier": "all meshes of at least 7 by 9 cells, all positive time steps; exact arithmetic", "why_tests_cant": "all sizes and time steps", "anchors": ["src/example/advection/advect_gaussian.cpp", "src/solver/bc_periodic.cpp", "src/solver/ssprk2_advection.cpp"]}
{"id": "C98", "title": "The two advection stages are Heun's method", "statement": "In exact arithmetic the result of the two stages is the average of the field and of two forward Euler steps of it (the two-stage strong-stability-preserving scheme), though the code averages first and then exchanges fluxes over half a time step.", "quantifier": "all meshes, dimensions, velocities, time steps, fields", "why_tests_cant": "identity of schemes for all inputs", "anchors": ["src/solver/ssprk2_advection.cpp"]}
{"id": "C99", "title": "Advection and the range of the field", "statement": "A limited scheme should keep values between the extrema of their neighbours. This one does not: a field of values 0, 1 and 10 becomes negative within one step for all Courant numbers less than 2/3, zeros and ones grow above 1 (C97). What holds: the flux extrapolates from the two upwind cells by at most half their difference, so with the Courant numbers of all directions adding up to at most 2/3 a forward Euler step leaves the range by at most half that sum times its width.", "quantifier": "all meshes, dimensions, velocities, time steps, fields; exact arithmetic", "why_tests_cant": "all profiles; smooth tests show no overshoot", "anchors": ["src/solver/ssprk2_advection.cpp"]}
{"id": "C100", "title": "The coupling of fluids and field exchanges energy and momentum", "statement": "In every cell and every stage, what the sources (Lorentz force, current) add to the energy of the two fluids they take from the energy eps0 E^2/2 of the electric field; the force on both fluids together is rho E + J x B of the total charge and current; no mass or charge is added. The programs configure charges and masses consistently (each factor of the current is minus the charge-to-mass ratio of the force over eps0).", "quantifier": "all states, meshes, stages, step sizes; exact arithmetic", "why_tests_cant": "cancellation of terms computed in different solvers with separately configured constants", "anchors": ["src/solver/lorentz_force.cpp", "src/solver/current_source.cpp", "src/example/plasma/gem_challenge.cpp", "src/example/plasma/two_fluid_brio_wu.cpp"]}
{"id": "C101", "title": "Gauss's law", "statement": "Charge and electric field should stay related by dEx/dx = rho/eps0. They do not: two_fluid_brio_wu starts without charge and field, and after the first stage, however small, there is charge next to the jump while Ex is zero in all cells, because the Riemann solver lets electrons and ions diffuse at different rates. What holds in one dimension: Ex changes in each cell exactly by -J/eps0 of that cell and the charge by the difference of the currents through the faces.", "quantifier": "all numbers of cells from 6 on, all step sizes; all states for what holds", "why_tests_cant": "no test checks charge; the violation has no symptom in the programs", "anchors": ["src/solver/euler.cpp", "src/solver/current_source.cpp", "src/solver/maxwell.cpp", "src/example/plasma/two_fluid_brio_wu.cpp"]}
{"id": "C102", "title": "Divergence of the magnetic field", "statement": "The divergence of the magnetic field should stay zero. In two dimensions it does not: a small ring of magnetic field whose centred divergence is zero everywhere has a divergence after the first stage, for all step sizes and boundary conditions, because of the damping of the flux. What holds: fields that do not depend on y and have a uniform Bx stay so, with divergence zero, in any number of steps.", "quantifier": "all grids of at least 8 x 8 cells, all step sizes, speeds of light, boundary conditions", "why_tests_cant": "no test computes a divergence", "anchors": ["src/solver/maxwell.cpp"]}
{"id": "C103", "title": "Plasma oscillations", "statement": "In a periodic box a uniform plasma stays uniform and a time step of the plasma programs' loop is a step of the third order Shu-Osher method for the equations of motion of one cell (Lorentz force on both fluids, minus current over eps0 for the field). Without magnetic field the amplitude of the oscillation of field and current is multiplied in each step by 1 - theta^4/12 + theta^6/36 with theta the plasma frequency times the time step: it does not grow exactly when theta^2 <= 3 and grows beyond all bounds when theta^2 > 3; with the constants of two_fluid_brio_wu theta^2 is 0.11.", "quantifier": "all periodic boxes of any number of dimensions, all uniform states, masses, charges, eps0, step sizes, numbers of steps", "why_tests_cant": "a run shows one step size; the threshold and the factor hold for all of them", "anchors": ["src/solver/lorentz_force.cpp", "src/solver/current_source.cpp", "src/solver/ssprk3.cpp", "src/solver/euler.cpp", "src/solver/maxwell.cpp", "src/example/plasma/two_fluid_brio_wu.cpp"]}
{"id": "C104", "title": "The print solver prints every interior value once, in order", "statement": "For every list of variables, print::solve writes for each variable its name and then, for each cell of each chunk's internal range in row-major order, one line with the cell's global index and its value; ghost cells are not printed. It changes no stored variable; a variable that does not exist is created by the lookup and printed as zeros.", "quantifier": "all managers, variables of any shape and number of dimensions, all contents, all lists of ids", "why_tests_cant": "the order and completeness of the lines is a statement about every mesh, and the creation of missing variables is silent", "anchors": ["src/solver/print.cpp", "src/variable/variable_manager.cpp"]}
{"id": "C105", "title": "The uncalled source kernels update the cells of the mesh", "statement": "lorentz_force::low_order_solve and current_source::fv_solve, which walk through the arrays with advancing pointers, update exactly the interior cells. (False: the walk covers the cells from the first interior cell up to, but not including, the last interior cell in array order, so it leaves out the last cell and, in two or more dimensions, updates ghost cells; no access is out of bounds.) Also face_basis::setup stores its numbers before it rejects them and appends a point at each call.", "quantifier": "all meshes with any number of dimensions, ghost layers, basis points, contents", "why_tests_cant": "the functions have no caller, and whether the cells are right depends on the shape of the mesh", "anchors": ["src/solver/lorentz_force.cpp", "src/solver/current_source.cpp", "src/data/dataset.cpp", "src/basis/face_basis.cpp"]}
{"id": "C106", "title": "The density of a gas stays positive", "statement": "If all cells have positive density and pressure and the Courant number is at most 1/2, a time step gives finite, positive densities. (False: next to a minimum of the density the reconstruction gives a negative density and the rate is NaN, for every cell width and every gamma > 1. What holds: if in each stage the states reconstructed at the faces of a cell have positive density, real speed of sound, and speeds at most a, the cell keeps at least the fraction 1/3 + k/2 + k^3/6 of its density, k = 1 - 2 C with C the sum of a t/dx over the directions, up to 3e-12 C; the mass flux takes out of either side at most a times the density there, also where the code adds two branches.)", "quantifier": "all meshes of up to three dimensions, all fields, gamma, speeds, step sizes, walls and periodic directions, gas and plasma programs", "why_tests_cant": "runs sample smooth states; the bound holds for all of them and the counterexample needs a particular shape of the density", "anchors": ["src/solver/euler.cpp", "src/solver/ssprk3.cpp", "src/spatial_solver/functions.h"]}
{"id": "C107", "title": "The function advection() is defined and advects along the directions of the mesh", "statement": "The function advection() of ssprk2_advection.cpp (no callers) makes, for every velocity, the two-stage step of the limited upwind scheme along the directions of the mesh. (False: if one velocity is zero or negative it reads past the end of the array, for every mesh; and in two or more dimensions the elements it takes for neighbours are not neighbours, unless there is only one element. What holds: with positive velocities it is defined, each element is the result of the two-stage scheme with strides growing from the first direction, and the sum of the elements is kept.)", "quantifier": "all ranges of any dimension, all arrays, velocities, grids, time steps; any arithmetic (sum: real numbers)", "why_tests_cant": "the function has no callers, so no test reaches it; reading past the end of an array may go unnoticed", "anchors": ["src/solver/ssprk2_advection.cpp"]}
{"id": "C108", "title": "The step sizes of the programs as configured", "statement": "With the numbers of cells, frames and steps written in the programs, light crosses less than 0.65 of a cell per time step in every direction (gem_challenge 0.486, harris_current_sheet 0.0593, two_fluid_brio_wu 0.1, wave_1D 0.128; gaussian_pulse 0.64), the flow of advect_gaussian crosses 0.256 cells summed over the directions, a step of gem_challenge is 0.00032 inverse cyclotron frequencies of the ions and 0.008 of the electrons, and at every density of the initial states the oscillation of a uniform plasma (C103) is damped and not amplified.", "quantifier": "all densities up to the largest of the initial states; exact arithmetic; the constants are those in the source", "why_tests_cant": "the programs print some of these numbers but nothing checks them, and a program with too large a step may run for many steps before it fails", "anchors": ["src/example/plasma/gem_challenge.cpp", "src/example/plasma/harris_current_sheet.cpp", "src/example/plasma/two_fluid_brio_wu.cpp", "src/example/maxwell/wave_1D.cpp", "src/example/maxwell/gaussian_pulse.cpp", "src/example/advection/advect_gaussian.cpp"]}
{"id": "C109", "title": "The repository's tests pass, also with other numbers", "statement": "The three test programs of the repository succeed, and each of their tests also passes when the numbers written in it are replaced by others: all lengths and bounds (at least one dimension) for the ranges, all containers of two dimensions with sub-ranges of equal volume and all values for the indexers, all names, components, ghost layers and meshes for the variables. Where a test compares with a number written out, it passes iff that number is the right one. A group succeeds iff all its tests do.", "quantifier": "all numbers in place of those written in the tests, under the stated conditions", "why_tests_cant": "the tests use one set of numbers; two of them check an indexer over an empty range and not over the range their names speak of", "anchors": ["test/lib/test_range.cpp", "test/lib/test_indexer.cpp", "test/variable/test_variable.cpp", "test/test_interface.h"]}
{"id": "C110", "title": "Conservation in floating-point arithmetic", "statement": "With every operation rounded (errors of at most a relative u each and of at most e where the result underflows), where the fluxes are finite: nothing at all flows through a no-slip wall (mass and energy) and, for the magnetic field, through a conducting wall of direction 0; and the totals that are conserved in exact arithmetic (mass and energy of a gas, components of a field in a periodic box, densities and magnetic field of a plasma) change over i time steps by at most i N 2 (((1+u)^(2D+5) - 1)(Q + W) + 3 (1+u)^(2D+5) e), where N is the number of cells, D of directions, Q bounds the values and W what flows through the faces of a cell in a time step. In double precision the sums of the numbers printed by main.cpp (gem_challenge), sod_shock_tube and wave_1D change by at most 2.6e-15 (Q + W) + 8e per cell and time step.", "quantifier": "all formats and rounding functions that meet the assumptions; all meshes, states, numbers of steps; all Q, W; the end state finite", "why_tests_cant": "rounding errors depend on all values of a run; no test has run a solver", "anchors": ["src/solver/euler.cpp", "src/solver/maxwell.cpp", "src/solver/ssprk3.cpp", "src/solver/bc_no_slip.cpp", "src/solver/bc_conducting_wall.cpp", "src/solver/bc_periodic.cpp", "src/example/plasma/gem_challenge.cpp", "src/example/euler/sod_shock_tube.cpp", "src/example/maxwell/wave_1D.cpp"]}
{"id": "C111", "title": "The boundary-condition solvers set exactly the face ghost cells of the listed variables", "statement": "On a variable manager of a mesh with at least two cells in every listed direction, each of bc_periodic, bc_copy_out, bc_no_slip, bc_free_slip and bc_conducting_wall returns, for every list of existing output variables (repetitions allowed), every number type and all contents. Afterwards each listed variable holds, in its face ghost cells in the listed directions, the value one period away (periodic), the mirror value (copy-out), or the mirror value with the sign changed in components 1-3 (no-slip, free-slip) or 0-3 (conducting wall); variables with fewer than four components get plain mirror values. All other cells (interior, corners, ghosts of other directions), all other variables and the mesh are unchanged. bc_free_slip equals bc_no_slip in every case. A listed direction that the mesh does not have (negative or too large) is undefined behaviour, as nothing checks it.", "quantifier": "all number types, meshes, output lists with repetitions, direction lists, contents", "why_tests_cant": "Quantifies over all meshes, variable lists and contents; effects on cells and variables that should not change cannot be enumerated, and out-of-range directions are undefined behaviour that a test need not observe.", "anchors": ["src/solver/bc_periodic.cpp", "src/solver/bc_copy_out.cpp", "src/solver/bc_no_slip.cpp", "src/solver/bc_free_slip.cpp", "src/solver/bc_conducting_wall.cpp"]}
{"id": "C112", "title": "Signed overflow at the level of chunks, variables, kernels and programs", "statement": "With every int computed in 32 bits, creating a variable on a mesh without empty dimensions gives the same result as with unbounded integers if the shape of its array (mesh with ghost layers, points, components) fits in 32-bit integers, and otherwise signed overflow occurs. For a mesh starting at 0 this means: creation succeeds exactly if the number of elements, ghosts included, is at most 2147483647. On an array that fits, nothing else overflows: the indexers and loops over the interior and the slabs at the faces for any range of components, the bounds and counters of the Euler and Maxwell kernels, the indices of the advection solver for both signs of the velocity, and the element indices of the VTK writer; all equal their unbounded values. The largest meshes of the programs are: gem_challenge Nx = 13374; harris, brio_wu and gaussian_pulse 357913937 cells; sod (nx+4)(ny+4) <= 429496729; wave_1D (nx+4)(ny+4)(nz+4) <= 357913941; advect (nx+4)(ny+4) <= 2147483647.", "quantifier": "all meshes, numbers of ghost layers, points, components, cells of the programs", "why_tests_cant": "The boundary lies at arrays of 2^31 elements (16 GiB); overflow is undefined behaviour and need not show in a test.", "anchors": ["src/data/extended_datachunk.cpp", "src/data/dataset.cpp", "src/data/datachunk.cpp", "src/solver/euler.cpp", "src/solver/maxwell.cpp", "src/solver/ssprk2_advection.cpp", "src/example/plasma/gem_challenge.cpp"]}
{"id": "C113", "title": "What gaussian_pulse computes after an initial condition that returns", "statement": "With any number of cells (at least 2), frames and steps, and any initial condition that returns: each state of gaussian_pulse is one step of the Maxwell scheme with speed of light 5, periodic in the only direction, after the one before; file j shows the state after j frames; the program ends normally if all files can be created, with an exception at the first that cannot, and is undefined without the assumed alignment. In exact arithmetic the sum of each component is the same in all files, and the components of both fields along the domain keep their initial values in every cell.", "quantifier": "all initial conditions, numbers of cells, frames, steps, arithmetics, file systems", "why_tests_cant": "The program itself is undefined before its first step (C87); its steps can only be judged for all states at once.", "anchors": ["src/example/maxwell/gaussian_pulse.cpp", "src/solver/maxwell.cpp", "src/solver/ssprk3.cpp", "src/solver/bc_periodic.cpp"]}
{"id": "C114", "title": "The pressure of a gas stays positive", "statement": "If density and pressure are positive in all cells, the signal speeds are within a, and the Courant number is at most 1/2, then a time step of the gas leaves density and pressure positive. False: momentum and energy are limited one by one, and at a wall they can give a negative pressure although the cells around it have positive pressures; then all components of the rate are NaN. What holds: if in every stage the states reconstructed at the faces of a cell have positive density, pressure not negative and signal speeds within a, then in every Galilean frame the cell keeps at least the fraction 1/3 + k/2 + k^3/6 (k = 1 - 2C) of its energy, and of its pressure, up to 3e-12 C times a factor that depends on the velocity only. The HLL flux of the code takes out of either side at most the energy there times the largest signal speed, in every frame, also where two branches are added (C51).", "quantifier": "all states, frames, meshes of up to 3 dimensions, gamma > 1", "why_tests_cant": "Positivity is about all states and all observers; the failure needs a particular pattern of four cells.", "anchors": ["src/solver/euler.cpp", "src/solver/ssprk3.cpp"]}
{"id": "C115", "title": "The order of the time integrators and the convergence of runs", "statement": "In exact arithmetic, for every problem y' = f(y) in a normed space with a right-hand side f that is three times continuously differentiable, one step of size t of ssprk3 started from the exact solution differs from it in each cell by at most a constant times t^4, and one step of rk1 by a constant times t^2. The order is not higher: for y' = y the error of ssprk3 is at least t^4/24. Runs of the plasma programs from a uniform plasma in a periodic box follow the exact solution of the equations of motion, as long as it exists, up to a constant times t^3 that does not depend on the mesh or the number of steps; in particular a plasma at rest in a field a along x oscillates as a cos(omega time) with the plasma frequency omega.", "quantifier": "all normed spaces, smooth right-hand sides, solutions, final times, meshes, runs", "why_tests_cant": "Order is a statement about the limit of small steps and all smooth problems; tests see a few problems and step sizes.", "anchors": ["src/solver/ssprk3.cpp", "src/solver/rk1.cpp", "src/solver/lorentz_force.cpp", "src/solver/current_source.cpp"]}
{"id": "C116", "title": "Assigning an indexer reproduces it", "statement": "Copying an indexer, or assigning it to any indexer, gives an indexer equal to the original in every member, at any point of its life, so that loops continued with either visit the same cells. Assigning an indexer to itself leaves it as it is.", "quantifier": "all histories of constructions, increments, decrements and assignments; all targets", "why_tests_cant": "Indexers have unboundedly many states; the target may have any number of dimensions; self-assignment ends in an endless loop, not a wrong value.", "anchors": ["src/lib/indexer.cpp", "src/lib/indexer.h", "src/lib/range.cpp"]}
{"id": "C117", "title": "Printing a range", "statement": "Writing a range to a stream writes its lower and upper bounds, separated by commas, and returns the stream.", "quantifier": "all ranges", "why_tests_cant": "Flowing off the end of the operator is undefined behaviour that may look right in a test.", "anchors": ["src/lib/range.h"]}
{"id": "C118", "title": "The files show the numbers in memory", "statement": "From the characters of a VTK file a reader recovers the numbers that were in memory, for every component in all cells, in the order of the cells. (The programs print 16 digits; 17 would determine every double.)", "quantifier": "all finite and non-finite values, meshes, names of variables, runs of the programs; all precisions", "why_tests_cant": "There are 2^64 doubles and unboundedly many files; wrong digits appear only in the last place of some numbers.", "anchors": ["src/variable/variable_manager.cpp", "src/variable/variable.cpp", "src/data/datachunk.cpp", "src/solver/print.cpp"]}
{"id": "C119", "title": "The discretisation is consistent with the Euler, Maxwell and two-fluid equations", "statement": "Started from the values of a smooth solution of the Euler, Maxwell or two-fluid equations at the centres of the cells, the rates of change are the right-hand sides of these equations up to a bound proportional to the cell width (plus the effect of the 1e-12 in the limiter), and one SSPRK3 step gives the solution one step later with an error of at most step times that bound plus step squared, if the solution meets the boundary conditions (walls, periodic directions). The order of the rates in the cell width is two where each component has a slope or does not change, and one next to extrema, not two.", "quantifier": "all smooth fields and gases with bounded second derivatives, all meshes of 1 to 3 dimensions, all cell widths, steps, speeds of light and adiabatic indices (gas: cells fine enough to keep the reconstructed states admissible)", "why_tests_cant": "A run compares two numbers for one solution on one mesh; the bound holds for all solutions and all meshes.", "anchors": ["src/solver/euler.cpp", "src/solver/maxwell.cpp", "src/spatial_solver/functions.h", "src/solver/ssprk3.cpp", "src/solver/lorentz_force.cpp", "src/solver/current_source.cpp"]}
{"id": "C120", "title": "The terminal shows every frame once, in order, with its times, and how far a run came", "statement": "Printing and time measurement do not change what a program computes or the files it writes. A run that ends normally announces frame 0 and then each frame once, in order, each with the time of its steps and the time of writing its file in whole microseconds, and then the average time of the steps of a frame; a run that ends with an exception has announced exactly the frames before it, and the unfinished line names the frame whose file was being written. The GEM and Harris programs first print six numbers; in exact arithmetic their characters are the ones named in C120_gem_start and C120_harris_start.", "quantifier": "all numbers of frames and steps, all mesh sizes, all readings of the clock, all sets of files that cannot be created, every arithmetic (text of the numbers: exact arithmetic)", "why_tests_cant": "The times differ in each run, and which file cannot be created is not in a test's hands; the statement holds for all readings and all failures.", "anchors": ["src/example/plasma/gem_challenge.cpp", "src/example/plasma/harris_current_sheet.cpp", "src/example/plasma/two_fluid_brio_wu.cpp", "src/example/euler/sod_shock_tube.cpp", "src/example/maxwell/wave_1D.cpp", "src/example/maxwell/gaussian_pulse.cpp", "src/example/advection/advect_gaussian.cpp"]}
{"id": "C121", "title": "The scheme creates no electromagnetic energy, and no energy of the plasma", "statement": "On a mesh whose directions are periodic or, in direction 0, closed by conducting walls, the rate of change by the fluxes of the energy (E^2 + c^2 B^2)/2 summed over all cells is not positive, apart from an error due to the 1e-12 in the denominators of the limiter: at most 9/16e-12 c (1+c) times the sum of the differences between neighbouring values over the cell width. In a two-fluid program the same holds for the sum of the energies of both fluids and of the field in every stage of every step. Conducting walls in another direction can create energy.", "quantifier": "all meshes with up to three directions (fields: any number), all widths of cells, all values of the fields with no two neighbours differing by exactly -1e-12 (where the code divides by zero), all speeds of light, all plasma parameters with current factors consistent with the force factors", "why_tests_cant": "Runs show the energy for a few initial conditions only; whether a nonlinear limiter can feed energy into some arrangement of values is a question about all of them.", "anchors": ["src/solver/maxwell.cpp", "src/spatial_solver/functions.h", "src/solver/bc_conducting_wall.cpp", "src/solver/bc_periodic.cpp", "src/solver/lorentz_force.cpp", "src/solver/current_source.cpp", "src/solver/euler.cpp", "src/example/plasma/gem_challenge.cpp"]}
{"id": "C122", "title": "Runs for the electromagnetic field are stable", "statement": "On a periodic mesh one stage of the time integration multiplies the energy of the field (plus 3 per point) at most by 1 + t*eta + t^2*K and one SSPRK3 step at most by exp(t*eta + t^2*K), where eta comes only from the 1e-12 in the limiter and K = sum over the directions of 81 d c^2/dx^2 (d directions). Hence every value in every file of a run of wave_1D is bounded by an expression in the numbers of cells, frames and steps, and the energy in a run of gaussian_pulse from any initial field by a multiple of the one at the start; with smaller time steps the growth tends to that due to the 1e-12.", "quantifier": "all periodic meshes with at least two cells per direction, all cell widths, speeds of light, time steps (no condition on their size), initial fields and numbers of steps, provided no two neighbouring values in a stage differ by exactly -1e-12 (where the code divides by zero)", "why_tests_cant": "A run that stays bounded says nothing about other initial fields, resolutions or longer times; instabilities of nonlinear limited schemes show up only for particular data.", "anchors": ["src/solver/maxwell.cpp", "src/spatial_solver/functions.h", "src/solver/ssprk3.cpp", "src/solver/bc_periodic.cpp", "src/example/maxwell/wave_1D.cpp", "src/example/maxwell/gaussian_pulse.cpp"]}
{"id": "C123", "title": "Programs whose calls fit together never go wrong", "statement": "Take any program made of calls of the library (requesting output variables, set_dt, set_time, fill, swap, the five boundary conditions, euler, maxwell, lorentz_force, current_source, rk1, ssprk3, and solvers of its own that write only what they say), with loops and with branches on anything in the manager. If each call fits, as a simple check of the text decides (inputs exist by then, dt is set, inputs and outputs differ, numbers of components and points match, directions exist and have at least two cells), then the program returns without exception or undefined behaviour, the manager stays in order, the variables the check predicts exist, and variables that are no output of a call are unchanged. The time steps of all shipped programs except advect_gaussian pass the check. The seven initial conditions of the library are solvers that write only what they say, on meshes that fit, so programs may call them too. Missing inputs, a missing dt and an output equal to an input are undefined behaviour.", "quantifier": "all programs of that form, all ids, all meshes, all numbers (any arithmetic), all managers in order, all runs", "why_tests_cant": "A test runs one program; the claim is about every program a user of the library may write.", "anchors": ["src/variable/variable_manager.cpp", "src/solver/solver.h", "src/solver/euler.cpp", "src/solver/maxwell.cpp", "src/solver/lorentz_force.cpp", "src/solver/current_source.cpp", "src/solver/rk1.cpp", "src/solver/ssprk3.cpp", "src/solver/fill.cpp", "src/solver/swap.cpp", "src/solver/bc_periodic.cpp", "src/solver/bc_copy_out.cpp", "src/solver/bc_no_slip.cpp", "src/solver/bc_free_slip.cpp", "src/solver/bc_conducting_wall.cpp", "src/solver/magnetic_pulse.cpp", "src/solver/shock_tube.cpp"]}
{"id": "C124", "title": "Every variable is freed exactly once", "statement": "For every program made of calls of the library (whether or not they fit together) on a new variable manager, and for the seven shipped programs with any mesh size, number of frames and steps and any failures to open files: when the program returns, and also when an exception ends it, the destructor of the manager deletes every variable that was allocated with new exactly once, so nothing leaks and nothing is deleted twice. A manager that has a variable must not be copied, although the compiler allows it: destroying both is undefined behaviour.", "quantifier": "all programs of that form, all ids (also inconsistent ones), all meshes, all numbers, all points at which an exception is thrown", "why_tests_cant": "A leak or a double deletion after an exception in one particular call shows only in runs in which that call throws.", "anchors": ["src/variable/variable_manager.cpp", "src/variable/variable_manager.h", "src/main.cpp", "src/solver/swap.cpp"]}
{"id": "C125", "title": "The scheme treats the axes alike", "statement": "In exact arithmetic, giving the axes of the mesh other names changes nothing but names. For a gas on a mesh of at most three dimensions and any renaming of its axes (with widths, walls, periodic directions and momenta renamed along), every run is the same run under the new names; so a shock tube along y behaves as one along x, and a gas symmetric under the exchange of two axes on a symmetric mesh stays symmetric for ever. For the electromagnetic field and for the coupled plasma on a periodic three-dimensional mesh the same holds for the rotation x to y to z to x.", "quantifier": "all meshes, widths, renamings, initial states, time steps, numbers of steps", "why_tests_cant": "An error in the flux of one direction or one component (an index or sign that is right along x and wrong along y or z) shows only in runs with gradients in that direction; tests of the repository do not run the solvers.", "anchors": ["src/solver/euler.cpp", "src/solver/maxwell.cpp", "src/solver/lorentz_force.cpp", "src/solver/current_source.cpp", "src/solver/ssprk3.cpp"]}
{"id": "C126", "title": "Results do not depend on the number of threads", "statement": "Take any program made of calls of the library that passes the check of C123 (any loops, branches, meshes, variables), and run it with any number of threads, with any interleaving of single reads and writes in every parallel loop, chosen anew for every call. Then there is exactly one outcome, the one of the sequential run, and no execution has a data race. This covers the time loops of all shipped programs except advect_gaussian.cpp, for every number of steps; the advection solver has executions with a data race on every mesh.", "quantifier": "all accepted programs, managers, meshes, interleavings, numbers of threads and steps, and any arithmetic", "why_tests_cant": "Races show up for some schedules only, and a test samples a handful of schedules on one machine.", "anchors": ["src/solver/euler.cpp", "src/solver/maxwell.cpp", "src/solver/ssprk3.cpp", "src/solver/ssprk2_advection.cpp"]}
{"id": "C127", "title": "Results depend neither on variable names nor on memory layout", "statement": "Take any program made of calls of the library (correct or not), give its variables other names of the same shape, and run both programs on managers that store the same for corresponding variables. The managers may hold further variables, and the variables may have been created in any order and lie anywhere in memory. Then both runs return, or both throw the same exception, or both have the same undefined behaviour, and the managers left behind again store the same. Initial conditions and the advection solver keep this relation too. Consequently two correct programs neither of which writes a variable of the other, and which leave the clock alone, may be run in either order with the same result for every variable.", "quantifier": "all programs, renamings, managers, meshes and any arithmetic", "why_tests_cant": "A test fixes the names, the order of creation and thus the addresses; a mistake such as using the address of the wrong variable shows only for some layouts.", "anchors": ["src/variable/variable_manager.cpp", "src/variable/variable_id.cpp", "src/solver/euler.cpp", "src/solver/swap.cpp", "src/solver/gem_challenge.cpp", "src/solver/brio_wu_shock_tube.cpp"]}
{"id": "C128", "title": "Memory does not grow with the number of steps", "statement": "A program made of calls of the library creates at most one variable object for each variable it names as an output, however many loops and steps it makes and whether it returns or throws. If it is accepted by the check of C123, the numbers stored at the end are exactly those of its variables, one array on the mesh with two layers of ghost cells each. Once the outputs exist, nothing is created any more: the map of the manager and the number of objects stay as they are. The shipped programs hold at most 15 (plasma), 5 (Sod tube, wave, pulse) or 3 (advection) variables for any mesh, number of frames and number of steps.", "quantifier": "all programs, meshes, numbers of frames and steps, and any arithmetic", "why_tests_cant": "A test runs for some number of steps; slow growth of memory shows only in longer runs, and a test does not see the objects behind the manager.", "anchors": ["src/variable/variable_manager.cpp", "src/variable/variable.cpp", "src/solver/swap.cpp", "src/solver/solver.h", "src/example/plasma/gem_challenge.cpp", "src/example/advection/advect_gaussian.cpp"]}
{"id": "C129", "title": "swap keeps the shape of every variable", "statement": "solver::swap rejects a pair of variables with different numbers of points or components; after it every variable still has the shape that its id says.", "quantifier": "all managers, all lists of existing variables, any arithmetic", "why_tests_cant": "A test tries a few pairs of shapes; the check has to hold for all of them (FALSE of the code: only the numbers of chunks, 1 and 1, are compared).", "anchors": ["src/solver/swap.cpp", "src/lib/indexer_interface.h", "src/variable/variable.cpp", "src/data/dataset.cpp"]}
{"id": "C130", "title": "Both species are treated alike, and what is uncoupled stays uncoupled", "statement": "Exchanging electrons and ions with their parameters exchanges them in all later states; a fluid with zero charge evolves as a gas alone, a field without currents as light alone; and if the current of the electrons is switched off, ions and field do not depend on the electrons.", "quantifier": "all meshes, wall and periodic directions that cover them, parameters, starts, numbers of steps; exact arithmetic", "why_tests_cant": "A run compares one setup; a sign or an index that treats one species differently in a term that happens to vanish goes unnoticed.", "anchors": ["src/solver/lorentz_force.cpp", "src/solver/current_source.cpp", "src/solver/euler.cpp", "src/solver/maxwell.cpp", "src/example/plasma/gem_challenge.cpp"]}
{"id": "C131", "title": "Only the ratio of the step size to the cell widths matters", "statement": "With cells and step size s times as large (and charge-to-mass ratios and current multipliers s times as small) the time steps are the same: lengths and times can be measured in any unit.", "quantifier": "all meshes, s ≠ 0, step sizes, parameters, states; exact arithmetic", "why_tests_cant": "A run uses one unit; a hidden absolute length or time in a formula shows only in another.", "anchors": ["src/solver/euler.cpp", "src/solver/maxwell.cpp", "src/solver/ssprk3.cpp", "src/solver/lorentz_force.cpp", "src/solver/current_source.cpp"]}
{"id": "C132", "title": "Writing files does not influence the run", "statement": "Two runs of a program that make the same number of steps in total but write files after different numbers of steps end in the same state, and their files for the same time are equal; with the same step size the files of a shorter run are the first files of a longer one.", "quantifier": "all initial conditions, solvers, variables, numbers of frames and steps with the same product, arithmetics; for the programs all mesh sizes >= 2", "why_tests_cant": "An output routine that disturbs the state (or a loop that loses or repeats a step at a frame) changes the numbers slightly; a test would have to run every division into frames.", "anchors": ["src/variable/variable_manager.cpp", "src/example/euler/sod_shock_tube.cpp", "src/example/maxwell/wave_1D.cpp", "src/example/plasma/gem_challenge.cpp", "src/example/plasma/harris_current_sheet.cpp", "src/example/plasma/two_fluid_brio_wu.cpp"]}
{"id": "C133", "title": "A run that ends normally has left every file complete", "statement": "If a program ends normally, every file it created contains all the characters it was given; errors of the medium while writing are reported.", "quantifier": "all programs of the form of the examples, all media (room for each file), all ways to print numbers, arithmetics", "why_tests_cant": "Tests run where there is room. That the state of the stream is not looked at after opening shows only on a full medium, at the end of a long run.", "anchors": ["src/variable/variable_manager.cpp", "src/data/datachunk.cpp", "src/grid/rectilinear.cpp", "src/example/plasma/gem_challenge.cpp", "src/main.cpp"]}
{"id": "C134", "title": "After a kill the files are complete except possibly the last, and an incomplete one is recognised", "statement": "A program killed at any moment leaves its first files, complete, and possibly a beginning of the next; a file left, on any medium, is complete exactly if it has 8 + 3 n line ends, n the number of components written (56 for the program of main.cpp), and then it shows the state after the steps that belong to its number.", "quantifier": "all programs of the form of the examples, all moments of the kill, all losses of buffered characters, all media, mesh sizes >= 2, numbers of frames and steps, arithmetics", "why_tests_cant": "The moments at which a run can be killed are many millions; a routine that writes parts of several frames at once, or writes the end of a file first, behaves the same in every run that is not killed.", "anchors": ["src/variable/variable_manager.cpp", "src/data/datachunk.cpp", "src/grid/rectilinear.cpp", "src/example/plasma/gem_challenge.cpp", "src/main.cpp"]}
{"id": "C135", "title": "A variable that is input and output of one call is handled", "statement": "A solver that is called with the same variable as input and output either raises an exception or computes what it would compute with a copy of the input. (False for euler, maxwell, lorentz_force, rk1, ssprk3 and ssprk2_advection: their kernels declare the pointers __restrict__ and nothing checks that they differ, so the call is undefined for every manager and all contents. The exact condition for the integrators is that the variable written is none of those read; other variables may coincide. current_source and swap are right.)", "quantifier": "all variable managers, contents, number types, lists of variables", "why_tests_cant": "Undefined behaviour need not show in a run, and every choice of coinciding variables would have to be tried.", "anchors": ["src/solver/euler.cpp: euler::solve, solve_mp", "src/solver/maxwell.cpp: maxwell::solve", "src/solver/lorentz_force.cpp: lorentz_force::solve", "src/solver/current_source.cpp: current_source::solve, fv_solve_idx", "src/solver/rk1.cpp: rk1::solve", "src/solver/ssprk3.cpp: ssprk3::solve", "src/solver/ssprk2_advection.cpp: ssprk2_advection::solve", "src/solver/swap.cpp: swap::solve"]}
{"id": "C136", "title": "The time of a simulation", "statement": "The time stored in the variable manager influences nothing but itself: no solver of the library depends on it (ssprk2_advection only needs it to be set), and the frames of a program run from different times end in the same way, with the same files and the same state but for the time. At the end of every program that ends normally the manager stores the step size and the sum of all step sizes added one by one, and each file was written when it stored the sum up to its frame. In exact arithmetic this is the intended end time (and j/F of it at frame j of F); in floating-point arithmetic it differs from it by at most the relative error (1+u)^(N+1) - 1 for N steps (3e-11 for gem_challenge in double precision) plus what may underflow in the step size, and every step increases it as long as N u (1+u)^N < 1. It is not always exact: six steps of 1/6 end below 1.", "quantifier": "all programs, numbers of cells, frames and steps, all arithmetics; the error bounds for all rounding functions that meet the assumptions of C110 and all step counts below 2^53", "why_tests_cant": "The error accumulates over arbitrarily many steps, and independence of the stored time is a statement about pairs of runs from all states.", "anchors": ["src/variable/variable_manager.h: set_time, time, set_dt, dt", "src/solver/ssprk2_advection.cpp: ssprk2_advection::solve", "src/example/plasma/gem_challenge.cpp: time loop", "src/example/plasma/harris_current_sheet.cpp: time loop", "src/example/plasma/two_fluid_brio_wu.cpp: time loop", "src/example/euler/sod_shock_tube.cpp: time loop", "src/example/maxwell/wave_1D.cpp: time loop", "src/example/advection/advect_gaussian.cpp: time loop"]}
{"id": "C137", "title": "A gas at rest in pressure equilibrium stays at rest", "statement": "A gas at rest with the same pressure everywhere and any positive density in each cell (contact discontinuities at rest) is at rest with the same pressure after a time step of the Euler solver, in one, two or three dimensions, with walls and periodic sides. The HLL flux between gases of equal velocity and pressure carries the common velocity with the mass, adds the pressure to the momentum normal to the face and the enthalpy to the energy; at rest it carries mass from the denser to the thinner gas at the rate given by the speeds of sound. So the density itself does not stay: an interface is spread. For a moving gas the common velocity is not kept, since density and momentum are reconstructed separately with the absolute constant 1e-12.", "quantifier": "all ratios of specific heats above 1, all energies, meshes, boundary conditions and densities whose reconstruction at the faces stays positive (in particular all densities within a factor of two and all sufficiently short steps)", "why_tests_cant": "The equilibrium is over all density fields and mesh shapes; a run shows one interface, and roundoff hides whether pressure and velocity are kept exactly.", "anchors": ["src/solver/euler.cpp: euler::solve", "src/solver/ssprk3.cpp: ssprk3::solve"]}
{"id": "C138", "title": "The momentum of a gas changes by what the walls exert", "statement": "The totals of mass, momentum and energy of a gas change at a rate given by the fluxes through the outer ends of the rows of cells that end at walls, and by nothing else. A no-slip wall, where the ghost cell has the reversed momentum, exchanges no mass and no energy with the gas unless the gas leaves it faster than sound; it exerts the pressure, less density times speed of sound times the velocity at which the gas leaves it, and brakes the motion along it by density times speed of sound times velocity (so it is not a slip wall). Between two walls, with periodic sides otherwise, a gas that is uniform and at rest in the seven cells next to either wall gains in one time step exactly the difference of the pressures times the number of rows times the time over the width of a cell, whatever happens in between. So in every file of the Sod shock tube that is written before anything can have reached the walls the momenta along the tube add up to 9/20 of the number of cells times the fraction of the run that is over.", "quantifier": "all ratios of specific heats above 1, all states of the gas between the walls, all mesh sizes, numbers of frames and steps", "why_tests_cant": "The balance is over all states and mesh shapes and holds exactly; a run checks one state up to roundoff.", "anchors": ["src/solver/euler.cpp: euler::solve", "src/solver/bc_no_slip.cpp: bc_no_slip::solve", "src/solver/ssprk3.cpp: ssprk3::solve", "src/example/euler/sod_shock_tube.cpp: main"]}
{"id": "C139", "title": "Small disturbances of a uniform gas stay small and leave density and pressure positive", "statement": "For every uniform state of a gas with positive density and pressure there are a size c > 0 and a rate L, which depend on this state and on the ratio of specific heats only, such that the following holds on every mesh of at most three dimensions, periodic or (if the state is at rest) with no-slip walls, for all time steps and all numbers of steps: a start whose components differ from the state by at most d in every cell differs from it after i steps by at most exp(i t L sum of 1/dx) d, and after every step density and pressure are positive in all cells, as long as the bound at the end of the run is at most c. (The denominators of the limiter, which vanish for differences of exactly -1e-12, are assumed not to vanish in any stage.)", "quantifier": "all uniform states, all disturbances, all meshes, widths of cells, time steps and numbers of steps", "why_tests_cant": "The bound holds for all disturbances and meshes; a run tries one start on one mesh.", "anchors": ["src/solver/euler.cpp: euler::solve", "src/solver/ssprk3.cpp: ssprk3::solve", "src/solver/bc_no_slip.cpp: bc_no_slip::solve", "src/solver/bc_periodic.cpp: bc_periodic::solve"]}
{"id": "C140", "title": "The pieces of a range_set cover the super-range whatever its size", "statement": "The size of the pieces of a range_set is computed in float as ceil(float(length) / float(n)). Rounding to the nearest number of IEEE binary32, whatever is done with ties, gives the right size for lengths and counts below 2^24 (what C31 and C32 assume follows from it). For larger ranges every cell of the super-range is in a piece precisely if in every dimension the number of pieces times the computed size is at least the length. This fails: a range of 2^25 + 1 cells in one piece gets a piece of 2^25 cells, so its last cell belongs to no piece; and for the longest range there is, 2^31 - 1 cells, the size is rounded to 2^31, whose conversion to int is undefined.", "quantifier": "all super-ranges, subdivision counts and all roundings to a nearest binary32 number", "why_tests_cant": "Only ranges of more than 2^24 cells in one dimension are affected, and which ones depends on the rounding.", "anchors": ["src/lib/range_set.cpp: range_set::setup"]}
{"id": "C141", "title": "The files announce a type that can hold their numbers", "statement": "A reader that reads the components of a VTK file in the type that the file announces for them gets the values that are in memory, up to the 16 digits printed. The files announce `float`, so such a reader rounds to single precision: it finds every value between 2^-125 and 2^126 in size up to 6e-8 of its size, 9 of the 16 digits are lost, and no value of 2^128 or more can be held at all. Fields that differ by 1 in every cell, with different digits in the files, are read as the same field.", "quantifier": "all fields, meshes, variables and all roundings to a nearest binary32 number", "why_tests_cant": "A test of the writer looks at the text of the file, which has all digits; what is lost depends on the reader.", "anchors": ["src/variable/variable.cpp: variable::write_vtk", "src/data/extended_datachunk.cpp: extended_datachunk::write_VTK"]}
{"id": "C142", "title": "Small disturbances of a uniform plasma in balance stay small and leave densities and pressures positive", "statement": "Take two uniform gases of positive density and pressure in uniform electric and magnetic fields such that no force acts on either gas and their currents cancel. There are a size c > 0 and rates A and L, which depend on this plasma, the charges, the speed of light and the ratio of specific heats only, such that the following holds on every mesh of at most three dimensions, periodic or with walls (if both gases are at rest, without electric field and without magnetic field in x), for all time steps and numbers of steps: a start whose components differ from the plasma by at most d in every cell differs from it after i steps by at most exp(i t (A + L sum of 1/dx)) d, and densities and pressures of both gases are positive in all cells after every step, as long as the bound at the end of the run is at most c. With bounds for the plasma given, A and L are explicit. (The denominators of the limiter, which vanish for differences of exactly -1e-12, are assumed not to vanish in any stage.)", "quantifier": "all uniform plasmas in balance, all disturbances, all meshes of at most three dimensions, widths of cells, time steps and numbers of steps", "why_tests_cant": "The bound holds for all disturbances and meshes; a run tries one start on one mesh.", "anchors": ["src/solver/euler.cpp: euler::solve", "src/solver/maxwell.cpp: maxwell::solve", "src/solver/lorentz_force.cpp", "src/solver/current_source.cpp", "src/solver/ssprk3.cpp: ssprk3::solve", "src/solver/bc_no_slip.cpp: bc_no_slip::solve", "src/solver/bc_conducting_wall.cpp: bc_conducting_wall::solve", "src/solver/bc_periodic.cpp: bc_periodic::solve"]}
{"id": "C143", "title": "The programs as configured do the runs their sources describe", "statement": "With the sizes and numbers of steps written in their sources, the five example programs whose initial conditions are defined do the following, for every pattern of files that can and cannot be created: gem_challenge works on 256 x 512 cells and file j (up to 1000) shows the state after 125 j steps, the last one at the time 40/wci; two_fluid_brio_wu on 100 cells, 10 j steps of 1e-4; harris_current_sheet on 400 cells, 100 j steps, the last file at the time 1/wci; sod_shock_tube on 500 x 2 cells, 5 j steps of 1e-3; wave_1D on 2 x 2 x 128 cells, 10 j steps of 1e-3. If all files can be created the program ends normally with all of them; otherwise it ends with an exception at the first one that cannot be created, having written those before. (Time steps and times in exact arithmetic.)", "quantifier": "all patterns of files that can and cannot be created", "why_tests_cant": "The runs take up to 125000 steps, and a test has one pattern of files.", "anchors": ["src/example/plasma/gem_challenge.cpp", "src/example/plasma/two_fluid_brio_wu.cpp", "src/example/plasma/harris_current_sheet.cpp", "src/example/euler/sod_shock_tube.cpp", "src/example/maxwell/wave_1D.cpp"]}
