{
"C09": {
"note": "False as stated: an empty sub-range that is included in the super-range (lower = upper) is entered and never left (C09_empty_subrange_false). Proved for sub-ranges that are not included. C09_exactly: which loops end and which do not."
},
"C14": {
"note": "False: for chunks of equal volume but different ranges the arguments of the inner call are swapped and nothing is copied (C14_pull_all_false, all such pairs). Partial: equal ranges. C14_exactly: otherwise only if the values were equal before."
},
"C17": {
"note": "Assignment proved; the copy constructor drops the contents (refuted). C17_exactly: a copy is right precisely if all values are zero."
},
"C21": {
"note": "False for every pair of chunks: a destination range outside the chunk is not rejected and element 0 is overwritten (C21_copy_to_out_of_bounds_false). C21_partial: nothing else changes, and different volumes are rejected. C21_exactly: the chunk stays as it was precisely if element 0 had that value."
},
"C28": {
"status": "partial",
"note": "False: bc_free_slip reverses all three momentum components (witness). Partial: normal momentum and non-momentum components are right, interior untouched. C28_exactly: the result is right precisely if the tangential momenta at the walls are zero."
},
"C30": {
"status": "partial",
"note": "False: with fewer than 4 components the sign flip is silently skipped; proved for every such variable (C30_too_few_components_silent). C30_partial: with 4 or more components the signs are changed (in full C26, C27)."
},
"C32": {
"note": "False: with more chunks than cells in a dimension chunks become ill-formed (witness). Partial: well formed when the chunk count fits. C32_exactly: the pieces are well formed precisely if the chunk count fits."
},
"C34": {
"note": "False: the exception is constructed but not thrown, a missing id dereferences end() (C34_false, for every manager and missing id). Partial: existing ids."
},
"C35": {
"note": "False: bases (a,2) and (b,1) make each id less than the other (C35_false). Partial: strict weak order when ids that share a name use bases of one name; the component clash part is proved in full. C35_exactly: the pairs of ids that are each less than the other."
},
"C45": {
"note": "False for index ranges that do not start at 0: centroid is start+(index+1/2)*dx with the raw index (witness). Partial: index ranges that start at 0."
},
"C46": {
"note": "Centroids and mirror symmetry proved in full; the widths do not add up to the requested width because the (half) width is truncated to int (witness); the partial gives the exact sum for every exponent of at least 1. C46_exactly: the sum is right precisely for even integers (symmetric) and integers (linear)."
},
"C42": {
"note": "False: ORIGIN is start+width/2 instead of start, so all cells are shifted by half the domain width (C42_false, every grid). Partial: the spacing is right and the shift is the same for all cells."
},
"C51": {
"note": "False: for colliding supersonic flow (left state moving right faster than sound, right state moving left faster than sound) both fl_mult and fr_mult are 1 (C51_false). Partial: exactly one branch otherwise; C51_exactly says that the colliding case is the only exception and C51_cases gives the flux in every case."
},
"C52": {
"note": "Maxwell: proved for every number of dimensions. Euler: proved up to 4 dimensions; on 5 or more the local arrays of 5 are indexed out of bounds (C52_euler_false, for every such mesh). C52_exactly: in bounds precisely up to 4 dimensions."
},
"C54": {
"note": "Both solvers: totals of the right-hand side, one step and any number of steps on the variable manager. Euler up to 4 dimensions."
},
"C56": {
"note": "Euler (first four directions), Maxwell and the three ssprk3 loops."
},
"C37": {
"note": "euler, maxwell, lorentz_force, current_source, ssprk3, rk1, swap, ssprk2_advection and brio_wu. gem_challenge does not check (C73)."
},
"C68": {
"note": "False: __builtin_assume_aligned(ptr, 64) on std::vector<double> buffers (C68_false, every manager). Partial: defined when all buffers are 64-byte aligned."
},
"C57": {
"note": "False: two threads of advection_iterate conflict on every mesh, velocity and direction (C57_race_false), and an interleaving can lose an update (C57_lost_update_false). Partial: no conflict in loops of at most |s| elements, s the stride. C57_exactly: safe precisely if the loop is not longer than |s|."
},
"C63": {
"note": "shock_tube proved in full. brio_wu: densities, pressures and Bx proved; By is divided by gamma-1, so it is the given one only for gamma = 2 (C63_By_false for every other gamma). C63_exactly: By is right precisely if gamma = 2 or By = 0."
},
"C65": {
"note": "False: on every grid of one or two dimensions x[2] (and x[1]) is read uninitialised (C65_false). Partial: on three-dimensional grids the solvers return with the right values."
},
"C70": {
"note": "False: witness C70_false. Partial: right for cells whose centre has the third coordinate of the ball's centre, or equal second and third coordinates. C70_exactly gives the exact condition for the density of a cell to be right."
},
"C72": {
"note": "False for every grid of more than three dimensions (C72_false). Partial: three-dimensional grids; up to three dimensions for shock_tube (C63) and the wave (C64). C72_exactly: the four other initial conditions return exactly on grids of at most three (shock_tube) or exactly three dimensions."
},
"C73": {
"note": "False: fewer than three ids read beyond the end of the list (C73_false), two equal ids alias (C73_alias_false). Partial: three different ids with enough components. C73_exactly: for up to three ids it returns precisely in that case."
},
"C66": {
"note": "Checked 32-bit arithmetic gives the unbounded result. C66_conditions_needed: each condition is needed (reversed bounds, empty sub-range, volume 2^31)."
},
"C67": {
"note": "False: assignment appends (stringstream::clear does not empty the stream) and reads what(), a destroyed temporary (C67_false, all exceptions). Partial: construction, copy, append, print."
},
"C75": {
"note": "False: witnesses for an overshoot and for a negative density. Partial: monotone data (exactly for increasing, up to 1e-12 for decreasing). C75_exactly: the precise condition, C75_extrema: what happens at extrema."
},
"C76": {
"note": "False: NaN for every neighbourhood with qn = qc + 1e-12 (C76_false). Partial: nonzero denominators. C76_exactly: finite precisely if no denominator vanishes."
},
"C77": {
"note": "False for every exception: the handler reads through what(). Partial: the caught object still carries the text."
},
"C78": {
"note": "False for every range (bounds become 0) and every chunk with a dimension (undefined behaviour). Partial: ranges without dimensions. C78_exactly: a range keeps its bounds precisely if they are all 0."
},
"C79": {
"note": "False: for equal signal speeds no component is finite, witness with positive density and pressure. Partial: different signal speeds; uniform flow (C79_uniform). C79_exactly: finite precisely if the signal speeds differ."
},
"C87": {
"status": "partial",
"note": "False for every size: both programs read uninitialised coordinates in their initial condition, the first thing they run (C87_false). What they would do after an initial condition that returns is C96 (advect_gaussian) and C113 (gaussian_pulse); the same initial conditions on a grid of three dimensions are defined (C72_partial). C87_partial: after any initial condition that returns both programs end."
},
"C89": {
"note": "False: the constant for pi is 3.14159263. Partial: periodic to within 1e-7 of the amplitude; C89_travels: the wave is the start of a travelling solution."
},
"C92": {
"note": "False for the reconstruction because of the 1e-12 in its denominators. Partial: up to 2e-12. The fluxes are exactly symmetric (C92_hll, C92_rusanov)."
},
"C93": {
"note": "False because of the 1e-12; in the program of main.cpp the density of the electrons is reconstructed to first order only (C93_electrons_false). Partial: up to (1+k)1e-12."
},
"C97": {
"note": "False: the periodic conditions have no dimensions. Partial: the cells that nothing from the ghost cells reaches in one step."
},
"C99": {
"note": "False for either bound (C99_false, C97_false). Partial: the amount by which a forward Euler step can leave the range."
},
"C101": {
"note": "False of the code (C101_false: charge without field after the first stage of the shock tube). Partial: how Ex and the charge change in one dimension."
},
"C102": {
"note": "False of the code in two dimensions (C102_false). Partial: fields that do not depend on y keep divergence zero."
},
"C105": {
"note": "False of the code; the theorems give the exact set of cells updated, and the partial one says that in one dimension only the last interior cell is missing. The OpenMP loop is taken on one thread: with more the advancing pointers race."
},
"C106": {
"note": "False of the code (NaN from positive states); the partial theorems assume that the reconstructed states are admissible."
},
"C107": {
"note": "False of the code (out of bounds for velocities that are not positive, wrong neighbours in two dimensions); the partial theorems assume positive velocities."
},
"C108": {
"note": "The Courant number of light bounded in C108_gem and C108_harris is the first number the programs print (gem_challenge.cpp:138, harris_current_sheet.cpp:140); the printing is the subject of C120."
},
"C109": {
"note": "The theorems are about the model of the tests and of the classes they test; the tests as written are C109_programs. C109_compare, C109_moved and C109_coloured: what the compound assertions of the tests detect, exactly."
},
"C110": {
"note": "About the model over an abstract arithmetic with the laws of Floats (a hypothesis of the theorems, met by the 53-bit format of Proofs/RoundingModel.lean). Files hold the numbers as computed; their decimal output is not modelled here."
},
"C114": {
"note": "False: witness C114_false (density 1, positive pressures, rate NaN). Partial: cells whose reconstructed face states have positive density and pressure in every stage."
},
"C116": {
"note": "False for self-assignment (C116_false): the ranges are lost. C116_partial: every copy and assignment to a different object reproduces the indexer."
},
"C117": {
"note": "False of the code: the operator has no return statement (C117_false). C117_partial: the text written before."
},
"C118": {
"note": "False of the code: 16 digits do not determine a double (C118_false, C118_files_false). Proved: a reader finds every value up to 5e-16 of its size, with its sign and order, and exactly if it has at most 16 decimal digits; 17 digits would determine every double."
},
"C119": {
"note": "Exact arithmetic. NoZero (no difference of neighbours equal to -1e-12, where the limiter divides by zero) is a hypothesis. The theorems on gases and plasmas need densities of more than 4e-12 (`Fine` includes the 2e-12 of the limiter), so they say nothing about the densities of gem_challenge and harris_current_sheet in SI units (electrons: about 6e-16)."
},
"C120": {
"note": "The clock is an arbitrary sequence of readings. That two programs never get this far is C87 (C120_undefined)."
},
"C121": {
"note": "Exact arithmetic. About the rates: the explicit time integration adds the energy of the change (C121_power). Conducting walls in directions 1 and 2, where the code flips the wrong magnetic component (C82), are excluded for a reason: C121_other_walls gives fields between walls in direction 1 (as in gem_challenge) whose energy grows by the fluxes."
},
"C122": {
"note": "Exact arithmetic, periodic meshes. The constant K of the quadratic term is not optimal: with the configured time steps the bound is very large; it is small for time steps of the order of dx^2."
},
"C123": {
"note": "Buffers aligned as ssprk3 assumes (C68). ssprk2_advection (data race, C57) is not among the calls; the initial conditions enter as own solvers (C123_initial). Loops run a number of times fixed in the text; branches may depend on the manager."
},
"C124": {
"note": "Running out of memory is not modelled. In `_variables[var] = new …` the model constructs first; with the other order a throwing constructor leaves a null entry, whose deletion does nothing. Destructors of standard containers are trusted."
},
"C125": {
"note": "Exact arithmetic (over floats the order of the directions in the sums matters). For the field only the rotation: an exchange of two axes turns B into -B, and the reconstruction is not odd (C92). Walls only for the gas: a conducting wall as coded flips the x component of B in every direction."
},
"C126": {
"note": "Memory is sequentially consistent, which OpenMP and C++ guarantee for executions without data races; a state in which two iterations could access the same element, one writing, counts as undefined behaviour. No laws of arithmetic are used, so this holds bit for bit. Each iteration may interleave freely, which includes every OpenMP schedule and number of threads."
},
"C127": {
"note": "Covers failing runs as well: undefined behaviour is the same with its reason (an exception inside a loop over the elements of a chunk leaves, in the model, the numbers from before that loop). No laws of arithmetic are used, so this holds bit for bit. Printing and the VTK writer, which do show names, are left out. C127_commute is for programs accepted by the check of C123."
},
"C128": {
"note": "Counts the variable objects of the manager and the numbers in their arrays. Temporaries of the solvers (local vectors) live within one call and are not counted. Functions supplied by the client must themselves keep the invariant."
},
"C82": {
"note": "Fluids: proved. Conducting walls: proved in direction 0 (C82_conducting_partial), false in the others (C82_conducting_false); C82_conducting_exactly gives the flux of the magnetic field through a wall of any direction."
},
"C129": {
"note": "False for every pair of variables of different shapes: nothing is thrown and both get the shape of the other (C129_false). Partial: pairs of the same shape. C129_exactly: the shapes are kept precisely if they agree in each pair."
},
"C130": {
"note": "On the step relations that the programs are proved to follow (C81). Exact arithmetic: with rounding the order in which the currents are added matters."
},
"C131": {
"note": "For the units of the fields the same fails, because of the constant 1e-12 in the reconstruction (C93)."
},
"C132": {
"note": "Any arithmetic: bit for bit. C132_programs for the five programs whose initial conditions return; C132_frames also covers the other two after any initial condition."
},
"C133": {
"note": "False of the code: C133_false (program of main.cpp as configured, full medium). C133_exactly says what is left on any medium; C133_partial: with enough room everything."
},
"C134": {
"note": "Characters reach the medium in the order written; a kill may lose any number of the last characters of the open file."
},
"C135": {
"note": "False of the code for the solvers with __restrict__ kernels (C135_false); exact condition for the integrators (C135_exactly); true for current_source (C135_partial) and swap (C135_swap). The model treats any aliasing of a __restrict__ pair as undefined; strictly some element must be accessed through both pointers, which is the case since meshes have cells and variables have components."
},
"C136": {
"note": "About the model over an abstract arithmetic (Floats, as in C110) where rounding is concerned. The two programs that are undefined (C87) are covered by C136_steps and C136_blind only."
},
"C137": {
"note": "Velocity and pressure stay (C137_stages_partial, C137_partial); the density does not (C137_false), and a common nonzero velocity is not kept by the reconstruction (C137_moving_false)."
},
"C139": {
"note": "Exact arithmetic. The exponent grows with the number of cells, so this is a statement about a fixed mesh, not about convergence."
},
"C140": {
"note": "False: 2^25 + 1 cells in one piece lose a cell. C140_exactly gives the exact condition; C31 covers lengths below 2^24."
},
"C141": {
"note": "False of the code: 2^25 and 2^25 + 1 are read as the same number. Proved: what such a reader gets is within 6e-8 of the size of the value."
}
}