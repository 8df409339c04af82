# quikin: formal model and proofs

Subject: `seamill/quikin`, C++ sources in `/repo/src` (pinned, read as text, never
built or run here). Properties: `properties.jsonl` (C01…). Status: `MANIFEST.json`
(written by `tools/manifest.py` from the theorem names and `tools/notes.json`).
Attempts to break the theorems: `seeded/LOG.jsonl`.
How to read that log:

* `first_errors` is what was observed: the declarations at which the build of the edited copy stopped.
* `theorems_failed` is worked out from it, not observed: all property theorems whose proofs use one of these declarations (matched by the last part of the name, so declarations of the same name in different files count as one). Modules after the first failing one were not built, so a listed theorem is one whose proof
  no longer goes through as written. It need not be false for the edited program.
* These lists are recomputed from the present dependencies each time the log is written. The entry of an early attempt may therefore name theorems that were written after the attempt and never built against that edit.
* Any error of the build counts as a failure, including a proof that runs into the time limit; that shows that the proof does not go through, not that the statement is false.
* The name in `first_errors` was taken from the line of the error. An error reported at the beginning of a declaration is reported at its doc comment, and for all attempts but the five on C143 whose `note` mentions the time limit and the four generated edits at the end of the log such an error was
  put down to the declaration before it. The positions were not kept, so how many names are off by one declaration in this way is not known. That the build failed is not affected.
* Where only an `example` failed, no theorem is listed; an attempt with no errors at all survived, and says so in its `note`.


## Trusted base

* The Lean 4 kernel, and `propext`, `Classical.choice`, `Quot.sound`. Every property
  theorem depends on (at most) these three axioms; `#print axioms <name>` lists them. No
  axioms of our own, no `sorry`, no `native_decide`, no `bv_decide`, no
  `implemented_by`, no `unsafe`.
* The hand transcription of C++ to Lean (`Verif/Model/*`). Every definition cites file and
  lines; every simplification is stated beside the definition. It has been read against
  the source but not compiled or executed against it.
* The specifications (`Verif/Spec/*`), which are meant to be read and agreed with.
* For C110 only: that `double` behaves as the structure `Floats` of `Spec/Rounding.lean` says (a hypothesis of
  those theorems; `-std=c++11`, CMakeLists.txt:30, makes GCC round every operation, no
  `-ffast-math` is given).
* For C118 and C120 only: that numbers are printed as the structure `Prints` of `Spec/Format.lean` says (a hypothesis of those theorems;
  C++11 [facet.num.put.virtuals] refers to `printf`, whose digits are correctly rounded in the usual libraries).
* Mathlib's definitions where a statement uses them (`ℝ`, `List`, `Real.sqrt`, …).

### How C++ is modelled

| C++ | model |
|---|---|
| `throw` | `Res.throw msg`; on the variable manager `SRes.throw msg state`, the state left behind |
| undefined behaviour (out-of-bounds `[]`, deref of `end()`, uninitialised read, aliasing of `__restrict__` pointers, false alignment promise, missing return) | `Res.ub why`, a distinct outcome, never a default value |
| non-terminating loop | `Res.diverge`: loops run with a fuel that is proved exact (if any fuel suffices, the fuel used does) |
| `int` | unbounded `Int`; dimension counts `Nat`. Overflow is the subject of C66: `Model/Int32.lean` repeats the shape arithmetic with every intermediate result checked; and of C112: `Model/Chunk32.lean` does so for chunks, variables, kernels and the writer |
| `double` | a type with the operations of `Arith α` and **no laws**. Theorems for every `[Arith α]` therefore hold for IEEE doubles. Theorems marked *exact arithmetic* take `α := ℝ`; there rounding is not modelled and `x / 0 = 0`, `sqrt (-x) = 0` are Mathlib's total functions, which a theorem excludes by hypothesis when its meaning depends on them (C54, C82, C83 hold with any value in that place). `XReal` (`Model/ArithX.lean`) is ℝ with infinities and NaN after IEEE 754, for C76 and C79 |
| `std::vector<T>` | `List T` with checked read/write |
| raw pointer loops, OpenMP | programs of individual reads and writes (`Prog`), run sequentially or under an arbitrary interleaving (`Model/Par.lean`); the solvers with a schedule for every parallel loop are in `Model/Threads.lean` |
| `std::map` | sorted association list using the code's own comparator |
| `new`, pointers to variables | positions in a heap list |
| references/mutation | state passing (`Res` for values, `SM (Mgr α)` for code on the manager, `SM (Run α)` for programs) |

## What is modelled

| source (`/repo/src`) | model |
|---|---|
| `lib/range.*` | `Model/Range`, with overflow `Model/Int32`; `operator<<` in `Model/Operators` |
| `lib/indexer.*` | `Model/Indexer`, with overflow `Model/Int32`; `operator=` and the copy constructor in `Model/Operators` |
| `lib/indexer_interface.h`, `data/functions.h` | `Model/Container` |
| `lib/range_set.*` | `Model/RangeSet` |
| `lib/exception.h`, handler in `main.cpp` | `Model/Exception` |
| `data/datachunk.*`, `data/extended_datachunk.*` | `Model/Chunk` |
| `basis/basis.*` (name and number of points), `variable/variable_id.*` (constructor, comparison, clones), `variable/variable.*`, `data/dataset.*` | `Model/Variable` |
| `variable/variable_manager.*` | `Model/Manager` |
| `grid/grid.*`, `grid/rectilinear.*`, `grid/structured.*` | `Model/Grid` |
| `grid/rectilinear.cpp` `write_vtk`, `data/datachunk.cpp` `write_vtk` | `Model/Vtk` |
| `solver/bc_*.cpp` | `Model/BC` (one chunk), `Model/Solvers` (all outputs) |
| `solver/euler.*`, `solver/maxwell.*`, `spatial_solver/functions.h` | `Model/FiniteVolume`, `Model/Solvers` |
| `solver/lorentz_force.*`, `current_source.*`, `fill.*`, `swap.*`, `rk1.*`, `ssprk3.*` | `Model/Stage`, `Model/Solvers` |
| `solver/ssprk2_advection.*` | `Model/Advection` |
| `solver/print.*` | `Model/Print` |
| `operator<<` of streams for `int` and `double`, `std::setprecision(16)` (`variable_manager.cpp:87`) | `Model/Format` |
| requests of `write_vtk` to its `std::ofstream` (open, write, close), errors of the stream, a process that is killed | `Model/Disk` |
| without callers: `lorentz_force.cpp:71-114`, `current_source.cpp:44-73`, `ssprk2_advection.cpp:93-143`, `dataset::sync`, `basis/face_basis.*` | `Model/Unused` |
| `solver/shock_tube.*`, `radial_shock_tube.*`, `gaussian.*`, `magnetic_pulse.*`, `electromagnetic_wave_1D.*`, `brio_wu_shock_tube.*`, `gem_challenge.*` | `Model/Initial` |
| `test/*` (with the numbers as parameters) | `Model/Tests` |
| `main.cpp`, `example/plasma/gem_challenge.cpp` | `Model/Program` |
| `example/plasma/two_fluid_brio_wu.cpp`, `harris_current_sheet.cpp`, `example/euler/sod_shock_tube.cpp`, `example/maxwell/*`, `example/advection/advect_gaussian.cpp` | `Model/Examples` |
| destructor and implicit copy of `variable_manager` | `Model/Lifetime` |
| messages on the terminal and time measurement of the programs (`cout`, `printf`, `chrono`) | `Model/Console` |

Not modelled: the allocator (running out of memory; a `resize` to a negative volume
does throw), `lib/parallelization.h` beyond the alignment macro and the meaning of the
OpenMP loops (the number of threads is arbitrary), classes without code
(`spatial_solver/advection.*`, `temporal_solver/ssprk2.*`, `data/shared_datachunk.*`).
Simplification: `data()` (indexer_interface.h) is `&(_data[0])`, which strictly is undefined for an
empty vector; the model lets code take this address as long as it is not used to access an element.

## Layout

* `Verif/Model/*` model, function by function.
* `Verif/Spec/*` independent specifications (cells of a box, row-major offset, mirror images, fluxes of physics, fields and one time step on fields, …).
* `Verif/Proofs/*` helper lemmas.
* `Verif/Props/*` the property theorems (`C<nn>_…`), each with a concrete example.

## How each property is proved

* C01–C04 range: pure functions over bounds lists. Invariant "strides are the products of later lengths" preserved by every operation; induction over operation histories.
* C05–C10 indexer: `next` transcribed (recursive carry). Odometer lemma: `next` is the successor in the lexicographic enumeration of the box; the loop equals a fold over that enumeration.
* C11–C17 container: state = (range, element list). Loops rewritten as folds over cells by C05; disjointness by injectivity of the offset (C06).
* C18–C23 chunk geometry and copies: same technique.
* C24–C30 boundary conditions: sequence of slice copies; per-cell characterisation of the final contents by coordinates.
* C31–C32 range_set: `ceil` of a quotient rounded to `float` (`Round32`, which follows from rounding to nearest by C140_round; sizes below 2^24).
* C33–C36 variables: sorted association list with the code's comparator; refinement to a finite map for consistent key sets.
* C37–C39 solver plumbing on the manager: checks come first, so a `throw` leaves the state unchanged.
* C40–C43 VTK: sequence of written tokens compared with a grammar of the file.
* C44–C46 grids: algebra over ℝ.
* C47–C49 time integrators: element-wise; algebra over ℝ; C48 convexity for arbitrary operators.
* C50–C55, C58, C59 flux kernels: the kernel as a per-cell read/write program; the memory after the loop is `fvUpdate` of the fields (law-free); algebra over ℝ for consistency; telescoping over a periodic box for C54, up to any number of full time steps on the manager.
* C56–C57 schedules: interleaving semantics; disjoint footprints imply the sequential result. C57 refuted with an explicit schedule.
* C60–C61 sources: per-cell formula; algebra.
* C62, C69 advection: in-bounds, conservation by pairwise transfer; element-wise description of both stages; exactness on linear fields.
* C63–C65, C70–C73 initial conditions: per-cell formula, then physics of the formula over ℝ (derivatives for C71).
* C66 overflow: the checked functions return what the unbounded ones return.
* C67, C77, C78 exceptions and self-assignment: text as a string; self-assignment modelled as the statement sequence acting on one object.
* C68 alignment: a false `__builtin_assume_aligned` is undefined.
* C74–C76, C79, C80 limiter and fluxes: algebra over ℝ; special values over `XReal`.
* C81 programs: stage = bcs, rates, advance on the manager, described as relations between fields (`Spec/Program.lean`); frames by induction; files by C40.
* C82, C83 walls and conservation: mirrored ghost cells give mirrored face states, whose HLL/Rusanov fluxes vanish in the right components; telescoping as in C54 with closed ends.
* C84–C86 other programs: one lemma for the frame loop over any state and step (`Proofs/Loop.lean`); the plasma programs reuse C81, the others a version for one variable (`Proofs/Solo.lean`). C87: the initial condition is undefined (C65), and nothing comes before it.
* C88, C89 start states: constants and grids evaluated over ℝ, compared with a description of the physics (`Spec/Sheet.lean`).
* C90 dependence and translation: every position a cell reads has, up to sign, the value of a mesh cell (`filled_image`); a relation between mesh cells that these images respect is kept by the step (`Proofs/Stencil.lean`). Existence of steps by construction.
* C91 constants: no net flux along uniform directions, constant flux of the component along the others.
* C92, C93 the constant 1e-12: algebra of the limiter over ℝ.
* C94 what a stage reads is at most two moves away (`Reads`, `Around`), six per step, by induction over the steps; any arithmetic. C95 a uniform state at rest has zero rates over ℝ; with C94 the far field of the shock tubes.
* C96 `advect_gaussian` after any initial condition that returns: step on chunks (`ChunkStep`), then fields and the sum over the array; C97 its missing periodicity; C98 the identity with Heun's method and C99 the range of the field, over ℝ, from the form `up + θ (up - far)`, 0 ≤ θ ≤ 1/2, of the limited flux.
* C100 the sources in each cell compared with the textbook force and work; C101 the mass flux between gases at rest from the HLL formula, with the sound speeds of electrons and ions; C102 fluxes of a ring of magnetic field in four cells.
* C103 rates of a uniform state from C100's sources and the vanishing fluxes of Rest; the three stages as a linear map on field and current.
* C104 the loops as folds over cells (C05), lines appended; `output_variable` by C41's specification.
* C105 first and last index of the slab indexer give the bounds of the walk; the offsets of the rounds are consecutive, hence the rounds are a list of distinct cells.
* C106 the HLL mass flux as a convex combination of outflows; the two limited increments of a cell agree up to the small constant in the denominators; sum over directions, then the three stages.
* C107 the loops of C69 with other strides; the first iteration that reads outside is found explicitly; the strides agree iff a product of lengths on both sides is one.
* C108 the constants evaluated over ℝ; the square root in the field strength is bounded by rational numbers, so the Courant numbers of the sheet programs are intervals, the others exact; C103 with these numbers.
* C109 the tests transcribed with parameters and run in the model; from C12, C13, C19 and the loops of C05. The tests as written are instances, so this also checks the model against what the tests expect of the code.
* C110 error calculus for rounded arithmetic: the fluxes through the two sides of a face are the same number bit for bit (C90's stencil lemmas), so only the additions of the update and of the stages contribute; at walls the reconstructed states are mirror images bit for bit because rounding is odd. The assumptions on the arithmetic are the structure `Floats` (round-to-nearest, every operation rounded: no contraction to fused multiply-add, no excess precision; a compiler flag such as -ffast-math would void them). `Proofs/RoundingModel.lean` builds a 53-bit format that meets them, so they are consistent; that the hardware meets them is trusted. C110_sizes: Q and W exist for every run.
* C111 boundary-condition solvers on the manager: what they write, for all lists of variables; out-of-range directions are undefined behaviour. `Props/Boundary.lean`.
* C112 32-bit overflow in creating variables, in kernels, advection and writer; largest meshes of the programs. `Model/Chunk32.lean`, `Proofs/Chunk32.lean`, `Props/Overflow.lean`.
* C113 gaussian_pulse after an initial condition that returns. `Props/PulseProgram.lean`.
* C114 the pressure of a gas, through the energy seen from all frames. `Props/Pressure.lean`.
* C115 order of ssprk3 and rk1, convergence of uniform plasma runs. `Proofs/Order.lean`, `Proofs/Converge.lean`, `Props/Order.lean`.
* C116 assignment and copies of indexers; C117 printing ranges. `Model/Operators.lean`, `Props/Operators.lean`.
* C118 the characters of files: formatting of numbers, what a reader recovers. `Model/Format.lean`, `Spec/Format.lean`, `Proofs/Format.lean`, `Props/Format.lean`.
* C119 consistency: truncation error of the rates and of whole time steps against the Euler and Maxwell equations and the coupled two-fluid equations, for all smooth solutions that meet the boundary conditions; second order of the rates away from extrema. `Spec/Truncation.lean`, `Proofs/Truncation.lean`, `Proofs/SecondOrder.lean`, `Props/Truncation.lean`, `Props/TruncationPlasma.lean`, `Props/TruncationSecond.lean`, `Props/TruncationGas.lean`.
* C120 the terminal: messages and measured times of the seven programs, complete and interrupted runs, the characters of numbers in them. `Model/Console.lean`, `Spec/Console.lean`, `Proofs/Console.lean`, `Props/Console.lean`, `Props/ConsoleText.lean`.
* C121 energy: the limited fluxes create no energy of the field; with the sources, none of the plasma (exact arithmetic, rates; not the error of the time integration). `Spec/Energy.lean`, `Proofs/Energy.lean`, `Proofs/EnergyField.lean`, `Props/Energy.lean`. Walls in direction 1 can create energy: `Props/EnergyWalls.lean`.
* C122 stability: the energy of the field in runs of any length on periodic meshes is bounded in advance; bounds for the values in the files of wave_1D and gaussian_pulse (exact arithmetic). `Proofs/EnergyGrowth.lean`, `Props/EnergyGrowth.lean`.
* C123 any client program: a checker of the text of programs made of the library's calls (loops, branches, own solvers), sound for all programs; what it asks for is needed; the shipped time steps pass; the initial conditions behave as own solvers should. `Spec/Client.lean`, `Proofs/Client.lean`, `Props/Client.lean`, `Props/ClientInitial.lean`.
* C124 lifetime of variables: the destructor of the manager frees all variables exactly once after any client program, returning or throwing; copies of managers delete twice. `Model/Lifetime.lean`, `Spec/Lifetime.lean`, `Proofs/Lifetime.lean`, `Props/Lifetime.lean`.
* C125 renaming the axes: gas under any renaming with walls, light and plasma under the rotation of three periodic axes, symmetric starts stay symmetric. `Spec/Axes.lean`, `Proofs/Axes.lean`, `Props/Axes.lean`.
* C126 whole programs with OpenMP: one outcome for all schedules; shipped time loops; advection races. `Model/Threads.lean`, `Spec/Threads.lean`, `Proofs/Threads.lean`, `Props/Threads.lean`.
* C127 names, addresses and other variables do not matter; programs with separate variables commute. `Spec/Twin.lean`, `Proofs/Twin.lean`, `Proofs/Clock.lean`, `Props/Twin.lean`.
* C128 the variables of a program are bounded by its text; steps create none. `Spec/Memory.lean`, `Proofs/Stable.lean`, `Props/Memory.lean`.
* C129 `swap` and shapes: from C38 and the uniqueness of a chunk's layout. `Props/SwapShape.lean`.
* C130 exchange of species, neutral species, vacuum field, passive species: on the step relations with C90. `Props/Species.lean`.
* C131 units of length and time: the rates are homogeneous in the cell widths. `Props/Units.lean`.
* C132 frames and steps: the frame loop is the step loop cut into pieces; `write_vtk` takes the manager by const reference. `Props/Output.lean`.
* C133 write errors, C134 killed processes: the log of requests is the concatenation of the logs of the files; folding it over a medium with limited room; prefixes. `Model/Disk.lean`, `Spec/Disk.lean`, `Proofs/Disk.lean`, `Props/Disk.lean`.
* C135 (Props/Alias.lean): calls that read and write one variable: undefined for the kernels with `__restrict__` pointers (`C135_false`); exact condition for the integrators (`C135_exactly`); the current source computes what it would with a copy of the fluid (`C135_partial`), since no round reads what an earlier round has written; `swap` of a variable with itself does nothing (`C135_swap`).
* C136 (Props/Time.lean): the time stored in the manager: nothing depends on it, it is the sum of the step sizes, and how far rounding takes it from the intended end time. That whole numbers convert to floating-point exactly is a hypothesis of C136_end and C136_double (shown for the 53-bit format).
* C137 (`Props/Contact.lean`): a gas at rest with the same pressure everywhere stays so, whatever its density, as long as the reconstructed densities are positive. Its density does not stay.
* C138 (`Props/Force.lean`): the totals change by the fluxes at the walls; what a no-slip wall exerts; the momentum in the files of the shock tube.
* C139 (`Props/Disturbance.lean`): small disturbances of a uniform gas grow at most like `exp (L t Σ 1/dx)` and leave density and pressure positive; conditions on the start only (cf. C106, C114).
* C140 (`Props/FloatPieces.lean`): the division in `float` in range_set; binary32 numbers and rounding to nearest are defined in `Spec/RangeSet` (`Binary32`, `Nearest32`), from which the assumption `Round32` of C31 and C32 follows.
* C141 (`Props/SingleFiles.lean`): a reader that keeps to the type `float` announced in the files (`Spec/Single`).
* C142 (`Props/PlasmaDisturbance.lean`): disturbances of two uniform gases in uniform fields, with the gas rates of C139. (C119 would need disturbances and densities above about 1e-12, more than the densities of gem_challenge in SI units: its plasma theorems say nothing about states of that size.)
* C143 (`Props/Configured.lean`): the example programs with the numbers in their sources; before, these numbers were in unnamed examples only.
* C21, C30, C87, what holds and exact conditions: `Props/Remaining.lean`.
* Exact conditions (`..._exactly`) for properties that fail in general: C09, C28, C32, C35, C46, C52, C57, C63, C73 in `Props/Exactly.lean`; C51, C70, C72, C75, C76, C79, C82 beside their `_false` theorems.

Refuted properties get a theorem `..._false` with a concrete witness (or for every input where
that is so) and, where a weaker claim is true, a theorem with suffix `_partial` and a statement
of what is missing.

## Findings (defects of the code that a theorem here states)

| where | what | theorem |
|---|---|---|
| `indexer.cpp` | an empty sub-range that is included is entered and never left | C09_empty_subrange_false |
| `lib/indexer_interface.h:56-58` `pull(src)` | swapped arguments: nothing is copied for equal volumes with different ranges | C14_pull_all_false |
| `indexer_interface.h` copy constructor | contents dropped | C17_copy_ctor_drops_contents |
| `copy_to` | a destination outside the chunk is not rejected; the first element is overwritten | C21_copy_to_out_of_bounds_false |
| `bc_free_slip.cpp` | reverses all momenta, not the normal one | C28_free_slip_false |
| `bc_*` walls | fewer than 4 components: no sign change, no error | C30_too_few_components_silent |
| `range_set.cpp` | more chunks than cells: reversed sub-ranges | C32_well_formed_false |
| `variable_manager` | missing id: exception constructed, not thrown; `end()` dereferenced | C34_false |
| `variable_id.h` `operator<` | not asymmetric | C35_false |
| `rectilinear.cpp` `write_vtk` | ORIGIN off by half the domain | C42_false |
| `rectilinear` `xc` | centroid uses the raw index: wrong for ranges that do not start at 0 | C45_false |
| `structured.cpp` | width truncated to `int` | C46_width_false |
| `euler.cpp` HLL | both one-sided branches active for colliding supersonic flow | C51_false |
| `euler.cpp` | 5 or more dimensions: arrays of 5 indexed out of bounds | C52_euler_false |
| `ssprk2_advection.cpp` | data race in the OpenMP loop; lost updates | C57_race_false, C57_lost_update_false |
| initial conditions | coordinates beyond the grid's dimensions read uninitialised; two of the example programs do so | C65_false, C87_false |
| initial conditions | more than 3 dimensions: write beyond `double x[3]` | C72_false |
| `radial_shock_tube.cpp` | line 57 multiplies `x[2]-c[2]` by `x[1]-c[2]`, so the "distance" is not one | C70_false |
| `brio_wu_shock_tube.cpp` | By divided by `gamma - 1` (multiplied with the pressure factor) | C63_By_false |
| `gem_challenge.cpp` (solver) | no check of the list of outputs | C73_false, C73_alias_false |
| `exception.h` | assignment appends; `what()` returns a pointer into a destroyed temporary | C67_false, C77_false |
| `range.cpp`, `datachunk` | self-assignment | C78_range_false, C78_chunk_false |
| `ssprk3.cpp` | promises 64-byte alignment of `std::vector<double>` buffers; all programs are undefined without | C68_false, C81_misaligned, C81_gem, C84–C86 |
| limiter | overshoots at extrema, negative densities | C75_false |
| limiter | NaN when a difference is `-1e-12` | C76_false |
| `euler.cpp` HLL | NaN for equal signal speeds | C79_false |
| limiter | `1e-12` is added whatever the sign and the unit: not mirror-symmetric; first order for the electron density of `example/plasma/gem_challenge.cpp` in SI units | C92_false, C93_false, C93_electrons_false |
| `wave_1D.cpp`, `gem_challenge.cpp` | π is 3.14159263: start states jump at the periodic boundary | C89_false |
| `advect_gaussian.cpp` | `periodic_bc` is never set up: the conditions do nothing, the domain is not periodic | C97_false |
| `ssprk2_advection.cpp` | limiter: new extrema and negative values | C97_false, C99_false |
| plasma programs | Gauss's law is not kept: charge appears without electric field | C101_false |
| `maxwell.cpp` | divergence of the magnetic field appears in two dimensions | C102_false |
| `print.cpp:20` | input ids go to `output_variable`: a missing variable is created and printed as zeros | C104_print |
| `lorentz_force.cpp:90-91`, `current_source.cpp` `fv_solve` (no callers) | the last interior cell is left out, ghost cells are updated in ≥ 2 dimensions | C105_cells_false |
| `face_basis.cpp:24-37` (no callers) | numbers stored before the check; a further call appends further points | C105_face_basis |
| `euler.cpp:80-85` | positive densities at rest give a negative reconstructed density and a NaN rate | C106_false |
| `ssprk2_advection.cpp:122-126, 137-141` | for a velocity that is not positive the loop goes to the end of the array and reads up to two strides past it (no callers) | C107_false |
| `ssprk2_advection.cpp:103-107` | strides grow from the first direction, those of the arrays from the last (no callers) | C107_strides |
| `test/lib/test_indexer.cpp:140, 147-148` | the tests named dimensional mismatch and super-range extrude `rng` in place of `rng3` and ask for an indexer over an empty range; what they were meant to test holds | C109_meant |
| `bc_*.cpp:28-33` | directions are not checked: one that the mesh does not have indexes past the end of a vector; wall conditions on variables with fewer than four components silently are zero-gradient | C111_bad_direction, C111_solvers |
| `datachunk.cpp:76-89`, `lib/indexer_interface.h:77-81` | Sizes are `int` and unchecked: on a mesh with more than 2147483647 elements per variable (gem_challenge: Nx ≥ 13375) creating the variables is signed overflow instead of an error. Without ghost layers `2*stride` of the advection solver can overflow although the array fits. | C112_create, C112_size, C112_programs |
| `euler.cpp:75-93` | Momentum and energy are limited one by one: cells with positive density and pressure can get a negative pressure at a wall, and a NaN rate. | C114_false |
| `indexer.cpp:65-77` | assigning an indexer to itself sets all bounds of both ranges to 0; a loop over it then never ends | `C116_false` |
| `range.h:46-64` | `operator<<` of `range` writes the text and does not return the stream: undefined behaviour in every use | `C117_false` |
| `variable_manager.cpp:87` | `setprecision(16)`: 16 digits do not determine a `double` (17 do): files of different states have the same characters | `C118_false`, `C118_files_false`, `C118_seventeen` |
| `functions.h` (van Albada reconstruction) | the rates are first-order accurate everywhere and second-order accurate where each component has a slope, but not next to an extremum: for B_z = x² the rate of E_y is off by at least 2/5 c² h in the cell next to the minimum | `C119_light`, `C119_gas`, `C119_light_second`, `C119_gas_second`, `C119_parabola`, `C119_order` |
| the seven programs | the line of a frame is printed in two halves around the writing of its file: an exception leaves an unfinished line; columns are aligned with `%3i` up to frame 999 only (the GEM program has 1000 frames) | `C120_interrupted`, `C120_wide` |
| `datachunk.cpp:34-74` | meshes with more than 3 dimensions write no values to VTK files | `C40_many_dims` |
| `variable_manager.h` | the implicit copy constructor shares the variables: destroying the manager and its copy deletes them twice (no program of /repo copies one) | C124_copy |
| `solver/swap.cpp`, `indexer_interface.h` 31-38 | compares the numbers of chunks (1 and 1), so variables of different shapes are exchanged without an error | C129_false, C129_exactly |
| `variable_manager.cpp:82-107` | the state of the stream is tested only after opening; on a full medium the program of main.cpp computes for its 125000 steps, ends normally and leaves 1001 empty files | C133_false, C133_exactly |
| src/solver/{euler,maxwell,lorentz_force,rk1,ssprk3,ssprk2_advection}.cpp `solve` | Nothing checks that the output differs from the inputs; with the same variable the `__restrict__` kernels are undefined | C135_false, C135_exactly |
| variable_manager.h:45, ssprk2_advection.cpp:173 | `time` is read in one place and not used; the time loops accumulate it with a relative rounding error of up to (N+1)/4.5e15 (six steps of 1/6 end at 1 - 2^-53), which influences nothing | C136_calls, C136_blind, C136_double, C136_inexact |
| `src/solver/euler.cpp` (HLL flux and reconstruction) | A contact discontinuity at rest is spread: HLL has no contact wave, so mass flows from the denser to the thinner side at the speed of sound. With motion the reconstruction does not even keep a common velocity, because of the absolute 1e-12. | `C137_false`, `C137_moving_false` |
| `range_set.cpp:33` | division in `float`: ranges of more than 2^24 cells lose cells (2^25 + 1 in one piece), 2^31 - 1 cells undefined | C140_false, C140_overflow |
| `variable.cpp:46` | values are announced as `float` though 16 digits are written: a reader that keeps to the type loses 9 of them | C141_false |
| `bc_conducting_wall.cpp` | same components in every direction: leaks in direction 1, and can create energy there | C82_conducting_false, C121_other_walls |

