{
 "claims": [
  {
   "property": "C01",
   "status": "proved",
   "theorems": [
    "QK.Props.C01_stride_volume",
    "QK.Props.C01_last_stride"
   ],
   "note": ""
  },
  {
   "property": "C02",
   "status": "proved",
   "theorems": [
    "QK.Props.C02_set",
    "QK.Props.C02_expand",
    "QK.Props.C02_shift",
    "QK.Props.C02_extrude",
    "QK.Props.C02_out_of_range"
   ],
   "note": ""
  },
  {
   "property": "C03",
   "status": "proved",
   "theorems": [
    "QK.Props.C03_includes",
    "QK.Props.C03_order"
   ],
   "note": ""
  },
  {
   "property": "C04",
   "status": "proved",
   "theorems": [
    "QK.Props.C04_eq"
   ],
   "note": ""
  },
  {
   "property": "C05",
   "status": "proved",
   "theorems": [
    "QK.Props.C05_traversal",
    "QK.Props.C05_trace"
   ],
   "note": ""
  },
  {
   "property": "C06",
   "status": "proved",
   "theorems": [
    "QK.Props.C06_linear_index"
   ],
   "note": ""
  },
  {
   "property": "C07",
   "status": "proved",
   "theorems": [
    "QK.Props.C07_foreign"
   ],
   "note": ""
  },
  {
   "property": "C08",
   "status": "proved",
   "theorems": [
    "QK.Props.C08_final_linear_index"
   ],
   "note": ""
  },
  {
   "property": "C09",
   "status": "partial",
   "theorems": [
    "QK.Props.C09_exactly",
    "QK.Props.C09_empty_subrange_false",
    "QK.Props.C09_empty_subrange_partial"
   ],
   "note": "False as stated: an empty sub-range that is included in the super-range (lower = upper) is entered and never left (C09_empty_subrange_false). Proved for sub-ranges that are not included. C09_exactly: which loops end and which do not."
  },
  {
   "property": "C10",
   "status": "proved",
   "theorems": [
    "QK.Props.C10_moves",
    "QK.Props.C10_inverse"
   ],
   "note": ""
  },
  {
   "property": "C11",
   "status": "proved",
   "theorems": [
    "QK.Props.C11_size_in_bounds"
   ],
   "note": ""
  },
  {
   "property": "C12",
   "status": "proved",
   "theorems": [
    "QK.Props.C12_fill_sub",
    "QK.Props.C12_fill_sub_rejected",
    "QK.Props.C12_fill_all"
   ],
   "note": ""
  },
  {
   "property": "C13",
   "status": "proved",
   "theorems": [
    "QK.Props.C13_pull",
    "QK.Props.C13_pull_mismatch"
   ],
   "note": ""
  },
  {
   "property": "C14",
   "status": "partial",
   "theorems": [
    "QK.Props.C14_pull_all_false",
    "QK.Props.C14_pull_all_partial",
    "QK.Props.C14_exactly"
   ],
   "note": "False: for chunks of equal volume but different ranges the arguments of the inner call are swapped and nothing is copied (C14_pull_all_false, all such pairs). Partial: equal ranges. C14_exactly: otherwise only if the values were equal before."
  },
  {
   "property": "C15",
   "status": "proved",
   "theorems": [
    "QK.Props.C15_swap",
    "QK.Props.C15_swap_mismatch"
   ],
   "note": ""
  },
  {
   "property": "C16",
   "status": "proved",
   "theorems": [
    "QK.Props.C16_pointer_access"
   ],
   "note": ""
  },
  {
   "property": "C17",
   "status": "partial",
   "theorems": [
    "QK.Props.C17_assign",
    "QK.Props.C17_copy_ctor_false",
    "QK.Props.C17_copy_ctor_drops_contents",
    "QK.Props.C17_exactly"
   ],
   "note": "Assignment proved; the copy constructor drops the contents (refuted). C17_exactly: a copy is right precisely if all values are zero."
  },
  {
   "property": "C18",
   "status": "proved",
   "theorems": [
    "QK.Props.C18_layout"
   ],
   "note": ""
  },
  {
   "property": "C19",
   "status": "proved",
   "theorems": [
    "QK.Props.C19_one_chunk"
   ],
   "note": ""
  },
  {
   "property": "C20",
   "status": "proved",
   "theorems": [
    "QK.Props.C20_copy_to",
    "QK.Props.C20_copy_to_mismatch"
   ],
   "note": ""
  },
  {
   "property": "C21",
   "status": "partial",
   "theorems": [
    "QK.Props.C21_copy_to_out_of_bounds_false",
    "QK.Props.C21_witness_false",
    "QK.Props.C21_partial",
    "QK.Props.C21_exactly"
   ],
   "note": "False for every pair of chunks: a destination range outside the chunk is not rejected and element 0 is overwritten (C21_copy_to_out_of_bounds_false). C21_partial: nothing else changes, and different volumes are rejected. C21_exactly: the chunk stays as it was precisely if element 0 had that value."
  },
  {
   "property": "C22",
   "status": "proved",
   "theorems": [
    "QK.Props.C22_multiply",
    "QK.Props.C22_multiply_outside"
   ],
   "note": ""
  },
  {
   "property": "C23",
   "status": "proved",
   "theorems": [
    "QK.Props.C23_full_copy"
   ],
   "note": ""
  },
  {
   "property": "C24",
   "status": "proved",
   "theorems": [
    "QK.Props.C24_periodic"
   ],
   "note": ""
  },
  {
   "property": "C25",
   "status": "proved",
   "theorems": [
    "QK.Props.C25_copy_out"
   ],
   "note": ""
  },
  {
   "property": "C26",
   "status": "proved",
   "theorems": [
    "QK.Props.C26_no_slip"
   ],
   "note": ""
  },
  {
   "property": "C27",
   "status": "proved",
   "theorems": [
    "QK.Props.C27_conducting_wall"
   ],
   "note": ""
  },
  {
   "property": "C28",
   "status": "partial",
   "theorems": [
    "QK.Props.C28_free_slip_partial",
    "QK.Props.C28_free_slip_false",
    "QK.Props.C28_exactly"
   ],
   "note": "False: bc_free_slip reverses all three momentum components (witness). Partial: normal momentum and non-momentum components are right, interior untouched. C28_exactly: the result is right precisely if the tangential momenta at the walls are zero."
  },
  {
   "property": "C29",
   "status": "proved",
   "theorems": [
    "QK.Props.C29_boundary_conditions"
   ],
   "note": ""
  },
  {
   "property": "C30",
   "status": "partial",
   "theorems": [
    "QK.Props.C30_too_few_components_silent",
    "QK.Props.C30_throws_false",
    "QK.Props.C30_partial"
   ],
   "note": "False: with fewer than 4 components the sign flip is silently skipped; proved for every such variable (C30_too_few_components_silent). C30_partial: with 4 or more components the signs are changed (in full C26, C27)."
  },
  {
   "property": "C31",
   "status": "proved",
   "theorems": [
    "QK.Props.C31_tiles"
   ],
   "note": ""
  },
  {
   "property": "C32",
   "status": "partial",
   "theorems": [
    "QK.Props.C32_exactly",
    "QK.Props.C32_well_formed_false",
    "QK.Props.C32_well_formed_partial"
   ],
   "note": "False: with more chunks than cells in a dimension chunks become ill-formed (witness). Partial: well formed when the chunk count fits. C32_exactly: the pieces are well formed precisely if the chunk count fits."
  },
  {
   "property": "C33",
   "status": "proved",
   "theorems": [
    "QK.Props.C33_new_manager",
    "QK.Props.C33_history",
    "QK.Props.C33_storage",
    "QK.Props.C33_add"
   ],
   "note": ""
  },
  {
   "property": "C34",
   "status": "partial",
   "theorems": [
    "QK.Props.C34_false",
    "QK.Props.C34_partial"
   ],
   "note": "False: the exception is constructed but not thrown, a missing id dereferences end() (C34_false, for every manager and missing id). Partial: existing ids."
  },
  {
   "property": "C35",
   "status": "partial",
   "theorems": [
    "QK.Props.C35_exactly",
    "QK.Props.C35_false",
    "QK.Props.C35_partial",
    "QK.Props.C35_component_clash"
   ],
   "note": "False: bases (a,2) and (b,1) make each id less than the other (C35_false). Partial: strict weak order when ids that share a name use bases of one name; the component clash part is proved in full. C35_exactly: the pairs of ids that are each less than the other."
  },
  {
   "property": "C36",
   "status": "proved",
   "theorems": [
    "QK.Props.C36_unique_clone"
   ],
   "note": ""
  },
  {
   "property": "C37",
   "status": "proved",
   "theorems": [
    "QK.Props.C37_advection",
    "QK.Props.C37_brio_wu",
    "QK.Props.C37_flux",
    "QK.Props.C37_lorentz",
    "QK.Props.C37_current",
    "QK.Props.C37_integrators",
    "QK.Props.C37_swap"
   ],
   "note": "euler, maxwell, lorentz_force, current_source, ssprk3, rk1, swap, ssprk2_advection and brio_wu. gem_challenge does not check (C73)."
  },
  {
   "property": "C38",
   "status": "proved",
   "theorems": [
    "QK.Props.C38_swap",
    "QK.Props.C38_swap_twice",
    "QK.Props.C38_odd"
   ],
   "note": ""
  },
  {
   "property": "C39",
   "status": "proved",
   "theorems": [
    "QK.Props.C39_fill"
   ],
   "note": ""
  },
  {
   "property": "C40",
   "status": "proved",
   "theorems": [
    "QK.Props.C40_chunk",
    "QK.Props.C40_many_dims"
   ],
   "note": ""
  },
  {
   "property": "C41",
   "status": "proved",
   "theorems": [
    "QK.Props.C41_file"
   ],
   "note": ""
  },
  {
   "property": "C42",
   "status": "partial",
   "theorems": [
    "QK.Props.C42_false",
    "QK.Props.C42_partial"
   ],
   "note": "False: ORIGIN is start+width/2 instead of start, so all cells are shifted by half the domain width (C42_false, every grid). Partial: the spacing is right and the shift is the same for all cells."
  },
  {
   "property": "C43",
   "status": "proved",
   "theorems": [
    "QK.Props.C43_bases",
    "QK.Props.C43_cannot_open",
    "QK.Props.C43_other_basis",
    "QK.Props.C43_missing"
   ],
   "note": ""
  },
  {
   "property": "C44",
   "status": "proved",
   "theorems": [
    "QK.Props.C44_rectilinear",
    "QK.Props.C44_construct"
   ],
   "note": ""
  },
  {
   "property": "C45",
   "status": "partial",
   "theorems": [
    "QK.Props.C45_false",
    "QK.Props.C45_partial"
   ],
   "note": "False for index ranges that do not start at 0: centroid is start+(index+1/2)*dx with the raw index (witness). Partial: index ranges that start at 0."
  },
  {
   "property": "C46",
   "status": "partial",
   "theorems": [
    "QK.Props.C46_exactly",
    "QK.Props.C46_centroids",
    "QK.Props.C46_mirror",
    "QK.Props.C46_widths_partial",
    "QK.Props.C46_width_false"
   ],
   "note": "Centroids and mirror symmetry proved in full; the widths do not add up to the requested width because the (half) width is truncated to int (witness); the partial gives the exact sum for every exponent of at least 1. C46_exactly: the sum is right precisely for even integers (symmetric) and integers (linear)."
  },
  {
   "property": "C47",
   "status": "proved",
   "theorems": [
    "QK.Props.C47_shu_osher",
    "QK.Props.C47_amplification"
   ],
   "note": ""
  },
  {
   "property": "C48",
   "status": "proved",
   "theorems": [
    "QK.Props.C48_convex",
    "QK.Props.C48_bounds",
    "QK.Props.C48_zero"
   ],
   "note": ""
  },
  {
   "property": "C49",
   "status": "proved",
   "theorems": [
    "QK.Props.C49_ssprk3",
    "QK.Props.C49_rk1"
   ],
   "note": ""
  },
  {
   "property": "C50",
   "status": "proved",
   "theorems": [
    "QK.Props.C50_hll_consistent"
   ],
   "note": ""
  },
  {
   "property": "C51",
   "status": "partial",
   "theorems": [
    "QK.Props.C51_false",
    "QK.Props.C51_cases",
    "QK.Props.C51_one_branch_partial",
    "QK.Props.C51_exactly"
   ],
   "note": "False: for colliding supersonic flow (left state moving right faster than sound, right state moving left faster than sound) both fl_mult and fr_mult are 1 (C51_false). Partial: exactly one branch otherwise; C51_exactly says that the colliding case is the only exception and C51_cases gives the flux in every case."
  },
  {
   "property": "C52",
   "status": "partial",
   "theorems": [
    "QK.Props.C52_exactly",
    "QK.Props.C52_maxwell_in_bounds",
    "QK.Props.C52_euler_in_bounds_partial",
    "QK.Props.C52_euler_false"
   ],
   "note": "Maxwell: proved for every number of dimensions. Euler: proved up to 4 dimensions; on 5 or more the local arrays of 5 are indexed out of bounds (C52_euler_false, for every such mesh). C52_exactly: in bounds precisely up to 4 dimensions."
  },
  {
   "property": "C53",
   "status": "proved",
   "theorems": [
    "QK.Props.C53_maxwell",
    "QK.Props.C53_euler"
   ],
   "note": ""
  },
  {
   "property": "C54",
   "status": "proved",
   "theorems": [
    "QK.Props.C54_maxwell_rhs",
    "QK.Props.C54_euler_rhs",
    "QK.Props.C54_maxwell_steps",
    "QK.Props.C54_euler_steps"
   ],
   "note": "Both solvers: totals of the right-hand side, one step and any number of steps on the variable manager. Euler up to 4 dimensions."
  },
  {
   "property": "C55",
   "status": "proved",
   "theorems": [
    "QK.Props.C55_maxwell",
    "QK.Props.C55_euler"
   ],
   "note": ""
  },
  {
   "property": "C56",
   "status": "proved",
   "theorems": [
    "QK.Props.C56_ssprk3",
    "QK.Props.C56_maxwell",
    "QK.Props.C56_euler"
   ],
   "note": "Euler (first four directions), Maxwell and the three ssprk3 loops."
  },
  {
   "property": "C57",
   "status": "partial",
   "theorems": [
    "QK.Props.C57_race_false",
    "QK.Props.C57_partial",
    "QK.Props.C57_lost_update_false",
    "QK.Props.C57_exactly"
   ],
   "note": "False: two threads of advection_iterate conflict on every mesh, velocity and direction (C57_race_false), and an interleaving can lose an update (C57_lost_update_false). Partial: no conflict in loops of at most |s| elements, s the stride. C57_exactly: safe precisely if the loop is not longer than |s|."
  },
  {
   "property": "C58",
   "status": "proved",
   "theorems": [
    "QK.Props.C58_rusanov_consistent"
   ],
   "note": ""
  },
  {
   "property": "C59",
   "status": "proved",
   "theorems": [
    "QK.Props.C59_fast_eq_mp"
   ],
   "note": ""
  },
  {
   "property": "C60",
   "status": "proved",
   "theorems": [
    "QK.Props.C60_lorentz",
    "QK.Props.C60_no_work"
   ],
   "note": ""
  },
  {
   "property": "C61",
   "status": "proved",
   "theorems": [
    "QK.Props.C61_current",
    "QK.Props.C61_setup",
    "QK.Props.C61_sum"
   ],
   "note": ""
  },
  {
   "property": "C62",
   "status": "proved",
   "theorems": [
    "QK.Props.C62_stage0",
    "QK.Props.C62_stage1"
   ],
   "note": ""
  },
  {
   "property": "C63",
   "status": "partial",
   "theorems": [
    "QK.Props.C63_exactly",
    "QK.Props.C63_shock_tube",
    "QK.Props.C63_primitive",
    "QK.Props.C63_brio_wu_partial",
    "QK.Props.C63_By_false"
   ],
   "note": "shock_tube proved in full. brio_wu: densities, pressures and Bx proved; By is divided by gamma-1, so it is the given one only for gamma = 2 (C63_By_false for every other gamma). C63_exactly: By is right precisely if gamma = 2 or By = 0."
  },
  {
   "property": "C64",
   "status": "proved",
   "theorems": [
    "QK.Props.C64_no_direction",
    "QK.Props.C64_wave",
    "QK.Props.C64_transverse"
   ],
   "note": ""
  },
  {
   "property": "C65",
   "status": "partial",
   "theorems": [
    "QK.Props.C65_radial_partial",
    "QK.Props.C65_gaussian_partial",
    "QK.Props.C65_pulse_partial",
    "QK.Props.C65_false"
   ],
   "note": "False: on every grid of one or two dimensions x[2] (and x[1]) is read uninitialised (C65_false). Partial: on three-dimensional grids the solvers return with the right values."
  },
  {
   "property": "C66",
   "status": "proved",
   "theorems": [
    "QK.Props.C66_range",
    "QK.Props.C66_mutators",
    "QK.Props.C66_indexer",
    "QK.Props.C66_count",
    "QK.Props.C66_indexer_outside",
    "QK.Props.C66_conditions_needed"
   ],
   "note": "Checked 32-bit arithmetic gives the unbounded result. C66_conditions_needed: each condition is needed (reversed bounds, empty sub-range, volume 2^31)."
  },
  {
   "property": "C67",
   "status": "partial",
   "theorems": [
    "QK.Props.C67_partial",
    "QK.Props.C67_false"
   ],
   "note": "False: assignment appends (stringstream::clear does not empty the stream) and reads what(), a destroyed temporary (C67_false, all exceptions). Partial: construction, copy, append, print."
  },
  {
   "property": "C68",
   "status": "partial",
   "theorems": [
    "QK.Props.C68_false",
    "QK.Props.C68_aligned_partial"
   ],
   "note": "False: __builtin_assume_aligned(ptr, 64) on std::vector<double> buffers (C68_false, every manager). Partial: defined when all buffers are 64-byte aligned."
  },
  {
   "property": "C69",
   "status": "proved",
   "theorems": [
    "QK.Props.C69_stage0",
    "QK.Props.C69_stage1",
    "QK.Props.C69_linear"
   ],
   "note": ""
  },
  {
   "property": "C70",
   "status": "partial",
   "theorems": [
    "QK.Props.C70_partial",
    "QK.Props.C70_exactly",
    "QK.Props.C70_false"
   ],
   "note": "False: witness C70_false. Partial: right for cells whose centre has the third coordinate of the ball's centre, or equal second and third coordinates. C70_exactly gives the exact condition for the density of a cell to be right."
  },
  {
   "property": "C71",
   "status": "proved",
   "theorems": [
    "QK.Props.C71_gem",
    "QK.Props.C71_divergence",
    "QK.Props.C71_equilibrium"
   ],
   "note": ""
  },
  {
   "property": "C72",
   "status": "partial",
   "theorems": [
    "QK.Props.C72_false",
    "QK.Props.C72_partial",
    "QK.Props.C72_exactly"
   ],
   "note": "False for every grid of more than three dimensions (C72_false). Partial: three-dimensional grids; up to three dimensions for shock_tube (C63) and the wave (C64). C72_exactly: the four other initial conditions return exactly on grids of at most three (shock_tube) or exactly three dimensions."
  },
  {
   "property": "C73",
   "status": "partial",
   "theorems": [
    "QK.Props.C73_partial",
    "QK.Props.C73_exactly",
    "QK.Props.C73_false",
    "QK.Props.C73_alias_false"
   ],
   "note": "False: fewer than three ids read beyond the end of the list (C73_false), two equal ids alias (C73_alias_false). Partial: three different ids with enough components. C73_exactly: for up to three ids it returns precisely in that case."
  },
  {
   "property": "C74",
   "status": "proved",
   "theorems": [
    "QK.Props.C74_rusanov",
    "QK.Props.C74_energy"
   ],
   "note": ""
  },
  {
   "property": "C75",
   "status": "partial",
   "theorems": [
    "QK.Props.C75_increasing_partial",
    "QK.Props.C75_decreasing_partial",
    "QK.Props.C75_false",
    "QK.Props.C75_exactly",
    "QK.Props.C75_extrema"
   ],
   "note": "False: witnesses for an overshoot and for a negative density. Partial: monotone data (exactly for increasing, up to 1e-12 for decreasing). C75_exactly: the precise condition, C75_extrema: what happens at extrema."
  },
  {
   "property": "C76",
   "status": "partial",
   "theorems": [
    "QK.Props.C76_partial",
    "QK.Props.C76_false",
    "QK.Props.C76_exactly",
    "QK.Props.C76_sum",
    "QK.Props.C76_difference",
    "QK.Props.C76_product",
    "QK.Props.C76_quotient",
    "QK.Props.C76_comparisons",
    "QK.Props.C76_root",
    "QK.Props.C76_power"
   ],
   "note": "False: NaN for every neighbourhood with qn = qc + 1e-12 (C76_false). Partial: nonzero denominators. C76_exactly: finite precisely if no denominator vanishes."
  },
  {
   "property": "C77",
   "status": "partial",
   "theorems": [
    "QK.Props.C77_false",
    "QK.Props.C77_printed",
    "QK.Props.C77_partial"
   ],
   "note": "False for every exception: the handler reads through what(). Partial: the caught object still carries the text."
  },
  {
   "property": "C78",
   "status": "partial",
   "theorems": [
    "QK.Props.C78_exactly",
    "QK.Props.C78_range_false",
    "QK.Props.C78_partial",
    "QK.Props.C78_chunk_false"
   ],
   "note": "False for every range (bounds become 0) and every chunk with a dimension (undefined behaviour). Partial: ranges without dimensions. C78_exactly: a range keeps its bounds precisely if they are all 0."
  },
  {
   "property": "C79",
   "status": "partial",
   "theorems": [
    "QK.Props.C79_partial",
    "QK.Props.C79_false",
    "QK.Props.C79_exactly",
    "QK.Props.C79_uniform"
   ],
   "note": "False: for equal signal speeds no component is finite, witness with positive density and pressure. Partial: different signal speeds; uniform flow (C79_uniform). C79_exactly: finite precisely if the signal speeds differ."
  },
  {
   "property": "C80",
   "status": "proved",
   "theorems": [
    "QK.Props.C80_linear"
   ],
   "note": ""
  },
  {
   "property": "C81",
   "status": "proved",
   "theorems": [
    "QK.Props.C81_stage",
    "QK.Props.C81_step",
    "QK.Props.C81_program",
    "QK.Props.C81_misaligned",
    "QK.Props.C81_gem"
   ],
   "note": ""
  },
  {
   "property": "C82",
   "status": "partial",
   "theorems": [
    "QK.Props.C82_no_slip",
    "QK.Props.C82_conducting_partial",
    "QK.Props.C82_conducting_exactly",
    "QK.Props.C82_conducting_false"
   ],
   "note": "Fluids: proved. Conducting walls: proved in direction 0 (C82_conducting_partial), false in the others (C82_conducting_false); C82_conducting_exactly gives the flux of the magnetic field through a wall of any direction."
  },
  {
   "property": "C83",
   "status": "proved",
   "theorems": [
    "QK.Props.C83_stage",
    "QK.Props.C83_step",
    "QK.Props.C83_any_walls",
    "QK.Props.C83_gem"
   ],
   "note": ""
  },
  {
   "property": "C84",
   "status": "proved",
   "theorems": [
    "QK.Props.C84_brio",
    "QK.Props.C84_harris",
    "QK.Props.C84_totals"
   ],
   "note": ""
  },
  {
   "property": "C85",
   "status": "proved",
   "theorems": [
    "QK.Props.C85_sod",
    "QK.Props.C85_totals"
   ],
   "note": ""
  },
  {
   "property": "C86",
   "status": "proved",
   "theorems": [
    "QK.Props.C86_wave",
    "QK.Props.C86_totals"
   ],
   "note": ""
  },
  {
   "property": "C87",
   "status": "partial",
   "theorems": [
    "QK.Props.C87_false",
    "QK.Props.C87_partial"
   ],
   "note": "False for every size: both programs read uninitialised coordinates in their initial condition, the first thing they run (C87_false). What they would do after an initial condition that returns is C96 (advect_gaussian) and C113 (gaussian_pulse); the same initial conditions on a grid of three dimensions are defined (C72_partial). C87_partial: after any initial condition that returns both programs end."
  },
  {
   "property": "C88",
   "status": "proved",
   "theorems": [
    "QK.Props.C88_gem",
    "QK.Props.C88_harris",
    "QK.Props.C88_brio",
    "QK.Props.C88_ampere",
    "QK.Props.C88_units",
    "QK.Props.C88_time",
    "QK.Props.C88_cells"
   ],
   "note": ""
  },
  {
   "property": "C89",
   "status": "partial",
   "theorems": [
    "QK.Props.C89_false",
    "QK.Props.C89_partial",
    "QK.Props.C89_travels"
   ],
   "note": "False: the constant for pi is 3.14159263. Partial: periodic to within 1e-7 of the amplitude; C89_travels: the wave is the start of a travelling solution."
  },
  {
   "property": "C90",
   "status": "proved",
   "theorems": [
    "QK.Props.C90_unique",
    "QK.Props.C90_moved",
    "QK.Props.C90_uniform",
    "QK.Props.C90_exists",
    "QK.Props.C90_sod",
    "QK.Props.C90_wave"
   ],
   "note": ""
  },
  {
   "property": "C91",
   "status": "proved",
   "theorems": [
    "QK.Props.C91_planar",
    "QK.Props.C91_sod",
    "QK.Props.C91_wave",
    "QK.Props.C91_field"
   ],
   "note": ""
  },
  {
   "property": "C92",
   "status": "partial",
   "theorems": [
    "QK.Props.C92_false",
    "QK.Props.C92_partial",
    "QK.Props.C92_hll",
    "QK.Props.C92_rusanov"
   ],
   "note": "False for the reconstruction because of the 1e-12 in its denominators. Partial: up to 2e-12. The fluxes are exactly symmetric (C92_hll, C92_rusanov)."
  },
  {
   "property": "C93",
   "status": "partial",
   "theorems": [
    "QK.Props.C93_false",
    "QK.Props.C93_partial",
    "QK.Props.C93_electrons_false"
   ],
   "note": "False because of the 1e-12; in the program of main.cpp the density of the electrons is reconstructed to first order only (C93_electrons_false). Partial: up to (1+k)1e-12."
  },
  {
   "property": "C94",
   "status": "proved",
   "theorems": [
    "QK.Props.C94_domain"
   ],
   "note": ""
  },
  {
   "property": "C95",
   "status": "proved",
   "theorems": [
    "QK.Props.C95_rest",
    "QK.Props.C95_sod",
    "QK.Props.C95_brio"
   ],
   "note": ""
  },
  {
   "property": "C96",
   "status": "proved",
   "theorems": [
    "QK.Props.C96_step",
    "QK.Props.C96_program",
    "QK.Props.C96_total"
   ],
   "note": ""
  },
  {
   "property": "C97",
   "status": "partial",
   "theorems": [
    "QK.Props.C97_false",
    "QK.Props.C97_partial"
   ],
   "note": "False: the periodic conditions have no dimensions. Partial: the cells that nothing from the ghost cells reaches in one step."
  },
  {
   "property": "C98",
   "status": "proved",
   "theorems": [
    "QK.Props.C98_heun"
   ],
   "note": ""
  },
  {
   "property": "C99",
   "status": "partial",
   "theorems": [
    "QK.Props.C99_partial",
    "QK.Props.C99_false"
   ],
   "note": "False for either bound (C99_false, C97_false). Partial: the amount by which a forward Euler step can leave the range."
  },
  {
   "property": "C100",
   "status": "proved",
   "theorems": [
    "QK.Props.C100_energy",
    "QK.Props.C100_momentum",
    "QK.Props.C100_programs"
   ],
   "note": ""
  },
  {
   "property": "C101",
   "status": "partial",
   "theorems": [
    "QK.Props.C101_false",
    "QK.Props.C101_partial"
   ],
   "note": "False of the code (C101_false: charge without field after the first stage of the shock tube). Partial: how Ex and the charge change in one dimension."
  },
  {
   "property": "C102",
   "status": "partial",
   "theorems": [
    "QK.Props.C102_false",
    "QK.Props.C102_partial"
   ],
   "note": "False of the code in two dimensions (C102_false). Partial: fields that do not depend on y keep divergence zero."
  },
  {
   "property": "C103",
   "status": "proved",
   "theorems": [
    "QK.Props.C103_uniform",
    "QK.Props.C103_oscillation",
    "QK.Props.C103_stable",
    "QK.Props.C103_brio"
   ],
   "note": ""
  },
  {
   "property": "C104",
   "status": "proved",
   "theorems": [
    "QK.Props.C104_print"
   ],
   "note": ""
  },
  {
   "property": "C105",
   "status": "partial",
   "theorems": [
    "QK.Props.C105_lorentz",
    "QK.Props.C105_current",
    "QK.Props.C105_cells_false",
    "QK.Props.C105_cells_partial",
    "QK.Props.C105_face_basis"
   ],
   "note": "False of the code; the theorems give the exact set of cells updated, and the partial one says that in one dimension only the last interior cell is missing. The OpenMP loop is taken on one thread: with more the advancing pointers race."
  },
  {
   "property": "C106",
   "status": "partial",
   "theorems": [
    "QK.Props.C106_flux",
    "QK.Props.C106_faces",
    "QK.Props.C106_rate",
    "QK.Props.C106_gas_partial",
    "QK.Props.C106_plasma_partial",
    "QK.Props.C106_false"
   ],
   "note": "False of the code (NaN from positive states); the partial theorems assume that the reconstructed states are admissible."
  },
  {
   "property": "C107",
   "status": "partial",
   "theorems": [
    "QK.Props.C107_values_partial",
    "QK.Props.C107_total_partial",
    "QK.Props.C107_false",
    "QK.Props.C107_strides"
   ],
   "note": "False of the code (out of bounds for velocities that are not positive, wrong neighbours in two dimensions); the partial theorems assume positive velocities."
  },
  {
   "property": "C108",
   "status": "proved",
   "theorems": [
    "QK.Props.C108_gem",
    "QK.Props.C108_harris",
    "QK.Props.C108_others",
    "QK.Props.C108_sheet_oscillation",
    "QK.Props.C108_sheet_start",
    "QK.Props.C108_brio_oscillation"
   ],
   "note": "The Courant number of light bounded in C108_gem and C108_harris is the first number the programs print (gem_challenge.cpp:138, harris_current_sheet.cpp:140); the printing is the subject of C120."
  },
  {
   "property": "C109",
   "status": "proved",
   "theorems": [
    "QK.Props.C109_group",
    "QK.Props.C109_range_constructors",
    "QK.Props.C109_range_extrusion",
    "QK.Props.C109_range_resize",
    "QK.Props.C109_range_functionality",
    "QK.Props.C109_indexer_constructors",
    "QK.Props.C109_indexer_functionality",
    "QK.Props.C109_indexer_indexer",
    "QK.Props.C109_variable",
    "QK.Props.C109_programs",
    "QK.Props.C109_meant",
    "QK.Props.C109_compare",
    "QK.Props.C109_moved",
    "QK.Props.C109_coloured",
    "QK.Props.C109_variable_detects"
   ],
   "note": "The theorems are about the model of the tests and of the classes they test; the tests as written are C109_programs. C109_compare, C109_moved and C109_coloured: what the compound assertions of the tests detect, exactly."
  },
  {
   "property": "C110",
   "status": "proved",
   "theorems": [
    "QK.Props.C110_no_slip",
    "QK.Props.C110_conducting",
    "QK.Props.C110_gas",
    "QK.Props.C110_light",
    "QK.Props.C110_plasma",
    "QK.Props.C110_double",
    "QK.Props.C110_gem",
    "QK.Props.C110_sod",
    "QK.Props.C110_wave",
    "QK.Props.C110_sizes"
   ],
   "note": "About the model over an abstract arithmetic with the laws of Floats (a hypothesis of the theorems, met by the 53-bit format of Proofs/RoundingModel.lean). Files hold the numbers as computed; their decimal output is not modelled here."
  },
  {
   "property": "C111",
   "status": "proved",
   "theorems": [
    "QK.Props.C111_solvers",
    "QK.Props.C111_bad_direction",
    "QK.Props.C111_free_slip"
   ],
   "note": ""
  },
  {
   "property": "C112",
   "status": "proved",
   "theorems": [
    "QK.Props.C112_create",
    "QK.Props.C112_size",
    "QK.Props.C112_loops",
    "QK.Props.C112_kernels",
    "QK.Props.C112_advection",
    "QK.Props.C112_writer",
    "QK.Props.C112_programs"
   ],
   "note": ""
  },
  {
   "property": "C113",
   "status": "proved",
   "theorems": [
    "QK.Props.C113_program",
    "QK.Props.C113_normal",
    "QK.Props.C113_totals"
   ],
   "note": ""
  },
  {
   "property": "C114",
   "status": "partial",
   "theorems": [
    "QK.Props.C114_flux",
    "QK.Props.C114_faces",
    "QK.Props.C114_rate",
    "QK.Props.C114_energy_partial",
    "QK.Props.C114_gas_partial",
    "QK.Props.C114_false"
   ],
   "note": "False: witness C114_false (density 1, positive pressures, rate NaN). Partial: cells whose reconstructed face states have positive density and pressure in every stage."
  },
  {
   "property": "C115",
   "status": "proved",
   "theorems": [
    "QK.Props.C115_order",
    "QK.Props.C115_rk1",
    "QK.Props.C115_sharp",
    "QK.Props.C115_converges",
    "QK.Props.C115_oscillation"
   ],
   "note": ""
  },
  {
   "property": "C116",
   "status": "partial",
   "theorems": [
    "QK.Props.C116_partial",
    "QK.Props.C116_false"
   ],
   "note": "False for self-assignment (C116_false): the ranges are lost. C116_partial: every copy and assignment to a different object reproduces the indexer."
  },
  {
   "property": "C117",
   "status": "partial",
   "theorems": [
    "QK.Props.C117_false",
    "QK.Props.C117_partial"
   ],
   "note": "False of the code: the operator has no return statement (C117_false). C117_partial: the text written before."
  },
  {
   "property": "C118",
   "status": "partial",
   "theorems": [
    "QK.Props.C118_number",
    "QK.Props.C118_style",
    "QK.Props.C118_exact",
    "QK.Props.C118_nearest",
    "QK.Props.C118_order",
    "QK.Props.C118_seventeen",
    "QK.Props.C118_false",
    "QK.Props.C118_partial",
    "QK.Props.C118_fields",
    "QK.Props.C118_plasma",
    "QK.Props.C118_one",
    "QK.Props.C118_sum",
    "QK.Props.C118_gem_partial",
    "QK.Props.C118_files_false"
   ],
   "note": "False of the code: 16 digits do not determine a double (C118_false, C118_files_false). Proved: a reader finds every value up to 5e-16 of its size, with its sign and order, and exactly if it has at most 16 decimal digits; 17 digits would determine every double."
  },
  {
   "property": "C119",
   "status": "proved",
   "theorems": [
    "QK.Props.C119_light",
    "QK.Props.C119_gas",
    "QK.Props.C119_light_step",
    "QK.Props.C119_gas_step",
    "QK.Props.C119_order",
    "QK.Props.C119_gas_second",
    "QK.Props.C119_plasma",
    "QK.Props.C119_plasma_step",
    "QK.Props.C119_light_second",
    "QK.Props.C119_parabola"
   ],
   "note": "Exact arithmetic. NoZero (no difference of neighbours equal to -1e-12, where the limiter divides by zero) is a hypothesis. The theorems on gases and plasmas need densities of more than 4e-12 (`Fine` includes the 2e-12 of the limiter), so they say nothing about the densities of gem_challenge and harris_current_sheet in SI units (electrons: about 6e-16)."
  },
  {
   "property": "C120",
   "status": "proved",
   "theorems": [
    "QK.Props.C120_main_same",
    "QK.Props.C120_complete",
    "QK.Props.C120_interrupted",
    "QK.Props.C120_same",
    "QK.Props.C120_gem",
    "QK.Props.C120_harris",
    "QK.Props.C120_brio",
    "QK.Props.C120_sod",
    "QK.Props.C120_wave",
    "QK.Props.C120_undefined",
    "QK.Props.C120_elapsed",
    "QK.Props.C120_average",
    "QK.Props.C120_average_between",
    "QK.Props.C120_total",
    "QK.Props.C120_sci",
    "QK.Props.C120_wide",
    "QK.Props.C120_lines",
    "QK.Props.C120_gem_start",
    "QK.Props.C120_harris_start"
   ],
   "note": "The clock is an arbitrary sequence of readings. That two programs never get this far is C87 (C120_undefined)."
  },
  {
   "property": "C121",
   "status": "proved",
   "theorems": [
    "QK.Props.C121_power",
    "QK.Props.C121_light",
    "QK.Props.C121_plasma",
    "QK.Props.C121_other_walls"
   ],
   "note": "Exact arithmetic. About the rates: the explicit time integration adds the energy of the change (C121_power). Conducting walls in directions 1 and 2, where the code flips the wrong magnetic component (C82), are excluded for a reason: C121_other_walls gives fields between walls in direction 1 (as in gem_challenge) whose energy grows by the fluxes."
  },
  {
   "property": "C122",
   "status": "proved",
   "theorems": [
    "QK.Props.C122_stage",
    "QK.Props.C122_step",
    "QK.Props.C122_run",
    "QK.Props.C122_exponent",
    "QK.Props.C122_value",
    "QK.Props.C122_wave",
    "QK.Props.C122_pulse"
   ],
   "note": "Exact arithmetic, periodic meshes. The constant K of the quadratic term is not optimal: with the configured time steps the bound is very large; it is small for time steps of the order of dx^2."
  },
  {
   "property": "C123",
   "status": "proved",
   "theorems": [
    "QK.Props.C123_sound",
    "QK.Props.C123_start",
    "QK.Props.C123_missing",
    "QK.Props.C123_no_step",
    "QK.Props.C123_same",
    "QK.Props.C123_steps",
    "QK.Props.C123_shipped",
    "QK.Props.C123_initial"
   ],
   "note": "Buffers aligned as ssprk3 assumes (C68). ssprk2_advection (data race, C57) is not among the calls; the initial conditions enter as own solvers (C123_initial). Loops run a number of times fixed in the text; branches may depend on the manager."
  },
  {
   "property": "C124",
   "status": "proved",
   "theorems": [
    "QK.Props.C124_client",
    "QK.Props.C124_run",
    "QK.Props.C124_programs",
    "QK.Props.C124_copy"
   ],
   "note": "Running out of memory is not modelled. In `_variables[var] = new …` the model constructs first; with the other order a throwing constructor leaves a null entry, whose deletion does nothing. Destructors of standard containers are trusted."
  },
  {
   "property": "C125",
   "status": "proved",
   "theorems": [
    "QK.Props.C125_gas",
    "QK.Props.C125_light",
    "QK.Props.C125_plasma",
    "QK.Props.C125_symmetric",
    "QK.Props.C125_tube"
   ],
   "note": "Exact arithmetic (over floats the order of the directions in the sums matters). For the field only the rotation: an exchange of two axes turns B into -B, and the reconstruction is not odd (C92). Walls only for the gas: a conducting wall as coded flips the x component of B in every direction."
  },
  {
   "property": "C126",
   "status": "proved",
   "theorems": [
    "QK.Props.C126_outcomes",
    "QK.Props.C126_exists",
    "QK.Props.C126_same",
    "QK.Props.C126_shipped",
    "QK.Props.C126_advection"
   ],
   "note": "Memory is sequentially consistent, which OpenMP and C++ guarantee for executions without data races; a state in which two iterations could access the same element, one writing, counts as undefined behaviour. No laws of arithmetic are used, so this holds bit for bit. Each iteration may interleave freely, which includes every OpenMP schedule and number of threads."
  },
  {
   "property": "C127",
   "status": "proved",
   "theorems": [
    "QK.Props.C127_renamed",
    "QK.Props.C127_names",
    "QK.Props.C127_layout",
    "QK.Props.C127_commute",
    "QK.Props.C127_initial",
    "QK.Props.C127_shipped"
   ],
   "note": "Covers failing runs as well: undefined behaviour is the same with its reason (an exception inside a loop over the elements of a chunk leaves, in the model, the numbers from before that loop). No laws of arithmetic are used, so this holds bit for bit. Printing and the VTK writer, which do show names, are left out. C127_commute is for programs accepted by the check of C123."
  },
  {
   "property": "C128",
   "status": "proved",
   "theorems": [
    "QK.Props.C128_bound",
    "QK.Props.C128_memory",
    "QK.Props.C128_steady",
    "QK.Props.C128_steps",
    "QK.Props.C128_programs"
   ],
   "note": "Counts the variable objects of the manager and the numbers in their arrays. Temporaries of the solvers (local vectors) live within one call and are not counted. Functions supplied by the client must themselves keep the invariant."
  },
  {
   "property": "C129",
   "status": "partial",
   "theorems": [
    "QK.Props.C129_exactly",
    "QK.Props.C129_partial",
    "QK.Props.C129_false"
   ],
   "note": "False for every pair of variables of different shapes: nothing is thrown and both get the shape of the other (C129_false). Partial: pairs of the same shape. C129_exactly: the shapes are kept precisely if they agree in each pair."
  },
  {
   "property": "C130",
   "status": "proved",
   "theorems": [
    "QK.Spec.C130_exchange",
    "QK.Spec.C130_neutral",
    "QK.Spec.C130_vacuum",
    "QK.Spec.C130_passive"
   ],
   "note": "On the step relations that the programs are proved to follow (C81). Exact arithmetic: with rounding the order in which the currents are added matters."
  },
  {
   "property": "C131",
   "status": "proved",
   "theorems": [
    "QK.Props.C131_ratio"
   ],
   "note": "For the units of the fields the same fails, because of the constant 1e-12 in the reconstruction (C93)."
  },
  {
   "property": "C132",
   "status": "proved",
   "theorems": [
    "QK.Props.C132_frames",
    "QK.Props.C132_longer",
    "QK.Props.C132_programs"
   ],
   "note": "Any arithmetic: bit for bit. C132_programs for the five programs whose initial conditions return; C132_frames also covers the other two after any initial condition."
  },
  {
   "property": "C133",
   "status": "partial",
   "theorems": [
    "QK.Props.C133_exactly",
    "QK.Props.C133_exception",
    "QK.Props.C133_partial",
    "QK.Props.C133_false"
   ],
   "note": "False of the code: C133_false (program of main.cpp as configured, full medium). C133_exactly says what is left on any medium; C133_partial: with enough room everything."
  },
  {
   "property": "C134",
   "status": "proved",
   "theorems": [
    "QK.Props.C134_killed",
    "QK.Props.C134_lines",
    "QK.Props.C134_gem"
   ],
   "note": "Characters reach the medium in the order written; a kill may lose any number of the last characters of the open file."
  },
  {
   "property": "C135",
   "status": "partial",
   "theorems": [
    "QK.C135_false",
    "QK.C135_exactly",
    "QK.C135_partial",
    "QK.C135_swap"
   ],
   "note": "False of the code for the solvers with __restrict__ kernels (C135_false); exact condition for the integrators (C135_exactly); true for current_source (C135_partial) and swap (C135_swap). The model treats any aliasing of a __restrict__ pair as undefined; strictly some element must be accessed through both pointers, which is the case since meshes have cells and variables have components."
  },
  {
   "property": "C136",
   "status": "proved",
   "theorems": [
    "QK.Props.C136_calls",
    "QK.Props.C136_steps",
    "QK.Props.C136_blind",
    "QK.Props.C136_programs",
    "QK.Props.C136_exact",
    "QK.Props.C136_rounded",
    "QK.Props.C136_moves",
    "QK.Props.C136_end",
    "QK.Props.C136_double",
    "QK.Props.C136_inexact"
   ],
   "note": "About the model over an abstract arithmetic (Floats, as in C110) where rounding is concerned. The two programs that are undefined (C87) are covered by C136_steps and C136_blind only."
  },
  {
   "property": "C137",
   "status": "partial",
   "theorems": [
    "QK.Props.C137_flux",
    "QK.Props.C137_rate",
    "QK.Props.C137_partial",
    "QK.Props.C137_stages_partial",
    "QK.Props.C137_false",
    "QK.Props.C137_moving_false"
   ],
   "note": "Velocity and pressure stay (C137_stages_partial, C137_partial); the density does not (C137_false), and a common nonzero velocity is not kept by the reconstruction (C137_moving_false)."
  },
  {
   "property": "C138",
   "status": "proved",
   "theorems": [
    "QK.Props.C138_wall",
    "QK.Props.C138_balance",
    "QK.Props.C138_step",
    "QK.Props.C138_sod"
   ],
   "note": ""
  },
  {
   "property": "C139",
   "status": "proved",
   "theorems": [
    "QK.Props.C139_rate",
    "QK.Props.C139_step",
    "QK.Props.C139_run",
    "QK.Props.C139_stable"
   ],
   "note": "Exact arithmetic. The exponent grows with the number of cells, so this is a statement about a fixed mesh, not about convergence."
  },
  {
   "property": "C140",
   "status": "partial",
   "theorems": [
    "QK.Props.C140_round",
    "QK.Props.C140_exactly",
    "QK.Props.C140_false",
    "QK.Props.C140_overflow"
   ],
   "note": "False: 2^25 + 1 cells in one piece lose a cell. C140_exactly gives the exact condition; C31 covers lengths below 2^24."
  },
  {
   "property": "C141",
   "status": "partial",
   "theorems": [
    "QK.Props.C141_partial",
    "QK.Props.C141_false",
    "QK.Props.C141_large"
   ],
   "note": "False of the code: 2^25 and 2^25 + 1 are read as the same number. Proved: what such a reader gets is within 6e-8 of the size of the value."
  },
  {
   "property": "C142",
   "status": "proved",
   "theorems": [
    "QK.Props.C142_rate",
    "QK.Props.C142_step",
    "QK.Props.C142_run",
    "QK.Props.C142_stable"
   ],
   "note": ""
  },
  {
   "property": "C143",
   "status": "proved",
   "theorems": [
    "QK.Props.C143_gem",
    "QK.Props.C143_brio",
    "QK.Props.C143_harris",
    "QK.Props.C143_sod",
    "QK.Props.C143_wave"
   ],
   "note": ""
  }
 ]
}