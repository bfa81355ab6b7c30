{
 "claims": [
  {
   "property": "C01",
   "status": "partial",
   "theorems": [
    "Verif.Marr.c01_in_bounds",
    "Verif.Marr.c01_injective",
    "Verif.Marr.c01_surjective",
    "Verif.Marr.c01_list_subscript_partial",
    "Verif.Marr.c01_list_subscript_violated",
    "Verif.Marr.c01_getCoordinate"
   ],
   "note": "Bounds, injectivity, surjectivity of the chained subscript and getCoordinate proved for every shape. Index-list subscript agrees when the trailing extents multiply to < 2^31; beyond that the code violates the claim (int accumulator), witness {2,2^31}."
  },
  {
   "property": "C02",
   "status": "partial",
   "theorems": [
    "Verif.Marr.c02_insert_partial",
    "Verif.Marr.c02_insert_violated",
    "Verif.Marr.c02_insert_bad_arguments"
   ],
   "note": "Proved when the products of the extents before and after dim fit 32 bits; beyond that the code violates the claim (32-bit accumulator), witness {0,2^32}."
  },
  {
   "property": "C03",
   "status": "partial",
   "theorems": [
    "Verif.Marr.c03_erase_partial",
    "Verif.Marr.c03_erase_wraps_violated",
    "Verif.Marr.c03_erase_violated",
    "Verif.Marr.c03_erase_bad_arguments",
    "Verif.Marr.c03_erase_insert_partial",
    "Verif.Marr.c03_nothing_at_end_violated"
   ],
   "note": "Proved when the products of the extents before and after dim fit 32 bits, including erase after insert = identity; violated beyond (any array of shape {2,2^32} loses its second row when the first is erased)."
  },
  {
   "property": "C04",
   "status": "partial",
   "theorems": [
    "Verif.Marr.c04_resizeDim_partial",
    "Verif.Marr.c04_resize_partial",
    "Verif.Marr.c04_resize_wrong_rank",
    "Verif.Marr.c04_resize_violated"
   ],
   "note": "Proved when the 32-bit products met while resizing are representable; violated beyond (witness {0,2^32} to {1,2^32})."
  },
  {
   "property": "C05",
   "status": "partial",
   "theorems": [
    "Verif.Marr.c05_reshape_partial",
    "Verif.Marr.c05_reshape_violated"
   ],
   "note": "Proved when the product of the new extents is < 2^32; violated beyond (a 2-element array accepts {2^31+1,2})."
  },
  {
   "property": "C06",
   "status": "partial",
   "theorems": [
    "Verif.Marr.c06_size_partial",
    "Verif.Marr.c06_size_violated"
   ],
   "note": "Invariant over all histories of 14 operations with representable 32-bit products; violated without that condition."
  },
  {
   "property": "C07",
   "status": "proved",
   "theorems": [
    "Verif.Marr.c07_strong_guarantee",
    "Verif.Marr.c07_reaches_caller",
    "Verif.Marr.c07_reaches_caller_copy"
   ],
   "note": "Both variants (nothrow move, copy), every failure point including allocation failure, no condition on 32-bit products. The theorem also excludes double destruction and use of moved-from elements."
  },
  {
   "property": "C08",
   "status": "partial",
   "theorems": [
    "Verif.Marr.c08_sum_all",
    "Verif.Marr.c08_sum_partial",
    "Verif.Marr.c08_sum_same_rank_partial",
    "Verif.Marr.c08_sum_violated"
   ],
   "note": "sum() proved outright; sum(dim) and sum_same_rank(dim) when the int product used by the index-list subscript is representable; violated beyond that."
  },
  {
   "property": "C09",
   "status": "proved",
   "theorems": [
    "Verif.Marr.c09_throws_iff",
    "Verif.Marr.c09_broadcast",
    "Verif.Marr.c09_fast_path"
   ],
   "note": "All ranks and shapes, both the equal-shape fast path and the odometer loop."
  },
  {
   "property": "C10",
   "status": "partial",
   "theorems": [
    "Verif.Marr.c10_scalar_partial",
    "Verif.Marr.c10_scalar_div_violated"
   ],
   "note": "All operations proved except scalar/array, where the code computes array/scalar (violation proved)."
  },
  {
   "property": "C11",
   "status": "partial",
   "theorems": [
    "Verif.Marr.c11_front_back_partial",
    "Verif.Marr.c11_const_back_violated"
   ],
   "note": "front() and non-const back() proved; the const back() returns size()-1 (violation proved)."
  },
  {
   "property": "C12",
   "status": "proved",
   "theorems": [
    "Verif.Marr.c12_nested",
    "Verif.Marr.c12_nested_defined",
    "Verif.Marr.c12_assign",
    "Verif.Marr.c12_range"
   ],
   "note": "Nested lists of every rank and depth, by construction and by assignment, iterator ranges of every length."
  },
  {
   "property": "C13",
   "status": "proved",
   "theorems": [
    "Verif.Pool.c13_exactly_once",
    "Verif.Pool.c13_no_duplicates"
   ],
   "note": "All interleavings of any number of workers, callers and the destructor, spurious wake-ups included; 0 workers excluded as in the claim."
  },
  {
   "property": "C14",
   "status": "proved",
   "theorems": [
    "Verif.Pool.c14_fifo",
    "Verif.Pool.c14_takes_oldest",
    "Verif.Pool.c14_accepted_at_push"
   ],
   "note": "Invariant over all reachable states; the accepted record is shown to grow exactly at the push."
  },
  {
   "property": "C15",
   "status": "proved",
   "theorems": [
    "Verif.Pool.c15_progress",
    "Verif.Pool.c15_terminates",
    "Verif.Pool.c15_clean_end",
    "Verif.Pool.c15_no_lost_wakeup",
    "Verif.Pool.c15_comes_to_rest"
   ],
   "note": "Progress, a bound on the remaining steps, clean end; additionally no lost wake-up and coming to rest before the stop."
  },
  {
   "property": "C16",
   "status": "partial",
   "theorems": [
    "Verif.Alloc.c16_aligned",
    "Verif.Alloc.c16_release_partial",
    "Verif.Alloc.c16_round_trip_partial",
    "Verif.Alloc.c16_violated"
   ],
   "note": "Alignment proved for all exponents below 32; the address is recovered exactly if the offset fits one byte, always so for exponents 0..7; violated for 8."
  },
  {
   "property": "C17",
   "status": "proved",
   "theorems": [
    "Verif.Alloc.c17_no_overflow",
    "Verif.Alloc.c17_max_size_is_threshold"
   ],
   "note": "Outright, for every exponent the constructor accepts and every object size."
  },
  {
   "property": "C18",
   "status": "proved",
   "theorems": [
    "Verif.Quad.c18_partition",
    "Verif.Quad.c18_inside_only",
    "Verif.Quad.c18_value_of_partition"
   ],
   "note": "For every integrand, tolerance, range, refinement history: committed intervals tile [a,b], the returned value is the sum of their contributions, and every call point lies in [a,b]. Fuelled loop: statements are about runs that end within the fuel, for every fuel. Node positions enter only through 0<x1<x2<x3<alpha... (Nodes.Valid), proved for the real nodes."
  },
  {
   "property": "C19",
   "status": "partial",
   "theorems": [
    "Verif.Quad.c19_kronrod7_exact",
    "Verif.Quad.c19_lobatto4_exact",
    "Verif.Quad.c19_integrate_partial",
    "Verif.Quad.c19_thirteen_point_violated",
    "Verif.Quad.c19_fastInt_linear",
    "Verif.Quad.c19_fastInt_cubic_partial",
    "Verif.Quad.c19_fastInt_violated",
    "Verif.Quad.c19_average_constant_partial",
    "Verif.Quad.c19_average_tables_constant",
    "Verif.Quad.c19_average_violated"
   ],
   "note": "Rules proved exact for all coefficients/intervals up to degree 5 (Lobatto) and 9 (Kronrod). integrate itself is exact only when a Kronrod value is returned; the 13-point start value carries 4e-16 from its decimal weights (violated witness). fastInt is proved exact on linear integrands, takes x^2 on [-1,1] as constant (violated witness). Average of a constant is that constant unless EMin=EMax, where the base class divides 0 by 0 (violated witness)."
  },
  {
   "property": "C20",
   "status": "partial",
   "theorems": [
    "Verif.Quad.c20_reverse_partial",
    "Verif.Quad.c20_supplied_violated",
    "Verif.Quad.c20_handed_back_violated"
   ],
   "note": "Limit reversal negates value and keeps flag, uncertainty and sub-intervals when no endpoint values are supplied, for all integrands. With supplied endpoint values the code attaches them to the other limit and hands them back swapped: both proved as violations."
  },
  {
   "property": "C21",
   "status": "proved",
   "theorems": [
    "Verif.Interp.c21_passes_through_nodes",
    "Verif.Interp.c21_segment_selection",
    "Verif.Interp.c21_pieces_agree",
    "Verif.Interp.c21_accessors",
    "Verif.Interp.c21_continuous"
   ],
   "note": "Over any ordered field; continuity over the reals."
  },
  {
   "property": "C22",
   "status": "partial",
   "theorems": [
    "Verif.Interp.c22_smooth_iff_no_corner_partial",
    "Verif.Interp.c22_smooth_violated",
    "Verif.Interp.c22_derivative_table_partial"
   ],
   "note": "The spline is C1 exactly when no carried slope is a corner; a corner (equal slopes on each side, different between) breaks C1, witnessed. The stored derivative table is the derivative where the spline is smooth."
  },
  {
   "property": "C23",
   "status": "proved",
   "theorems": [
    "Verif.Interp.c23_lines_exact"
   ],
   "note": "Over any ordered field."
  },
  {
   "property": "C24",
   "status": "proved",
   "theorems": [
    "Verif.Interp.c24_rejects_exactly",
    "Verif.Interp.c24_reads_in_range"
   ],
   "note": "NaN abscissas are outside the model (ordered field)."
  },
  {
   "property": "C25",
   "status": "proved",
   "theorems": [
    "Verif.Interp.c25_constructor_throws_iff",
    "Verif.Interp.c25_reproduces_nodes",
    "Verif.Interp.c25_cells_agree_x",
    "Verif.Interp.c25_cells_agree_y",
    "Verif.Interp.c25_query_in_range",
    "Verif.Interp.c25_empty",
    "Verif.Interp.c25_bilinear_exact",
    "Verif.Interp.c25_continuous"
   ],
   "note": "Continuity over the reals; the rest over any ordered field."
  },
  {
   "property": "C26",
   "status": "partial",
   "theorems": [
    "Verif.Interp.c26_cell_interpolates",
    "Verif.Interp.c26_constructor_partial",
    "Verif.Interp.c26_constructor_violated",
    "Verif.Interp.c26_constructor_refuses",
    "Verif.Interp.c26_query_in_range",
    "Verif.Interp.c26_reproduces_nodes",
    "Verif.Interp.c26_cells_agree",
    "Verif.Interp.c26_continuous",
    "Verif.Interp.c26_tables_partial",
    "Verif.Interp.c26_mixed_table_violated",
    "Verif.Interp.c26_yz_violated",
    "Verif.Interp.c26_xz_violated",
    "Verif.Interp.c26_exact_partial"
   ],
   "note": "tools.cpp reads the x slice where the y slice is meant when it fills d2fdydz: the f_yz table is wrong, y*z is not reproduced, and a grid with more y than x coordinates is read out of bounds. Proved outright: the 64 corner conditions, nodes, face agreement, continuity, and which grids the constructor refuses."
  },
  {
   "property": "C27",
   "status": "proved",
   "theorems": [
    "Verif.Tools.c27_zero_points",
    "Verif.Tools.c27_one_point",
    "Verif.Tools.c27_linspace",
    "Verif.Tools.c27_linspace_increasing",
    "Verif.Tools.c27_logspace",
    "Verif.Tools.c27_logspace_increasing"
   ],
   "note": "linspace over any field, logspace over the reals with positive bounds; accumulated rounding is not modelled."
  },
  {
   "property": "C28",
   "status": "partial",
   "theorems": [
    "Verif.Tools.c28_roundtrip_partial",
    "Verif.Tools.c28_digits_partial",
    "Verif.Tools.c28_same_table_partial",
    "Verif.Tools.c28_entries_violated",
    "Verif.Tools.c28_empty_violated",
    "Verif.Tools.c28_leading_blank_partial",
    "Verif.Tools.c28_blank_between_violated",
    "Verif.Tools.c28_blank_after_violated",
    "Verif.Tools.c28_rejects_ragged"
   ],
   "note": "Violations proved: 15 printed digits do not identify a double; a blank or comment line between data rows makes the file be rejected; one after the data makes the result have no columns; empty tables lose their shape. Ragged files are always rejected."
  },
  {
   "property": "C29",
   "status": "partial",
   "theorems": [
    "Verif.Tools.c29_handle_history",
    "Verif.Tools.c29_all_released",
    "Verif.Tools.c29_invalid_throws",
    "Verif.Tools.c29_destructor_defined",
    "Verif.Tools.c29_swap",
    "Verif.Tools.c29_file_partial",
    "Verif.Tools.c29_file_invalid_violated",
    "Verif.Tools.c29_file_moved_violated"
   ],
   "note": "H5Handle: full. H5File: does not check validity, and a moved-from object closes identifier 0."
  },
  {
   "property": "C30",
   "status": "partial",
   "theorems": [
    "Verif.Tools.c30_chunks_partial",
    "Verif.Tools.c30_empty_violated"
   ],
   "note": "Arrays with an empty dimension: division by zero, or a zero chunk entry."
  },
  {
   "property": "C31",
   "status": "proved",
   "theorems": [
    "Verif.Tools.c31_formula",
    "Verif.Tools.c31_inverse",
    "Verif.Tools.c31_trace",
    "Verif.Tools.c31_hermitian"
   ],
   "note": "Over any commutative ring with conjugation, matrices of any dimension."
  },
  {
   "property": "C32",
   "status": "partial",
   "theorems": [
    "Verif.Bodies.c32_roundtrip_partial",
    "Verif.Bodies.c32_sunasnu_violated",
    "Verif.Bodies.c32_constant_flag_violated"
   ],
   "note": "Proved for every body made by a constructor and changed by the setters, with all tracks, except SunASnu bodies read from a file, which come back with radius 695980 km instead of 694439 km (c32_sunasnu_violated). The constant-density flag is not saved either (c32_constant_flag_violated). HDF5 is modelled as a group of named attributes and datasets."
  },
  {
   "property": "C33",
   "status": "partial",
   "theorems": [
    "Verif.Bodies.c33_plain_partial",
    "Verif.Bodies.c33_earthatm_partial",
    "Verif.Bodies.c33_reversed_violated",
    "Verif.Bodies.c33_height_violated",
    "Verif.Bodies.c33_cosine_violated",
    "Verif.Bodies.c33_sunasnu_violated"
   ],
   "note": "Plain and Earth tracks round trip exactly, in any state. EarthAtm tracks: unreversed tracks with the default radius and height are identical, tracks from an angle keep position, ends and baseline. Violations: reversed EarthAtm tracks come back unreversed; non-default radius/height are lost in the parameters; tracks made from a cosine with non-default height change length; SunASnu tracks come back with xend as impact parameter."
  },
  {
   "property": "C34",
   "status": "proved",
   "theorems": [
    "Verif.Bodies.c34_straight_line",
    "Verif.Bodies.c34_ends",
    "Verif.Bodies.c34_bounds",
    "Verif.Bodies.c34_vertical",
    "Verif.Bodies.c34_made",
    "Verif.Bodies.c34_earth",
    "Verif.Bodies.c34_earth_symmetric",
    "Verif.Bodies.c34_earth_no_throw"
   ],
   "note": "Radius along the track equals the Euclidean distance of the point on the straight line to the detector, for all angles, radii, heights; the length lies between its values at the vertical directions. Real arithmetic."
  },
  {
   "property": "C35",
   "status": "partial",
   "theorems": [
    "Verif.Bodies.c35_table_partial",
    "Verif.Bodies.c35_fraction_violated"
   ],
   "note": "Partial: inside the Earth the table is entered at r/(R+h), so the claim holds only without atmosphere; c35_fraction_violated gives a witness with the default body."
  },
  {
   "property": "C36",
   "status": "proved",
   "theorems": [
    "Verif.Bodies.c36_lookup",
    "Verif.Bodies.c36_others",
    "Verif.Bodies.c36_null"
   ],
   "note": "All registration sequences. The null registry (no registration at all) is undefined behaviour, unreachable because the defaults register before main."
  },
  {
   "property": "C37",
   "status": "partial",
   "theorems": [
    "Verif.Life.c37_evolve_needs_setup",
    "Verif.Life.c37_evaluation_partial",
    "Verif.Life.c37_evaluation_returns",
    "Verif.Life.c37_initial_needs_setup",
    "Verif.Life.c37_mass_range_violated",
    "Verif.Life.c37_index_violated"
   ],
   "note": "Partial: guards of EvolveState proved exact (throws iff body, track, energies or state missing); evaluation guarded for energies; missing: mass-basis evaluation range (c37_mass_range_violated) and flavour/rho indices (c37_index_violated) are not checked."
  },
  {
   "property": "C38",
   "status": "partial",
   "theorems": [
    "Verif.Life.c38_current_parameters_partial",
    "Verif.Life.c38_switch_violated"
   ],
   "note": "Partial: over all call histories, projectors and vacuum Hamiltonian at an accepted evolution come from the parameters the getters report; the oscillation switch only if untouched since the state was set (c38_switch_violated)."
  },
  {
   "property": "C39",
   "status": "proved",
   "theorems": [
    "Verif.Life.c39_phase_is_last_set"
   ],
   "note": "Proved over all call histories: the CP phase the getter shows and the Hamiltonian uses is the last one set."
  },
  {
   "property": "C40",
   "status": "partial",
   "theorems": [
    "Verif.Life.c40_advances_by_track_length_partial",
    "Verif.Life.c40_positivised_violated",
    "Verif.Life.c40_offset_start_violated",
    "Verif.Life.c40_backwards_violated",
    "Verif.Life.c40_no_step_violated"
   ],
   "note": "Partial: proved without positivisation, with the shortcut, and with positivisation for tracks starting at zero in the direction of the step. Violations: positivised tracks that start elsewhere advance by FinalX (in general), tracks that run backwards, and objects without a step set."
  },
  {
   "property": "C41",
   "status": "proved",
   "theorems": [
    "Verif.Life.c41_position_follows_track"
   ],
   "note": "Proved over all histories in which the track or state was set after the last evolution: the position along the track is its start plus elapsed clock time."
  },
  {
   "property": "C42",
   "status": "partial",
   "theorems": [
    "Verif.Life.c42_no_shortcut_no_effect_partial",
    "Verif.Life.c42_shortcut_sticks_violated"
   ],
   "note": "Partial: as long as no evolution took the shortcut, later ones integrate numerically in the chosen basis; c42_shortcut_sticks_violated: after one shortcut later evolutions skip the numerics."
  },
  {
   "property": "C43",
   "status": "partial",
   "theorems": [
    "Verif.Life.c43_tables_follow_settings_partial",
    "Verif.Life.c43_late_cross_sections_violated",
    "Verif.Life.c43_late_process_violated",
    "Verif.Life.c43_failed_initialisation_violated"
   ],
   "note": "Partial: tables follow settings made before initialisation; settings changed after, or after a failed initialisation, keep stale tables (three violations)."
  },
  {
   "property": "C44",
   "status": "partial",
   "theorems": [
    "Verif.Life.c44_copies_partial",
    "Verif.Life.c44_targets_violated",
    "Verif.Life.c44_equality_violated"
   ],
   "note": "Partial: tables copied and compared by contents; targets are never copied and == ignores targets and shapes (violations)."
  },
  {
   "property": "C45",
   "status": "partial",
   "theorems": [
    "Verif.Life.c45_moved_partial",
    "Verif.Life.c45_time_offset_violated",
    "Verif.Life.c45_settings_violated",
    "Verif.Life.c45_tables_violated"
   ],
   "note": "Partial: all members in the lists are moved and a moved object whose track or state is set again evolves like the source; clock offset and six settings are not moved (violations). Move assignment takes the tables of the source and keeps the destination's mark that they are filled (c45_tables_violated)."
  },
  {
   "property": "C46",
   "status": "partial",
   "theorems": [
    "Verif.Life.c46_indices_partial",
    "Verif.Life.c46_off_by_one_violated"
   ],
   "note": "Partial: sensible indices accepted, larger or misordered ones refused without change, get after set; the index equal to the number of flavours is accepted (c46_off_by_one_violated)."
  },
  {
   "property": "C47",
   "status": "partial",
   "theorems": [
    "Verif.Cache.c47_layout_sound",
    "Verif.Cache.c47_no_wrap",
    "Verif.Cache.c47_set_up_again_partial",
    "Verif.Cache.c47_stale_cache_violated",
    "Verif.Cache.c47_round_up"
   ],
   "note": "Proved for every numneu >= 2, nrhos, ne and 8-byte aligned address, including that no subtraction wraps; reuse of an existing cache proved for an unchanged number of flavours, violated if that changes (early return does not compare it)."
  },
  {
   "property": "C48",
   "status": "proved",
   "theorems": [
    "Verif.Update.c48_only_from_above",
    "Verif.Update.c48_nonnegative",
    "Verif.Update.c48_top_node"
   ],
   "note": "Proved for both code paths, any number of nodes, one or two targets, with tau regeneration, Glashow and sources. The highest node receives nothing but external sources."
  },
  {
   "property": "C49",
   "status": "partial",
   "theorems": [
    "Verif.Update.c49_same_term_partial",
    "Verif.Update.c49_sources_violated"
   ],
   "note": "Proved with sources off or one particle type, violated with sources and both types: the no-oscillation path adds the external flux once per type."
  },
  {
   "property": "C50",
   "status": "partial",
   "theorems": [
    "Verif.Update.c50_own_rate_partial",
    "Verif.Update.c50_mixed_rates_violated"
   ],
   "note": "Proved for isoscalar media and for equal cross sections of the targets, in both code paths; violated otherwise: the code multiplies the summed rate by the abundance of each target."
  },
  {
   "property": "C51",
   "status": "proved",
   "theorems": [
    "Verif.Matter.c51_composition"
   ],
   "note": "Proved for every electron fraction in [0,1]."
  },
  {
   "property": "C52",
   "status": "partial",
   "theorems": [
    "Verif.Matter.c52_potential_partial",
    "Verif.Matter.c52_neutron_matter_violated"
   ],
   "note": "Proved for ye >= 1e-10; violated below (wrong sign and double size in neutron matter)."
  },
  {
   "property": "C53",
   "status": "partial",
   "theorems": [
    "Verif.Matter.c53_hamiltonian_partial",
    "Verif.Matter.c53_mass_basis_violated",
    "Verif.Matter.c53_unready_violated"
   ],
   "note": "Proved outside the mass basis for a configured object; violated in the mass basis (vacuum term counted twice) and for an object without body, track or tables (null dereference)."
  },
  {
   "property": "C54",
   "status": "proved",
   "theorems": [
    "Verif.Density.c54_read_back",
    "Verif.Density.c54_read_back_single",
    "Verif.Density.c54_accepted"
   ],
   "note": "Density matrices are complex n x n matrices instead of SU_vector component lists. Holds for every unitary mixing, any number of flavours, nodes and types, both bases, and for the single-energy overload."
  },
  {
   "property": "C55",
   "status": "proved",
   "theorems": [
    "Verif.Density.c55_integrated",
    "Verif.Density.c55_hermitian",
    "Verif.Density.c55_shortcut"
   ],
   "note": "Integrated evolution (any solution of d rho/dt = -i[H(t),rho] with Hermitian H(t)) and the constant-density shortcut both keep the sum of flavour contents and keep each content between 0 and the total when the state is positive semidefinite; positivity itself is kept. The numerical integrator's error is not modelled."
  },
  {
   "property": "C56",
   "status": "partial",
   "theorems": [
    "Verif.Density.c56_positivize_partial",
    "Verif.Density.c56_matched",
    "Verif.Density.c56_filtered_violated",
    "Verif.Density.c56_switched_off_violated"
   ],
   "note": "Partial: proved when the stored rotated projectors are those used for reading. Violated with a low-pass or oscillation filter on the stored projectors (c56_filtered_violated) and when oscillations are switched off after an interaction-basis evolution (c56_switched_off_violated): negative contents stay and other flavours change."
  },
  {
   "property": "C57",
   "status": "partial",
   "theorems": [
    "Verif.StateIO.c57_read_back_partial",
    "Verif.StateIO.c57_written",
    "Verif.StateIO.c57_mass_basis_violated",
    "Verif.StateIO.c57_settings_violated",
    "Verif.StateIO.c57_one_energy_both_violated",
    "Verif.StateIO.c57_without_tables_violated",
    "Verif.StateIO.c57_padding_test_violated",
    "Verif.StateIO.c57_object_in_use_violated"
   ],
   "note": "Proved for every reachable object in the interaction picture (several energies, or one energy with one type), written with its tables if it has interactions, and read into a new object. Violated, with witnesses, for the mass basis (not saved), one energy with both types (written but refused on reading), interactions without saved tables, the test for padding that reads a missing extent, settings that are not saved, and reading into a single-energy object in use. HDF5 itself and the text form of bodies and tracks (C33-C36) are taken as faithful stores."
  },
  {
   "property": "C58",
   "status": "proved",
   "theorems": [
    "Verif.StateIO.c58_names_distinct",
    "Verif.StateIO.c58_bound_needed"
   ],
   "note": "The names are distinct for every number of flavours up to 99; the code admits at most 6. A collision for 213 flavours shows that a bound is needed."
  },
  {
   "property": "C59",
   "status": "partial",
   "theorems": [
    "Verif.Atm.c59_in_range_partial",
    "Verif.Atm.c59_outside_throws",
    "Verif.Atm.c59_node_value_partial",
    "Verif.Atm.c59_between_partial",
    "Verif.Atm.c59_between_without_oscillations_partial",
    "Verif.Atm.c59_between_violated",
    "Verif.Atm.c59_node_value_violated",
    "Verif.Atm.c59_earth_replaced_violated",
    "Verif.Atm.c59_mass_basis_violated",
    "Verif.Atm.c59_single_node_violated",
    "Verif.Atm.c59_missing_rho_violated",
    "Verif.Atm.c59_log_energy_violated",
    "Verif.Atm.c59_value_partial"
   ],
   "note": "Proved over real numbers and matrices, for both overloads: inside the grid nothing outside the arrays is read, outside it the call throws, at a node the result is the node's value when all nodes are the same part of their way, and the result lies between the expectation values of one evolved projector in the four surrounding states (between the node values without oscillations). Violated, with witnesses: with oscillations the result leaves the range of the four values (phases are interpolated); at a node when nodes were moved separately, after the Earth was replaced, in the mass basis; one-node grids and a missing density matrix read outside the arrays; the documented interpolation in log energy is linear in energy."
  },
  {
   "property": "C60",
   "status": "partial",
   "theorems": [
    "Verif.Atm.c60_threads_do_not_matter_partial",
    "Verif.Atm.c60_failing_nodes_partial",
    "Verif.Atm.c60_error_violated"
   ],
   "note": "If serial evolution succeeds, every thread count and every interleaving leave the same object. Violated for errors: with several threads a failing node's exception is lost and the remaining nodes go on. The interleavings come from the thread pool model of C14-C18."
  },
  {
   "property": "C61",
   "status": "partial",
   "theorems": [
    "Verif.Atm.c61_cross_section_getter",
    "Verif.Atm.c61_nodes_hold_last_values",
    "Verif.Atm.c61_getters",
    "Verif.Atm.c61_threads_partial",
    "Verif.Atm.c61_threads_violated",
    "Verif.Atm.c61_cross_sections_violated"
   ],
   "note": "By induction over histories of all modelled calls. Violated: the number of threads has no value in an object read from a file; the default cross-section library reaches one node only."
  },
  {
   "property": "C62",
   "status": "partial",
   "theorems": [
    "Verif.Atm.c62_names_differ_partial",
    "Verif.Atm.c62_round_trip_partial",
    "Verif.Atm.c62_reads_all",
    "Verif.Atm.c62_other_entries",
    "Verif.Atm.c62_close_nodes_violated"
   ],
   "note": "std::to_string is modelled as six decimals of any rounding to within half a millionth. Violated for nodes closer than a millionth: the names collide and writing throws. Reading a file without one of the nodes throws."
  },
  {
   "property": "C63",
   "status": "partial",
   "theorems": [
    "Verif.Atm.c63_evaluation_partial",
    "Verif.Atm.c63_evaluates_violated",
    "Verif.Atm.c63_refuses_partial",
    "Verif.Atm.c63_nodes_refuse_partial",
    "Verif.Atm.c63_reads_uninitialised_violated",
    "Verif.Atm.c63_threads_violated"
   ],
   "note": "The members of nuSQUIDSAtm that no constructor sets are a distinct uninitialised value. Violated: the guards read one of them. Partial: what happens for either value it may hold."
  },
  {
   "property": "C64",
   "status": "proved",
   "theorems": [
    "Verif.XS.c64_first_wins",
    "Verif.XS.c64_absent",
    "Verif.XS.c64_repeat_throws",
    "Verif.XS.c64_default_library"
   ],
   "note": "All sequences of additions; the library is the map keyed by target code, first entry stays, a repeated addTarget throws, the default library holds exactly the listed targets."
  },
  {
   "property": "C65",
   "status": "proved",
   "theorems": [
    "Verif.XS.c65_total_tabulated",
    "Verif.XS.c65_single_tabulated",
    "Verif.XS.c65_single_below",
    "Verif.XS.c65_recursion",
    "Verif.XS.c65_sterile_zero",
    "Verif.XS.c65_throws_above",
    "Verif.XS.c65_scales_below",
    "Verif.XS.c65_total_positive",
    "Verif.XS.c65_continuous",
    "Verif.XS.c65_single_positive",
    "Verif.XS.c65_missing_flavour"
   ],
   "note": "All usable tables, energies, flavours, types and currents. Logarithm of a non-positive energy is an undefined outcome in the model. Continuity is stated for the total cross section on (0, Emax]. At tabulated energies (and z) the values are those of the table of the type and current asked for."
  },
  {
   "property": "C66",
   "status": "partial",
   "theorems": [
    "Verif.XS.c66_total_partial",
    "Verif.XS.c66_total_top_violated",
    "Verif.XS.c66_differential_partial",
    "Verif.XS.c66_differential_low_violated",
    "Verif.XS.c66_hdf_uniform",
    "Verif.XS.c66_text_violated",
    "Verif.XS.c66_total_value_partial",
    "Verif.XS.c66_differential_value_partial"
   ],
   "note": "Totals: every access in range and the value linear in log E between the nodes for all energies strictly below Emax; at Emax itself every uniform table reads one past its end (violated, witness for every table). Differentials: in range for both energies inside the table, with the exact interpolation formula for outgoing energies below incoming ones; an outgoing energy a step below Emin converts a negative double to size_t (violated). The text reader assumes log-uniform nodes without checking (violated witness). Logs are real logarithms."
  },
  {
   "property": "C67",
   "status": "partial",
   "theorems": [
    "Verif.XS.c67_text_violated",
    "Verif.XS.c67_text_z_violated",
    "Verif.XS.c67_text_not_square_violated",
    "Verif.XS.c67_text_precision_violated",
    "Verif.XS.c67_hdf_flavours_violated",
    "Verif.XS.c67_hdf_not_square_violated",
    "Verif.XS.c67_hdf_energies_violated",
    "Verif.XS.c67_text_turns",
    "Verif.XS.c67_text_partial",
    "Verif.XS.c67_hdf_partial",
    "Verif.XS.c67_legacy_text",
    "Verif.XS.c67_legacy_hdf_partial",
    "Verif.XS.c67_legacy_hdf_violated"
   ],
   "note": "Proved: what a text round trip returns in general (tables transposed over evenly spaced z), exact round trip for square symmetric evenly spaced tables, and exact HDF5 round trip when electron and muon agree and all tables share one square grid. Violated (witnesses proved): text transposes differentials, drops the z values, reads out of bounds for non-square tables, refuses nodes that print alike; HDF5 returns electron tables for the muon (and a tau that shares them), refuses non-square tables, moves totals to the energies of the differentials. Legacy class: text round trip exact for all whole tables; HDF5 exact for uniform nodes, non-uniform nodes are moved (violated)."
  },
  {
   "property": "C68",
   "status": "proved",
   "theorems": [
    "Verif.XS.c68_normalised",
    "Verif.XS.c68_zero_above",
    "Verif.XS.c68_zero_other",
    "Verif.XS.c68_branching"
   ],
   "note": "Real analysis with the formulas of the code; the branching fraction in the code is that of the muon channel. The four branching fractions of the source (electron, muon, tau, hadronic) sum to 1.0013, recorded as c68_branching."
  },
  {
   "property": "C69",
   "status": "partial",
   "theorems": [
    "Verif.Tau.c69_lepton",
    "Verif.Tau.c69_pion",
    "Verif.Tau.c69_rho",
    "Verif.Tau.c69_a1",
    "Verif.Tau.c69_hadron",
    "Verif.Tau.c69_branching",
    "Verif.Tau.c69_all",
    "Verif.Tau.c69_above_partial",
    "Verif.Tau.c69_above_violated",
    "Verif.Tau.c69_tables",
    "Verif.Tau.c69_type_unchecked"
   ],
   "note": "Every channel and the total spectrum: normalised on [0,1] in z and, at fixed tau energy, over [0,Et]; non-negative there. Above the tau energy the hadronic channels vanish but the lepton channel and the total turn negative (violated witness); the tables only use outgoing energies below."
  },
  {
   "property": "C70",
   "status": "partial",
   "theorems": [
    "Verif.XS.c70_valid",
    "Verif.XS.c70_throws",
    "Verif.XS.c70_accepts",
    "Verif.XS.c70_glashow_violated",
    "Verif.XS.c70_glashow_negative_violated"
   ],
   "note": "Proved for every provider, including nan and infinities: what is stored, that every bad active value makes it throw, and that it throws for nothing else. Doubles are rationals plus nan and infinities (no rounding or overflow). The Glashow tables are not validated: 0/0 is stored (violated), as is a negative total (violated). Using tables left by a construction that threw is covered by C43."
  },
  {
   "property": "C71",
   "status": "partial",
   "theorems": [
    "Verif.Life.c71_step_direction_partial",
    "Verif.Life.c71_second_backwards_violated"
   ],
   "note": "Partial: holds as long as no earlier evolution ran backwards; afterwards the sign is wrong (c71_second_backwards_violated)."
  },
  {
   "property": "C72",
   "status": "partial",
   "theorems": [
    "Verif.Matter.c72_isoscalar_partial",
    "Verif.Matter.c72_vacuum_violated"
   ],
   "note": "Proved above the 1e-10 threshold; violated below it: vacuum has a positive target density."
  },
  {
   "property": "C73",
   "status": "partial",
   "theorems": [
    "Verif.Density.c73_shortcut_exact_partial",
    "Verif.Density.c73_interaction_picture_violated"
   ],
   "note": "Partial: exact for states in the Schroedinger picture with electron fraction at least 1e-10. After an interaction-basis evolution the shortcut misreads the state: a zero-length track changes the flavour content from (0,1) to (1,0)."
  },
  {
   "property": "C74",
   "status": "proved",
   "theorems": [
    "Verif.Update.c74_attenuation",
    "Verif.Update.c74_tau_regeneration",
    "Verif.Update.c74_glashow",
    "Verif.Update.c74_sources"
   ],
   "note": "Sums stated on explicit rates, abundances and intervals of nodes; tau regeneration for tau-neutrino fluxes that are not negative (a node where both are zero or less is skipped by the code). Sources without oscillations and with interactions are C49 (counted once per particle type). Vector space and product abstract, K any linearly ordered field."
  },
  {
   "property": "C75",
   "status": "partial",
   "theorems": [
    "Verif.Promise.c75_in_bounds_partial",
    "Verif.Promise.c75_promises_kept_partial",
    "Verif.Promise.c75_nc_factors_violated",
    "Verif.Promise.c75_nc_factors_read_violated",
    "Verif.Promise.c75_switched_on_later_violated"
   ],
   "note": "Partial: bounds proved for members sized under the current options, alignment proved for all arrays using aligned_allocator at any system address (through C16). Violated: nc_factors uses the default allocator yet is promised 32-byte aligned; after reading a state with tables its rows are not padded, so some row is misaligned at every address; switching tau regeneration or Glashow on after initialisation leaves the factor arrays empty and the next evaluation writes outside them."
  },
  {
   "property": "C76",
   "status": "proved",
   "theorems": [
    "Verif.Density.c76_projectors",
    "Verif.Density.c76_initial_projectors",
    "Verif.Density.c76_refines",
    "Verif.Density.c76_cpt",
    "Verif.Density.c76_no_phases"
   ],
   "note": "Proved for the loops as written. The order and form of the rotations in RotateToB1 belong to SQuIDS: any product of rotations about pairs i<j. CPT is stated on the readers of C54 in a working basis other than the mass basis."
  },
  {
   "property": "C77",
   "status": "proved",
   "theorems": [
    "Verif.Interp.c77_parabolas_exact",
    "Verif.Interp.c77_slopes_between",
    "Verif.Interp.c77_increasing_data",
    "Verif.Interp.c77_local"
   ],
   "note": "All four parts proved over every linearly ordered field. End slopes, weights and the fall-back for equal slopes are pinned by the parabola theorem."
  },
  {
   "property": "C78",
   "status": "proved",
   "theorems": [
    "Verif.Quad.c78_average_between",
    "Verif.Quad.c78_tables_between",
    "Verif.Quad.c78_average_positive"
   ],
   "note": "All orderings of the bin edges. The abscissas enter only through their order (Nodes.Valid) and |1/sqrt 3| <= 1. Runs that have not finished within the given number of refinements are not covered (the theorem is about returned values)."
  },
  {
   "property": "C79",
   "status": "proved",
   "theorems": [
    "Verif.Quad.c79_energy_units",
    "Verif.Quad.c79_cross_section_units"
   ],
   "note": "Equality of complete outcomes (value, exception, not yet finished) for the two unit systems."
  },
  {
   "property": "C80",
   "status": "partial",
   "theorems": [
    "Verif.XS.c80_breit_wigner_partial",
    "Verif.XS.c80_spectrum",
    "Verif.XS.c80_zero_iff",
    "Verif.XS.c80_below_threshold_violated"
   ],
   "note": "The code does not cut the cross section below the muon threshold: there it is positive and grows without bound towards zero energy (violated). The Breit-Wigner form and the zero exactly at the threshold hold at all positive energies."
  },
  {
   "property": "C81",
   "status": "partial",
   "theorems": [
    "Verif.Marr.Own.c81_owned_partial",
    "Verif.Marr.Own.c81_no_misuse_partial",
    "Verif.Marr.Own.c81_nothing_left_partial",
    "Verif.Marr.Own.c81_shape_leak_violated",
    "Verif.Marr.Own.c81_range_leak_violated",
    "Verif.Marr.Own.c81_range_assigns_violated",
    "Verif.Marr.Own.c81_initializer_throws_violated",
    "Verif.Marr.Own.c81_assignment_throws_violated",
    "Verif.Marr.Own.c81_assignment_allocator_violated",
    "Verif.Marr.Own.c81_move_assignment_violated",
    "Verif.Marr.Own.c81_swap_violated"
   ],
   "note": "Invariant over all histories with faults, for every setting of traits. Missing, and violated with witnesses: initialisers of wrong shape or size leak the block; ranges are assigned to elements that do not exist; a throwing nested initialiser destroys one element too many; a throwing assignment releases with the wrong size or allocator; move assignment and swap with unequal allocators release through the wrong one."
  },
  {
   "property": "C82",
   "status": "partial",
   "theorems": [
    "Verif.Marr.Iter.c82_forward",
    "Verif.Marr.Iter.c82_reverse_partial",
    "Verif.Marr.Iter.c82_rend_violated",
    "Verif.Marr.Iter.c82_laws",
    "Verif.Marr.Iter.c82_order"
   ],
   "note": "Laws and forward iteration proved outright; reverse iteration proved for machine pointers, rend() is outside what the standard allows (violated)."
  },
  {
   "property": "C83",
   "status": "partial",
   "theorems": [
    "Verif.Density.c83_total",
    "Verif.Density.c83_no_effect",
    "Verif.Density.c83_incoherent",
    "Verif.Density.c83_range_partial",
    "Verif.Density.c83_two_flavours",
    "Verif.Density.c83_mass",
    "Verif.Density.c83_refused",
    "Verif.Density.c83_single_energy",
    "Verif.Density.c83_negative_violated"
   ],
   "note": "Totals, limits, mass states, guards and single-energy overloads proved for all objects; ranges proved when no phase or all phases exceed the scale and always for two flavours. Violated in between: three flavours, one of three phases averaged, gives a negative content. The treatment of scale by SQuIDS is an assumption (DESIGN)."
  },
  {
   "property": "C84",
   "status": "proved",
   "theorems": [
    "Verif.Atm.c84_total",
    "Verif.Atm.c84_constant_total"
   ],
   "note": "Proved for both overloads and any additive evolution of projectors that keeps the identity; the plain and the averaged one are shown to be such."
  },
  {
   "property": "C85",
   "status": "partial",
   "theorems": [
    "Verif.XS.c85_text_usable",
    "Verif.XS.c85_text_covers_partial",
    "Verif.XS.c85_hdf_covers",
    "Verif.XS.c85_answers",
    "Verif.XS.c85_text_files",
    "Verif.XS.c85_text_first_file_violated",
    "Verif.XS.c85_text_groups_violated"
   ],
   "note": "HDF5 files: proved outright. Text files: positive non-empty range, tables for all flavours and positive answers proved outright; that every table spans the range is proved if rows are grouped by energy and the first tables of muon and tau have the common range, neither of which the code checks (two witnesses)."
  },
  {
   "property": "C86",
   "status": "partial",
   "theorems": [
    "Verif.Py.c86_refuses",
    "Verif.Py.c86_elements_partial",
    "Verif.Py.c86_references",
    "Verif.Py.c86_to_numpy",
    "Verif.Py.c86_round_trip_partial",
    "Verif.Py.c86_byte_order_violated",
    "Verif.Py.c86_empty_violated",
    "Verif.Py.c86_alignment_violated"
   ],
   "note": "Proved: what is refused, that no reference is kept, the direction to Python for every array, and the direction from Python and the round trip for arrays with elements in the byte order of the machine and aligned. Violations: an array without elements makes the converter use a null iterator, the other byte order is ignored, misaligned elements are read through typed pointers."
  },
  {
   "property": "C87",
   "status": "partial",
   "theorems": [
    "Verif.Decoh.c87_history",
    "Verif.Decoh.c87_numbering_three",
    "Verif.Decoh.c87_numbering_two",
    "Verif.Decoh.c87_set_get",
    "Verif.Decoh.c87_set_get_gellMann",
    "Verif.Decoh.c87_refused",
    "Verif.Decoh.c87_diagonal",
    "Verif.Decoh.c87_operator",
    "Verif.Decoh.c87_scale",
    "Verif.Decoh.c87_trace",
    "Verif.Decoh.c87_gellMann_partial",
    "Verif.Decoh.c87_gellMann_violated",
    "Verif.Decoh.c87_loss",
    "Verif.Decoh.c87_state",
    "Verif.Decoh.c87_any_basis",
    "Verif.Decoh.c87_phase_partial",
    "Verif.Decoh.c87_phase_violated",
    "Verif.Decoh.c87_any_basis_violated",
    "Verif.Decoh.c87_phase_two_violated",
    "Verif.Decoh.c87_solver_partial",
    "Verif.Decoh.c87_solver_violated"
   ],
   "note": "Proved: numbering, storing, refusals, the operator, conservation of number, loss and randomised states, for every number of flavours. Partial: Gell-Mann numbering (entries between matrices of different sign act with the wrong sign), randomised phases (wrong entry zeroed, memory violation with two flavours) and the term in the solved equation (missing in objects without interactions or sources); witnesses are proved."
  },
  {
   "property": "C88",
   "status": "partial",
   "theorems": [
    "Verif.NewPhys.c88_nsi_current_partial",
    "Verif.NewPhys.c88_nsi_parameters",
    "Verif.NewPhys.c88_nsi_term",
    "Verif.NewPhys.c88_nsi_hermitian",
    "Verif.NewPhys.c88_nsi_mixing_violated",
    "Verif.NewPhys.c88_nsi_file_violated",
    "Verif.NewPhys.c88_lv_current",
    "Verif.NewPhys.c88_lv_term",
    "Verif.NewPhys.c88_lv_hermitian",
    "Verif.NewPhys.c88_lv_file_partial",
    "Verif.NewPhys.c88_lv_parameters",
    "Verif.NewPhys.c88_lv_matrix_partial",
    "Verif.NewPhys.c88_lv_file_violated",
    "Verif.NewPhys.c88_lv_operator_violated",
    "Verif.NewPhys.c88_lv_dump_violated"
   ],
   "note": "Proved for every history of calls: parameters, sign, power of the energy, hermiticity, and for Lorentz violation the operator used or the refusal. Partial: the operator for non-standard interactions is stale after the mixing is changed or a file is read, the Lorentz-violation parameters are not saved, and no probabilities are printed for antineutrinos; witnesses are proved."
  },
  {
   "property": "C89",
   "status": "proved",
   "theorems": [
    "Verif.Example.c89_total",
    "Verif.Example.c89_normalised"
   ],
   "note": "Total and differential cross sections for every energy and ratio, with the integral over the outgoing energy and its mean."
  },
  {
   "property": "C90",
   "status": "partial",
   "theorems": [
    "Verif.Example.c90_layers",
    "Verif.Example.c90_mod_partial",
    "Verif.Example.c90_mod_violated",
    "Verif.Example.c90_save_partial",
    "Verif.Example.c90_save_short_violated",
    "Verif.Example.c90_save_long_violated"
   ],
   "note": "Proved: columns of the table made. Partial: Mod only for the default table, saving only for tables as long as the default one; the other cases are proved to fail."
  },
  {
   "property": "C91",
   "status": "proved",
   "theorems": [
    "Verif.Quad.c91_bounded",
    "Verif.Quad.c91_away_from_zero",
    "Verif.Quad.c91_average"
   ],
   "note": "By induction: a sub-interval shrinks by a fixed factor per level, so it becomes too narrow to be split (away from zero) or its two estimates become smaller than the tolerance (bounded integrand). Exact arithmetic; an unbounded integrand on a range touching zero is excluded."
  },
  {
   "property": "C92",
   "status": "partial",
   "theorems": [
    "Verif.Quad.c92_in_tolerance",
    "Verif.Quad.c92_flag_partial",
    "Verif.Quad.c92_uncertainty",
    "Verif.Quad.c92_flag_violated"
   ],
   "note": "Flag, tolerance and uncertainty proved for all runs. Violated: the flag is also set when a contributing sub-interval that meets the tolerance is too narrow to be split again. The uncertainty is modelled by its square."
  },
  {
   "property": "C93",
   "status": "partial",
   "theorems": [
    "Verif.Atm.c93_own_tracks",
    "Verif.Atm.c93_initial_state",
    "Verif.Atm.c93_evolution_partial",
    "Verif.Atm.c93_positivised_violated"
   ],
   "note": "By induction over histories. The evolution clause uses C40: positivised evolution is covered for tracks that start at zero (as atmospheric tracks do) and violated otherwise. With several threads by C60."
  },
  {
   "property": "C94",
   "status": "partial",
   "theorems": [
    "Verif.TableIO.c94_stored_partial",
    "Verif.TableIO.c94_round_trip_partial",
    "Verif.TableIO.c94_padding_test_violated",
    "Verif.TableIO.c94_padding_lost_violated",
    "Verif.TableIO.c94_sizes_partial",
    "Verif.TableIO.c94_wrong_size_violated",
    "Verif.TableIO.c94_all_required",
    "Verif.TableIO.c94_old_files"
   ],
   "note": "Proved for every number of energies if the misplaced test for padding (1945) does not by accident find the number of energies; otherwise violated for every number of energies not a multiple of four. The refusal of other sizes holds where rows are padded and is violated where they are not. What HDF5 does with dataspaces is assumed (DESIGN.md)."
  },
  {
   "property": "C95",
   "status": "partial",
   "theorems": [
    "Verif.Atm.c95_read_back_partial",
    "Verif.Atm.c95_tables_partial",
    "Verif.Atm.c95_view",
    "Verif.Atm.c95_written_partial",
    "Verif.Atm.c95_constructor",
    "Verif.Atm.c95_threads_violated",
    "Verif.Atm.c95_settings_violated",
    "Verif.Atm.c95_no_overwrite_violated",
    "Verif.Atm.c95_close_nodes_violated",
    "Verif.Atm.c95_one_energy_both_violated",
    "Verif.Atm.c95_padding_test_violated"
   ],
   "note": "Proved for every history and every content of the nodes, also in the mass basis for the queries (EvalFlavor of the atmospheric object does not use the saved basis), read into a new object or one in use. Violated, with witnesses, for zeniths closer than a millionth (not saved), without permission to overwrite (never saved), one energy with both types (saved, not read), interactions when the padding test reads a missing extent, and for the settings that are not saved (positivity, cross-section library, number of threads: uninitialised after construction from a file). c95_view fixes what is stored per node. HDF5 and the text form of bodies and tracks are taken as faithful stores."
  },
  {
   "property": "C96",
   "status": "partial",
   "theorems": [
    "Verif.Bodies.c96_earth",
    "Verif.Bodies.c96_earth_continuous",
    "Verif.Bodies.c96_variable_partial",
    "Verif.Bodies.c96_sun_partial",
    "Verif.Bodies.c96_sunASnu_partial",
    "Verif.Bodies.c96_atmosphere_partial",
    "Verif.Bodies.c96_edge_violated",
    "Verif.Bodies.c96_sign_violated",
    "Verif.Bodies.c96_long_track_violated"
   ],
   "note": "Proved in full for the Earth: c96_earth, c96_earth_continuous (tracks up to the diameter). For VariableDensity, Sun and SunASnu the table is followed inside its range (c96_*_partial); beyond it they give 0, so the profile jumps (c96_edge_violated). For EarthAtm below the surface, entered at r/(R+h) as in C35. Values between rows may be negative although no row is (c96_sign_violated), and an Earth track longer than the diameter throws (c96_long_track_violated)."
  },
  {
   "property": "C97",
   "status": "partial",
   "theorems": [
    "Verif.Density.c97_reading",
    "Verif.Density.c97_initial",
    "Verif.Density.c97_motion_partial",
    "Verif.Density.c97_solution_partial",
    "Verif.Density.c97_basis_partial",
    "Verif.Density.c97_vacuum",
    "Verif.Density.c97_prepared",
    "Verif.Density.c97_select",
    "Verif.Density.c97_basis_change_violated",
    "Verif.Density.c97_neutrons_violated"
   ],
   "note": "The derivative handed to the integrator (commutator with HI after PreDerive) is as in the model of C52/C83; the integrator itself is outside, so 'evolution' means any continuous function that satisfies the equation except at finitely many times (layer boundaries). c97_select: the flavour basis is refused, the other two are accepted and prepare the object. Partial: electron fractions below 1e-10 with sterile flavours (c97_neutrons_violated); changing the basis after the initial state reinterprets it (c97_basis_change_violated). Attenuation and interactions off."
  },
  {
   "property": "C98",
   "status": "proved",
   "theorems": [
    "Verif.Density.c98_positive",
    "Verif.Density.c98_determined",
    "Verif.Density.c98_balance",
    "Verif.Density.c98_linear",
    "Verif.Density.c98_attenuation"
   ],
   "note": "c98_positive, c98_determined, c98_balance, c98_linear and c98_attenuation hold for every solution of the equation given to the integrator, where the derivative may be missing at finitely many times (layer boundaries); the solution itself (existence, numerical error of GSL) is outside the model. c98_balance takes as hypothesis that the weight is not increased by any reaction table; whether the shipped tables are normalised is not decided. A two-node cascade is the example."
  },
  {
   "property": "C99",
   "status": "partial",
   "theorems": [
    "Verif.Density.c99_shortcut_violated",
    "Verif.Density.c99_total",
    "Verif.Density.c99_flavour_partial",
    "Verif.Density.c99_adds",
    "Verif.Density.c99_balance_partial",
    "Verif.Density.c99_order",
    "Verif.Density.c99_current_partial",
    "Verif.Density.c99_bodies",
    "Verif.Density.c99_emitting_vacuum",
    "Verif.Density.c99_twice_violated",
    "Verif.Density.c99_stale_violated"
   ],
   "note": "Exact solutions of the equation of C98 with sources. Without interactions the total grows by exactly the emission (c99_total, either basis, with or without oscillations), the exponential source in closed form (c99_emitting_vacuum); emission only adds, with everything on (c99_adds); array history (c99_order, c99_current_partial, c99_bodies). Partial: with both types, interactions and no oscillations the emission is added twice (c99_twice_violated); a body that does not emit inherits the array of the body before it (c99_stale_violated); the constant-density shortcut, if allowed, leaves the emission out (c99_shortcut_violated)."
  },
  {
   "property": "C100",
   "status": "partial",
   "theorems": [
    "Verif.Density.c100_shortcut_violated",
    "Verif.Density.c100_same_way_partial",
    "Verif.Density.c100_leg_by_leg",
    "Verif.Density.c100_cut_partial",
    "Verif.Density.c100_repeat_partial",
    "Verif.Life.c100_positivised_violated"
   ],
   "note": "Exact solutions, leg by leg, with time_offset as Set_Track computes it. Same medium, same length: same clock, states and readings, however cut (c100_same_way_partial; c100_cut_partial for one track, c100_repeat_partial for a uniform medium); conversely a solution through the whole is followed leg by leg (c100_leg_by_leg). The hypothesis Sound says that no leg takes the constant-density shortcut, or that it is taken in the mass basis, without sources, and no leg is integrated after it. Partial: after a shortcut later legs are not integrated (c100_shortcut_violated); positivised evolution of tracks not starting at zero (c100_positivised_violated, in the lifecycle model)."
  },
  {
   "property": "C101",
   "status": "partial",
   "theorems": [
    "Verif.Density.c101_reverse_partial",
    "Verif.Density.c101_there_and_back_partial",
    "Verif.Life.c101_positivised_violated"
   ],
   "note": "Uniqueness of exact solutions from their end, with bounded losses. One track reversed in place (c101_reverse_partial) and any list of tracks there and back (c101_there_and_back_partial), integrated or by the shortcut in the mass basis. Partial: positivised evolution goes the wrong way on the way back (c101_positivised_violated). The sign of the integrator's step after a backward track is C71."
  },
  {
   "property": "C102",
   "status": "partial",
   "theorems": [
    "Verif.Density.c102_current",
    "Verif.Density.c102_read_partial",
    "Verif.Density.c102_place_partial",
    "Verif.Density.c102_goes_on_partial",
    "Verif.Density.c102_mass_basis_violated",
    "Verif.Density.c102_sources_violated"
   ],
   "note": "Proved for objects in the interaction basis without sources that take no constant-density shortcut: the object read from the file stands at the same time and track position with the same projectors, can go along every way the saved one can, and ends with the same clock, states and readings. Missing, with witnesses: the mass basis (not saved, c102_mass_basis_violated), sources (not saved, c102_sources_violated), shortcut and positivisation switches (c57_settings_violated). The file is one record here; that members are read from where they were written is C57. Positivisation and the error of the integrator are not in this model."
  },
  {
   "property": "C103",
   "status": "partial",
   "theorems": [
    "Verif.Density.c103_no_effect_partial",
    "Verif.Density.c103_offset_violated",
    "Verif.Density.c103_backwards_violated"
   ],
   "note": "Proved for tracks from zero to a non-negative position, any positive step whose count fits an int, no constant-density shortcut: the positivised evolution exists exactly if the plain one does and both read the same. Missing, with witnesses: tracks that start elsewhere (c103_offset_violated) and tracks run backwards (c103_backwards_violated). Exact solutions of the differential equation; the error of the integrator, which is what positivisation is for, is not modelled."
  },
  {
   "property": "C104",
   "status": "partial",
   "theorems": [
    "Verif.Bodies.c104_restored_partial",
    "Verif.Bodies.c104_sunasnu_violated",
    "Verif.Bodies.c104_tables_violated",
    "Verif.Bodies.c104_height_violated",
    "Verif.Bodies.c104_reversed_violated",
    "Verif.Bodies.c104_unknown_violated",
    "Verif.Bodies.c104_short_violated"
   ],
   "note": "Vacuum, constant and tabulated densities, the standard Earth, Sun and atmosphere come back with their tracks. Violated for SunASnu tracks (impact parameter), for own tables and heights, for reversed atmospheric tracks, for unknown identifiers (the process ends) and for missing parameters (read out of bounds). Nothing writes this format any more: the contents of a file are taken to be what the members still report."
  },
  {
   "property": "C105",
   "status": "proved",
   "theorems": [
    "Verif.Density.c105_forward",
    "Verif.Density.c105_either",
    "Verif.Density.c105_journey",
    "Verif.Density.c105_constant"
   ],
   "note": "Existence and uniqueness of the solution of the equation of motion the code gives the integrator (c105_forward, c105_either), and of the result of any admissible sequence of evolutions (c105_journey); constant media are covered (c105_constant). Media must be continuous within finitely many layers. With tau regeneration only forwards and from states without negative contents, as the English statement says: the code drops tau fluxes that are not positive, which makes the right-hand side jump elsewhere. The numerical error of the integrator is not modelled."
  },
  {
   "property": "C106",
   "status": "partial",
   "theorems": [
    "Verif.Density.c106_neutral",
    "Verif.Density.c106_projectors",
    "Verif.Density.c106_conserves",
    "Verif.Density.c106_frozen",
    "Verif.Density.c106_absorption_partial",
    "Verif.Density.c106_absorption_violated",
    "Verif.Density.c106_bases_violated"
   ],
   "note": "The equation of motion on filtered projectors, for any filter with the assumed pass and stop bands: neutral where it should be, projectors add up to one, oscillations conserve the number and keep contents in range, everything filtered freezes the mass states. Violated: absorption of one flavour can be told to create neutrinos, and the mass basis is not filtered. Partial: absorption alike for three flavours."
  },
  {
   "property": "C107",
   "status": "partial",
   "theorems": [
    "Verif.Solar.c107_flux",
    "Verif.Solar.c107_mean",
    "Verif.Solar.c107_components",
    "Verif.Solar.c107_number_partial",
    "Verif.Solar.c107_edges_violated",
    "Verif.Solar.c107_negative_violated",
    "Verif.Solar.c107_electrons",
    "Verif.Solar.c107_table_violated",
    "Verif.Solar.c107_domain_violated",
    "Verif.Solar.c107_hamiltonian",
    "Verif.Solar.c107_defined",
    "Verif.Solar.c107_range",
    "Verif.Solar.c107_determined",
    "Verif.Solar.c107_vacuum_partial",
    "Verif.Solar.c107_ordering_violated",
    "Verif.Solar.c107_stale_violated"
   ],
   "note": "Missing: the vacuum value for masses that do not increase (c107_ordering_violated), the current parameters after a setter (c107_stale_violated), PeeSquare at the ends of the energy range (c107_edges_violated), no flux at negative energies (c107_negative_violated), a table that can be used (c107_table_violated) and radii at centre and surface (c107_domain_violated). c107_mean and c107_number_partial use one rule of integration for both integrals."
  },
  {
   "property": "C108",
   "status": "partial",
   "theorems": [
    "Verif.Py.Su.c108_basis_partial",
    "Verif.Py.Su.c108_sign_violated",
    "Verif.Py.Su.c108_hermitian",
    "Verif.Py.Su.c108_orthogonal",
    "Verif.Py.Su.c108_complete",
    "Verif.Py.Su.c108_print_violated",
    "Verif.Py.Su.c108_state_violated",
    "Verif.Py.Su.c108_node_partial",
    "Verif.Py.Su.c108_node_violated",
    "Verif.Py.Su.c108_cast_violated"
   ],
   "note": "Hermiticity, traces, orthogonality and completeness hold for every number of flavours. The matrices are the complex conjugates of those of SQuIDS (as its basis is described in nuSQUIDSDecoh.cpp), so those below the diagonal have the other sign. Printing fails for every vector from two flavours on, because a complex array is added in place to a real one; PrintState accepts the number of nodes and reads beyond the states; GetState(ie) of Python calls a function of two parameters through a pointer for one. Assumes a NumPy that still has np.complex."
  },
  {
   "property": "C109",
   "status": "partial",
   "theorems": [
    "Verif.Marr.c109_construct_partial",
    "Verif.Marr.c109_subscript_partial",
    "Verif.Marr.c109_construct_violated",
    "Verif.Marr.c109_empty_violated",
    "Verif.Marr.c109_insert_partial",
    "Verif.Marr.c109_insert_violated"
   ],
   "note": "Proved where the product of the extents is below 2^64: construction succeeds exactly if there is room and gives the array of C01, subscripts do not wrap, insert is the one of C02 or throws. Violated beyond: the constructor multiplies modulo 2^64, so for every such list of extents an index has no element or two share one; growing {2^31,0,2^31} to {2^31,4,2^31} asks for no memory and writes 2^64 elements."
  },
  {
   "property": "C110",
   "status": "partial",
   "theorems": [
    "Verif.Density.c110_reading_partial",
    "Verif.Density.c110_masses",
    "Verif.Density.c110_restart",
    "Verif.Density.c110_nodes_partial",
    "Verif.Density.c110_off_violated",
    "Verif.Density.c110_on_violated",
    "Verif.Density.c110_mass_deaf",
    "Verif.Density.c110_mass_violated",
    "Verif.Density.c110_projectors_violated",
    "Verif.Density.c110_nodes_violated"
   ],
   "note": "Over the reals and any unitary mixing, without the low-pass filter. c110_reading_partial and c110_masses say when readings do not change, c110_restart that a new initial state puts everything in order (any matter, both bases, exact integration assumed), c110_mass_deaf that the equation of motion in the mass basis ignores the switch. The five violations use 45 degree mixing and half an oscillation in vacuum."
  },
  {
   "property": "C111",
   "status": "partial",
   "theorems": [
    "Verif.Atm.c111_constructed",
    "Verif.Atm.c111_history_partial",
    "Verif.Atm.c111_current",
    "Verif.Atm.c111_replaced_violated",
    "Verif.Atm.c111_raised_violated"
   ],
   "note": "Over the reals, for a positive height. c111_constructed: any height at the moment the tracks are made. c111_history_partial: after any sequence of calls the nodes hold the current Earth, start at its top, and arrive exactly if its height is that of construction; c111_replaced_violated and c111_raised_violated say on which side of the surface they end otherwise. What density does with the distance is C34, C96."
  },
  {
   "property": "C112",
   "status": "partial",
   "theorems": [
    "Verif.StateIO.c112_reads",
    "Verif.StateIO.c112_not_found",
    "Verif.StateIO.c112_late_partial",
    "Verif.StateIO.c112_not_ready",
    "Verif.StateIO.c112_same_kind",
    "Verif.StateIO.c112_flavours_violated",
    "Verif.StateIO.c112_types_violated",
    "Verif.StateIO.c112_switches_violated",
    "Verif.StateIO.c112_body_violated"
   ],
   "note": "The outer ReadStateHDF5 for files of the current layout; opening errors of HDF5 and densities that throw are not followed. c112_reads: the same as the reading of C57 on understood files. c112_not_found, c112_not_ready, c112_same_kind, c112_late_partial: where the claim holds. Violated for failures before the object is initialised, for every object in use and every newer file with more flavours (evolution outside the projectors) or with both types (evaluation outside), and by witness for switches and body. As in C57, reading a single-energy file of another number of flavours into an initialised object is not followed."
  },
  {
   "property": "C113",
   "status": "partial",
   "theorems": [
    "Verif.Py.Seq.c113_list_partial",
    "Verif.Py.Seq.c113_refused",
    "Verif.Py.Seq.c113_too_large",
    "Verif.Py.Seq.c113_range",
    "Verif.Py.Seq.c113_raises",
    "Verif.Py.Seq.c113_exact",
    "Verif.Py.Seq.c113_round_trip",
    "Verif.Py.Seq.c113_strings",
    "Verif.Py.Seq.c113_no_length",
    "Verif.Py.Seq.c113_generator_violated",
    "Verif.Py.Seq.c113_view_violated",
    "Verif.Py.Seq.c113_dict_violated",
    "Verif.Py.Seq.c113_long_violated",
    "Verif.Py.Seq.c113_length_violated"
   ],
   "note": "Model in Py/Sequence.lean; theorems for all objects. Partial: the claim for lists holds below 2^31 elements; generators, self-iterating views, dictionaries, long lists and wrong lengths are proved to break it. Elements are assumed not to change between the two passes."
  },
  {
   "property": "C114",
   "status": "partial",
   "theorems": [
    "Verif.Py.Flags.c114_arrive_partial",
    "Verif.Py.Flags.c114_value",
    "Verif.Py.Flags.c114_refused",
    "Verif.Py.Flags.c114_no_length",
    "Verif.Py.Flags.c114_no_truth",
    "Verif.Py.Flags.c114_report_violated",
    "Verif.Py.Flags.c114_atmospheric_violated",
    "Verif.Py.Flags.c114_string_violated",
    "Verif.Py.Flags.c114_long_violated",
    "Verif.Py.Flags.c114_null_violated"
   ],
   "note": "Model in Py/Flags.lean; the evaluation itself is an arbitrary function of the flags. Partial: the report of what was averaged is lost for every evaluation (by-value copies), strings are accepted, lengths of 2^32 or more wrap."
  },
  {
   "property": "C115",
   "status": "partial",
   "theorems": [
    "Verif.Density.c115_evolution_partial",
    "Verif.Density.c115_fill",
    "Verif.Density.c115_set",
    "Verif.Density.c115_set_node",
    "Verif.Density.c115_projectors",
    "Verif.Density.c115_journey_partial",
    "Verif.Density.c115_sources_violated",
    "Verif.XS.c115_tables"
   ],
   "note": "Proved for all objects without tau regeneration, with interactions only if all nodes are the same. Missing: sources with interactions and without oscillations (c115_sources_violated). The tables are those of C70, including validation."
  },
  {
   "property": "C116",
   "status": "partial",
   "theorems": [
    "Verif.H5A.c116_number",
    "Verif.H5A.c116_string_partial",
    "Verif.H5A.c116_empty_violated",
    "Verif.H5A.c116_all_partial",
    "Verif.H5A.c116_taken_violated",
    "Verif.H5A.c116_mismatch",
    "Verif.H5A.c116_number_as_name_violated",
    "Verif.H5A.c116_identifiers_partial",
    "Verif.H5A.c116_file_partial",
    "Verif.H5A.c116_string_type_violated",
    "Verif.H5A.c116_kept_violated",
    "Verif.H5A.c116_arrays",
    "Verif.H5A.c116_switch",
    "Verif.H5A.c116_switch_violated"
   ],
   "note": "Proved for all histories of calls, with the exact condition under which identifiers, or the file, stay open. Missing: empty strings, taken names, strings read as numbers, arrays of another rank, foreign switches (c116_*_violated). Contents of arrays are the subject of C67 and C94; attributes have one element and strings a fixed length."
  },
  {
   "property": "C117",
   "status": "partial",
   "theorems": [
    "Verif.Chars.c117_number",
    "Verif.Chars.c117_only_numbers",
    "Verif.Chars.c117_line",
    "Verif.Chars.c117_file",
    "Verif.Chars.c117_last_line",
    "Verif.Chars.c117_safe",
    "Verif.Chars.c117_printed",
    "Verif.Chars.c117_written",
    "Verif.Chars.c117_roundtrip_partial",
    "Verif.Chars.c117_nonfinite_violated",
    "Verif.Chars.c117_largest_violated",
    "Verif.Chars.c117_glued_violated",
    "Verif.Chars.c117_cut_violated"
   ],
   "note": "Full: c117_number, c117_only_numbers, c117_line, c117_file, c117_last_line, c117_safe, c117_printed, c117_written. Partial: the round trip of written files, for finite entries that have a double when rounded. Violated: what is not a number, directly behind a number or as inf or nan, ends its row silently; numbers need no blank between them; the largest double is lost."
  },
  {
   "property": "C118",
   "status": "partial",
   "theorems": [
    "Verif.Atm.c118_reads",
    "Verif.Atm.c118_not_found",
    "Verif.Atm.c118_left",
    "Verif.Atm.c118_refused",
    "Verif.Atm.c118_evolve_partial",
    "Verif.Atm.c118_write",
    "Verif.Atm.c118_retry",
    "Verif.Atm.c118_query_violated",
    "Verif.Atm.c118_threads_violated",
    "Verif.Atm.c118_foreign_violated"
   ],
   "note": "ReadStateHDF5 of nuSQUIDSAtm with the reading of C112 for each node. c118_reads: the same as the reading of C95 on understood files. c118_left: what any reading that throws leaves, node by node. c118_not_found, c118_refused, c118_write, c118_retry: where the claim holds; c118_evolve_partial: evolution, with one thread. Violated for every object that was ready: queries beyond the node that failed, evolution with several threads (nodes without interactions), files without the two datasets. Leaking identifiers and arrays too long for the stack are not followed."
  },
  {
   "property": "C119",
   "status": "partial",
   "theorems": [
    "Verif.Life.c119_line",
    "Verif.Life.c119_grows",
    "Verif.Life.c119_outside",
    "Verif.Life.c119_length_violated",
    "Verif.Life.c119_evolve_partial",
    "Verif.Life.c119_off_partial",
    "Verif.Life.c119_counter_violated",
    "Verif.Life.c119_sky_serial",
    "Verif.Life.c119_sky_threads_partial",
    "Verif.Life.c119_switch_violated"
   ],
   "note": "The line drawn anywhere on the way, forwards or backwards, outside it, its growth, every hundredth evaluation and the end, the headings and switches of the atmospheric object are proved character by character. Violated: a track of no length (or a position more than some twenty million lengths away) is undefined, the counter overflows after 2^31 evaluations even with the bar off, and several threads overwrite the switches of the nodes. Positions of the evaluations are arbitrary, doubles are rationals."
  },
  {
   "property": "C120",
   "status": "partial",
   "theorems": [
    "Verif.Decoh.c120_uniform",
    "Verif.Decoh.c120_refused",
    "Verif.Decoh.c120_settings_partial",
    "Verif.Decoh.c120_matrix_violated",
    "Verif.Decoh.c120_file_violated",
    "Verif.Decoh.c120_node_violated"
   ],
   "note": "All zeniths, refusals, getters and the term of every zenith are proved for every history by simulation with one object of C87. Violated: full matrices from four flavours on are always refused, nodes read from a state file are never set up, and the getters report the first node only."
  },
  {
   "property": "C121",
   "status": "partial",
   "theorems": [
    "Verif.Atm.Integ.c121_given",
    "Verif.Atm.Integ.c121_untouched",
    "Verif.Atm.Integ.c121_method",
    "Verif.Atm.Integ.c121_refused_violated",
    "Verif.Atm.Integ.c121_file_violated"
   ],
   "note": "Values given last, values never given and the method are proved for every history and zenith, with the sign of the step. Violated: an index out of range is undefined in the overloads with an index (refused through GetnuSQuIDS), and a state file carries none of the settings. Evolutions that end with an exception are left out."
  },
  {
   "property": "C122",
   "status": "proved",
   "theorems": [
    "Verif.Bodies.c122_earth",
    "Verif.Bodies.c122_atmosphere",
    "Verif.Bodies.c122_sun",
    "Verif.Bodies.c122_sunASnu",
    "Verif.Bodies.c122_potential",
    "Verif.Bodies.c122_nucleons"
   ],
   "note": "The numbers of the two files are entered as the decimals they are written as, not as the nearest doubles. The bounds are checked row by row by kernel evaluation in exact rationals; that the row condition bounds the spline at every point is proved in general (tame_between). c122_nucleons needs the SQuIDS constants to be of realistic size (hunits)."
  },
  {
   "property": "C123",
   "status": "partial",
   "theorems": [
    "Verif.Density.c123_loop",
    "Verif.Density.c123_scale",
    "Verif.Density.c123_ratio_partial",
    "Verif.Density.c123_unaveraged",
    "Verif.Density.c123_degenerate",
    "Verif.Density.c123_degenerate_violated"
   ],
   "note": "The loop of the example is proved equal to the sum over initial flavours of incoherent probabilities, and the averaged single-energy evaluation equal to the loop, for exact solutions of the equation of motion in vacuum, interaction picture, neutrinos and antineutrinos, any scale below all phases; scale zero needs different masses only. Partial because of equal masses: the code averages nothing (c123_degenerate, c123_degenerate_violated). Assumed of SQuIDS: what PrepareEvolve and GetTransformationMatrix return. In the working basis mass the code ignores the scale (C83)."
  },
  {
   "property": "C124",
   "status": "proved",
   "theorems": [
    "Verif.Resource.c124_environment",
    "Verif.Resource.c124_installed",
    "Verif.Resource.c124_only_flag",
    "Verif.Resource.c124_again"
   ],
   "note": "Complete for the model: sed is taken to replace matches from the left without overlaps, line breaks being irrelevant to a pattern without any. The place of the flag in the library is arbitrary. An empty NUSQUIDS_DATA_PATH counts as set, as in the code."
  },
  {
   "property": "C125",
   "status": "proved",
   "theorems": [
    "Verif.Density.c125_steps",
    "Verif.Density.c125_initial",
    "Verif.Density.c125_absorbed"
   ],
   "note": "The integrator of SQuIDS and GSL is not modelled: it is any sequence of states each of which misses the exact solution from the one before by a bounded amount, so rounding errors of the steps are included in the amounts. What is proved with interactions is for errors at one node with exact states above it; errors above feed those below through the regeneration terms, for which no bound is claimed."
  },
  {
   "property": "C126",
   "status": "partial",
   "theorems": [
    "Verif.Runner.c126_entries",
    "Verif.Runner.c126_report_partial",
    "Verif.Runner.c126_statistics_partial",
    "Verif.Runner.c126_stale_violated",
    "Verif.Runner.c126_statistics_violated",
    "Verif.Runner.c126_listed_violated",
    "Verif.Runner.c126_none_violated",
    "Verif.Runner.c126_status_violated"
   ],
   "note": "Partial because the script violates parts of the claim: the exit status is always that of tee, a test without reference repeats the output of the test before it, the numbers are counted in a text that also holds what tests print, names are found as parts of other names, and no test counts as one. Proved: the entries for all tests whose names do not contain FAIL; what stands below them if all references exist; the numbers if nothing printed looks like an entry. What the compiler, the tests and diff give is data; of diff it is assumed only that it prints nothing exactly for equal texts."
  },
  {
   "property": "C127",
   "status": "partial",
   "theorems": [
    "Verif.NewPhys.c127_nsi_partial",
    "Verif.NewPhys.c127_nsi_reading_partial",
    "Verif.NewPhys.c127_nsi_conserved",
    "Verif.NewPhys.c127_lv_partial",
    "Verif.NewPhys.c127_lv_reading_partial",
    "Verif.NewPhys.c127_lv_conserved",
    "Verif.NewPhys.c127_mass_doubled",
    "Verif.NewPhys.c127_mass_violated",
    "Verif.NewPhys.c127_antineutrino_violated"
   ],
   "note": "Proved for objects of either class after any history of setters, in the interaction picture, in any medium: c127_nsi_partial/c127_lv_partial give the Hamiltonian and the Schrödinger equation in flavour space, the reading theorems the diagonal of its solution; conservation and bounds (c127_nsi_conserved, c127_lv_conserved) hold in both working bases. Missing because the code violates it: the mass basis (c127_mass_violated, with the equation that holds instead in c127_mass_doubled) and antineutrinos with a CP phase (c127_antineutrino_violated); the operator after a change of mixing is C88. The solution itself is assumed of the integrator."
  },
  {
   "property": "C128",
   "status": "partial",
   "theorems": [
    "Verif.Decoh.c128_loss",
    "Verif.Decoh.c128_state",
    "Verif.Decoh.c128_range",
    "Verif.Decoh.c128_total",
    "Verif.Decoh.c128_off",
    "Verif.Decoh.c128_phase_partial",
    "Verif.Decoh.c128_phase_violated"
   ],
   "note": "Loss, randomised state, total, range and the switched-off case in full, for the evolution without interactions and emitting bodies. Randomised phases only for a matrix given by hand and in vacuum; the pre-built model changes populations (c128_phase_violated)."
  },
  {
   "property": "C129",
   "status": "partial",
   "theorems": [
    "Verif.Configure.c129_boost_partial",
    "Verif.Configure.c129_boost_violated",
    "Verif.Configure.c129_options",
    "Verif.Configure.c129_help",
    "Verif.Configure.c129_refuses_partial",
    "Verif.Configure.c129_bindings_violated",
    "Verif.Configure.c129_copy_partial",
    "Verif.Configure.c129_copy_violated",
    "Verif.Configure.c129_hdf5_partial",
    "Verif.Configure.c129_hdf5_violated",
    "Verif.Configure.c129_python_partial",
    "Verif.Configure.c129_python_violated",
    "Verif.Configure.c129_prefix_partial",
    "Verif.Configure.c129_prefix_violated",
    "Verif.Configure.c129_version"
   ],
   "note": "Options, help, version, complete static copies given by hand and the first-found rules hold. Disagreements proved: arguments that merely begin with --with-python-bindings switch the bindings on; one directory of a package alone is ignored, a shared-only copy of GSL is replaced by another, SQuIDS headers are not looked for; a directory without the HDF5 header is accepted; the linker is told the last directory and not that of the Python library; Boost headers without its Python library end the search, and libraries without headers are accepted; a prefix that does not exist is replaced by the source directory. pkg-config and the Makefile are not modelled."
  },
  {
   "property": "C130",
   "status": "partial",
   "theorems": [
    "Verif.Density.c130_reverse",
    "Verif.Density.c130_probability",
    "Verif.Density.c130_chord",
    "Verif.Density.c130_earth_partial",
    "Verif.Density.c130_phases",
    "Verif.Density.c130_equal",
    "Verif.Density.c130_columns",
    "Verif.Density.c130_scale"
   ],
   "note": "Without interactions. Complete for any medium: with sterile flavours the electron fraction may cross 1e-10, where the code changes its formula, at finitely many places. c130_earth_partial assumes with sterile flavours that the electron fraction along the chord is not below 1e-10."
  }
 ]
}