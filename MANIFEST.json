{
 "claims": [
  {
   "property": "C01",
   "status": "proved",
   "theorems": [
    "Verif.StepSize.C01_generate_steps_increasing"
   ],
   "note": ""
  },
  {
   "property": "C02",
   "status": "proved",
   "theorems": [
    "Verif.StepSize.C02_generate_steps_grid"
   ],
   "note": ""
  },
  {
   "property": "C03",
   "status": "proved",
   "theorems": [
    "Verif.StepSize.C03_exp_sequence_shift"
   ],
   "note": ""
  },
  {
   "property": "C04",
   "status": "proved",
   "theorems": [
    "Verif.StepSize.C04_generate_steps_terminates",
    "Verif.StepSize.C04_generate_steps_hangs"
   ],
   "note": ""
  },
  {
   "property": "C05",
   "status": "proved",
   "theorems": [
    "Verif.StepSize.C05_series_runs_from_zero_to_total",
    "Verif.StepSize.C05_series_error_branches"
   ],
   "note": ""
  },
  {
   "property": "C06",
   "status": "proved",
   "theorems": [
    "Verif.StepSize.C06_series_is_union"
   ],
   "note": ""
  },
  {
   "property": "C07",
   "status": "proved",
   "theorems": [
    "Verif.StepSize.C07_get_index_exact"
   ],
   "note": ""
  },
  {
   "property": "C08",
   "status": "proved",
   "theorems": [
    "Verif.StepSize.C08_keyframes_at_multiples",
    "Verif.StepSize.C08_keyframe_bound"
   ],
   "note": ""
  },
  {
   "property": "C09",
   "status": "partial",
   "theorems": [
    "Verif.StepSize.C09_keyframes_regular_partial",
    "Verif.StepSize.C09_exactly",
    "Verif.StepSize.C09_keyframes_regular_refuted"
   ],
   "note": "False in general: when gen_steps is off the decade grid of num_linear the multiples are skipped (witness). Proved when gen_steps is on the grid; exactly then for runs longer than gen_steps with more than one keyframe allowed (C09_exactly)."
  },
  {
   "property": "C10",
   "status": "proved",
   "theorems": [
    "Verif.StepSize.C10_single_series"
   ],
   "note": ""
  },
  {
   "property": "C11",
   "status": "proved",
   "theorems": [
    "Verif.Gsd.C11_exponential_sound"
   ],
   "note": ""
  },
  {
   "property": "C12",
   "status": "partial",
   "theorems": [
    "Verif.Gsd.C12_exponential_complete_partial",
    "Verif.Gsd.C12_exponential_complete_refuted",
    "Verif.Gsd.C12_exactly"
   ],
   "note": "False: a frame off the series followed by a missing step loses the next aligned frame (witness). Proved when either every frame is on the series or no step before the end is missing. C12_exactly: nothing is lost iff nothing is held over at a common time (C178)."
  },
  {
   "property": "C13",
   "status": "proved",
   "theorems": [
    "Verif.Gsd.C13_linear_reader",
    "Verif.Gsd.C13_linear_ends"
   ],
   "note": "The cap is keyframe_max+1."
  },
  {
   "property": "C14",
   "status": "partial",
   "theorems": [
    "Verif.Gsd.C14_keyframe_limit_partial",
    "Verif.Gsd.C14_keyframe_limit_refuted",
    "Verif.Gsd.C14_exactly"
   ],
   "note": "Holds for the exponential reader; the linear reader uses keyframe_max+1 keyframes (witness). C14_exactly: the linear reader keeps to it iff at most keyframe_max yielded frames are at multiples of the interval."
  },
  {
   "property": "C15",
   "status": "proved",
   "theorems": [
    "Verif.Gsd.C15_num_steps",
    "Verif.Gsd.C15_reader_error"
   ],
   "note": ""
  },
  {
   "property": "C16",
   "status": "proved",
   "theorems": [
    "Verif.Gsd.C16_corrupt_invisible",
    "Verif.Gsd.C16_insert_corrupt"
   ],
   "note": ""
  },
  {
   "property": "C17",
   "status": "proved",
   "theorems": [
    "Verif.Gsd.C17_open_trajectory_interval",
    "Verif.Gsd.C17_open_trajectory_all",
    "Verif.Gsd.C17_open_trajectory_none",
    "Verif.Gsd.C17_open_trajectory_progressbar"
   ],
   "note": ""
  },
  {
   "property": "C18",
   "status": "proved",
   "theorems": [
    "Verif.Lammps.C18_lammps_round_trip",
    "Verif.Lammps.C18_order_irrelevant"
   ],
   "note": "float() is a parameter that ignores a final newline; float32 rounding ignored."
  },
  {
   "property": "C19",
   "status": "proved",
   "theorems": [
    "Verif.Lammps.C19_malformed_header",
    "Verif.Lammps.C19_count",
    "Verif.Lammps.C19_earlier_frames_delivered"
   ],
   "note": ""
  },
  {
   "property": "C20",
   "status": "proved",
   "theorems": [
    "Verif.Lammps.C20_lammps_prefix"
   ],
   "note": ""
  },
  {
   "property": "C21",
   "status": "partial",
   "theorems": [
    "Verif.Cache.C21_constructor",
    "Verif.Cache.C21_lossless_partial",
    "Verif.Cache.C21_exactly",
    "Verif.Cache.C21_lossless_refuted"
   ],
   "note": "False when the first operation is a flush and a table to be replaced exists: stale rows stay (witness). Proved in all other cases."
  },
  {
   "property": "C22",
   "status": "partial",
   "theorems": [
    "Verif.Cache.C22_crash_prefix_partial",
    "Verif.Cache.C22_crash_prefix_refuted",
    "Verif.Cache.C22_bound_refuted",
    "Verif.Cache.C22_exactly"
   ],
   "note": "Same exception as C21; the bound needs a positive multiplier. Right exactly when rows are added, none are replaced, the first operation is an append, or nothing has been written yet; otherwise the old rows stay in front (C22_exactly)."
  },
  {
   "property": "C23",
   "status": "partial",
   "theorems": [
    "Verif.Cache.C23_len_partial",
    "Verif.Cache.C23_exactly",
    "Verif.Cache.C23_len_refuted"
   ],
   "note": "False after an explicit flush (witness); proved for appends only; right exactly when no flush comes after an append (C23_exactly)."
  },
  {
   "property": "C24",
   "status": "partial",
   "theorems": [
    "Verif.Process.C24_memory_equals_file_partial",
    "Verif.Process.C24_memory_equals_file_refuted",
    "Verif.Process.C24_memory_overflow",
    "Verif.Process.C24_exactly"
   ],
   "note": "False for more than 8192 rows: AssertionError without outfile (witness). Proved for 1..8192 rows. Right exactly for 1 to 8192 rows, AssertionError otherwise (C24_exactly)."
  },
  {
   "property": "C25",
   "status": "proved",
   "theorems": [
    "Verif.Process.C25_keyframes_isolated"
   ],
   "note": ""
  },
  {
   "property": "C26",
   "status": "proved",
   "theorems": [
    "Verif.Process.C26_rows",
    "Verif.Process.C26_all_rows",
    "Verif.Process.C26_survives",
    "Verif.Process.C26_escapes"
   ],
   "note": ""
  },
  {
   "property": "C27",
   "status": "partial",
   "theorems": [
    "Verif.Process.C27_custom_accumulates_partial",
    "Verif.Process.C27_custom_accumulates_refuted",
    "Verif.Process.C27_default_accumulates",
    "Verif.Process.C27_exactly"
   ],
   "note": "False: custom relaxations are reset at every frame (witness). Proved: what is reported is the last frame only; default relaxations do accumulate. C27_exactly: for a first passage by displacement the report is as stated iff no molecule is beyond the threshold in a frame other than the last."
  },
  {
   "property": "C28",
   "status": "proved",
   "theorems": [
    "Verif.Process.C28_rerun_idempotent"
   ],
   "note": ""
  },
  {
   "property": "C29",
   "status": "proved",
   "theorems": [
    "Verif.Motion.C29_unwrapped",
    "Verif.Motion.C29_untilted",
    "Verif.Motion.C29_exactly"
   ],
   "note": ""
  },
  {
   "property": "C30",
   "status": "proved",
   "theorems": [
    "Verif.Motion.C30_congruent",
    "Verif.Motion.C30_central"
   ],
   "note": ""
  },
  {
   "property": "C31",
   "status": "proved",
   "theorems": [
    "Verif.Motion.C31_turns",
    "Verif.Motion.C31_exactly"
   ],
   "note": "Rotations about z, any sign of the quaternions. The whole turning angle is tracked exactly when no molecule turns by more than half a turn between frames (C31_exactly)."
  },
  {
   "property": "C32",
   "status": "partial",
   "theorems": [
    "Verif.Dynamics.C32_shift",
    "Verif.Dynamics.C32_relabel_partial",
    "Verif.Dynamics.C32_relabel_overlap",
    "Verif.Dynamics.C32_relabel_struct_partial",
    "Verif.Dynamics.C32_relabel_struct_refuted"
   ],
   "note": "Shifts proved; relabelling proved except for struct, for which it is false (witness)."
  },
  {
   "property": "C33",
   "status": "proved",
   "theorems": [
    "Verif.Dynamics.C33_moments"
   ],
   "note": ""
  },
  {
   "property": "C34",
   "status": "proved",
   "theorems": [
    "Verif.Dynamics.C34_alpha",
    "Verif.Dynamics.C34_alpha_rot",
    "Verif.Dynamics.C34_gamma",
    "Verif.Dynamics.C34_no_exception"
   ],
   "note": "In exact arithmetic; for float32 see C124."
  },
  {
   "property": "C35",
   "status": "proved",
   "theorems": [
    "Verif.Dynamics.C35_rotational",
    "Verif.Dynamics.C35_isf"
   ],
   "note": ""
  },
  {
   "property": "C36",
   "status": "proved",
   "theorems": [
    "Verif.Dynamics.C36_proportion",
    "Verif.Dynamics.C36_monotone",
    "Verif.Dynamics.C36_signals",
    "Verif.Dynamics.C36_com_struct"
   ],
   "note": ""
  },
  {
   "property": "C37",
   "status": "partial",
   "theorems": [
    "Verif.Dynamics.C37_range_partial",
    "Verif.Dynamics.C37_value",
    "Verif.Dynamics.C37_same_ranking_partial",
    "Verif.Dynamics.C37_symmetric",
    "Verif.Dynamics.C37_refuted",
    "Verif.Dynamics.C37_compute_all_refuted",
    "Verif.Dynamics.C37_exactly"
   ],
   "note": "False below ten molecules: ZeroDivisionError (for all such inputs). Proved for ten or more. A proportion exactly from ten molecules on (C37_exactly)."
  },
  {
   "property": "C38",
   "status": "proved",
   "theorems": [
    "Verif.Dynamics.C38_keys",
    "Verif.Dynamics.C38_nan",
    "Verif.Dynamics.C38_succeeds",
    "Verif.Dynamics.C38_molid",
    "Verif.Dynamics.C38_isf_missing",
    "Verif.Dynamics.C38_struct_missing"
   ],
   "note": ""
  },
  {
   "property": "C39",
   "status": "partial",
   "theorems": [
    "Verif.Dynamics.C39_orientation2positions",
    "Verif.Dynamics.C39_struct_partial",
    "Verif.Dynamics.C39_struct_uniform",
    "Verif.Dynamics.C39_struct_refuted",
    "Verif.Dynamics.C39_compared",
    "Verif.Dynamics.C39_exactly"
   ],
   "note": "First half proved. Second half false: displacement and rotation of different molecules are combined (witness). For any numbers of molecules and particles it is proved what is compared (C39_compared); every particle is moved with its own molecule exactly when molecules have one particle or all moved alike (C39_exactly)."
  },
  {
   "property": "C40",
   "status": "partial",
   "theorems": [
    "Verif.Dynamics.C40_struct_partial",
    "Verif.Dynamics.C40_struct_refuted",
    "Verif.Dynamics.C40_exactly"
   ],
   "note": "False: rotates about x (witness); proved exactly what is computed. The particles are taken where they went exactly when no molecule has turned, or they lie on the y axis of a molecule that made half a turn, or in its centre (C40_exactly)."
  },
  {
   "property": "C41",
   "status": "proved",
   "theorems": [
    "Verif.Relax.C41_first_passage"
   ],
   "note": ""
  },
  {
   "property": "C42",
   "status": "proved",
   "theorems": [
    "Verif.Relax.C42_last_passage",
    "Verif.Relax.C42_cutoff_above",
    "Verif.Relax.C42_determined"
   ],
   "note": ""
  },
  {
   "property": "C43",
   "status": "proved",
   "theorems": [
    "Verif.Relax.C43_independent",
    "Verif.Relax.C43_mismatch",
    "Verif.Relax.C43_kind"
   ],
   "note": ""
  },
  {
   "property": "C44",
   "status": "proved",
   "theorems": [
    "Verif.Relax.C44_order"
   ],
   "note": ""
  },
  {
   "property": "C45",
   "status": "proved",
   "theorems": [
    "Verif.Relax.C45_set_mol_relax",
    "Verif.Relax.C45_errors"
   ],
   "note": ""
  },
  {
   "property": "C46",
   "status": "partial",
   "theorems": [
    "Verif.Relax.C46_rejected_keeps_old_partial",
    "Verif.Relax.C46_rejected_keeps_old_refuted",
    "Verif.Relax.C46_exactly",
    "Verif.Relax.C46_lost"
   ],
   "note": "False: the old relaxations are dropped before validation (witness). Proved: what is left is the result for the definitions before the failing one. The old ones survive exactly when they equal the unused relaxations of the definitions before the failing one (C46_exactly)."
  },
  {
   "property": "C47",
   "status": "partial",
   "theorems": [
    "Verif.RelaxTime.C47_threshold_partial",
    "Verif.RelaxTime.C47_at_once",
    "Verif.RelaxTime.C47_never",
    "Verif.RelaxTime.C47_never_refuted",
    "Verif.RelaxTime.C47_sign",
    "Verif.RelaxTime.C47_exactly"
   ],
   "note": "First half proved for crossings after the first sample. False: a series that never crosses gives the same result as one that crosses at once (for all times). For increasing times the error is the gap to the time before iff some value is beyond the threshold but not the first; otherwise it is negative."
  },
  {
   "property": "C48",
   "status": "proved",
   "theorems": [
    "Verif.RelaxTime.C48_max_time",
    "Verif.RelaxTime.C48_max_value",
    "Verif.RelaxTime.C48_errors",
    "Verif.RelaxTime.C48_errors_ends",
    "Verif.RelaxTime.C48_defined",
    "Verif.RelaxTime.C48_lengths"
   ],
   "note": ""
  },
  {
   "property": "C49",
   "status": "proved",
   "theorems": [
    "Verif.RelaxTime.C49_diffusion",
    "Verif.RelaxTime.C49_fitted",
    "Verif.RelaxTime.C49_too_few",
    "Verif.RelaxTime.C49_error"
   ],
   "note": "For every least squares solver that returns. C49_error: the error is two standard deviations of the slope, divided like the slope."
  },
  {
   "property": "C50",
   "status": "proved",
   "theorems": [
    "Verif.RelaxTime.C50_dispatch",
    "Verif.RelaxTime.C50_lengths"
   ],
   "note": ""
  },
  {
   "property": "C51",
   "status": "proved",
   "theorems": [
    "Verif.RelaxTime.C51_positive",
    "Verif.RelaxTime.C51_too_few",
    "Verif.RelaxTime.C51_value",
    "Verif.RelaxTime.C51_handled",
    "Verif.RelaxTime.C51_errors",
    "Verif.RelaxTime.C51_errors_nan"
   ],
   "note": "C51_errors and C51_errors_nan add that errors which are not as many as the values that are not NaN raise an IndexError, so that errors for every value fail as soon as one value is NaN."
  },
  {
   "property": "C52",
   "status": "proved",
   "theorems": [
    "Verif.Tables.C52_rows",
    "Verif.Tables.C52_values",
    "Verif.Tables.C52_only",
    "Verif.Tables.C52_succeeds"
   ],
   "note": "hmean <= mean for columns of positive times (scipy's hmean is defined for these only)."
  },
  {
   "property": "C53",
   "status": "partial",
   "theorems": [
    "Verif.Tables.C53_index_partial",
    "Verif.Tables.C53_time_ignored_refuted",
    "Verif.Tables.C53_refuted",
    "Verif.Tables.C53_exactly"
   ],
   "note": "False: the row index is used in place of the time (witness, and the time column has no influence on any table). Proved: exactly what is computed. Exactly, for a decay that falls below 1/e (C53_exactly): the table has the time from the column of times iff the time of the row where it does so first is the number of that row."
  },
  {
   "property": "C54",
   "status": "partial",
   "theorems": [
    "Verif.Tables.C54_known_partial",
    "Verif.Tables.C54_refuted",
    "Verif.Tables.C54_exactly"
   ],
   "note": "False: rows with NaN temperature or pressure are dropped by groupby, for every such file. Proved for known temperature and pressure. Every relaxed keyframe is summarised iff each has a temperature and a pressure."
  },
  {
   "property": "C55",
   "status": "partial",
   "theorems": [
    "Verif.Names.C55_round_trip_partial",
    "Verif.Names.C55_exactly",
    "Verif.Names.C55_no_group_exactly",
    "Verif.Names.C55_never",
    "Verif.Names.C55_no_group_partial",
    "Verif.Names.C55_group_refuted",
    "Verif.Names.C55_no_group_refuted",
    "Verif.Names.C55_ties"
   ],
   "note": "False for space groups starting with P, T or ID, and without space group for molecules other than the trimer (witnesses); proved otherwise, including set_filename_vars. C55_ties: halfway between two numbers with two decimals the even one is written, and negative numbers have a sign."
  },
  {
   "property": "C56",
   "status": "proved",
   "theorems": [
    "Verif.Names.C56_order",
    "Verif.Names.C56_path",
    "Verif.Names.C56_suffix"
   ],
   "note": " C56_path and C56_suffix say which part of a path is read."
  },
  {
   "property": "C57",
   "status": "partial",
   "theorems": [
    "Verif.Names.C57_restores_partial",
    "Verif.Names.C57_sequence_partial",
    "Verif.Names.C57_exception_refuted",
    "Verif.Names.C57_enter_refuted",
    "Verif.Names.C57_created_stays",
    "Verif.Names.C57_delete",
    "Verif.Names.C57_exactly"
   ],
   "note": "False when the block or entering it raises (witnesses); proved for blocks left without exception, whatever they do. What an exception leaves behind is exactly what was there when it was raised (C57_exactly)."
  },
  {
   "property": "C58",
   "status": "partial",
   "theorems": [
    "Verif.Names.C58_entries",
    "Verif.Names.C58_present",
    "Verif.Names.C58_succeeds",
    "Verif.Names.C58_missing_partial",
    "Verif.Names.C58_missing_refuted"
   ],
   "note": "All proved but the last clause: a trimer file without temperature is accepted under the temperature 'rimer' (witness)."
  },
  {
   "property": "C59",
   "status": "partial",
   "theorems": [
    "Verif.Frame.C59_num_mols_partial",
    "Verif.Frame.C59_bounded",
    "Verif.Frame.C59_floppy_refuted",
    "Verif.Frame.C59_int32_refuted",
    "Verif.Frame.C59_exactly",
    "Verif.Frame.C59_int32_exactly"
   ],
   "note": "Proved for body numbers from -1 up, wide and unsigned 32 bit sums. False for floppy bodies (numbers below -1) and signed 32 bit overflow: negative counts (witnesses). C59_int32_exactly: with signed 32 bits right exactly when no body has the number 2147483647 and not all are below -1."
  },
  {
   "property": "C60",
   "status": "partial",
   "theorems": [
    "Verif.Frame.C60_hoomd_aligned",
    "Verif.Frame.C60_hoomd_values",
    "Verif.Frame.C60_len_nonneg",
    "Verif.Frame.C60_lammps_aligned",
    "Verif.Frame.C60_lammps_reader",
    "Verif.Frame.C60_image_partial",
    "Verif.Frame.C60_image_refuted"
   ],
   "note": "Proved except for image, which has a row per particle, not per molecule (witness; proved exactly when it agrees)."
  },
  {
   "property": "C61",
   "status": "proved",
   "theorems": [
    "Verif.Frame.C61_lammps_box",
    "Verif.Frame.C61_hoomd_box",
    "Verif.Frame.C61_freud_box",
    "Verif.Frame.C61_lammps_freud_box",
    "Verif.Frame.C61_short_box"
   ],
   "note": ""
  },
  {
   "property": "C62",
   "status": "proved",
   "theorems": [
    "Verif.Order.C62_formula",
    "Verif.Order.C62_range",
    "Verif.Order.C62_sign",
    "Verif.Order.C62_rotation",
    "Verif.Order.C62_one_iff",
    "Verif.Order.C62_planar",
    "Verif.Order.C62_ordering",
    "Verif.Order.C62_empty"
   ],
   "note": ""
  },
  {
   "property": "C63",
   "status": "proved",
   "theorems": [
    "Verif.Order.C63_missing",
    "Verif.Order.C63_missing_one",
    "Verif.Order.C63_orientational_order",
    "Verif.Order.C63_isolated",
    "Verif.Order.C63_relative_orientations"
   ],
   "note": ""
  },
  {
   "property": "C64",
   "status": "partial",
   "theorems": [
    "Verif.Order.C64_distances_partial",
    "Verif.Order.C64_indices",
    "Verif.Order.C64_missing_refuted",
    "Verif.Order.C64_exactly"
   ],
   "note": "False: missing entries are 0, not -1 (witness). Proved: all other entries, and that missing ones are 0. As documented exactly when no neighbour is missing (C64_exactly)."
  },
  {
   "property": "C65",
   "status": "partial",
   "theorems": [
    "Verif.Molecule.C65_centred",
    "Verif.Molecule.C65_all_centred",
    "Verif.Molecule.C65_trimer",
    "Verif.Molecule.C65_placement",
    "Verif.Molecule.C65_trimer_checked",
    "Verif.Molecule.C65_radii",
    "Verif.Molecule.C65_disc_sphere",
    "Verif.Molecule.C65_flat",
    "Verif.Molecule.C65_dimer_partial",
    "Verif.Molecule.C65_dimer_refuted",
    "Verif.Molecule.C65_exactly"
   ],
   "note": "Proved, except that Dimer raises TypeError for every int distance. C65_exactly lists the arguments that make a dimer or a trimer."
  },
  {
   "property": "C66",
   "status": "partial",
   "theorems": [
    "Verif.Molecule.C66_symmetric",
    "Verif.Molecule.C66_reflexive_partial",
    "Verif.Molecule.C66_reflexive_refuted",
    "Verif.Molecule.C66_equivalence_partial",
    "Verif.Molecule.C66_equivalence_refuted",
    "Verif.Molecule.C66_plain",
    "Verif.Molecule.C66_exactly",
    "Verif.Molecule.C66_transitive_exactly"
   ],
   "note": "False: not transitive through plain Molecule objects, AttributeError for Trimer/Dimer against them, and NaN parameters (witnesses). Symmetric always; without these cases it never raises and means same class and parameters. Equality, exceptions and the triples on which it is transitive are characterised exactly."
  },
  {
   "property": "C67",
   "status": "partial",
   "theorems": [
    "Verif.Figures.C67_rows_partial",
    "Verif.Figures.C67_returns",
    "Verif.Figures.C67_mismatch_refuted",
    "Verif.Figures.C67_several",
    "Verif.Figures.C67_exactly"
   ],
   "note": "Proved when the particle list names every position; with the default list the radii have another length (witness)."
  },
  {
   "property": "C68",
   "status": "partial",
   "theorems": [
    "Verif.Figures.C68_lookup",
    "Verif.Figures.C68_shade_unique",
    "Verif.Figures.C68_plain",
    "Verif.Figures.C68_order_list",
    "Verif.Figures.C68_order_function_partial",
    "Verif.Figures.C68_order_names",
    "Verif.Figures.C68_categories",
    "Verif.Figures.C68_order_function_refuted",
    "Verif.Figures.C68_exactly"
   ],
   "note": "Proved, except that an ordering of another number type, such as float32, is ignored (witness). Numbers are shown exactly when of a type that is recognised, or when all molecules are ordered (C68_exactly)."
  },
  {
   "property": "C69",
   "status": "partial",
   "theorems": [
    "Verif.Viewer.C69_refuted",
    "Verif.Viewer.C69_partial",
    "Verif.Viewer.C69_range_partial",
    "Verif.Viewer.C69_choice_partial",
    "Verif.Viewer.C69_exactly"
   ],
   "note": "False in every directory: the slider of a new viewer ends one beyond the last frame. Proved: never further, and not at all once the end has been set by a choice of file and the index is a frame. The frame at the slider is shown iff the slider is not just behind the last frame."
  },
  {
   "property": "C70",
   "status": "partial",
   "theorems": [
    "Verif.Viewer.C70_opens",
    "Verif.Viewer.C70_empty",
    "Verif.Viewer.C70_selection",
    "Verif.Viewer.C70_open_partial",
    "Verif.Viewer.C70_open_refuted",
    "Verif.Viewer.C70_choose_pressure",
    "Verif.Viewer.C70_choose_temperature",
    "Verif.Viewer.C70_choose_crystal",
    "Verif.Viewer.C70_choose_iteration",
    "Verif.Viewer.C70_others",
    "Verif.Viewer.C70_exactly"
   ],
   "note": "The selection always names a file. The open trajectory is that file if files can be opened; otherwise the old one stays (witness). After a choice the open trajectory is that of the file chosen iff it can be opened or was open before."
  },
  {
   "property": "C71",
   "status": "proved",
   "theorems": [
    "Verif.Viewer.C71_timers",
    "Verif.Viewer.C71_click",
    "Verif.Viewer.C71_history"
   ],
   "note": ""
  },
  {
   "property": "C72",
   "status": "partial",
   "theorems": [
    "Verif.Cli.C72_arguments_partial",
    "Verif.Cli.C72_reader",
    "Verif.Cli.C72_molecule_refuted",
    "Verif.Cli.C72_output_refuted",
    "Verif.Cli.C72_relaxations_refuted",
    "Verif.Cli.C72_options",
    "Verif.Cli.C72_call",
    "Verif.Cli.C72_twice",
    "Verif.Cli.C72_direct",
    "Verif.Cli.C72_exactly"
   ],
   "note": "False for --molecule and --output (TypeError for every use) and --mol-relaxations (AttributeError at the first frame); proved for all other options. The options reach process_file iff neither --molecule nor --output is given."
  },
  {
   "property": "C73",
   "status": "partial",
   "theorems": [
    "Verif.Gsd.C73_kept_pairs_partial",
    "Verif.Gsd.C73_kept_pairs_refuted",
    "Verif.Gsd.C73_exactly"
   ],
   "note": "False: the yielded list object is shared and grows (witness). C73_exactly: kept pairs are right iff no frame after the first, among those looked at, begins a keyframe."
  },
  {
   "property": "C74",
   "status": "partial",
   "theorems": [
    "Verif.Gsd.C74_lammps_interval_partial",
    "Verif.Gsd.C74_lammps_interval_refuted",
    "Verif.Gsd.C74_exactly"
   ],
   "note": "False: frame_interval is ignored for lammpstrj (witness); proved for interval 1. Exactly for interval 1 or at most one frame (C74_exactly)."
  },
  {
   "property": "C75",
   "status": "partial",
   "theorems": [
    "Verif.Lammps.C75_all_initialised_partial",
    "Verif.Lammps.C75_exactly",
    "Verif.Lammps.C75_distinct",
    "Verif.Lammps.C75_all_initialised_refuted"
   ],
   "note": "False for repeated ids: np.empty entries survive (witness). C75_exactly gives the exact condition on the lines of a section, C75_distinct that it excludes repeated ids and short lines."
  },
  {
   "property": "C76",
   "status": "partial",
   "theorems": [
    "Verif.Lammps.C76_ids_checked_partial",
    "Verif.Lammps.C76_refused_row",
    "Verif.Lammps.C76_ids_checked_refuted",
    "Verif.Lammps.C76_exactly",
    "Verif.Lammps.C76_section"
   ],
   "note": "False: id 0 (and small negative ids) wrap around (witness). C76_exactly: a section of n atoms is read iff every id is in -(n-1) .. n and all words are numbers."
  },
  {
   "property": "C77",
   "status": "partial",
   "theorems": [
    "Verif.Lammps.C77_triclinic_box_partial",
    "Verif.Lammps.C77_exactly",
    "Verif.Lammps.C77_triclinic_box_refuted"
   ],
   "note": "False: tilt factors are ignored (witness); the lengths are right exactly for zero tilt, else too long by the extent of the tilts."
  },
  {
   "property": "C78",
   "status": "partial",
   "theorems": [
    "Verif.Cache.C78_group_none_partial",
    "Verif.Cache.C78_group_none_refuted"
   ],
   "note": "False: __attr_post_init__ is never called (witness). Proved: nothing is ever written and the first flush raises AssertionError."
  },
  {
   "property": "C79",
   "status": "proved",
   "theorems": [
    "Verif.Dynamics.C79_true_motion"
   ],
   "note": ""
  },
  {
   "property": "C80",
   "status": "partial",
   "theorems": [
    "Verif.RelaxTime.C80_numerical_partial",
    "Verif.RelaxTime.C80_refuted",
    "Verif.RelaxTime.C80_exactly"
   ],
   "note": "False: a FloatingPointError of the first root search escapes (witness); proved when that search raises none. Escapes exactly when the search at the fitted parameters raises it (C80_exactly)."
  },
  {
   "property": "C81",
   "status": "partial",
   "theorems": [
    "Verif.Names.C81_last_field_partial",
    "Verif.Names.C81_refuted",
    "Verif.Names.C81_exactly"
   ],
   "note": "False: the molecule name is read as a field ('Trimer' gives temperature 'rimer'); proved for the kinds the molecule name does not look like. Right exactly for the kinds which the molecule name does not look like or of which there is a field (C81_exactly)."
  },
  {
   "property": "C82",
   "status": "partial",
   "theorems": [
    "Verif.Process.C82_fresh_partial",
    "Verif.Process.C82_stale_refuted",
    "Verif.Process.C82_exactly"
   ],
   "note": "False when every frame raises a handled error: the old rows stay (witness); proved when some row is computed. Fresh exactly when the file had no rows or a row was computed (C82_exactly)."
  },
  {
   "property": "C83",
   "status": "partial",
   "theorems": [
    "Verif.Order.C83_num_neighbours_partial",
    "Verif.Order.C83_num_neighbours_refuted",
    "Verif.Order.C83_exactly"
   ],
   "note": "False beyond nine neighbours (witness); proved: the minimum of the number and nine. Right exactly up to nine neighbours (C83_exactly)."
  },
  {
   "property": "C84",
   "status": "partial",
   "theorems": [
    "Verif.Order.C84_cell_partial",
    "Verif.Order.C84_cell_refuted",
    "Verif.Order.C84_exactly",
    "Verif.Order.C84_distance",
    "Verif.Order.C84_at_least"
   ],
   "note": "False for three dimensional configurations (witness); proved for two dimensional ones. C84_exactly: for cells not tilted along z the distance used is right exactly when the difference along z is a whole number of cells; it is never too large, so no near molecule is missed for the radius."
  },
  {
   "property": "C85",
   "status": "partial",
   "theorems": [
    "Verif.Order.C85_lines_partial",
    "Verif.Order.C85_fraction",
    "Verif.Order.C85_succeeds",
    "Verif.Order.C85_empty",
    "Verif.Order.C85_corrupt_refuted",
    "Verif.Order.C85_none_lost",
    "Verif.Order.C85_exactly"
   ],
   "note": "False: a corrupt frame ends the run (every trajectory with one), and so does a frame without particles (0/0 raises). Proved up to the first such frame. A line for every readable frame exactly when each has a particle and none follows a corrupt one (C85_exactly)."
  },
  {
   "property": "C86",
   "status": "proved",
   "theorems": [
    "Verif.RelaxTime.C86_names",
    "Verif.RelaxTime.C86_injective"
   ],
   "note": ""
  },
  {
   "property": "C87",
   "status": "partial",
   "theorems": [
    "Verif.Molecule.C87_arguments_refuted",
    "Verif.Molecule.C87_arguments_partial",
    "Verif.Molecule.C87_exactly"
   ],
   "note": "False: the array is shifted and the dictionary extended in place (witnesses); proved when centred and with an A entry. Exactly then (C87_exactly)."
  },
  {
   "property": "C88",
   "status": "proved",
   "theorems": [
    "Verif.Angle.C88_angles",
    "Verif.Angle.C88_identity",
    "Verif.Angle.C88_quaternions",
    "Verif.Angle.C88_refused"
   ],
   "note": ""
  },
  {
   "property": "C89",
   "status": "partial",
   "theorems": [
    "Verif.Viewer.C89_first_partial",
    "Verif.Viewer.C89_builtin",
    "Verif.Viewer.C89_button",
    "Verif.Viewer.C89_refused",
    "Verif.Viewer.C89_shared_refuted",
    "Verif.Viewer.C89_replaced_refuted",
    "Verif.Viewer.C89_all",
    "Verif.Viewer.C89_exactly"
   ],
   "note": "False for several viewers, which share one dictionary (witnesses); proved for the first. With several viewers, the last offers exactly the built-in ones and the models of all viewers so far, so it offers just its own iff every earlier model has a name among these."
  },
  {
   "property": "C90",
   "status": "partial",
   "theorems": [
    "Verif.Cli.C90_terminal_partial",
    "Verif.Cli.C90_refuted",
    "Verif.Cli.C90_log_file_partial",
    "Verif.Cli.C90_exactly"
   ],
   "note": "False for every command line with --log-file; proved without it, and exactly what happens with it. C90_exactly: the options are independent exactly without --log-file."
  },
  {
   "property": "C91",
   "status": "proved",
   "theorems": [
    "Verif.Pipeline.C91_true_motion",
    "Verif.Pipeline.C91_returns",
    "Verif.Pipeline.C91_default_molecule"
   ],
   "note": "End to end over the models of the reader loop, Dynamics, Relaxations and WriteCache."
  },
  {
   "property": "C92",
   "status": "proved",
   "theorems": [
    "Verif.Pipeline.C92_first_row"
   ],
   "note": ""
  },
  {
   "property": "C93",
   "status": "proved",
   "theorems": [
    "Verif.Pipeline.C93_relaxations",
    "Verif.Pipeline.C93_rows"
   ],
   "note": ""
  },
  {
   "property": "C94",
   "status": "partial",
   "theorems": [
    "Verif.Pipeline.C94_small_systems",
    "Verif.Pipeline.C94_any_size_refuted",
    "Verif.Pipeline.C94_any_size_partial",
    "Verif.Pipeline.C94_exactly"
   ],
   "note": "False: one to nine molecules always end in ZeroDivisionError from the mobile overlap; proved from ten on. Processed exactly from ten molecules on (C94_exactly)."
  },
  {
   "property": "C95",
   "status": "partial",
   "theorems": [
    "Verif.Pipeline.C95_changing_cell_partial",
    "Verif.Pipeline.C95_box_ignored",
    "Verif.Pipeline.C95_changing_cell_refuted",
    "Verif.Motion.C95_exactly"
   ],
   "note": "False: the boxes of all frames but the first of a keyframe are ignored, so that a molecule crossing the boundary of a cell that has grown is reported with a wrong displacement; proved for a constant cell and for molecules that do not cross the boundary. Tracked right exactly when each stored step differs from the true one by a lattice vector of the first cell and no step exceeds half of it (C95_exactly)."
  },
  {
   "property": "C96",
   "status": "proved",
   "theorems": [
    "Verif.Pipeline.C96_exponential_frames",
    "Verif.Pipeline.C96_linear_frames",
    "Verif.Pipeline.C96_times"
   ],
   "note": ""
  },
  {
   "property": "C97",
   "status": "partial",
   "theorems": [
    "Verif.Pipeline.C97_reads_on_partial",
    "Verif.Pipeline.C97_rows_partial",
    "Verif.Pipeline.C97_reads_on_refuted",
    "Verif.Pipeline.C97_last",
    "Verif.Pipeline.C97_exactly"
   ],
   "note": "False for exponential steps without steps_max (the last frame of the file is yielded whether it is on the series or not); proved with steps_max and for linear steps. Without steps_max each keyframe gets the same frames up to the last one of the shorter file (C97_last). C97_exactly: without steps_max, a keyframe gets the same frames first exactly when the longer file still gives it the last frame of the shorter one."
  },
  {
   "property": "C98",
   "status": "partial",
   "theorems": [
    "Verif.Wave.C98_maximum_partial",
    "Verif.Wave.C98_no_structure",
    "Verif.Wave.C98_positive",
    "Verif.Wave.C98_planar_refuted"
   ],
   "note": "False for two dimensional boxes: the transform of three dimensions is used, and its maximum can be at the other end of the grid; proved for the structure factor of three dimensions."
  },
  {
   "property": "C99",
   "status": "partial",
   "theorems": [
    "Verif.Wave.C99_radius_partial",
    "Verif.Wave.C99_exactly_2d",
    "Verif.Wave.C99_exactly_3d",
    "Verif.Wave.C99_straight",
    "Verif.Wave.C99_radius_refuted"
   ],
   "note": "False for tilted cells: the radius is taken from the lengths of the cell vectors, not from the distances of the faces (freud also refuses such a radius); proved for tilts up to about 0.45, and the exact condition in two and three dimensions."
  },
  {
   "property": "C100",
   "status": "proved",
   "theorems": [
    "Verif.Wave.C100_vectors",
    "Verif.Wave.C100_sum",
    "Verif.Wave.C100_turned"
   ],
   "note": ""
  },
  {
   "property": "C101",
   "status": "proved",
   "theorems": [
    "Verif.StepSize.C101_steps_logarithmic",
    "Verif.StepSize.C101_series_length"
   ],
   "note": ""
  },
  {
   "property": "C102",
   "status": "partial",
   "theorems": [
    "Verif.Pipeline.C102_skip_harmless_partial",
    "Verif.Pipeline.C102_relaxations_kept",
    "Verif.Pipeline.C102_counted_again",
    "Verif.Pipeline.C102_skip_harmless_refuted",
    "Verif.Pipeline.C102_exactly"
   ],
   "note": "False: a frame with an orientation that is not normalised is skipped after its displacement has been counted, and the next displacement is counted from the frame before it again; proved for frames with another number of molecules, and in general for the molecular relaxations. A frame with bad orientations leaves no trace iff it has the positions of the frame before, up to periodic images."
  },
  {
   "property": "C103",
   "status": "partial",
   "theorems": [
    "Verif.Relax.C103_averages_partial",
    "Verif.Relax.C103_unmoved",
    "Verif.Relax.C103_layout_refuted",
    "Verif.Relax.C103_exactly"
   ],
   "note": "False: the package lays particles out with all first particles of the molecules first, and the status averages consecutive ones, which belong to different molecules; proved for distances laid out molecule by molecule. A particle which never moved enters the average as 2**32 - 1. C103_exactly: right for all distances exactly for one molecule, or molecules of one particle."
  },
  {
   "property": "C104",
   "status": "proved",
   "theorems": [
    "Verif.RelaxTime.C104_recovers",
    "Verif.RelaxTime.C104_fitted",
    "Verif.RelaxTime.C104_derivative",
    "Verif.RelaxTime.C104_second_derivative"
   ],
   "note": "curve_fit is assumed to return, to be optimal, and to have zero covariance for an exact fit; scipy's newton is modelled."
  },
  {
   "property": "C105",
   "status": "partial",
   "theorems": [
    "Verif.Pipeline.C105_twins_partial",
    "Verif.Pipeline.C105_planar",
    "Verif.Pipeline.C105_twins_refuted",
    "Verif.Pipeline.C105_is2D_ignored",
    "Verif.Pipeline.C105_zero_wave_number",
    "Verif.Pipeline.C105_dynamics_made",
    "Verif.Pipeline.C105_exactly"
   ],
   "note": "False without a molecule: Dynamics then takes the system as two dimensional and Relaxations as three dimensional, and the argument is2D of Relaxations is overwritten; proved with a molecule, and for positions at one height. C105_exactly: without a molecule, in a cell whose third vector is along z, the displacements differ in their heights only, which Dynamics drops."
  },
  {
   "property": "C106",
   "status": "proved",
   "theorems": [
    "Verif.Pipeline.C106_lammps",
    "Verif.Pipeline.C106_missing_column"
   ],
   "note": "Numbers are ideal; the wave number is given."
  },
  {
   "property": "C107",
   "status": "partial",
   "theorems": [
    "Verif.Pipeline.C107_damage_partial",
    "Verif.Pipeline.C107_damage_refuted",
    "Verif.Process.C107_reader_raises",
    "Verif.Pipeline.C107_exactly"
   ],
   "note": "False: the cache is flushed only when full or after the last frame, so a RuntimeError of the reader leaves just the rows of full caches (nothing for up to 8192 rows) and no molecular relaxations. Proved: exactly which rows are kept. Exactly (C107_exactly), with a new output file: all rows are kept iff there are none; otherwise at least one and at most 8192 are lost."
  },
  {
   "property": "C108",
   "status": "partial",
   "theorems": [
    "Verif.Names.C108_assign_partial",
    "Verif.Names.C108_assign_refuted",
    "Verif.Names.C108_none",
    "Verif.Names.C108_construct",
    "Verif.Names.C108_defaults",
    "Verif.Names.C108_context",
    "Verif.Names.C108_exactly"
   ],
   "note": "False for None on the file parameters: assigning None to outfile or output is ignored, to infile is a TypeError, while the constructor takes None for all three. Proved for every other parameter and value. C108_exactly lists the assignments that take effect."
  },
  {
   "property": "C109",
   "status": "partial",
   "theorems": [
    "Verif.Thermo.C109_shows_partial",
    "Verif.Thermo.C109_shows_refuted",
    "Verif.Thermo.C109_same_name",
    "Verif.Thermo.C109_no_files",
    "Verif.Thermo.C109_few_columns",
    "Verif.Thermo.C109_reports",
    "Verif.Thermo.C109_plots",
    "Verif.Thermo.C109_exactly",
    "Verif.Thermo.C109_other_name"
   ],
   "note": "False: when the new directory has a file of the name chosen, nothing is read and the data of the old directory stay. Proved when no two directories share a file name. A directory without files, or whose file has too few columns, is also left half changed. C109_exactly: after a choice of directory the right data are shown exactly when it is the same directory, has no file of the name chosen, or its file of that name has the same values in all that is shown."
  },
  {
   "property": "C110",
   "status": "proved",
   "theorems": [
    "Verif.Thermo.C110_rows",
    "Verif.Thermo.C110_partition",
    "Verif.Thermo.C110_increasing",
    "Verif.Thermo.C110_empty"
   ],
   "note": "The bins of pandas' resample are assumed as in pandas 0.25; averages are ideal."
  },
  {
   "property": "C111",
   "status": "proved",
   "theorems": [
    "Verif.Pipeline.C111_times",
    "Verif.Pipeline.C111_returns",
    "Verif.Pipeline.e_chain"
   ],
   "note": "From the frames of the trajectory to the table of comp_relaxations. Numbers are ideal; scipy's fit, its harmonic mean and the wave number are given; the tables come back from the file as written."
  },
  {
   "property": "C112",
   "status": "partial",
   "theorems": [
    "Verif.Pipeline.C112_position_partial",
    "Verif.Pipeline.C112_single_partial",
    "Verif.Pipeline.C112_refuted",
    "Verif.Pipeline.C112_witness",
    "Verif.Pipeline.C112_times_stored",
    "Verif.Pipeline.C112_exactly"
   ],
   "note": "False: the series is indexed by the row numbers of the table, which start at 0 again with every flush of 8192 rows, so what is reported is the position in the file modulo 8192. Proved: it is the position of the right frame; and with one keyframe, a frame for every step and at most 8192 frames it is the time. C112_exactly: the time is right exactly when it is the position in the file modulo 8192."
  },
  {
   "property": "C113",
   "status": "partial",
   "theorems": [
    "Verif.Order.C113_neighbours_partial",
    "Verif.Order.C113_neighbours_refuted",
    "Verif.Order.C113_bad_box"
   ],
   "note": "False for sparse systems: images further than 5 are left out, a molecule alone in a large cell has no neighbours. Proved when no empty disc has a radius of 2.5 or more. Assumed of freud: the neighbours are those among the molecules and at least all images within the buffer."
  },
  {
   "property": "C114",
   "status": "partial",
   "theorems": [
    "Verif.Order.C114_rotation_partial",
    "Verif.Order.C114_sign_partial",
    "Verif.Order.C114_signs_refuted",
    "Verif.Order.C114_input",
    "Verif.Order.C114_planar",
    "Verif.Order.C114_exactly"
   ],
   "note": "False: the angle between two quaternions is not the angle between the orientations, it goes up to 2π and changes from a to 2π - a with the sign of one of them (witness). Proved: exactly what the model is given, and that rotating everything or changing all signs changes nothing. C114_exactly: the sign of one quaternion does not matter for two molecules exactly when they have the same orientation or are half a turn apart."
  },
  {
   "property": "C115",
   "status": "partial",
   "theorems": [
    "Verif.Rounding.C115_columns_partial",
    "Verif.Rounding.C115_box_partial",
    "Verif.Rounding.C115_ids_partial",
    "Verif.Rounding.C115_ids_refuted",
    "Verif.Rounding.C115_ids_exactly"
   ],
   "note": "Columns and box proved with explicit error bounds; ids proved up to 2^24 atoms. False beyond: the id column is float32 and atom 16777217 is listed as 16777216 (witness). Overflow of float32 is not modelled. C115_ids_exactly: the ids are kept exactly up to 2^24 atoms."
  },
  {
   "property": "C116",
   "status": "partial",
   "theorems": [
    "Verif.Rounding.C116_error_partial",
    "Verif.Rounding.C116_grid_partial",
    "Verif.Rounding.C116_stuck",
    "Verif.Rounding.C116_refuted"
   ],
   "note": "False: delta_translation is float32 like the positions, and a displacement of 2^k does not change by steps below 2^(k-25), so no fraction below 1 bounds the error (witness for every such fraction). Proved: an error bound growing with the number of frames, and exact results on a grid. Assumed of freud's wrap: its error (C116_error_partial), or that it is exact on the grid."
  },
  {
   "property": "C117",
   "status": "partial",
   "theorems": [
    "Verif.Pipeline.C117_forward_partial",
    "Verif.Pipeline.C117_sorted_partial",
    "Verif.Pipeline.C117_exponential_partial",
    "Verif.Pipeline.C117_backward",
    "Verif.Pipeline.C117_relaxations",
    "Verif.Pipeline.C117_refuted",
    "Verif.Pipeline.C117_exactly"
   ],
   "note": "False with the linear reader: steps are numpy uint64, importing the package sets np.seterr(over=raise), so a frame before the first of its keyframe raises FloatingPointError, which process_file does not catch; what is left in the file is proved. Proved: files in order, and the exponential reader on any file, behave as the integer models of the other claims. C117_exactly: process_file returns exactly when no frame of a keyframe is before its first."
  },
  {
   "property": "C118",
   "status": "proved",
   "theorems": [
    "Verif.Rounding.C118_exact",
    "Verif.Rounding.C118_accumulated",
    "Verif.Rounding.C118_stored",
    "Verif.Rounding.C118_numbers"
   ],
   "note": "Float32 rounding as the nearest number, ties to even, no overflow; rowan itself computes exactly (float64 in the code). Rotations about z only."
  },
  {
   "property": "C119",
   "status": "proved",
   "theorems": [
    "Verif.Rounding.C119_roundtrip",
    "Verif.Rounding.C119_identity"
   ],
   "note": "Float32 rounding to nearest even; rowan computes exactly. Angles within 2^-146 above -pi are left out: no float64 is that close."
  },
  {
   "property": "C120",
   "status": "partial",
   "theorems": [
    "Verif.Rounding.C120_range_partial",
    "Verif.Rounding.C120_refuted",
    "Verif.Rounding.C120_exactly"
   ],
   "note": "False: half a turn comes out as the float32 nearest to pi, 13176795/2^22, which is 8.7e-8 above pi. Proved: nothing is further out. Exactly the angles beyond the point half way between the two numbers of float32 around pi come out too large (C120_exactly)."
  },
  {
   "property": "C121",
   "status": "partial",
   "theorems": [
    "Verif.Rounding.C121_tenth_partial",
    "Verif.Rounding.C121_number",
    "Verif.Rounding.C121_within_one_partial",
    "Verif.Rounding.C121_refuted",
    "Verif.Rounding.C121_exactly"
   ],
   "note": "False: 0.29 of 100 molecules is 28. Proved: always right for the default 0.1, for up to 2^52 molecules, so the overlap is the exact one rounded once; otherwise off by one at most (up to 2^51 molecules). Only fractions that are a whole number of molecules can be miscounted, by one too few (C121_exactly)."
  },
  {
   "property": "C122",
   "status": "partial",
   "theorems": [
    "Verif.Relax.C122_first_partial",
    "Verif.Relax.C122_last_partial",
    "Verif.Relax.C122_late",
    "Verif.Relax.C122_refuted",
    "Verif.Relax.C122_columns_refuted",
    "Verif.Relax.C122_exactly"
   ],
   "note": "False: whoever first exceeds the threshold at step 2^32-1 or later is marked as never having done so (proved for every threshold), while the last-passage time is recorded, so tau_L exceeds tau_D. Proved for shorter runs. Right exactly for molecules with a frame before step 2^32-1 beyond the threshold, or with none at all (C122_exactly)."
  },
  {
   "property": "C123",
   "status": "proved",
   "theorems": [
    "Verif.Rounding.C123_msd",
    "Verif.Rounding.C123_mfd"
   ],
   "note": "For every order of additions; overflow of float32 is not modelled."
  },
  {
   "property": "C124",
   "status": "partial",
   "theorems": [
    "Verif.Rounding.C124_alpha_partial",
    "Verif.Rounding.C124_gamma_partial",
    "Verif.Rounding.C124_rest",
    "Verif.Rounding.C124_refuted"
   ],
   "note": "False: one of two molecules moved by 2^-37 gives a division of a number by zero, which raises again inside the handler (only invalid is ignored there). Proved: a number within the fraction (3N+19)/2^23 for motions not below 2^-20 (gamma: or a ratio below 2^-125), NaN at rest."
  },
  {
   "property": "C125",
   "status": "partial",
   "theorems": [
    "Verif.Figures.C125_negative_partial",
    "Verif.Figures.C125_positive_partial",
    "Verif.Figures.C125_class",
    "Verif.Figures.C125_refuted",
    "Verif.Figures.C125_exactly"
   ],
   "note": "False for every angle: the palette starts at hue 0 at -pi in the legend, but at angle 0 in the plot, so the legend is half a turn off. Proved: it shows the colour of the molecules half a turn away (for positive angles to within one hue); the classification legend is right. The colour mappers of bokeh are assumed. From 0 to pi the legend is right up to half a turn iff the angle is a whole number of degrees."
  },
  {
   "property": "C126",
   "status": "partial",
   "theorems": [
    "Verif.Figures.C126_own_partial",
    "Verif.Figures.C126_same_partial",
    "Verif.Figures.C126_many_refuted",
    "Verif.Figures.C126_figures_refuted",
    "Verif.Figures.C126_exactly"
   ],
   "note": "False: with two more categories than colours (ten by default) two categories have the colour for missing values (for every palette), and without factors the colour of a category depends on which others are present (witness). Proved up to the number of colours, and with given factors. The colour mappers of bokeh are assumed. Within one figure right exactly up to the number of colours (C126_exactly)."
  },
  {
   "property": "C127",
   "status": "partial",
   "theorems": [
    "Verif.Viewer.C127_partial",
    "Verif.Viewer.C127_refuted",
    "Verif.Viewer.C127_restored",
    "Verif.Viewer.C127_exactly"
   ],
   "note": "False even when all files can be read: after an IndexError on changing to a shorter file its frames are shown under the name of the old file (witness). Proved as long as no event has raised an exception. After an exception another choice that raises none makes the page consistent again; moving the slider or choosing an algorithm does iff the chosen file is the open and the named one."
  },
  {
   "property": "C128",
   "status": "partial",
   "theorems": [
    "Verif.Pipeline.C128_position_partial",
    "Verif.Pipeline.C128_single_partial",
    "Verif.Pipeline.C128_witness",
    "Verif.Pipeline.C128_refuted",
    "Verif.Pipeline.C128_exactly"
   ],
   "note": "False: with frames three steps apart a constant of 1/6 is reported as 1/2, since the fit is to row numbers. Proved: exactly what is reported, and that it is the true constant times the number of steps between frames for a single keyframe. C128_exactly: for one keyframe with frames equally far apart the constant is right exactly when they are one step apart, or it is zero."
  },
  {
   "property": "C129",
   "status": "proved",
   "theorems": [
    "Verif.Rounding.C129_mean",
    "Verif.Rounding.C129_length"
   ],
   "note": "For every order of additions; overflow of float32 is not modelled."
  },
  {
   "property": "C130",
   "status": "partial",
   "theorems": [
    "Verif.Rounding.C130_partial",
    "Verif.Rounding.C130_apart_partial",
    "Verif.Rounding.C130_refuted",
    "Verif.Rounding.C130_exactly"
   ],
   "note": "False for molecules at the distance: it is rounded to float32 before the comparison (witness 1/2 and 1/2 + 2^-40). Proved: the result is between the proportions for distances one part in 2^21 smaller and larger, and exact if no molecule is between. C130_exactly: right exactly when as many are counted wrongly as are left out."
  },
  {
   "property": "C131",
   "status": "proved",
   "theorems": [
    "Verif.Rounding.C131_rot1",
    "Verif.Rounding.C131_rot2"
   ],
   "note": "The accuracy of numpy's float32 cosine is a hypothesis."
  },
  {
   "property": "C132",
   "status": "proved",
   "theorems": [
    "Verif.Rounding.C132_displacements"
   ],
   "note": "The accuracy of freud's wrap is a hypothesis, as in C116; overflow of float32 is not modelled."
  },
  {
   "property": "C133",
   "status": "proved",
   "theorems": [
    "Verif.Rounding.C133_rotations"
   ],
   "note": "The accuracy of numpy's float32 cosine is a hypothesis, rowan's tolerances parameters."
  },
  {
   "property": "C134",
   "status": "partial",
   "theorems": [
    "Verif.Rounding.C134_first_partial",
    "Verif.Rounding.C134_last_partial",
    "Verif.Rounding.C134_rotation_partial",
    "Verif.Rounding.C134_refuted"
   ],
   "note": "Refuted: a displacement of 1/2 does not pass the threshold 1/2 - 2^-40, which is 1/2 in float32. Holds up to one part in 2^20 of the threshold and the error of the motion (C116, C118): exactly if no length is that near, and between the times of the two thresholds otherwise."
  },
  {
   "property": "C135",
   "status": "proved",
   "theorems": [
    "Verif.Dynamics.C135_units"
   ],
   "note": "np.argsort is assumed to find the order by comparing numbers; the row and the exceptions are compared as a whole."
  },
  {
   "property": "C136",
   "status": "partial",
   "theorems": [
    "Verif.RelaxTime.C136_time",
    "Verif.RelaxTime.C136_diffusion_time",
    "Verif.RelaxTime.C136_length_partial",
    "Verif.RelaxTime.C136_length_refuted",
    "Verif.RelaxTime.C136_line"
   ],
   "note": "Times: proved. Lengths: refuted, the msd is fitted between 2 and 50 in whatever unit it comes, so that 3, 4, 5 has a diffusion constant and a tenth of it NaN; holds when the same samples are in that range in both units. C136_line: for values on a straight line the diffusion constant follows the unit of length even when other samples are fitted."
  },
  {
   "property": "C137",
   "status": "partial",
   "theorems": [
    "Verif.Viewer.C137_partial",
    "Verif.Viewer.C137_quiet_partial",
    "Verif.Viewer.C137_held_partial",
    "Verif.Viewer.C137_document",
    "Verif.Viewer.C137_refuted",
    "Verif.Viewer.C137_exactly"
   ],
   "note": "Holds when classifying never fails, and until the first exception; the title is always that of the frame held. Refuted: the title is set before the data is computed, so a frame that cannot be classified leaves the previous one plotted under its timestep. Exactly (C137_exactly): the title belongs to the frame plotted iff that is the frame the viewer holds."
  },
  {
   "property": "C138",
   "status": "partial",
   "theorems": [
    "Verif.Pipeline.C138_ratios",
    "Verif.Pipeline.C138_position_partial",
    "Verif.Pipeline.C138_single_partial",
    "Verif.Pipeline.C138_witness",
    "Verif.Pipeline.C138_refuted",
    "Verif.Pipeline.C138_exactly"
   ],
   "note": "The values in the rows: proved. The time: the right frame is found, but its position among all processed pairs, modulo 8192, is reported; for a single keyframe the frame number. Refuted with frames three steps apart. C138_exactly: the time is right exactly when it is the position in the file modulo 8192."
  },
  {
   "property": "C139",
   "status": "partial",
   "theorems": [
    "Verif.Pipeline.C139_molecules",
    "Verif.Pipeline.C139_places_partial",
    "Verif.Pipeline.C139_witness",
    "Verif.Pipeline.C139_refuted"
   ],
   "note": "Relaxation times of molecules: proved. The others: hold if the frames of the keyframe are processed at the same places in both runs. Refuted: a second keyframe that begins with frame 1 changes the diffusion constant reported for keyframe 0 from 1/2 to 1/4."
  },
  {
   "property": "C140",
   "status": "partial",
   "theorems": [
    "Verif.RelaxTime.C140_decay_partial",
    "Verif.RelaxTime.C140_struct_partial",
    "Verif.RelaxTime.C140_max_partial",
    "Verif.RelaxTime.C140_max_value",
    "Verif.RelaxTime.C140_diffusion_partial",
    "Verif.RelaxTime.C140_refuted",
    "Verif.RelaxTime.C140_decay_exactly",
    "Verif.RelaxTime.C140_max_exactly",
    "Verif.RelaxTime.C140_rise_exactly",
    "Verif.RelaxTime.C140_start_exactly"
   ],
   "note": "Proved with the stated distances from thresholds and other values. Refuted without: with a value at 1/e, or two equal maxima, errors however small move the time by any amount. C140_decay_exactly says exactly which decays keep their time under errors of up to a given size, when they first cross after their first value. C140_max_exactly says the same of the times of a maximum. C140_rise_exactly is the statement for struct_msd. C140_start_exactly is the statement for decays for which the first time is reported."
  },
  {
   "property": "C141",
   "status": "proved",
   "theorems": [
    "Verif.Rounding.C141_rotations",
    "Verif.Rounding.C141_displacements"
   ],
   "note": "For com_struct the shares at distances slightly smaller and larger must be on the same side of 1/e. The solver is the same for both series; its own rounding is left out."
  },
  {
   "property": "C142",
   "status": "partial",
   "theorems": [
    "Verif.Figures.C142_shows",
    "Verif.Figures.C142_others",
    "Verif.Figures.C142_failed",
    "Verif.Figures.C142_again_partial",
    "Verif.Figures.C142_refuted",
    "Verif.Figures.C142_exactly"
   ],
   "note": "Older figures agree when colours are not categories or factors are given. Refuted otherwise: the older figure keeps the factors of its own first data and shows new categories in the colour for missing values. Without factors the older figure agrees exactly when the new categories, in order, are the first of its own (C142_exactly)."
  },
  {
   "property": "C143",
   "status": "partial",
   "theorems": [
    "Verif.Wave.C143_spared_partial",
    "Verif.Wave.C143_calls_partial",
    "Verif.Wave.C143_size",
    "Verif.Wave.C143_write_refuted",
    "Verif.Wave.C143_float_refuted",
    "Verif.Wave.C143_exactly",
    "Verif.Wave.C143_float_exactly"
   ],
   "note": "Proved when no kept array is changed. Refuted: the array returned is the one in the cache, so a caller who changes it changes later results; and a float resolution is refused or accepted depending on earlier calls. Exactly (C143_exactly, C143_float_exactly): the result is right iff the array kept for the arguments, if any, still is; a float is refused iff nothing is kept for the same numbers."
  },
  {
   "property": "C144",
   "status": "partial",
   "theorems": [
    "Verif.Dynamics.C144_cell",
    "Verif.Dynamics.C144_axes_partial",
    "Verif.Dynamics.C144_half_cell_refuted",
    "Verif.Dynamics.C144_wave_vectors_refuted",
    "Verif.Dynamics.C144_struct_refuted"
   ],
   "note": "Proved for all values but struct, for steps that are not half a cell and turns that are not half a turn; exchanges need a number of wave vectors that is a multiple of 4. Each restriction has a counterexample (struct because the code turns particles about the wrong axis)."
  },
  {
   "property": "C145",
   "status": "partial",
   "theorems": [
    "Verif.Dynamics.C145_backwards_partial",
    "Verif.Dynamics.C145_half_cell_refuted",
    "Verif.Dynamics.C145_struct_refuted"
   ],
   "note": "Proved for all values but struct, for steps that are not half a cell and turns that are not half a turn; counterexamples for a step of half a cell and for struct."
  },
  {
   "property": "C146",
   "status": "partial",
   "theorems": [
    "Verif.Pipeline.C146_com_struct_partial",
    "Verif.Pipeline.C146_no_return",
    "Verif.Pipeline.C146_rotations",
    "Verif.Pipeline.C146_refuted",
    "Verif.Pipeline.C146_exactly"
   ],
   "note": "com_struct is at least the proportion with a later tau_F (up to molecules exactly at the distance), and equal when molecules do not come back; refuted by molecules that come back. The bounds for rot1 and rot2 hold without restriction. It holds in a frame iff no molecule within the distance was beyond it before."
  },
  {
   "property": "C147",
   "status": "proved",
   "theorems": [
    "Verif.Dynamics.C147_translations",
    "Verif.Dynamics.C147_rotations"
   ],
   "note": "For every row of an object made with a wave number and at least three wave vectors."
  },
  {
   "property": "C148",
   "status": "partial",
   "theorems": [
    "Verif.Angle.C148_rotation_partial",
    "Verif.Angle.C148_angle_partial",
    "Verif.Angle.C148_half_partial",
    "Verif.Angle.C148_planar_partial",
    "Verif.Angle.C148_distance",
    "Verif.Angle.C148_rotation_refuted",
    "Verif.Angle.C148_angle_refuted",
    "Verif.Angle.C148_exactly"
   ],
   "note": "quaternion_rotation gives half the angle (or pi minus half of it, for the opposite sign of one quaternion) and quaternion_angle goes up to two pi; what they do measure is proved for all unit quaternions. quaternion_rotation is right exactly without a rotation, or for a third of a turn between quaternions of opposite sign (C148_exactly)."
  },
  {
   "property": "C149",
   "status": "proved",
   "theorems": [
    "Verif.Pipeline.C149_keyframes"
   ],
   "note": "Frames between may differ and so may the cells of the two keyframes."
  },
  {
   "property": "C150",
   "status": "proved",
   "theorems": [
    "Verif.Pipeline.C150_rows",
    "Verif.Pipeline.C150_times"
   ],
   "note": ""
  },
  {
   "property": "C151",
   "status": "partial",
   "theorems": [
    "Verif.Pipeline.C151_pooled",
    "Verif.Pipeline.C151_alpha_partial",
    "Verif.Pipeline.C151_alpha_refuted",
    "Verif.Pipeline.C151_gamma_refuted",
    "Verif.Pipeline.C151_ratios_exactly",
    "Verif.Pipeline.C151_alpha_exactly",
    "Verif.Pipeline.C151_gamma_exactly",
    "Verif.Pipeline.C151_alpha_rot_exactly"
   ],
   "note": "Exact weighted means for all averages. The non-Gaussian parameters are not less than the lesser one of the parts but may exceed both; the coupling may lie below both: concrete runs for both. C151_ratios_exactly gives the ratios of the whole from what is reported for the parts, and C151_alpha_exactly says that a parameter both parts share is that of the whole exactly when they have the same mean squared displacement. C151_gamma_exactly says when a coupling both parts share is that of the whole, and when the whole is above it. C151_alpha_rot_exactly is the statement for rotations."
  },
  {
   "property": "C152",
   "status": "partial",
   "theorems": [
    "Verif.Pipeline.C152_repeats_partial",
    "Verif.Pipeline.C152_missing_steps_refuted",
    "Verif.Pipeline.C152_linear_refuted",
    "Verif.Pipeline.C152_exactly"
   ],
   "note": "Holds with exponential steps when no step of the series before the end is missing. With missing steps a repeated frame makes the reader drop another one; with linear steps it starts a further keyframe. With linear steps it holds iff no frame up to steps_max is repeated."
  },
  {
   "property": "C153",
   "status": "partial",
   "theorems": [
    "Verif.Pipeline.C153_trackers",
    "Verif.Pipeline.C153_linear_partial",
    "Verif.Pipeline.C153_exponential_frames_partial",
    "Verif.Pipeline.C153_exponential_tables_partial",
    "Verif.Pipeline.C153_exponential_refuted",
    "Verif.Pipeline.C153_linear_refuted",
    "Verif.Pipeline.C153_exactly",
    "Verif.Pipeline.C153_none_exactly"
   ],
   "note": "The trackers use differences of steps only. The readers count from step 0: with linear steps the statement holds for whole intervals; with exponential ones the keyframes are renumbered, and frames are lost when there are too few keyframes. With linear steps exactly (C153_exactly, C153_none_exactly): when some frame up to steps_max starts a keyframe, the later file is read with the same keyframes iff the number of steps added is a multiple of keyframe_interval; when none does, iff none does in the later file."
  },
  {
   "property": "C154",
   "status": "proved",
   "theorems": [
    "Verif.Pipeline.C154_exponential",
    "Verif.Pipeline.C154_linear",
    "Verif.Pipeline.C154_exponential_tables",
    "Verif.Pipeline.C154_linear_tables"
   ],
   "note": ""
  },
  {
   "property": "C155",
   "status": "partial",
   "theorems": [
    "Verif.Pipeline.C155_linear",
    "Verif.Pipeline.C155_linear_tables",
    "Verif.Pipeline.C155_exponential_partial",
    "Verif.Pipeline.C155_tables_partial",
    "Verif.Pipeline.C155_exponential_refuted",
    "Verif.Pipeline.C155_exactly"
   ],
   "note": "Holds with linear steps, and with exponential ones when every frame is on the smaller series or no step of the larger one is missing. Otherwise a frame can be lost to keyframe 0 for keyframe_max 1 that is read for 2. C155_exactly: a keyframe keeps its frames iff frames on its series are handed out at the same times for both (C178)."
  },
  {
   "property": "C156",
   "status": "partial",
   "theorems": [
    "Verif.Pipeline.C156_readers_partial",
    "Verif.Pipeline.C156_tables_partial",
    "Verif.Pipeline.C156_keyframes_refuted",
    "Verif.Pipeline.C156_missing_refuted",
    "Verif.Pipeline.C156_exactly"
   ],
   "note": "Holds for the keyframes below keyframe_max when every multiple of the interval has a frame. The linear reader has one keyframe more (keyframe_max itself), and numbers the keyframes by frames present, the exponential one by steps. Exactly (C156_exactly): both give keyframe k below keyframe_max the same frames iff no frame from step k * keyframe_interval to steps_max comes before the (k+1)-th frame at a multiple of the interval."
  },
  {
   "property": "C157",
   "status": "partial",
   "theorems": [
    "Verif.Lammps.C157_spacing_partial",
    "Verif.Lammps.C157_empty_word",
    "Verif.Lammps.C157_spacing_refuted",
    "Verif.Lammps.C157_exactly"
   ],
   "note": "Holds for the lines of the step, of the number of atoms and of the box. The lines of atoms are split at single spaces, so two spaces or a tab end the reading with ValueError. The lines of the atoms are read iff each, cut at single spaces, has a whole number in the place of id that is one of an atom, and numbers below the headings."
  },
  {
   "property": "C158",
   "status": "proved",
   "theorems": [
    "Verif.Lammps.C158_int",
    "Verif.Lammps.C158_unique",
    "Verif.Lammps.C158_written",
    "Verif.Lammps.C158_refused"
   ],
   "note": ""
  },
  {
   "property": "C159",
   "status": "partial",
   "theorems": [
    "Verif.Gsd.C159_ends_partial",
    "Verif.Gsd.C159_hangs",
    "Verif.Gsd.C159_ends_refuted",
    "Verif.Gsd.C159_errors",
    "Verif.Gsd.C159_exactly",
    "Verif.Gsd.C159_series",
    "Verif.Gsd.C159_ending"
   ],
   "note": "Ends for linear_steps at least 1, and is then the reader on lists. With linear_steps of 0 or less a file with a readable frame and a positive number of steps is never read: no frame, no return, no exception. C159_exactly says exactly when it ends; negative steps raise KeyError, an interval of 0 ZeroDivisionError."
  },
  {
   "property": "C160",
   "status": "partial",
   "theorems": [
    "Verif.Motion.C160_values_partial",
    "Verif.Motion.C160_new",
    "Verif.Motion.C160_buffer",
    "Verif.Motion.C160_values_refuted",
    "Verif.Motion.C160_same_array",
    "Verif.Motion.C160_kept_refuted",
    "Verif.Motion.C160_exactly"
   ],
   "note": "Holds when the arrays of the last frame are left alone until the next frame is added. The tracker keeps the arrays themselves: with one array reused for every frame no displacement is ever seen. delta_translation and delta_rotation hand out the same array each time, which the next frame changes. C160_exactly: for one frame added in the array of the last one, the displacements are right exactly when no molecule has moved but by whole cells."
  },
  {
   "property": "C161",
   "status": "partial",
   "theorems": [
    "Verif.Viewer.C161_texts",
    "Verif.Viewer.C161_order_partial",
    "Verif.Viewer.C161_order_refuted",
    "Verif.Viewer.C161_exactly"
   ],
   "note": "All lists are in the order of texts, which is increasing for numbers with the same number of digits before the point; the temperature 10.0 is offered before 2.0. Exactly (C161_exactly): each list is in increasing order iff any two numbers of it are in the same order as numbers and as texts."
  },
  {
   "property": "C162",
   "status": "proved",
   "theorems": [
    "Verif.Gsd.C162_frames",
    "Verif.Gsd.C162_attained",
    "Verif.Pipeline.C162_keyframe"
   ],
   "note": "How much C12 fails by; both bounds are attained."
  },
  {
   "property": "C163",
   "status": "partial",
   "theorems": [
    "Verif.Gsd.C163_linear",
    "Verif.Gsd.C163_linear_reaches",
    "Verif.Gsd.C163_exponential_frames",
    "Verif.Gsd.C163_exponential_partial",
    "Verif.Gsd.C163_limit",
    "Verif.Gsd.C163_last",
    "Verif.Gsd.C163_open",
    "Verif.Gsd.C163_refuted",
    "Verif.Gsd.C163_exactly",
    "Verif.Pipeline.C163_process_linear",
    "Verif.Pipeline.C163_process_exponential_partial"
   ],
   "note": "Linear reader and open_trajectory in full; exponential reader when no frame off the series lies between the last two steps or no step is missing, else refuted. C163_exactly: met iff no frame is waiting for a step at the end of the merged times (C178)."
  },
  {
   "property": "C164",
   "status": "partial",
   "theorems": [
    "Verif.Pipeline.C164_options",
    "Verif.Pipeline.C164_named_partial",
    "Verif.Pipeline.C164_exponential_partial",
    "Verif.Pipeline.C164_linear_partial",
    "Verif.Pipeline.C164_returns_partial",
    "Verif.Pipeline.C164_returns_linear_partial",
    "Verif.Pipeline.C164_bad_name",
    "Verif.Pipeline.C164_refused",
    "Verif.Pipeline.C164_custom",
    "Verif.Pipeline.C164_unnamed",
    "Verif.Pipeline.C164_missing",
    "Verif.Pipeline.C164_refuted",
    "Verif.Pipeline.C164_suffix",
    "Verif.Pipeline.C164_no_reader"
   ],
   "note": "Without --molecule, --output and --mol-relaxations (those fail, C72), for space groups that do not look like another field; refuted for P2gg."
  },
  {
   "property": "C165",
   "status": "partial",
   "theorems": [
    "Verif.Pipeline.C165_times_partial",
    "Verif.Pipeline.C165_refuted",
    "Verif.Pipeline.C165_linear_partial",
    "Verif.Pipeline.C165_unlimited"
   ],
   "note": "With exponential steps and a limit, for the options and names of C164; refuted for parameters whose difference is lost in the name. Also with --linear-dynamics, and without a limit."
  },
  {
   "property": "C166",
   "status": "partial",
   "theorems": [
    "Verif.Dynamics.C166_kept_partial",
    "Verif.Dynamics.C166_unit",
    "Verif.Dynamics.C166_again",
    "Verif.Dynamics.C166_tuple",
    "Verif.Dynamics.C166_near",
    "Verif.Dynamics.C166_refuted",
    "Verif.Dynamics.C166_refused"
   ],
   "note": "Exact condition for the array to be kept; refuted for arrays close to zero, which are written to. C166_refused gives the error for orientations that are no rotations."
  },
  {
   "property": "C167",
   "status": "partial",
   "theorems": [
    "Verif.Pipeline.C167_rows_partial",
    "Verif.Pipeline.C167_named",
    "Verif.Pipeline.C167_no_effect",
    "Verif.Pipeline.C167_refuted"
   ],
   "note": "Rows and names as stated; refuted for the options for keyframes, which are ignored for lammps files."
  },
  {
   "property": "C168",
   "status": "partial",
   "theorems": [
    "Verif.Pipeline.C168_times_partial",
    "Verif.Pipeline.C168_empty",
    "Verif.Pipeline.C168_refuted"
   ],
   "note": "Times of the molecules as stated; the table of relaxations is proved empty for every lammps trajectory, so the property is refuted for it."
  },
  {
   "property": "C169",
   "status": "proved",
   "theorems": [
    "Verif.Gsd.C169_frames",
    "Verif.Gsd.C169_steps",
    "Verif.Gsd.C169_two_needed"
   ],
   "note": "Complements the bound on the number of lost frames of C162."
  },
  {
   "property": "C170",
   "status": "partial",
   "theorems": [
    "Verif.Names.C170_default",
    "Verif.Names.C170_change",
    "Verif.Names.C170_assigns_partial",
    "Verif.Names.C170_separate_partial",
    "Verif.Names.C170_refuted",
    "Verif.Names.C170_context_partial",
    "Verif.Names.C170_context_refuted"
   ],
   "note": "Refuted for molecules changed in place; proved for assignments and for molecules that are not shared."
  },
  {
   "property": "C171",
   "status": "proved",
   "theorems": [
    "Verif.Wave.C171_bessel",
    "Verif.Wave.C171_all_directions",
    "Verif.Wave.C171_resolution",
    "Verif.Wave.C171_directions_irrelevant",
    "Verif.Pipeline.C171_true_motion"
   ],
   "note": ""
  },
  {
   "property": "C172",
   "status": "proved",
   "theorems": [
    "Verif.Cli.C172_viewer",
    "Verif.Cli.C172_others",
    "Verif.Cli.C172_libraries"
   ],
   "note": ""
  },
  {
   "property": "C173",
   "status": "proved",
   "theorems": [
    "Verif.Rounding.C173_displacements",
    "Verif.Rounding.C173_true_motion",
    "Verif.Rounding.C173_range",
    "Verif.Rounding.C173_start",
    "Verif.Rounding.C173_times"
   ],
   "note": "The accuracies of np.cos, np.sin and freud's wrap are hypotheses; overflow is not modelled."
  },
  {
   "property": "C174",
   "status": "partial",
   "theorems": [
    "Verif.Molecule.C174_equal_partial",
    "Verif.Molecule.C174_equal_refuted",
    "Verif.Molecule.C174_shape_partial",
    "Verif.Molecule.C174_shape_refuted",
    "Verif.Molecule.C174_exactly"
   ],
   "note": "Equal molecules have the same shape, plain Molecule objects aside: those are equal whatever their shape (witness). Trimers of the same shape are equal for positive distances and angles from 0 to 360; angles of 120 and 840 give the same shape and are unequal (witness). moment_inertia_scale, which is not compared, is not modelled. C174_exactly lists the trimers of the same shape and the equal ones."
  },
  {
   "property": "C175",
   "status": "partial",
   "theorems": [
    "Verif.Pipeline.C175_relaxations",
    "Verif.Pipeline.C175_current_partial",
    "Verif.Pipeline.C175_exactly",
    "Verif.Pipeline.C175_same",
    "Verif.Pipeline.C175_refuted"
   ],
   "note": "False: comp-dynamics leaves the table of relaxations of an earlier trajectory in the file, with a temperature that is in no other table (witness, both commands succeed). Proved: the table is always that of the tables at the last comp-relaxations that succeeded, so it is right when no comp-dynamics, or just the same one, was run since; comp-relaxations can be repeated and a failing one changes nothing."
  },
  {
   "property": "C176",
   "status": "partial",
   "theorems": [
    "Verif.Order.C176_agrees_partial",
    "Verif.Order.C176_particles",
    "Verif.Order.C176_refuted",
    "Verif.Order.C176_exactly"
   ],
   "note": "False: order uses the arrays of all particles, HoomdFrame only those of the molecules; for one molecule of two particles order prints 0 and the ordering marks the molecule (witness, for every correct neighbour search). Proved: they agree, errors included, when every particle is a molecule; in general the printed number is a multiple of 1/N. C176_exactly: the two agree exactly when the particles above 0.9 are the same part of all particles as the marked molecules of all molecules."
  },
  {
   "property": "C177",
   "status": "partial",
   "theorems": [
    "Verif.Molecule.C177_trimer_partial",
    "Verif.Molecule.C177_text",
    "Verif.Molecule.C177_others_refuted",
    "Verif.Molecule.C177_nan_refuted",
    "Verif.Molecule.C177_dimer_refuted",
    "Verif.Molecule.C177_written",
    "Verif.Molecule.C177_exactly",
    "Verif.Molecule.C177_named"
   ],
   "note": "Proved for trimers of numbers: the repr read back is the same call, and the text determines the arguments. False for all other classes: reading it back is always an error (they take no dimensions or _radii), and dimers of all distances have the same repr. How Python writes and reads numbers is assumed. It holds exactly for trimers without NaN. The name in the text is the str of the molecule and names its class (C177_named)."
  },
  {
   "property": "C178",
   "status": "proved",
   "theorems": [
    "Verif.Gsd.C178_taken"
   ],
   "note": "Exact for all files with increasing times: a machine of seven states run along the merged times. C12_exactly follows: nothing is lost iff nothing is held at a common time."
  },
  {
   "property": "C179",
   "status": "partial",
   "theorems": [
    "Verif.Viewer.C179_play_partial",
    "Verif.Viewer.C179_play_refuted",
    "Verif.Viewer.C179_back_exactly"
   ],
   "note": "Proved once the slider ends at the last frame. False in every directory for a new viewer: playing ends with an IndexError, and the last frame is shown only if its number is a multiple of ten. Stepping on and back returns iff there was room for a whole increment, or the frame is the first."
  },
  {
   "property": "C180",
   "status": "partial",
   "theorems": [
    "Verif.Lammps.C180_value",
    "Verif.Lammps.C180_kept",
    "Verif.Lammps.C180_columns_partial",
    "Verif.Lammps.C180_exactly",
    "Verif.Lammps.C180_refuted",
    "Verif.Lammps.C180_frame"
   ],
   "note": "The values: proved for all frames read. The dictionary: box and timestep are always those of the file, so columns of these names are lost (witness); all columns are there exactly when none has such a name. C180_frame: LammpsFrame sees the same as when columns, box and timestep are kept apart, as the other models do."
  }
 ]
}