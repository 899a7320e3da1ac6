{"claims": [
 {"property": "C01", "status": "proved", "theorems": ["Tsid.Props.C01_equations_of_motion", "Tsid.Props.C01_base_in_problem"], "note": ""},
 {"property": "C02", "status": "proved", "theorems": ["Tsid.Props.C02_actuation_tasks"], "note": ""},
 {"property": "C03", "status": "proved", "theorems": ["Tsid.Props.C03_motion_tasks"], "note": ""},
 {"property": "C04", "status": "proved", "theorems": ["Tsid.Props.C04_contact_entries"], "note": ""},
 {"property": "C05", "status": "partial", "theorems": ["Tsid.Props.C05_force_tasks_partial", "Tsid.Props.C05_reassociation_leaves_stale_columns"], "note": "histories that do not re-associate a registered force task; the witness shows the full claim is false of the code"},
 {"property": "C06", "status": "proved", "theorems": ["Tsid.Props.C06_variable_layout"], "note": ""},
 {"property": "C07", "status": "partial", "theorems": ["Tsid.Props.C07_counters_partial", "Tsid.Props.C07_counters_wrong"], "note": "histories that remove no force task from level 0; the witness shows the full claim is false of the code"},
 {"property": "C08", "status": "partial", "theorems": ["Tsid.Props.C08_addition_partial", "Tsid.Props.C08_higher_levels"], "note": "priority level below the number of levels; beyond it the code indexes out of bounds"},
 {"property": "C09", "status": "proved", "theorems": ["Tsid.Props.C09_rejected_additions"], "note": ""},
 {"property": "C10", "status": "partial", "theorems": ["Tsid.Props.C10_task_round_trip_partial", "Tsid.Props.C10_contact_round_trip", "Tsid.Props.C10_counters_wrong"], "note": "nEq/nIn are not restored when a force task leaves level 0"},
 {"property": "C11", "status": "partial", "theorems": ["Tsid.Props.removeTask_result", "Tsid.Props.C11_removeTask_partial", "Tsid.Props.C11_removeRigidContact_partial", "Tsid.Props.C11_removeTask_foreign", "Tsid.Props.C11_removeTask_contact_entry", "Tsid.Props.C11_duplicate_names", "Tsid.Props.C11_removeTask_base_dynamics"], "note": "histories with distinct names that remove tasks only; the effect of removeTask on any other name after such a history is stated exactly; witnesses for clashing names"},
 {"property": "C12", "status": "proved", "theorems": ["Tsid.Props.setWeight_result", "Tsid.Props.setWeightLevels_result", "Tsid.Props.C12_updateTaskWeight"], "note": ""},
 {"property": "C13", "status": "partial", "theorems": ["Tsid.Props.C13_updateRigidContactWeights_partial", "Tsid.Props.C13_level0_motion"], "note": "contacts whose motion entry is at level 1; witness for level 0"},
 {"property": "C14", "status": "partial", "theorems": ["Tsid.Props.C14_normal_force", "Tsid.Props.C14_break_begins", "Tsid.Props.C14_break_force_partial", "Tsid.Props.C14_interpolation_partial", "Tsid.Props.C14_skipped", "Tsid.Props.C14_throws", "Tsid.Props.C14_stale_force"], "note": "cycles in which no transition expires and breaks that begin above the minimum normal force, with the contacts of the last solution; witnesses for the other cases"},
 {"property": "C15", "status": "partial", "theorems": ["Tsid.Props.C15_expiry_partial", "Tsid.Props.C15_eventually", "Tsid.Props.C15_simultaneous"], "note": "one expiry per cycle: with two transitions expiring at once only the first is taken out in that cycle (witness)"},
 {"property": "C16", "status": "partial", "theorems": ["Tsid.Props.C16_contact_stays_partial", "Tsid.Props.C16_stale_break"], "note": "no stale break of an earlier registration of the contact is pending; witness otherwise"},
 {"property": "C17", "status": "partial", "theorems": ["Tsid.Props.C17_getters_partial", "Tsid.Props.C17_cached"], "note": "first getter after computeProblemData; a later getter with another solution returns the cached one (witness)"},
 {"property": "C18", "status": "partial", "theorems": ["Tsid.Props.C18_contact_slices_partial", "Tsid.Props.C18_out_of_bounds", "Tsid.Props.C18_same_name"], "note": "distinct names, getter called before further contacts are added; witnesses of two contacts of the same name and of the out-of-bounds read after such an addition"},
 {"property": "C19", "status": "proved", "theorems": ["Tsid.Props.C19_permuted", "Tsid.Props.C19_task_order"], "note": "any permutation of registrations that keeps the contact order; two tasks registered in either order"},
 {"property": "C20", "status": "proved", "theorems": ["Tsid.Props.C20_external_force", "Tsid.Props.C20_order", "Tsid.Props.C20_removal"], "note": ""},
 {"property": "C21", "status": "partial", "theorems": ["Tsid.Props.C21_memoryless_partial", "Tsid.Props.C21_repeat", "Tsid.Props.C21_reassociation"], "note": "histories that do not re-associate a registered force task; witness otherwise"},
 {"property": "C22", "status": "proved", "theorems": ["Tsid.Props.C22_friction", "Tsid.Props.C22_any_normal", "Tsid.Props.C22_long_normal", "Tsid.Props.C22_short_normal"], "note": "C22_any_normal gives the constraint for normals of any length from 1e-5 on; shorter ones lose friction (C22_short_normal)"},
 {"property": "C23", "status": "partial", "theorems": ["Tsid.Props.C23_cone_accepted", "Tsid.Props.C23_soundness_partial", "Tsid.Props.C23_outside_cone"], "note": "the accepted forces lie in the cone of coefficient sqrt 2 * mu only; the witness shows that they leave the cone of coefficient mu"},
 {"property": "C24", "status": "proved", "theorems": ["Tsid.Props.C24_coherent", "Tsid.Props.C24_rejected", "Tsid.Props.C24_limits", "Tsid.Props.C24_twoFrames_unordered"], "note": "two-frame contacts check no limits (witness)"},
 {"property": "C25", "status": "proved", "theorems": ["Tsid.Props.C25_force_generator", "Tsid.Props.C25_point"], "note": ""},
 {"property": "C26", "status": "partial", "theorems": ["Tsid.Props.C26_regularisation_partial", "Tsid.Props.C26_stale"], "note": "setContactPoints does not refresh the regularisation (witness)"},
 {"property": "C27", "status": "proved", "theorems": ["Tsid.Props.C27_point", "Tsid.Props.C27_two_frames"], "note": "point contacts and two-frame contacts, any history of calls and any uninitialised memory"},
 {"property": "C28", "status": "proved", "theorems": ["Tsid.Props.C28_bounds", "Tsid.Props.C28_timestep"], "note": ""},
 {"property": "C29", "status": "proved", "theorems": ["Tsid.Props.C29_position", "Tsid.Props.C29_needed", "Tsid.Props.C31_imposed"], "note": "joints that are not leaving the limits at the limit (C29_leaving shows why)"},
 {"property": "C30", "status": "proved", "theorems": ["Tsid.Props.C30_viability_upper", "Tsid.Props.C30_viability_lower", "Tsid.Props.C31_imposed"], "note": ""},
 {"property": "C31", "status": "proved", "theorems": ["Tsid.Props.C31_ordered", "Tsid.Props.C31_intersection", "Tsid.Props.C31_imposed"], "note": ""},
 {"property": "C32", "status": "partial", "theorems": ["Tsid.Props.C32_position_wins_partial", "Tsid.Props.C32_overruled", "Tsid.Props.C32_clamp"], "note": "the lower position limit, and the upper one unless another upper limit is smaller; witness otherwise"},
 {"property": "C33", "status": "partial", "theorems": ["Tsid.Props.C33_setTimeStep_partial", "Tsid.Props.C33_doubled", "Tsid.Props.C33_stale_factor"], "note": "velocity and acceleration limits, up to the factor two between constructor and setter; witnesses for the factor and for the stale position factors"},
 {"property": "C34", "status": "partial", "theorems": ["Tsid.Props.C34_off_partial", "Tsid.Props.C34_never", "Tsid.Props.C34_stale"], "note": "velocity and acceleration limits, and position and viability limits that were never imposed before; witness for stale bounds"},
 {"property": "C35", "status": "partial", "theorems": ["Tsid.Props.C35_full_mask_partial", "Tsid.Props.C35_illformed", "Tsid.Props.C35_wrong_joint", "Tsid.Props.C35_mask_ub"], "note": "full mask; for every other mask the constraint is proved to be ill-formed"},
 {"property": "C36", "status": "partial", "theorems": ["Tsid.Props.C36_posture_partial", "Tsid.Props.C36_runs", "Tsid.Props.C36_masks", "Tsid.Props.C36_mask_ub", "Tsid.Props.C36_rejected_mask_changes"], "note": "masks that are valid or of a wrong size; witnesses for masks with other entries"},
 {"property": "C37", "status": "partial", "theorems": ["Tsid.Props.C37_se3", "Tsid.Props.C37_two_frames", "Tsid.Props.C37_com", "Tsid.Props.C37_am_partial", "Tsid.Props.C37_se3_rows", "Tsid.Props.C37_two_frames_rows", "Tsid.Props.C37_com_rows", "Tsid.Props.C37_am_rows", "Tsid.Props.C37_am_mask_ignored"], "note": "proved for one frame, two frames and the centre of mass; the angular-momentum task ignores its mask (witness)"},
 {"property": "C38", "status": "partial", "theorems": ["Tsid.Props.C38_se3", "Tsid.Props.C38_two_frames", "Tsid.Props.C38_posture", "Tsid.Props.C38_com_partial", "Tsid.Props.C38_am_partial", "Tsid.Props.C38_com_witness", "Tsid.Props.C38_am_witness", "Tsid.Props.C38_capture"], "note": "proved for one frame, two frames and postures; centre of mass and angular momentum report the desired value minus twice the drift; the capture-point task has undefined behaviour"},
 {"property": "C39", "status": "proved", "theorems": ["Tsid.Props.C39_local_world", "Tsid.Props.C39_needs_isotropy"], "note": "full mask and isotropic gains; witness that isotropy is needed"},
 {"property": "C40", "status": "partial", "theorems": ["Tsid.Props.C40_partial", "Tsid.Props.C40_formulation_partial", "Tsid.Props.C40_tilted", "Tsid.Props.C40_two_frames"], "note": "contacts whose frame has the same axes as the world for the normal; witnesses for tilted contacts and for two-frames contacts"},
 {"property": "C41", "status": "partial", "theorems": ["Tsid.Props.C41_law_partial", "Tsid.Props.C41_bounded", "Tsid.Props.C41_skipped", "Tsid.Props.C41_unset_gains", "Tsid.Props.C41_point_contact"], "note": "after the three gains were set, six-dimensional contacts; witnesses for unset gains and point contacts"},
 {"property": "C42", "status": "proved", "theorems": ["Tsid.Props.C42_capture"], "note": ""},
 {"property": "C43", "status": "partial", "theorems": ["Tsid.Props.C43_equality_partial", "Tsid.Props.C43_bounds_partial", "Tsid.Props.C43_rejected_mask", "Tsid.Props.C43_bounds_mask"], "note": "masks that are valid or of a wrong size; witnesses for rejected masks that change the task"},
 {"property": "C44", "status": "proved", "theorems": ["Tsid.Props.C44_feasible_set", "Tsid.Props.C44_rt", "Tsid.Props.C44_rt_fewer"], "note": "eiquadprog, eiquadprog-fast, eiquadprog-rt with the template sizes of the problem; witness for eiquadprog-rt with other sizes"},
 {"property": "C45", "status": "proved", "theorems": ["Tsid.Props.C45_cost", "Tsid.Props.C45_unique", "Tsid.Props.C45_solution", "Tsid.Props.C45_eiquadprog_solution", "Tsid.Props.C45_unregularised"], "note": "uniqueness with the regularisation on and non-negative weights, existence over the reals; witness without the regularisation"},
 {"property": "C46", "status": "proved", "theorems": ["Tsid.Props.C46_proxqp", "Tsid.Props.C46_osqp"], "note": ""},
 {"property": "C47", "status": "partial", "theorems": ["Tsid.Props.C47_qpmad_partial", "Tsid.Props.C47_bounds", "Tsid.Props.C47_positive_min", "Tsid.Props.C47_appearing_bounds"], "note": "problems without simple bounds; witnesses for problems with bounds"},
 {"property": "C48", "status": "proved", "theorems": ["Tsid.Props.C48_back_ends"], "note": "two levels, no simple bounds (see C47)"},
 {"property": "C49", "status": "partial", "theorems": ["Tsid.Props.C49_levels", "Tsid.Props.C49_kinds", "Tsid.Props.C49_accepted_partial", "Tsid.Props.C49_empty_level0"], "note": "problems whose level 0 is not empty; witness otherwise"},
 {"property": "C50", "status": "partial", "theorems": ["Tsid.Props.C50_osqp_qpmad", "Tsid.Props.C50_eiquadprog_partial", "Tsid.Props.C50_eiquadprog_nan", "Tsid.Props.C50_fast_partial", "Tsid.Props.C50_fast_stale", "Tsid.Props.C50_proxqp_partial", "Tsid.Props.C50_proxqp_stale", "Tsid.Props.C50_failures_partial", "Tsid.Props.C50_unbounded"], "note": "proved for OSQP and qpmad; the other back-ends keep an earlier status or report OPTIMAL for some codes (witnesses)"},
 {"property": "C51", "status": "partial", "theorems": ["Tsid.Props.C51_proxqp_partial", "Tsid.Props.C51_proxqp_zero", "Tsid.Props.C51_proxqp_debug", "Tsid.Props.C51_osqp_partial", "Tsid.Props.C51_osqp_resized_partial", "Tsid.Props.C51_osqp_late", "Tsid.Props.C51_osqp_zero", "Tsid.Props.C51_fast_partial", "Tsid.Props.C51_fast_zero", "Tsid.Props.C51_base", "Tsid.Props.C51_defaults"], "note": "accepted settings; witnesses for rejected values that are kept and for OSQP settings that arrive after the resize"},
 {"property": "C52", "status": "proved", "theorems": ["Tsid.Props.C52_mass", "Tsid.Props.C52_repeat", "Tsid.Props.C52_symmetrise"], "note": ""},
 {"property": "C53", "status": "partial", "theorems": ["Tsid.Props.C53_partial", "Tsid.Props.C53_functions_partial", "Tsid.Props.C53_uninitialised"], "note": "holds when the uninitialised translation contains zeros or the frame does not turn; otherwise proved to fail for some content of the memory"},
 {"property": "C54", "status": "proved", "theorems": ["Tsid.Props.C54_pose_vector_pose", "Tsid.Props.C54_vector_pose_vector", "Tsid.Props.C54_sizes", "Tsid.Props.C54_reference"], "note": ""},
 {"property": "C55", "status": "proved", "theorems": ["Tsid.Props.C55_zero_iff", "Tsid.Props.C55_linear"], "note": "the logarithm of pinocchio is assumed to vanish at the identity only, among rotations"},
 {"property": "C56", "status": "partial", "theorems": ["Tsid.Props.C56_pseudo_inverse", "Tsid.Props.C56_truncated", "Tsid.Props.C56_zero_tolerance", "Tsid.Props.C56_no_options"], "note": "a contract of the singular value decomposition is assumed; proved for positive tolerances, witnesses for zero and negative tolerances and for empty options"},
 {"property": "C57", "status": "proved", "theorems": ["Tsid.Props.C57_damped_inverse", "Tsid.Props.C57_damped_solution", "Tsid.Props.C57_svd_solve", "Tsid.Props.C57_undamped"], "note": "a contract of the singular value decomposition is assumed"},
 {"property": "C58", "status": "partial", "theorems": ["Tsid.Props.C58_round_trip_partial", "Tsid.Props.C58_truncated", "Tsid.Props.C58_sizes", "Tsid.Props.C58_never_reported", "Tsid.Props.C58_empty_file", "Tsid.Props.C58_not_opened"], "note": "targets that have the right size; other sizes are undefined behaviour, incomplete files are never reported"},
 {"property": "C59", "status": "partial", "theorems": ["Tsid.Props.C59_isFinite", "Tsid.Props.C59_is_nan_partial", "Tsid.Props.C59_inverted"], "note": "isFinite proved; is_nan is proved to say the opposite of its name"},
 {"property": "C60", "status": "partial", "theorems": ["Tsid.Props.C60_sums", "Tsid.Props.C60_extremes_partial", "Tsid.Props.C60_throws", "Tsid.Props.C60_min_zero", "Tsid.Props.C60_max_negative"], "note": "C60_throws says which calls throw; extremes for quantities without zeros and with a value that is not negative; witnesses otherwise"},
 {"property": "C61", "status": "partial", "theorems": ["Tsid.Props.C61_partial", "Tsid.Props.C61_so_far", "Tsid.Props.C61_pause_ticks", "Tsid.Props.C61_pause", "Tsid.Props.C61_time_zero", "Tsid.Props.C61_second_stop", "Tsid.Props.C61_other_clock", "Tsid.Props.C61_refused_start"], "note": "histories without pause, stops by another clock than the start and starts at reading zero; C61_so_far gives the time so far and which calls throw; witnesses for pause (also: how far off it is), reading zero, another clock and a second stop"},
 {"property": "C62", "status": "proved", "theorems": ["Tsid.Props.C62_euclidian", "Tsid.Props.C62_se3", "Tsid.Props.C62_se3_without_reference"], "note": "trajectories that were given a reference; without one a pose trajectory delivers a zero matrix as rotation"},
 {"property": "C63", "status": "proved", "theorems": ["Tsid.Props.C63_of_sat", "Tsid.Props.C63_monotone", "Tsid.Props.C63_rows", "Tsid.Props.C63_equality"], "note": ""},
 {"property": "C64", "status": "proved", "theorems": ["Tsid.Props.C64_constructors", "Tsid.Props.C64_histories", "Tsid.Props.C64_setMatrix", "Tsid.Props.C64_setters"], "note": ""},
 {"property": "C65", "status": "partial", "theorems": ["Tsid.Props.C65_end_to_end_partial", "Tsid.Props.C65_removed_force_constraint", "Tsid.Props.C65_same_name", "Tsid.Props.feasible_consistent", "Tsid.Props.problem_admissible"], "note": "histories with distinct names and without re-association of registered force tasks, level 1 made of equalities, unit normals; witnesses for equal names and for a contact constraint removed as a task; other normals: C22_any_normal"},
 {"property": "C66", "status": "partial", "theorems": ["Tsid.Props.C66_partial", "Tsid.Props.C66_creation_partial", "Tsid.Props.C66_stale"], "note": "the formulation keeps a copy of the robot: it agrees with the user's robot iff the reflected inertias are those at creation; witness"},
 {"property": "C67", "status": "partial", "theorems": ["Tsid.Props.C67_factory_partial", "Tsid.Props.C67_rt"], "note": "the types that the factory covers; the theorem lists the declared types it does not create"},
 {"property": "C68", "status": "partial", "theorems": ["Tsid.Props.C68_eiquadprog_partial", "Tsid.Props.C68_rt_partial", "Tsid.Props.C68_proxqp_partial", "Tsid.Props.C68_osqp_partial", "Tsid.Props.C68_qpmad_partial", "Tsid.Props.C68_empty_level0", "Tsid.Props.C68_one_level"], "note": "admissible problems of two levels; witnesses for an empty level 0 and for one level"},
 {"property": "C69", "status": "proved", "theorems": ["Tsid.Props.C69_problem_of_registrations", "Tsid.Props.C69_default_contact"], "note": ""},
 {"property": "C70", "status": "partial", "theorems": ["Tsid.Props.C70_no_ub_partial", "Tsid.Props.C70_well_formed", "Tsid.Props.C70_orphaned_force_task", "Tsid.Props.C70_added_twice"], "note": "distinct names, and the contact of every associated force task is still registered; witnesses of undefined behaviour for a removed contact and for a task added twice"},
 {"property": "C71", "status": "proved", "theorems": ["Tsid.Props.C71_closed_form"], "note": ""},
 {"property": "C72", "status": "partial", "theorems": ["Tsid.Props.C72_posture_partial", "Tsid.Props.C72_position", "Tsid.Props.C72_se3", "Tsid.Props.C72_com", "Tsid.Props.C72_two_frames_partial", "Tsid.Props.C72_am_partial", "Tsid.Props.C72_two_frames_dummy", "Tsid.Props.C72_dim"], "note": "proved for one frame and the centre of mass; position() of the posture task and the inherited getters of two frames and angular momentum are proved to report nothing"},
 {"property": "C73", "status": "partial", "theorems": ["Tsid.Props.C73_gains_partial", "Tsid.Props.C73_se3_reference_partial", "Tsid.Props.C73_no_ub_partial", "Tsid.Props.C73_se3_mask_unchecked", "Tsid.Props.C73_se3_reference_kept", "Tsid.Props.C73_com_reference_unchecked", "Tsid.Props.C73_am_reference_unchecked", "Tsid.Props.C73_two_frames_gains_unchecked"], "note": "gains of one frame, centre of mass and angular momentum, masks of the centre of mass; the other setters are proved to accept unusable arguments"},
 {"property": "C74", "status": "proved", "theorems": ["Tsid.Props.C74_frame", "Tsid.Props.C74_acceleration", "Tsid.Props.C74_throws"], "note": ""},
 {"property": "C75", "status": "partial", "theorems": ["Tsid.Props.C75_pseudo_inverse", "Tsid.Props.C75_decomposition", "Tsid.Props.C75_damped", "Tsid.Props.C75_zero_tolerance", "Tsid.Props.C75_thin"], "note": "full second factor and positive tolerance (not negative for the damped inverse); witnesses for zero tolerances and thin decompositions"},
 {"property": "C76", "status": "proved", "theorems": ["Tsid.Props.C76_wrench_power", "Tsid.Props.C76_force_power", "Tsid.Props.C76_unrelated_joints", "Tsid.Props.C76_axes_agree"], "note": "pinocchio's frame Jacobian is an input; it writes the columns of the supporting joints only"},
 {"property": "C77", "status": "partial", "theorems": ["Tsid.Props.C77_positive_sound", "Tsid.Props.C77_zero_partial", "Tsid.Props.C77_detects_partial", "Tsid.Props.C77_missed", "Tsid.Props.C77_viable_reported", "Tsid.Props.C77_vector"], "note": "the last test has the wrong sign of the tolerance and overwrites earlier findings: witnesses of a missed violation and of a viable state reported"},
 {"property": "C78", "status": "proved", "theorems": ["Tsid.Props.C78_forever", "Tsid.Props.C78_compatible", "Tsid.Props.C78_stays_viable", "Tsid.Props.C78_needs_room"], "note": "exact arithmetic; C78_needs_room shows why the joint needs room for braking"},
 {"property": "C79", "status": "proved", "theorems": ["Tsid.Props.C79_posture", "Tsid.Props.C79_com", "Tsid.Props.C79_momentum", "Tsid.Props.C79_frame", "Tsid.Props.C79_contact", "Tsid.Props.C79_two_frames"], "note": "that the quantities read from pinocchio are the derivatives of one another is a hypothesis; orientations are not treated; local axes need equal gains"},
 {"property": "C80", "status": "partial", "theorems": ["Tsid.Props.C80_reachable", "Tsid.Props.C80_calls_partial", "Tsid.Props.C80_values", "Tsid.Props.C80_level_partial", "Tsid.Props.C80_level_replaced", "Tsid.Props.C80_checkContact", "Tsid.Props.C80_held_partial", "Tsid.Props.C80_held_wiped"], "note": "A held problem is wiped when a contact is added (its matrices and right-hand sides are shared and set to zero), and priority levels above 1 are silently replaced by 1 because the parameter is a bool; both proved for all reachable states. Everything else in the statement is proved."},
 {"property": "C81", "status": "partial", "theorems": ["Tsid.Props.C81_copies_partial", "Tsid.Props.C81_limits_partial", "Tsid.Props.C81_wrong_coordinates"], "note": "Proved for all sources except TaskJointPosVelAccBounds; for that one proved without a floating base, and the negation proved with one: the Python copy bounds the accelerations of the base."},
 {"property": "C82", "status": "partial", "theorems": ["Tsid.Props.C82_other_variables_partial", "Tsid.Props.C82_same_variables", "Tsid.Props.C82_same_sizes", "Tsid.Props.C82_settings_partial", "Tsid.Props.C82_settings_lost"], "note": "Proved for problems with another number of variables than the last one of the original (all settings but the maximum of iterations survive). For problems with the same number of variables and a cost the negation is proved: undefined behaviour, because the sizes are copied and the matrices are not; without a cost, undefined behaviour exactly when the numbers of equalities and inequalities are those of the original too; the maximum of iterations is lost, and with equal sizes all settings."},
 {"property": "C83", "status": "partial", "theorems": ["Tsid.Props.C83_sizes_partial", "Tsid.Props.C83_other_base", "Tsid.Props.C83_object"], "note": "Proved as an equivalence: the sizes are right exactly when the base is the one the constructor takes for granted (none, or a free-flyer); the negation is proved for every other root joint, which the second constructor accepts."},
 {"property": "C84", "status": "partial", "theorems": ["Tsid.Props.C84_cycle", "Tsid.Props.C84_raise", "Tsid.Props.C84_monotone", "Tsid.Props.C84_penalty", "Tsid.Props.C84_compatible", "Tsid.Props.C84_scale_partial", "Tsid.Props.C84_scale_regularised"], "note": "All proved except that a common factor of the weights does not matter, which is proved without the regularisation and refuted with it. The tidy histories of C71; the back-ends enter through C48_back_ends."},
 {"property": "C85", "status": "partial", "theorems": ["Tsid.Props.C85_size", "Tsid.Props.C85_solves_partial", "Tsid.Props.C85_cycle_partial", "Tsid.Props.C85_details_partial", "Tsid.Props.C85_multipliers_partial", "Tsid.Props.C85_unreported", "Tsid.Props.C85_failure_keeps", "Tsid.Props.C85_claims_solution", "Tsid.Props.C85_before_first_solve", "Tsid.Props.C85_room"], "note": "Proved: size, solution, objective (all back-ends; qpmad without simple bounds and always with an infinite objective; eiquadprog-rt on problems of its own size), details of eiquadprog-fast and -rt, multipliers of OSQP and of the equalities of ProxQP. Refuted: details of eiquadprog and qpmad, iterations of OSQP, active sets of OSQP and ProxQP, outputs after failures. What the external solvers promise is the hypothesis Sound."},
 {"property": "C86", "status": "partial", "theorems": ["Tsid.Props.C86_surface", "Tsid.Props.C86_transmits", "Tsid.Props.C86_support_polygon", "Tsid.Props.C86_out_of_reach", "Tsid.Props.C86_cycle_partial"], "note": "Proved for contacts and for centre-of-pressure tasks. In control cycles the hypotheses are those of C65: distinct names, no re-association of a registered force task."},
 {"property": "C87", "status": "partial", "theorems": ["Tsid.Props.C87_partial", "Tsid.Props.C87_mask_after_add"], "note": "Proved for programs with distinct names in which registered force tasks keep their contact and masks are 0/1 masks; joint limits as in C29-C35. Changing the number of rows of a registered task is undefined behaviour (witness)."},
 {"property": "C88", "status": "partial", "theorems": ["Tsid.Props.C88_partial"], "note": "Proved for the programs of C87, when the registered tasks keep the number of rows they had when added and registered force tasks have gains and a registered surface contact; without these conditions the cycle fails (C87_mask_after_add, C70_orphaned_force_task)."},
 {"property": "C89", "status": "partial", "theorems": ["Tsid.Props.C89_partial"], "note": "Proved for the programs of C87 when the tasks of priority 1 are equalities (the back-ends refuse others there) and registered force tasks refer to a registered contact; the wrench of a surface contact uses the points at the last refresh of its regularisation (C26)."},
 {"property": "C90", "status": "partial", "theorems": ["Tsid.Props.C90_partial", "Tsid.Props.C90_solution_partial"], "note": "Proved for the programs of C88 whose tasks of priority 1 are equalities, for all six back-ends; as in C87-C89, exact arithmetic; eiquadprog-rt needs the size of the problem as template arguments."},
 {"property": "C91", "status": "proved", "theorems": ["Tsid.Props.C91_no_ub", "Tsid.Props.C91_runs"], "note": "The conditions are on the text of the program (WellTyped); nothing is assumed about its run. Undefined behaviour is what the model represents: sizes, indices, priority levels, uninitialised force generators; not lifetimes of objects or arithmetic. Cycles that the code could run although MayCycle excludes them (C88) are not covered."},
 {"property": "C92", "status": "partial", "theorems": ["Tsid.Props.C92_partial", "Tsid.Props.C92_friction", "Tsid.Props.C92_limits", "Tsid.Props.C92_best_partial", "Tsid.Props.C92_returns", "Tsid.Props.C92_program_partial"], "note": "Missing: for the task of combined joint limits the demand is the constraint of the object itself (C29-C35 say what it allows); capture-point tasks need a positive height, time step and gravity; the force limits of contacts during a gradual removal are those of the contact object (C14-C16), and those of the text otherwise (C92_limits). The rest as C87-C91; the external solver is trusted to keep its contract."},
 {"property": "C93", "status": "partial", "theorems": ["Tsid.Props.C93_rate", "Tsid.Props.C93_sharp", "Tsid.Props.C93_posture_partial", "Tsid.Props.C93_com_partial", "Tsid.Props.C93_momentum_partial", "Tsid.Props.C93_frame_partial", "Tsid.Props.C93_contact_partial", "Tsid.Props.C93_surface_partial", "Tsid.Props.C93_two_frames_partial", "Tsid.Props.C93_steady", "Tsid.Props.C93_solved_partial"], "note": "Missing: the prescribed acceleration of the tracked coordinate is realised exactly and is constant in each period; joints whose coordinate moves on a line, and the translational part of frames; the external solver succeeds in every cycle; gradual removals of contacts. The rest as C87-C92."},
 {"property": "C94", "status": "partial", "theorems": ["Tsid.Props.C94_four", "Tsid.Props.C94_exact", "Tsid.Props.C94_asks", "Tsid.Props.C94_exists", "Tsid.Props.C94_forever_partial", "Tsid.Props.C94_feasible", "Tsid.Props.C94_alone_partial", "Tsid.Props.C94_attempted_partial", "Tsid.Props.C94_velocity_partial"], "note": "Missing: the prescribed accelerations are realised exactly and are constant between two cycles; the settings of the task do not change; joints have enough room (C78_needs_room: without it limits may contradict each other). The rest as C87-C92."},
 {"property": "C95", "status": "partial", "theorems": ["Tsid.C95_se3_partial", "Tsid.C95_se3_python", "Tsid.C95_twoFrames", "Tsid.C95_twoFrames_python", "Tsid.C95_com", "Tsid.C95_am", "Tsid.C95_point", "Tsid.C95_pair", "Tsid.C95_posture_partial", "Tsid.C95_posture_mask_exact", "Tsid.C95_actBounds_partial", "Tsid.C95_actEq_partial", "Tsid.C95_jointBounds", "Tsid.C95_limits_partial", "Tsid.C95_force", "Tsid.C95_force_python", "Tsid.C95_cop", "Tsid.C95_measured", "Tsid.C95_robot", "Tsid.C95_sample", "Tsid.C95_sample_python", "Tsid.C95_sample_python_sizes", "Tsid.C95_contact", "Tsid.C95_se3_python_mask", "Tsid.C95_se3_rejected", "Tsid.C95_twoFrames_python_mask", "Tsid.C95_rejected_masks", "Tsid.C95_actBounds_forgotten", "Tsid.C95_limits_getMask", "Tsid.C95_force_python_Ki", "Tsid.C95_force_python_Ki_wrong"], "note": "The code violates the full statement: Python's Ki returns Kd; Python's mask of the two frame tasks is None; rejected masks and a rejected pose reference are returned; bounds are forgotten when a mask is set; getMask() of the combined joint limits never sees the mask. Proved for all other settings, and for these under the named restriction or with the exact value returned. Not covered: memory of references returned to Python."},
 {"property": "C96", "status": "proved", "theorems": ["Tsid.Props.C96_faithful", "Tsid.Props.C96_vectors", "Tsid.Props.C96_matrices", "Tsid.Props.rotation_cross", "Tsid.Props.C96_placements", "Tsid.Props.C96_reflection", "Tsid.Props.C96_norm", "Tsid.Props.C96_dynamic_vectors", "Tsid.Props.C96_dynamic_matrices", "Tsid.Props.C96_blocks"], "note": "the adjoint action needs determinant one, not only orthogonality (witness C96_reflection)"},
 {"property": "C97", "status": "partial", "theorems": ["Tsid.Props.C97_joint_tasks_partial", "Tsid.Props.C97_fixed", "Tsid.Props.C97_force_partial", "Tsid.Props.C72_dim", "Tsid.Props.C97_point_force", "Tsid.Props.C97_pos_vel_acc", "Tsid.Props.C97_rejected_mask"], "note": "proved for all tasks under admissible masks and six-dimensional contacts, except the position, velocity and acceleration bounds, whose dim() ignores the mask (negation proved)"},
 {"property": "C98", "status": "proved", "theorems": ["Tsid.Props.C98_xyzquat", "Tsid.Props.C98_sizes", "Tsid.Props.C98_injective", "Tsid.Props.C98_sign", "Tsid.Props.C98_reflection"], "note": "Eigen's conversion of matrices into quaternions is modelled (four branches); an improper orthogonal matrix gives no unit quaternion (witness C98_reflection)"},
 {"property": "C99", "status": "partial", "theorems": ["Tsid.Props.C99_exact_partial", "Tsid.Props.C99_decodes", "Tsid.Props.C99_every", "Tsid.Props.C99_best_partial", "Tsid.Props.C99_program_partial", "Tsid.Props.C99_unique_partial", "Tsid.Props.C99_agree_partial", "Tsid.Props.C99_order", "Tsid.Props.C99_rearranged_partial", "Tsid.Props.C99_exists_partial"], "note": "Missing: no contact is being removed gradually; the limits imposed by tasks of combined joint limits at priority 0 can be kept, and no joint is masked out (Viable; C104); capture-point tasks need a positive height, time step and gravity; uniqueness and agreement concern the back-ends that regularise. Existence is over the real numbers. The rest as C87-C92; the external solver is trusted to keep its contract."},
 {"property": "C100", "status": "partial", "theorems": ["Tsid.Props.C100_exact_partial", "Tsid.Props.C100_best_partial", "Tsid.Props.C100_registered", "Tsid.Props.C100_starts", "Tsid.Props.C100_returns", "Tsid.Props.C100_begin", "Tsid.Props.C100_rate", "Tsid.Props.C100_end", "Tsid.Props.C100_two_frames", "Tsid.Props.C100_readded"], "note": "Missing: several removals at a time (C14_skipped, C15_simultaneous), calls without decoding the solution before (C14_stale_force), contacts between two frames (the claim is false for them: C100_two_frames), contacts added again afterwards (C100_readded); the rest as C99."},
 {"property": "C101", "status": "partial", "theorems": ["Tsid.Props.C101_read_partial", "Tsid.Props.C101_solves_partial", "Tsid.Props.C101_runs", "Tsid.Props.C101_resize", "Tsid.Props.C101_resize_refused", "Tsid.Props.C101_unchecked_vector"], "note": "Missing: constraints whose sizes are changed by resize, and sizes that do not agree, for which the claim is false (C101_unchecked_vector); problems resized from Python (C101_resize, refused by all solvers: C101_resize_refused); what C85 leaves out."},
 {"property": "C102", "status": "partial", "theorems": ["Tsid.Props.C102_limits", "Tsid.Props.C102_formulation", "Tsid.Props.C102_exact_partial", "Tsid.Props.C102_best_partial", "Tsid.Props.C102_returns", "Tsid.Props.C102_window", "Tsid.Props.C102_queue", "Tsid.Props.C102_plain", "Tsid.Props.C102_pushing", "Tsid.Props.C102_waits"], "note": "Missing: as in C92 and C90 (the limits imposed by tasks of combined joint limits at priority 0 can be kept, Viable and C104; promises of solvers). C99's and C100's restriction to programs without (other) gradual removals is gone."},
 {"property": "C103", "status": "proved", "theorems": ["Tsid.Props.C103_formulation", "Tsid.Props.C103_python", "Tsid.Props.C103_hand", "Tsid.Props.C103_call", "Tsid.Props.C103_same", "Tsid.Props.C103_solve", "Tsid.Props.C103_silent", "Tsid.Props.C103_stops", "Tsid.Props.C103_debug", "Tsid.Props.C103_careful", "Tsid.Props.C103_twice", "Tsid.Props.C103_at_once", "Tsid.Props.C103_back"], "note": "WellTyped as in C91. Printing differs between builds (verbosity of the external solvers, C51) and is not part of the states compared."},
 {"property": "C104", "status": "partial", "theorems": ["Tsid.Props.C104_never", "Tsid.Props.C104_exact", "Tsid.Props.C104_task", "Tsid.Props.C104_all", "Tsid.Props.C104_viable", "Tsid.Props.C104_asks", "Tsid.Props.C104_loop_partial", "Tsid.Props.C104_speed_partial"], "note": "Violated where C32, C34 and C35 are: limits that cannot be kept together are overruled one by another (C32), position limits and viability switched off after a cycle remain in force (C34; the theorems require that what is off was never on), masks must be full (C35). In loops: accelerations are realised exactly; as C87."},
 {"property": "C105", "status": "partial", "theorems": ["Tsid.Props.C105_rate", "Tsid.Props.C105_inexact", "Tsid.Props.C105_measured", "Tsid.Props.C105_measured_partial", "Tsid.Props.C105_bounded", "Tsid.Props.C105_vanishing", "Tsid.Props.C105_steady", "Tsid.Props.C105_posture_partial", "Tsid.Props.C105_com_partial", "Tsid.Props.C105_momentum_partial", "Tsid.Props.C105_frame_partial", "Tsid.Props.C105_contact_partial", "Tsid.Props.C105_surface_partial", "Tsid.Props.C105_two_frames_partial", "Tsid.Props.C105_bounds_partial", "Tsid.Props.C105_speed_partial"], "note": "Missing: errors of measurement for tasks other than posture tasks; rotations; position limits and viability under disturbances; as C87."},
 {"property": "C106", "status": "partial", "theorems": ["Tsid.Props.C106_cycle", "Tsid.Props.C106_all", "Tsid.Props.C106_posture_partial", "Tsid.Props.C106_com_partial", "Tsid.Props.C106_momentum_partial", "Tsid.Props.C106_frame_partial", "Tsid.Props.C106_solved_partial"], "note": "Missing: as C99; rotations; the external solver succeeds in every cycle."},
 {"property": "C107", "status": "partial", "theorems": ["Tsid.Props.C107_runs", "Tsid.Props.C107_cycles", "Tsid.Props.C107_best_partial"], "note": "Programs that remove contacts gradually: C110. Missing: for C107_best_partial as C92."},
 {"property": "C108", "status": "partial", "theorems": ["Tsid.Props.C108_runs", "Tsid.Props.C108_cycles", "Tsid.Props.C108_best_partial", "Tsid.Props.C108_feet", "Tsid.Props.C108_reference", "Tsid.Props.C108_origin", "Tsid.Props.C108_ground", "Tsid.Props.C108_walk", "Tsid.Props.C108_landing", "Tsid.Props.C108_settings", "Tsid.Props.C108_com_origin", "Tsid.Props.C108_exceptions", "Tsid.Props.C108_methods"], "note": "C108_origin, C108_com_origin and C108_landing prove violations (see DESIGN.md, section 6). Missing: feet that are lifted gradually (transition_time > 0); for C108_best_partial as C92."},
 {"property": "C109", "status": "partial", "theorems": ["Tsid.Props.C109_throws", "Tsid.Props.C109_uncaught"], "note": "Gradual removals: C110. Missing: exceptions of the constructors and of the programs outside the check."},
 {"property": "C110", "status": "partial", "theorems": ["Tsid.Props.C110_throws", "Tsid.Props.C110_uncaught", "Tsid.Props.C110_runs", "Tsid.Props.C110_checked", "Tsid.Props.C110_best_partial"], "note": "Missing: exceptions of the constructors; for C110_best_partial as C102_best_partial."},
 {"property": "C111", "status": "partial", "theorems": ["Tsid.Props.C111_runs", "Tsid.Props.C111_exact", "Tsid.Props.C111_best_partial", "Tsid.Props.C111_unique", "Tsid.Props.C111_nominal", "Tsid.Props.C111_exceptions", "Tsid.Props.C111_loop", "Tsid.Props.C111_speed", "Tsid.Props.C111_reference", "Tsid.Props.C111_origin", "Tsid.Props.C111_agree", "Tsid.Props.C111_feasible", "Tsid.Props.C111_goes_on", "Tsid.Props.C111_exists"], "note": "Missing: for C111_best_partial that the external solvers succeed (their contract is assumed, as in C92); the viewer; rounding. The eighth part of the statement is a defect that C111_origin documents."},
 {"property": "C112", "status": "partial", "theorems": ["Tsid.Props.C112_runs", "Tsid.Props.C112_exact", "Tsid.Props.C112_best_partial", "Tsid.Props.C112_exists", "Tsid.Props.C112_agree", "Tsid.Props.C112_exceptions", "Tsid.Props.C112_loop", "Tsid.Props.C112_closed", "Tsid.Props.C112_reference", "Tsid.Props.C112_soft", "Tsid.Props.C112_feet", "Tsid.Props.C112_stand", "Tsid.Props.C112_ground"], "note": "Missing: for C112_best_partial that the external solvers succeed (their contract is assumed, as in C92); the viewer; rounding. The seventh part of the statement is false, as C112_soft shows; C112_feet and C112_stand are what holds instead."},
 {"property": "C113", "status": "partial", "theorems": ["Tsid.Props.C113_runs", "Tsid.Props.C113_exact", "Tsid.Props.C113_best_partial", "Tsid.Props.C113_exists", "Tsid.Props.C113_unique", "Tsid.Props.C113_agree", "Tsid.Props.C113_exceptions", "Tsid.Props.C113_loop", "Tsid.Props.C113_closed", "Tsid.Props.C113_reference", "Tsid.Props.C113_soft", "Tsid.Props.C113_gap"], "note": "Missing: for C113_best_partial that the external solvers succeed (their contract is assumed, as in C92); the viewer; rounding; pinocchio's integrate (arbitrary here). The seventh part of the statement is false, as C113_soft shows; C113_gap is what holds instead."},
 {"property": "C114", "status": "partial", "theorems": ["Tsid.Props.C114_runs", "Tsid.Props.C114_exact", "Tsid.Props.C114_unique", "Tsid.Props.C114_driven_partial", "Tsid.Props.C114_exceptions", "Tsid.Props.C114_loop", "Tsid.Props.C114_reference", "Tsid.Props.C114_converges", "Tsid.Props.C114_unstable", "Tsid.Props.C114_tracks"], "note": "Missing: for C114_driven_partial that the external solvers succeed (their contract is assumed, as in C92); the viewer; rounding. C114_converges and C114_unstable together give the exact condition for stability at a constant reference; C114_tracks bounds the error for a moving one with a constant that is not made explicit."}
]}
