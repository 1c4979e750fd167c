{
 "claims": [
  {
   "property": "C01",
   "status": "proved",
   "theorems": [
    "Scisim.C01_construct",
    "Scisim.C01_construct_total",
    "Scisim.C01_add",
    "Scisim.C01_sub",
    "Scisim.C01_mul",
    "Scisim.C01_div",
    "Scisim.C01_mulInt",
    "Scisim.C01_divInt",
    "Scisim.C01_intDiv",
    "Scisim.C01_expressions",
    "Scisim.C01_eq",
    "Scisim.C01_eqInt",
    "Scisim.C01_predicates",
    "Scisim.C01_overflow_witness"
   ],
   "note": "Machine integers with explicit overflow outcome; canonical form and exact value for every expression that does not overflow."
  },
  {
   "property": "C02",
   "status": "partial",
   "theorems": [
    "Scisim.C02_exact_reading_partial",
    "Scisim.C02_negative_proper_misread",
    "Scisim.C02_counterexample",
    "Scisim.C02_full_is_false"
   ],
   "note": "Exact for every well-formed literal except negative decimals with zero integer part, where the code loses the sign (property false of the code, proved)."
  },
  {
   "property": "C03",
   "status": "partial",
   "theorems": [
    "Scisim.C03_rejects_partial",
    "Scisim.C03_accepted_garbage",
    "Scisim.C03_full_is_false"
   ],
   "note": "The full property is false of the code (two slashes, two periods, scientific notation, trailing text, empty text and zero denominators are accepted); proved with witnesses, and a rejection theorem for the classes that are rejected."
  },
  {
   "property": "C04",
   "status": "proved",
   "theorems": [
    "Scisim.C04_tokenize",
    "Scisim.C04_tokenize_empty",
    "Scisim.C04_trim",
    "Scisim.C04_removeWhiteSpace",
    "Scisim.C04_trimCharacterRight",
    "Scisim.C04_splitAtLast"
   ],
   "note": "The empty string is outside the property: tokenize is undefined behaviour there (C04_tokenize_empty)."
  },
  {
   "property": "C05",
   "status": "proved",
   "theorems": [
    "Scisim.C05_plain",
    "Scisim.C05_sizes",
    "Scisim.C05_string",
    "Scisim.C05_strings",
    "Scisim.C05_vector",
    "Scisim.C05_vector_of_objects",
    "Scisim.C05_vector_bool",
    "Scisim.C05_dense_fixed",
    "Scisim.C05_dense_dynamic_cols",
    "Scisim.C05_dense_dynamic_rows",
    "Scisim.C05_sparse",
    "Scisim.C05_injective",
    "Scisim.C05_truncated_plain",
    "Scisim.C05_truncated_string_zero_filled"
   ],
   "note": "Round trip with arbitrary following bytes for every serialised type; behaviour on truncated streams stated too."
  },
  {
   "property": "C06",
   "status": "partial",
   "theorems": [
    "Scisim.C06_ball2d_snapshot_partial",
    "Scisim.C06_penalty_forces_lost",
    "Scisim.C06_ball2d_snapshot_injective"
   ],
   "note": "Round trip for every simulation without penalty forces; with a penalty force the load always exits (proved), so the full property is false of the code."
  },
  {
   "property": "C07",
   "status": "proved",
   "theorems": [
    "Scisim.C07_rb2d_snapshot",
    "Scisim.C07_rb2d_snapshot_injective"
   ],
   "note": "Round trip for every simulation state that fits in memory."
  },
  {
   "property": "C08",
   "status": "partial",
   "theorems": [
    "Scisim.C08_impact_operator",
    "Scisim.C08_friction_operator",
    "Scisim.C08_friction_solver_partial",
    "Scisim.C08_grr_friction_lost",
    "Scisim.C08_impact_map",
    "Scisim.C08_impact_friction_map",
    "Scisim.C08_integrator_rb2d",
    "Scisim.C08_integrator_ball2d",
    "Scisim.C08_ball2d_file_partial",
    "Scisim.C08_rb2d_file_partial",
    "Scisim.C08_foreign_file_rejected"
   ],
   "note": "Every configuration either refuses to be saved or is restored, except grr_friction and (2D balls) symplectic Euler, which are saved but make the load exit (proved)."
  },
  {
   "property": "C09",
   "status": "partial",
   "theorems": [
    "Scisim.C09_ball_cache",
    "Scisim.C09_ball_unsupported",
    "Scisim.C09_rb2d_cache_partial",
    "Scisim.C09_box_contacts_confused",
    "Scisim.C09_rb2d_unsupported",
    "Scisim.C09_rb3d_cache"
   ],
   "note": "Proved for all histories of the ball cache, the 3D rigid body cache, and 2D rigid body contacts except several contacts of one pair of bodies, which share a key in the code (counterexample proved)."
  },
  {
   "property": "C10",
   "status": "partial",
   "theorems": [
    "Scisim.C10_resume_partial",
    "Scisim.C10_interrupted_prefix",
    "Scisim.C10_ball2d_restorable_partial",
    "Scisim.C10_rb2d_restorable_partial",
    "Scisim.C10_extra_frame_after_final_snapshot"
   ],
   "note": "Proved for every snapshot of every run except the one written by the additional step at the end of a run with force output, for which the resumed run writes one frame too many (proved). Which configurations restore is C06-C08."
  },
  {
   "property": "C11",
   "status": "proved",
   "theorems": [
    "Scisim.C11_frames_contiguous",
    "Scisim.C11_force_files_contiguous",
    "Scisim.C11_complete",
    "Scisim.C11_terminates",
    "Scisim.C11_end_is_ceil",
    "Scisim.C11_output_rate",
    "Scisim.C11_output_rate_refused"
   ],
   "note": "For every run observed for any length and however it ends; 32-bit iteration counter not overflowing."
  },
  {
   "property": "C12",
   "status": "proved",
   "theorems": [
    "Scisim.C12_config_names",
    "Scisim.C12_snapshot_names",
    "Scisim.C12_names_injective"
   ],
   "note": "Assumes the end test holds at the step count from which the width was computed."
  },
  {
   "property": "C13",
   "status": "partial",
   "theorems": [
    "Scisim.C13_numbered_survive_partial",
    "Scisim.C13_numbered_loadable_partial",
    "Scisim.C13_overwrite_loses_snapshot",
    "Scisim.C13_resume_destroys_snapshot"
   ],
   "note": "Proved for numbered snapshots of fresh runs at every crash point; false in overwrite mode and for resumed runs (both proved)."
  },
  {
   "property": "C14",
   "status": "partial",
   "theorems": [
    "Scisim.C14_complete_partial",
    "Scisim.C14_exact_partial",
    "Scisim.C14_all_pairs",
    "Scisim.C14_defined",
    "Scisim.C14_trial",
    "Scisim.C14_empty_undefined",
    "Scisim.C14_self_pair",
    "Scisim.C14_spread_partial"
   ],
   "note": "Any dimension. No overlap missed and nothing else reported for every grid; exactly the pairs i<j, and equality with the all-pairs test, for grids of at most 2^32 cells. For larger grids the 32-bit cell numbers wrap and a box can be paired with itself (proved)."
  },
  {
   "property": "C15",
   "status": "proved",
   "theorems": [
    "Scisim.C15_cells",
    "Scisim.C15_points_covered"
   ],
   "note": "Exact arithmetic."
  },
  {
   "property": "C16",
   "status": "proved",
   "theorems": [
    "Scisim.C16_sound",
    "Scisim.C17_first_contact"
   ],
   "note": "Exact arithmetic over the reals."
  },
  {
   "property": "C17",
   "status": "proved",
   "theorems": [
    "Scisim.C17_complete",
    "Scisim.C17_first_contact"
   ],
   "note": "Exact arithmetic over the reals."
  },
  {
   "property": "C18",
   "status": "partial",
   "theorems": [
    "Scisim.C18_exact_partial",
    "Scisim.C18_contact_data",
    "Scisim.C18_fixed_pair",
    "Scisim.C18_no_balls"
   ],
   "note": "Exact for every non-empty configuration spread over at most 65536 average ball sizes per direction. Missing: larger spreads (the grid's cell numbers wrap and a ball can be paired with itself, see C14), and the empty configuration, where the code divides by zero."
  },
  {
   "property": "C19",
   "status": "proved",
   "theorems": [
    "Scisim.C19_exact",
    "Scisim.C19_normals",
    "Scisim.C19_large_ball"
   ],
   "note": "Unit plane normals."
  },
  {
   "property": "C20",
   "status": "proved",
   "theorems": [
    "Scisim.C20_rigid",
    "Scisim.C20_static_isometric",
    "Scisim.C20_height",
    "Scisim.C20_round_trip",
    "Scisim.C20_static_round_trip"
   ],
   "note": "Any ordered field with floor."
  },
  {
   "property": "C21",
   "status": "proved",
   "theorems": [
    "Scisim.C21_offset",
    "Scisim.C21_static",
    "Scisim.C21_teleported"
   ],
   "note": ""
  },
  {
   "property": "C22",
   "status": "proved",
   "theorems": [
    "Scisim.C22_step",
    "Scisim.C22_run",
    "Scisim.C22_bodies_independent"
   ],
   "note": "One pair of facing planes; any number of bodies and steps."
  },
  {
   "property": "C23",
   "status": "proved",
   "theorems": [
    "Scisim.C23_reversible_ball",
    "Scisim.C23_reversible_rb2d",
    "Scisim.C23_reversible_run",
    "Scisim.C23_momentum",
    "Scisim.C23_momentum_rb2d",
    "Scisim.C23_momentum_run",
    "Scisim.C23_angular_momentum",
    "Scisim.C23_angular_momentum_run",
    "Scisim.C23_penalty_run",
    "Scisim.C23_balance_rb2d",
    "Scisim.C23_conserved_rb2d"
   ],
   "note": "Both Verlet integrators; any position dependent force field; any number of steps. Exact arithmetic."
  },
  {
   "property": "C24",
   "status": "proved",
   "theorems": [
    "Scisim.C24_verlet_parabola",
    "Scisim.C24_verlet_energy",
    "Scisim.C24_symplectic_euler_energy",
    "Scisim.C24_rb2d_parabola",
    "Scisim.C24_rb2d_energy"
   ],
   "note": "For rigid bodies the fixed bodies are at rest (a moving scripted body does work)."
  },
  {
   "property": "C25",
   "status": "partial",
   "theorems": [
    "Scisim.C25_fixed_rb2d_partial",
    "Scisim.C25_false_ball",
    "Scisim.C25_fixed_rb3d_partial",
    "Scisim.C25_false_moving_3d",
    "Scisim.C25_false_exponential_euler",
    "Scisim.C25_fixed_rb3d_contacts"
   ],
   "note": "Proved for both planar rigid body integrators, and in three dimensions for split_ham and dmv and fixed bodies at rest. False of the ball simulation and of exponential_euler, where the flag is ignored, and of moving fixed bodies in three dimensions, whose velocity is replaced by their momentum (all proved)."
  },
  {
   "property": "C26",
   "status": "proved",
   "theorems": [
    "Scisim.C26_flow",
    "Scisim.C26_run",
    "Scisim.C26_exponentialEuler",
    "Scisim.svd_exists"
   ],
   "note": "exponential_euler relies on Eigen's singular value decomposition, which is a parameter assumed correct on matrices with positive determinant; that such a decomposition exists is proved."
  },
  {
   "property": "C27",
   "status": "proved",
   "theorems": [
    "Scisim.C27_momentum",
    "Scisim.C27_conserved",
    "Scisim.C27_gravity_torque",
    "Scisim.C27_reversible",
    "Scisim.C27_reversible_run",
    "Scisim.C27_principal_axis",
    "Scisim.C27_split_momentum",
    "Scisim.C27_dmv",
    "Scisim.C27_dmv_fixed_point",
    "Scisim.C27_dmv_equation_reversible"
   ],
   "note": "Exact arithmetic; split_ham and dmv; any number of steps."
  },
  {
   "property": "C28",
   "status": "proved",
   "theorems": [
    "Scisim.C28_penalty_sum",
    "Scisim.C28_repulsion",
    "Scisim.C28_penalty_internal",
    "Scisim.C28_penalty_gradient",
    "Scisim.C28_gravity_gradient",
    "Scisim.C28_rb2d_gravity_gradient",
    "Scisim.C28_total_gradient"
   ],
   "note": "Distinct centres (coincident centres divide by zero in the code), radii not negative; the gradient statement needs a power above 1."
  },
  {
   "property": "C29",
   "status": "proved",
   "theorems": [
    "Scisim.C29_normal_velocity",
    "Scisim.C29_newton",
    "Scisim.C29_normal_only",
    "Scisim.C29_momentum",
    "Scisim.C29_energy",
    "Scisim.C29_total"
   ],
   "note": "All contacts that have a pairwise response (ball-ball, kinematic kick, sphere-sphere, sphere-plane). Ball-plane and ball-drum contacts have none: the program stops (C29_total)."
  },
  {
   "property": "C30",
   "status": "partial",
   "theorems": [
    "Scisim.C30_impulses_partial",
    "Scisim.C30_push",
    "Scisim.C30_energy",
    "Scisim.C30_energy_still",
    "Scisim.C30_momentum",
    "Scisim.C30_feasible",
    "Scisim.C30_terminates",
    "Scisim.C30_terminates_pairs",
    "Scisim.C30_terminates_inelastic",
    "Scisim.C30_zero_tolerance_runs_forever",
    "Scisim.C30_elastic_squeeze_runs_forever",
    "Scisim.C30_false_warm_start"
   ],
   "note": "Proved without warm starting, with termination under conditions shown to be needed. With warm starting the impulses handed back do not match the velocities (C30_false_warm_start); C30_impulses_partial says exactly what they are."
  },
  {
   "property": "C31",
   "status": "partial",
   "theorems": [
    "Scisim.C31_feasible_partial",
    "Scisim.C31_momentum",
    "Scisim.C31_momentum_balls",
    "Scisim.C31_energy",
    "Scisim.C31_quadratic_program",
    "Scisim.C31_unique",
    "Scisim.C31_solvable",
    "Scisim.C31_false_nonpenetrating",
    "Scisim.C31_false_mixed_restitution"
   ],
   "note": "All of it is proved but for non-penetration, which is false for positive restitution at contacts that were separating (C31_false_nonpenetrating); proved for contacts that were not separating, and for restitution zero. Also proved: the problem is the quadratic program handed to the solver, has a solution, and the velocities are unique."
  },
  {
   "property": "C32",
   "status": "proved",
   "theorems": [
    "Scisim.C32_push",
    "Scisim.C32_feasible",
    "Scisim.C32_energy",
    "Scisim.C32_energy_conserved",
    "Scisim.C32_terminates",
    "Scisim.C32_exit",
    "Scisim.C31_momentum",
    "Scisim.C31_momentum_balls"
   ],
   "note": "The inner solver is a parameter assumed to solve the subproblems it is given, which is shown possible; feasibility on stopping needs no assumption on it."
  },
  {
   "property": "C33",
   "status": "proved",
   "theorems": [
    "Scisim.C33_blend",
    "Scisim.C33_admissible",
    "Scisim.C33_velocity",
    "Scisim.C33_exit",
    "Scisim.C33_lcp_gr"
   ],
   "note": "Any two operators; C33_lcp_gr discharges the hypotheses for exact linear complementarity and generalized reflections."
  },
  {
   "property": "C34",
   "status": "partial",
   "theorems": [
    "Scisim.C34_impact",
    "Scisim.C34_geometric",
    "Scisim.C34_stabilized",
    "Scisim.C34_stabilized_cache",
    "Scisim.C34_symplectic_partial",
    "Scisim.C34_symplectic_ball",
    "Scisim.C34_symplectic_false",
    "Scisim.C34_symplectic_rb2d_exits",
    "Scisim.C34_run",
    "Scisim.C34_ball_isolated",
    "Scisim.C34_ball_whole_step"
   ],
   "note": "Proved for the impact map, the geometric and the stabilised impact-friction map with any system and integrator, and for the symplectic Euler impact-friction map when symplectic Euler is the configured integrator. False for that map with any other integrator (C34_symplectic_false). C34_ball_isolated discharges the no-contact hypothesis from geometry."
  },
  {
   "property": "C35",
   "status": "proved",
   "theorems": [
    "Scisim.C35_apgd"
   ],
   "note": "Proved over floating point with infinities and NaN (rounding aside); a returned solution is an iterate, is nonnegative, and carries its own residual and iteration count."
  },
  {
   "property": "C36",
   "status": "partial",
   "theorems": [
    "Scisim.C36_terminates_partial",
    "Scisim.C36_false_warm_start",
    "Scisim.C36_false_opposed"
   ],
   "note": "Proved that the line search stops for symmetric matrices that do not annihilate the starting direction. False otherwise: two starts, one of them a ball between two opposite walls, from which the solver never returns (both proved)."
  },
  {
   "property": "C37",
   "status": "partial",
   "theorems": [
    "Scisim.C37_fischer_burmeister",
    "Scisim.C37_fischer_burmeister_largest",
    "Scisim.C37_min_map",
    "Scisim.C37_min_map_largest",
    "Scisim.C37_lcp",
    "Scisim.C37_smooth_partial",
    "Scisim.C37_smooth_false",
    "Scisim.C37_smooth_largest",
    "Scisim.C37_bound_partial",
    "Scisim.C37_bound_false",
    "Scisim.C37_bound_largest"
   ],
   "note": "Proved for both impact residuals. The two friction residuals vanish at every solution but also at non-solutions (proved), exactly described by the partial theorems."
  },
  {
   "property": "C38",
   "status": "proved",
   "theorems": [
    "Scisim.C38_staggered",
    "Scisim.C38_returns",
    "Scisim.C38_nonpenetrating",
    "Scisim.C38_extra_terms",
    "Scisim.C38_one_pass",
    "Scisim.C38_contact_force"
   ],
   "note": "For any impact and friction sub-solvers, any sizes and any iteration limit, over floating point with infinities and NaN (rounding aside)."
  },
  {
   "property": "C39",
   "status": "proved",
   "theorems": [
    "Scisim.C39_directions",
    "Scisim.C39_constraint",
    "Scisim.C39_inside_disk",
    "Scisim.C39_covers",
    "Scisim.C39_planar"
   ],
   "note": "Any number of contacts and sampled directions; C39_covers shows the admitted set fills the inscribed disk of the polygon."
  },
  {
   "property": "C40",
   "status": "proved",
   "theorems": [
    "Scisim.C40_frame",
    "Scisim.C40_opposes",
    "Scisim.C40_frame_planar"
   ],
   "note": "All unit normals and all relative velocities, in two and three dimensions."
  },
  {
   "property": "C41",
   "status": "proved",
   "theorems": [
    "Scisim.C41_delete",
    "Scisim.C41_script",
    "Scisim.C41_nan_deleted",
    "Scisim.C43_history"
   ],
   "note": "All numbers of bodies and all index lists (repeats included), for states whose positions are numbers; a body with a NaN position is deleted too (C41_nan_deleted). C43_history covers any sequence of edits."
  },
  {
   "property": "C42",
   "status": "proved",
   "theorems": [
    "Scisim.C42_delete",
    "Scisim.C42_unused",
    "Scisim.C42_dangling",
    "Scisim.C43_history"
   ],
   "note": "Whatever the uninitialised index table holds. A body whose geometry is removed is left with an arbitrary index (C42_dangling)."
  },
  {
   "property": "C43",
   "status": "proved",
   "theorems": [
    "Scisim.C43_add_body",
    "Scisim.C43_add_ball",
    "Scisim.C43_insert_ball",
    "Scisim.C43_history",
    "Scisim.C43_inverse"
   ],
   "note": "Any state, any geometry and any sequence of edits."
  },
  {
   "property": "C44",
   "status": "proved",
   "theorems": [
    "Scisim.C44_circle",
    "Scisim.C44_box",
    "Scisim.C44_body",
    "Scisim.C44_scene",
    "Scisim.C44_moving_circle",
    "Scisim.C44_sphere",
    "Scisim.C44_box3",
    "Scisim.C44_mesh",
    "Scisim.C44_body3",
    "Scisim.C44_scene3",
    "Scisim.C44_false_moving_box",
    "Scisim.C44_false_staple"
   ],
   "note": "All bodies the claim names, in all poses, and the scene boxes; triangle meshes too. Outside the claim: the collision box of a moving planar box covers only its end pose, and the box of a staple ignores its thickness (both proved)."
  },
  {
   "property": "C45",
   "status": "proved",
   "theorems": [
    "Scisim.C45_exact",
    "Scisim.C45_normal"
   ],
   "note": "All boxes, circles and poses; exact arithmetic."
  },
  {
   "property": "C46",
   "status": "proved",
   "theorems": [
    "Scisim.C46_exact",
    "Scisim.C46_penetration"
   ],
   "note": "All pairs of boxes in all poses; exact arithmetic."
  },
  {
   "property": "C47",
   "status": "proved",
   "theorems": [
    "Scisim.C47_circle",
    "Scisim.C47_box",
    "Scisim.C47_sphere",
    "Scisim.C47_box3",
    "Scisim.C47_mesh_integrals",
    "Scisim.C47_mesh",
    "Scisim.C47_mesh_placement",
    "Scisim.C47_false_staple"
   ],
   "note": "Masses and moments are proved equal to Lebesgue integrals; for meshes the solid is any set that the closed surface winds around once. Eigen's eigenvalue decomposition is a parameter assumed correct. Outside the claim: the moments of staples are wrong (C47_false_staple)."
  },
  {
   "property": "C48",
   "status": "proved",
   "theorems": [
    "Scisim.C48_portals",
    "Scisim.C48_no_undefined",
    "Scisim.C48_portals3",
    "Scisim.C48_success3",
    "Scisim.C48_renderers",
    "Scisim.C48_renderer_index_false"
   ],
   "note": "Any number of planes and nodes, in two and three dimensions, with the exact condition for success; in three dimensions also the renderers that refer to planes by index. XML syntax is not modelled."
  },
  {
   "property": "C49",
   "status": "proved",
   "theorems": [
    "Scisim.C49_extract",
    "Scisim.C49_out_of_range"
   ],
   "note": "All well-formed compressed matrices and all lists of columns, repeats included; a column that does not exist is undefined behaviour."
  },
  {
   "property": "C50",
   "status": "proved",
   "theorems": [
    "Scisim.C50_inverse",
    "Scisim.C50_balls",
    "Scisim.C50_plates",
    "Scisim.C50_inverse3",
    "Scisim.C50_update",
    "Scisim.C50_updates",
    "Scisim.C50_bodies"
   ],
   "note": "Any number of bodies, masses, inertias and orientations, and any sequence of updates. Energy and momenta are compared with integrals over arbitrary mass distributions."
  },
  {
   "property": "C51",
   "status": "partial",
   "theorems": [
    "Scisim.C51_exact_partial",
    "Scisim.C51_data",
    "Scisim.C51_channel",
    "Scisim.C51_self",
    "Scisim.C51_both_planes"
   ],
   "note": "Exact characterisation of the teleported contacts for configurations spread over at most 65536 average sizes (larger grids wrap, see C14). The two indices can be equal: a ball in a channel shorter than its diameter touches its own image."
  },
  {
   "property": "C52",
   "status": "partial",
   "theorems": [
    "Scisim.C52_impact",
    "Scisim.C52_geometric_normal",
    "Scisim.C52_geometric_friction",
    "Scisim.C52_symplectic_normal",
    "Scisim.C52_symplectic_friction",
    "Scisim.C52_symplectic_friction_3d",
    "Scisim.C52_ball_impact",
    "Scisim.C52_ball_geometric_normal",
    "Scisim.C52_ball_geometric_friction",
    "Scisim.C52_ball_symplectic_normal",
    "Scisim.C52_ball_symplectic_friction",
    "Scisim.C52_teleported_exits",
    "Scisim.C52_rb2d_impact_partial",
    "Scisim.C52_rb2d_geometric_partial",
    "Scisim.C52_rb2d_false",
    "Scisim.C52_rb3d_impact"
   ],
   "note": "Proved for every map that caches, any lawful cache and any run; discharged completely for the ball simulation with its portals. False for 2D boxes that touch in two points (C52_rb2d_false)."
  },
  {
   "property": "C53",
   "status": "partial",
   "theorems": [
    "Scisim.C53_identity_partial",
    "Scisim.C53_identity_false",
    "Scisim.C53_identity_nan_false",
    "Scisim.C53_symmetric",
    "Scisim.C53_symmetric_shape",
    "Scisim.C53_frame3",
    "Scisim.C53_frame3_right_handed",
    "Scisim.C53_frame3_exact",
    "Scisim.C53_frame2",
    "Scisim.C53_frame_nan_false"
   ],
   "note": "Symmetry and frame checks are sound for all inputs that are numbers. The identity check only looks at stored entries, so it accepts the zero matrix, and NaN passes the identity and frame checks (all proved); the partial theorem covers matrices that store their diagonal."
  },
  {
   "property": "C55",
   "status": "partial",
   "theorems": [
    "Scisim.C55_relative_velocity_partial",
    "Scisim.C55_false_moving_plane",
    "Scisim.C55_normal_velocity",
    "Scisim.C55_impulse",
    "Scisim.C55_power",
    "Scisim.C55_columns",
    "Scisim.C55_teleported",
    "Scisim.C55_portal_velocity"
   ],
   "note": "Proved for every contact that can be found, except that the relative velocity of a box on a moving plane ignores the motion of the plane (counterexample proved), and that of images both of which go through sliding portals counts only one of them."
  },
  {
   "property": "C56",
   "status": "proved",
   "theorems": [
    "Scisim.C56_conserves",
    "Scisim.C56_step",
    "Scisim.C56_scripted",
    "Scisim.C56_portal"
   ],
   "note": "All contacts of all scenes, with portals."
  },
  {
   "property": "C57",
   "status": "partial",
   "theorems": [
    "Scisim.C57_exact_partial",
    "Scisim.C57_exits",
    "Scisim.C57_exits_apart",
    "Scisim.C57_planes",
    "Scisim.C57_plane_corners",
    "Scisim.C57_normals",
    "Scisim.C57_stack",
    "Scisim.C57_portals_partial",
    "Scisim.C57_portals_exits",
    "Scisim.C57_channel",
    "Scisim.C57_portal_square",
    "Scisim.C57_false_portal_swept"
   ],
   "note": "With and without portals; the program exits on pairs it does not support (exact condition proved). With a portal in the scene the sweep of circles is lost (C57_false_portal_swept): the exact list with portals asks in addition that the boxes at the end of the step meet. Missing: scenes that spread over more than 65536 average sizes."
  },
  {
   "property": "C58",
   "status": "partial",
   "theorems": [
    "Scisim.C58_frame_partial",
    "Scisim.C58_isometric",
    "Scisim.C58_round_trip",
    "Scisim.C58_height",
    "Scisim.C58_bodies_independent",
    "Scisim.C58_step",
    "Scisim.C58_box_step",
    "Scisim.C58_run",
    "Scisim.C58_periodic_x",
    "Scisim.C58_periodic_y",
    "Scisim.C58_periodic_z",
    "Scisim.C58_false_diagonal",
    "Scisim.C58_false_multiplier",
    "Scisim.C58_multiplier"
   ],
   "note": "The tangents are proved orthonormal away from Eigen's almost-opposite branch, where the axis comes from an SVD and is assumed to be a unit vector orthogonal to the normal. For planes that face along a diagonal no multiplier gives a translation, and the loader accepts multipliers that put bodies behind the other plane (both proved)."
  },
  {
   "property": "C59",
   "status": "partial",
   "theorems": [
    "Scisim.C59_contact_partial",
    "Scisim.C59_false_moving_plane",
    "Scisim.C59_false_cylinder_normal",
    "Scisim.C59_normal_velocity",
    "Scisim.C59_power",
    "Scisim.C59_columns",
    "Scisim.C59_disk",
    "Scisim.C59_stencil",
    "Scisim.C59_teleported"
   ],
   "note": "Proved for every contact that can be found, except that the relative velocity ignores the motion of scripted bodies, and of planes and cylinders that touch boxes and meshes (counterexample proved)."
  },
  {
   "property": "C60",
   "status": "proved",
   "theorems": [
    "Scisim.C60_conserves",
    "Scisim.C60_step",
    "Scisim.C60_scripted",
    "Scisim.C60_portal"
   ],
   "note": "All contacts of all scenes, with portals."
  },
  {
   "property": "C61",
   "status": "partial",
   "theorems": [
    "Scisim.C61_exact_partial",
    "Scisim.C61_exits",
    "Scisim.C61_exits_apart",
    "Scisim.C61_staples_exit",
    "Scisim.C61_staples_exit_example",
    "Scisim.C61_false_staples",
    "Scisim.C61_unsupported",
    "Scisim.C61_mesh_contacts",
    "Scisim.C61_box_contacts",
    "Scisim.C61_blocks",
    "Scisim.C61_planes",
    "Scisim.C61_plane_points",
    "Scisim.C61_cylinders",
    "Scisim.C61_false_fat_sphere",
    "Scisim.C61_stack",
    "Scisim.C61_tetras",
    "Scisim.C61_portals_partial",
    "Scisim.C61_portals_exits",
    "Scisim.C61_tube",
    "Scisim.C61_portal_box"
   ],
   "note": "With and without portals (missing: scenes that spread over more than 1625 average sizes); boxes that overlap are in contact and boxes in contact have a common point (between the two, C73_false_touching); the signed distance field of meshes is a parameter. The program exits on pairs it does not support, among them staples that touch, and through portals anything but spheres (conditions proved). A sphere thicker than a cylinder gets no contact (counterexample proved)."
  },
  {
   "property": "C62",
   "status": "partial",
   "theorems": [
    "Scisim.C62_totals",
    "Scisim.C62_ball_totals",
    "Scisim.C62_spheres",
    "Scisim.C62_plane",
    "Scisim.C62_cylinder",
    "Scisim.C62_nan",
    "Scisim.C62_sphere_pairs_partial",
    "Scisim.C62_deep_spheres",
    "Scisim.C62_ball_pairs_partial",
    "Scisim.C62_ball_portals_partial",
    "Scisim.C62_ball_planes",
    "Scisim.C62_ball_nan",
    "Scisim.C62_deep_balls",
    "Scisim.C62_rb2d_discs"
   ],
   "note": "The totals, depths and volumes are proved for every list of contacts. That the count of sphere or ball pairs is the number of pairs that meet needs the bounds of C14 on how far the bodies are spread out, and for spheres no portals."
  },
  {
   "property": "C63",
   "status": "proved",
   "theorems": [
    "Scisim.C63_exact",
    "Scisim.C63_step",
    "Scisim.C63_run",
    "Scisim.C63_periodic",
    "Scisim.C63_loaded",
    "Scisim.C63_false_staple",
    "Scisim.C63_false_nan"
   ],
   "note": "Callbacks, forces and contacts are arbitrary functions. Staples, whose boxes leave out their radius, can leave the boundary unnoticed (counterexample proved), and so can a body whose position is NaN."
  },
  {
   "property": "C64",
   "status": "partial",
   "theorems": [
    "Scisim.C64_rb3d_snapshot",
    "Scisim.C64_injective",
    "Scisim.C64_file_partial",
    "Scisim.C64_exponential_euler_lost",
    "Scisim.C64_restorable_partial",
    "Scisim.C64_staple_run_ends"
   ],
   "note": "Missing, because false: snapshots with the exponential Euler integrator are written but can never be loaded (proved), nor those with grr_friction (C08_grr_friction_lost). A run with staples and snapshots ends at its first snapshot. Foreign files: C08_foreign_file_rejected."
  },
  {
   "property": "C54",
   "status": "proved",
   "theorems": [
    "Scisim.C54_total",
    "Scisim.C54_contacts_restored",
    "Scisim.C54_untouched",
    "Scisim.C54_momentum",
    "Scisim.C54_friction",
    "Scisim.C54_contact_law",
    "Scisim.C54_succeeded",
    "Scisim.C54_no_contacts"
   ],
   "note": "The library's Gauss-Seidel iteration is an arbitrary function; C54_momentum assumes that it inverts mass blocks and, in 2D, returns no friction for a zero friction coefficient; C54_contact_law that its answer satisfies the law for its own problem. C54_no_contacts: without contacts the call divides by zero (the maps never make it)."
  },
  {
   "property": "C65",
   "status": "partial",
   "theorems": [
    "Scisim.Scripting.C65_balls2d_partial",
    "Scisim.Scripting.C65_rigidbody2d_partial",
    "Scisim.Scripting.C65_rigidbody3d_partial",
    "Scisim.Scripting.C65_balls2d_consistent",
    "Scisim.Scripting.C65_rigidbody3d_consistent",
    "Scisim.Scripting.C65_false_one_past_end",
    "Scisim.Scripting.C65_false_one_past_end_rb2d",
    "Scisim.Scripting.C65_false_one_past_end_rb3d",
    "Scisim.Scripting.C65_false_one_past_end_collisions",
    "Scisim.Scripting.C65_rejected",
    "Scisim.Scripting.C65_false_wrap",
    "Scisim.Scripting.C65_false_null",
    "Scisim.Scripting.C65_false_dangling",
    "Scisim.Scripting.C65_false_unchecked"
   ],
   "note": "False as stated: an index one past the end, the scene in a coefficient callback and an array used after insertBall are undefined behaviour, indices wrap modulo 2^32 and coefficients are not checked. Proved for all scripts that keep to the rules in Spec/Scripting.lean."
  },
  {
   "property": "C66",
   "status": "proved",
   "theorems": [
    "Scisim.Scripting.C66_run",
    "Scisim.Scripting.C66_steps",
    "Scisim.Scripting.C66_step",
    "Scisim.Scripting.C66_startOfSim",
    "Scisim.Scripting.C66_endOfSim",
    "Scisim.Scripting.C66_startOfStep",
    "Scisim.Scripting.C66_endOfStep",
    "Scisim.Scripting.C66_friction",
    "Scisim.Scripting.C66_restitution",
    "Scisim.Scripting.C66_start",
    "Scisim.Scripting.C66_freeStep",
    "Scisim.Scripting.C66_frictionStep",
    "Scisim.Scripting.C66_frictionStep_apart",
    "Scisim.Scripting.C66_impactStep",
    "Scisim.Scripting.C66_impactStep_apart",
    "Scisim.Scripting.C66_no_module",
    "Scisim.Scripting.C66_false_memory"
   ],
   "note": "The integrator and the contact solver are arbitrary functions. C66_run is for runs whose start-of-simulation function leaves the step counter at zero; C66_steps has no such restriction. C66_false_memory: a script's own variables are not saved in snapshots."
  },
  {
   "property": "C67",
   "status": "partial",
   "theorems": [
    "Scisim.DistanceGrid.C67_exact_partial",
    "Scisim.DistanceGrid.C67_gradient",
    "Scisim.DistanceGrid.C67_outside",
    "Scisim.DistanceGrid.C67_affine",
    "Scisim.DistanceGrid.C67_deep",
    "Scisim.DistanceGrid.C67_near",
    "Scisim.DistanceGrid.C67_unit",
    "Scisim.DistanceGrid.C67_false_far_face",
    "Scisim.DistanceGrid.C67_false_far_side",
    "Scisim.DistanceGrid.C67_false_flat"
   ],
   "note": "Proved for all points except those on the three faces of the box away from the origin, where the code reads wrong samples or behind the end of the array. A point where the field has no slope gets a zero normal. Exact reals."
  },
  {
   "property": "C68",
   "status": "partial",
   "theorems": [
    "Scisim.C68_ball2d_partial",
    "Scisim.C68_rb2d_partial",
    "Scisim.C68_rb3d_partial",
    "Scisim.C68_rb3d_determines",
    "Scisim.C68_staple_exits",
    "Scisim.HDF5.C68_read_back",
    "Scisim.HDF5.C68_read_back_doubles",
    "Scisim.HDF5.C68_read_back_ints",
    "Scisim.HDF5.C68_read_back_unsigneds",
    "Scisim.HDF5.C68_write_frame",
    "Scisim.HDF5.C68_false_long",
    "Scisim.C68_false_ball2d",
    "Scisim.C68_false_rb2d",
    "Scisim.C68_false_rb3d"
   ],
   "note": "Everything the files contain is proved to be right for all states. Missing because false: files of balls lack drums, portals and fixed flags, files of the 2D program how planes move, files of the 3D program portals and the boundary; a staple among the geometries ends the run; matrices of long cannot be read back. The HDF5 library is modelled by its documented effects."
  },
  {
   "property": "C69",
   "status": "partial",
   "theorems": [
    "Scisim.C69_rb3d_columns",
    "Scisim.C69_rb3d_written",
    "Scisim.C69_rb3d_partial",
    "Scisim.C69_rb3d_momentum_partial",
    "Scisim.C69_rb3d_impacts_partial",
    "Scisim.C69_rb2d_columns",
    "Scisim.C69_rb2d_written",
    "Scisim.C69_rb2d_partial",
    "Scisim.C69_rb2d_impacts_partial",
    "Scisim.C69_ball2d_columns",
    "Scisim.C69_ball2d_written",
    "Scisim.C69_ball2d_partial",
    "Scisim.C69_ball2d_impacts_partial",
    "Scisim.C69_stack3",
    "Scisim.C69_stack2",
    "Scisim.C69_ball_example",
    "Scisim.C69_linear_example",
    "Scisim.C69_false_dt",
    "Scisim.C69_false_static",
    "Scisim.C69_false_linear",
    "Scisim.C69_false_portal_impacts"
   ],
   "note": "Proved: count, order, bodies, points, normals, and that the listed values applied at the listed points are the momentum change N alpha + D beta, for all contact lists the programs produce, up to: angular momenta (3D) and everything (2D) for contacts through portals and balls that touch themselves through a portal. False and shown: the values are impulses, not forces; the friction disk with its own directions is written with the wrong entries; drums and planes have the same codes; meshes in cylinders, and 2D contacts through portals without friction, end the run."
  },
  {
   "property": "C70",
   "status": "partial",
   "theorems": [
    "Scisim.C70_loads_partial",
    "Scisim.C70_unique",
    "Scisim.C70_accepts",
    "Scisim.C70_viewer",
    "Scisim.C70_valid",
    "Scisim.C70_returns_partial",
    "Scisim.exampleBall_describes",
    "Scisim.C70_false_trailing",
    "Scisim.C70_false_silent",
    "Scisim.C70_false_timestep",
    "Scisim.C70_false_unchecked",
    "Scisim.C70_false_blank",
    "Scisim.C70_false_exit",
    "Scisim.C70_false_documented",
    "Scisim.C70_false_lines",
    "Scisim.C70_lines"
   ],
   "note": "Every file in the format is loaded as the scene it describes, and C70_accepts says exactly which files are loaded and as what. False, with witnesses: files outside the format are not all rejected (text after a number is ignored, a ball's number that is none is 0, 'true' is false, the timestep 1e-4 is 1); masses, radii and the impact restitution are not checked; an empty text is undefined behaviour; an unknown cache option ends the program; lines are joined without white space. The XML library is not modelled: a file is its tree of elements. Numbers are exact."
  },
  {
   "property": "C71",
   "status": "partial",
   "theorems": [
    "Scisim.C71_loads_partial",
    "Scisim.C71_unique",
    "Scisim.C71_accepts",
    "Scisim.C71_valid",
    "Scisim.C71_masses",
    "Scisim.C71_returns_partial",
    "Scisim.exampleRigid2D_describes",
    "Scisim.C71_false_trailing",
    "Scisim.C71_false_spaces",
    "Scisim.C71_false_empty",
    "Scisim.C71_false_integrator",
    "Scisim.C71_false_infinite",
    "Scisim.C71_false_exit",
    "Scisim.C71_staggered",
    "Scisim.C71_false_cache"
   ],
   "note": "Every file in the format is loaded as the scene it describes, and C71_accepts says exactly which files are loaded and as what; masses and inertias are those of the shapes. False, with witnesses: text after a number is ignored (0 -9,81 is gravity 9), an empty list is undefined behaviour, a file without integrator is loaded with timestep 0, infinite normals are accepted, staggered projections always end the program, a cache option is ignored with stabilized. The XML library is not modelled: a file is its tree of elements. Numbers are exact."
  },
  {
   "property": "C72",
   "status": "partial",
   "theorems": [
    "Scisim.C72_loads_partial",
    "Scisim.C72_unique",
    "Scisim.C72_accepts",
    "Scisim.C72_valid",
    "Scisim.C72_bodies",
    "Scisim.C72_renderers",
    "Scisim.C72_returns_partial",
    "Scisim.exampleRigid3D_describes",
    "Scisim.C72_false_density",
    "Scisim.C72_false_normal",
    "Scisim.C72_false_renderer",
    "Scisim.C72_false_empty",
    "Scisim.C72_false_index",
    "Scisim.C72_false_exit",
    "Scisim.C72_false_grr",
    "Scisim.C72_false_staple",
    "Scisim.C72_false_trailing"
   ],
   "note": "Every file in the format is loaded as the scene it describes, and C72_accepts says exactly which files are loaded and as what; states of bodies are those of their shapes, turned by the rotation vector; renderers stay with their planes. False, with witnesses: negative densities, zero normals and renderers one past the last plane are accepted; an empty list and the index -2147483648 are undefined behaviour; an unknown cache option ends the program; the documented form of grr_friction_solver is rejected; a staple of no extent is accepted. The XML library and the contents of mesh files are not modelled; numbers are exact."
  },
  {
   "property": "C73",
   "status": "partial",
   "theorems": [
    "Scisim.C73_sound",
    "Scisim.C73_complete",
    "Scisim.C73_count",
    "Scisim.C73_normal",
    "Scisim.C73_face",
    "Scisim.C73_edge_partial",
    "Scisim.C73_false_touching",
    "Scisim.C73_false_edges"
   ],
   "note": "Proved for all boxes and orientations: no false contacts, no missed overlap, at most eight points, unit normal along which the overlap is the penetration depth up to five percent, points of faces. The point of two edges is right unless the edges are nearly parallel or the bias of five percent has kept a face that is not the least one. False, with witnesses: boxes that only touch may get no point (C73_false_touching); for two long beams that cross at half a degree the point is outside both (C73_false_edges)."
  },
  {
   "property": "C74",
   "status": "partial",
   "theorems": [
    "Scisim.C74_segments",
    "Scisim.C74_short",
    "Scisim.C74_staples",
    "Scisim.C74_plane",
    "Scisim.C74_box_ball",
    "Scisim.C74_false_short"
   ],
   "note": "Everything is proved for segments, legs and backs longer than 1e-4, and up to an error of 2e-4 for shorter segments; for these the exact claim is false (C74_false_short). The box against a ball ends the program when the centre of the ball is in the box or within sqrt(1e-9) of it (exact condition in C74_box_ball)."
  },
  {
   "property": "C75",
   "status": "partial",
   "theorems": [
    "Scisim.C75_impact_problem",
    "Scisim.C75_friction_problem",
    "Scisim.C75_linear_solvers",
    "Scisim.C75_status_text",
    "Scisim.C75_impact_result",
    "Scisim.C75_impact_tolerance",
    "Scisim.C75_impact_answer",
    "Scisim.C75_friction_result",
    "Scisim.C75_friction_answer",
    "Scisim.C75_friction_tolerance_partial",
    "Scisim.C75_ql_calls",
    "Scisim.C75_ql_impact",
    "Scisim.C75_ql_linear_friction",
    "Scisim.C75_ql_bound_friction",
    "Scisim.C75_ql_failures",
    "Scisim.C75_friction_without_solver",
    "Scisim.C75_friction_all_failed",
    "Scisim.C75_friction_hessian_misplaced",
    "Scisim.C75_friction_hessian_overrun",
    "Scisim.C75_friction_bound_ignored"
   ],
   "note": "Proved for the impact operators and for QL. For the friction operator with Ipopt the claim is proved if the diagonal of the matrix is stored, the squared bounds are less than 1e19 and Ipopt can be set up; each of these is needed (C75_friction_hessian_misplaced, C75_friction_hessian_overrun, C75_friction_bound_ignored, C75_friction_without_solver), and its variant with a termination test goes on when all solvers fail (C75_friction_all_failed). The libraries are parameters with the stated promise."
  },
  {
   "property": "C76",
   "status": "partial",
   "theorems": [
    "Scisim.Viewer.C76_replay",
    "Scisim.Viewer.C76_reproducible",
    "Scisim.Viewer.C76_end",
    "Scisim.Viewer.C76_second_scene_false",
    "Scisim.Viewer.C76_script_memory_false"
   ],
   "note": "Proved for all three programs and all histories, up to two faults of the code, for which there are counterexamples: rigidbody2dqt4 starts the second scene opened with the constraint cache of the one before, and a reset does not make a script forget. What a step computes is a parameter, as for the command line programs (C10-C13)."
  },
  {
   "property": "C77",
   "status": "partial",
   "theorems": [
    "Scisim.Viewer.C77_movie",
    "Scisim.Viewer.C77_even",
    "Scisim.Viewer.C77_names",
    "Scisim.Viewer.C77_rate",
    "Scisim.Viewer.C77_rate_change_false",
    "Scisim.Viewer.C77_first_frame_old",
    "Scisim.Viewer.C77_first_interval",
    "Scisim.Viewer.C77_no_steps_ub"
   ],
   "note": "Proved while the scene, the frame rate and the movie settings are left alone and for fewer than 2^32 steps; changing the frame rate numbers the frames from 0 again (C77_rate_change_false). The first frame may be older than the state (C77_first_frame_old)."
  },
  {
   "property": "C78",
   "status": "partial",
   "theorems": [
    "Scisim.Viewer.C78_controls_partial",
    "Scisim.Viewer.C78_defined_partial",
    "Scisim.Viewer.C78_picture_partial",
    "Scisim.Viewer.C78_controls_false",
    "Scisim.Viewer.C78_start_insert_ub",
    "Scisim.Viewer.C78_replace_ub",
    "Scisim.Viewer.C78_add_exit"
   ],
   "note": "Proved for scenes with frame rates from 1 to 1000 and usual time steps, and scripts that insert and replace bodies only where the programs are prepared for it; counterexamples for the rest. The camera and what is drawn for a body are not part of this."
  },
  {
   "property": "C79",
   "status": "partial",
   "theorems": [
    "Scisim.Camera.C79_current_partial",
    "Scisim.Camera.C79_drag",
    "Scisim.Camera.C79_zoom",
    "Scisim.Camera.C79_center_balls_partial",
    "Scisim.Camera.C79_center_bodies",
    "Scisim.Camera.C79_lock",
    "Scisim.Camera.C79_export",
    "Scisim.Camera.C79_open_balls_false",
    "Scisim.Camera.C79_jump_false",
    "Scisim.Camera.C79_center_empty_false",
    "Scisim.Camera.C79_center_drums_false",
    "Scisim.Camera.C79_start_ub",
    "Scisim.Camera.C79_start_narrow_false"
   ],
   "note": "Proved for all histories up to the faults found, each with a counterexample: ball2dqt4 paints a newly opened scene with the old projection, so that the first drag afterwards jumps; centring an empty scene leaves a stale projection; a scene of static drums only counts as empty; the first scene is scaled by an undefined window size (ball2dqt4) or for a square window (rigidbody2dqt4)."
  },
  {
   "property": "C80",
   "status": "partial",
   "theorems": [
    "Scisim.Camera3.C80_true",
    "Scisim.Camera3.C80_current_partial",
    "Scisim.Camera3.C80_center_ortho_partial",
    "Scisim.Camera3.C80_center_persp_partial",
    "Scisim.Camera3.C80_center_persp_usual_partial",
    "Scisim.Camera3.C80_drag",
    "Scisim.Camera3.C80_orbit",
    "Scisim.Camera3.C80_upright",
    "Scisim.Camera3.C80_lock_partial",
    "Scisim.Camera3.C80_export",
    "Scisim.Camera3.C80_center_big_false",
    "Scisim.Camera3.C80_center_small_false",
    "Scisim.Camera3.C80_first_false",
    "Scisim.Camera3.C80_open_empty_false",
    "Scisim.Camera3.C80_center_empty_false",
    "Scisim.Camera3.C80_lock_menu_false"
   ],
   "note": "Proved for all histories up to the faults found, each with a counterexample: the orthographic camera cuts off scenes of radius over 50, the perspective camera cuts off small ones, the scene named on the command line is framed for the wrong angle, centring an empty scene leaves a stale projection, and the menu items that select a camera ignore the lock. Staples are excluded from centring (C44_false_staple)."
  },
  {
   "property": "C81",
   "status": "partial",
   "theorems": [
    "Scisim.C81_saves",
    "Scisim.C81_pasted_partial",
    "Scisim.C81_states_partial",
    "Scisim.C81_exit_false",
    "Scisim.C81_open_false",
    "Scisim.C81_mesh_false",
    "Scisim.C81_digits_false"
   ],
   "note": "False as it stands, each with a theorem: no file that is saved can be opened (there is no integrator in it), boxes and staples end the program, meshes are displaced by their centre of mass, and only six digits are written. Proved: what is saved, put into a scene file without bodies, is read as those shapes and bodies, and the states of balls are then exactly those saved if their numbers lose nothing in writing."
  },
  {
   "property": "C82",
   "status": "partial",
   "theorems": [
    "Scisim.Picture2.C82_ball_partial",
    "Scisim.Picture2.C82_ground",
    "Scisim.Picture2.C82_drum",
    "Scisim.Picture2.C82_drum_false",
    "Scisim.Picture2.C82_images",
    "Scisim.Picture2.C82_exits",
    "Scisim.Picture2.C82_lines",
    "Scisim.Picture2.C82_rigid",
    "Scisim.Picture2.C82_rigid_ground",
    "Scisim.Picture2.C82_rigid_lines",
    "Scisim.Picture2.C82_rigid_images"
   ],
   "note": "False for balls in a drum: drums are painted after the balls as solid black discs, so that the balls in them are never seen. Proved: balls outside drums, the ground, rigid boxes exactly and discs up to the polygon, planes, portals and outlines exactly. Lines have no width in the model."
  },
  {
   "property": "C83",
   "status": "partial",
   "theorems": [
    "Scisim.Picture3.C83_runs",
    "Scisim.Picture3.C83_bodies_sound",
    "Scisim.Picture3.C83_bodies_complete",
    "Scisim.Picture3.C83_lines_partial",
    "Scisim.Picture3.C83_window_in_plane",
    "Scisim.Picture3.C83_cage_corners",
    "Scisim.Picture3.C83_sphere"
   ],
   "note": "Proved: bodies (boxes and meshes exactly, spheres and staples up to the tolerance of the polyhedra), all lines, and when painting is free of faults. Missing: directions of planes and cylinders within about a millionth of straight down but not straight down, for which the choice of Eigen is not known; normals, shading, widths of lines and what hides what from the camera are not modelled."
  },
  {
   "property": "C84",
   "status": "partial",
   "theorems": [
    "Scisim.C84_meshes",
    "Scisim.C84_header",
    "Scisim.C84_contacts_partial",
    "Scisim.C84_no_contacts_false",
    "Scisim.C84_no_solver_false",
    "Scisim.C84_numbers_false"
   ],
   "note": "False for steps without contacts: the program then writes only their number, or nothing at all when contacts are not handled, and the tool ends with an error instead of printing an empty list. Also, bodies are numbered by their place among those with meshes, contacts by their place among all. Proved: configurations in full, for states without staples (which cannot be saved, C68), and files with contacts. The library h5py is modelled by its documentation."
  },
  {
   "property": "C85",
   "status": "partial",
   "theorems": [
    "Scisim.PythonRefs.C85_owned",
    "Scisim.PythonRefs.C85_window_partial",
    "Scisim.PythonRefs.C85_leak_false",
    "Scisim.PythonRefs.C85_command_line_partial",
    "Scisim.PythonRefs.C85_command_line_false",
    "Scisim.PythonRefs.C85_assign",
    "Scisim.PythonRefs.C85_function",
    "Scisim.PythonRefs.C85_self"
   ],
   "note": "False of the command line programs: the scripting object has static storage and is destroyed after the interpreter has been shut down by a function registered with atexit in main, so that every run with a script ends in undefined behaviour. False of the interactive programs: each time a script is loaded one reference to its module is lost. Proved: everything else, for all histories."
  },
  {
   "property": "C86",
   "status": "partial",
   "theorems": [
    "Scisim.CommandLine.C86_help",
    "Scisim.CommandLine.C86_run_partial",
    "Scisim.CommandLine.C86_resume",
    "Scisim.CommandLine.C86_rejects_options",
    "Scisim.CommandLine.C86_rejects",
    "Scisim.CommandLine.C86_endless_false",
    "Scisim.CommandLine.C86_resume_false",
    "Scisim.CommandLine.C86_frequency_false",
    "Scisim.CommandLine.C86_number_false"
   ],
   "note": "False of the code: a scene without end time leads to the conversion of infinity to an unsigned number, which is undefined; when a snapshot is resumed all other options are ignored silently; the frequency is not ignored without a directory, may be negative or zero; what follows a number is ignored. Proved: everything else, for all command lines of options by letter or name."
  },
  {
   "property": "C87",
   "status": "partial",
   "theorems": [
    "Scisim.Texts.C87_exact",
    "Scisim.Texts.C87_close",
    "Scisim.Texts.C87_fraction_false"
   ],
   "note": "False of the code for small fractions: with the time step 1/10000000 different steps show the same time. Proved: exactness for decimal time steps, nearest time and monotony for all. Rounding of the product to a double is not modelled."
  },
  {
   "property": "C88",
   "status": "partial",
   "theorems": [
    "Scisim.Texts.C88_script_partial",
    "Scisim.Texts.C88_root_false",
    "Scisim.Texts.C88_quote_false"
   ],
   "note": "False of the code: for a scene in the root the current directory is used; a directory with a quote, backslash or newline in its name is not found, its name becomes part of a Python program. Proved for all other names."
  },
  {
   "property": "C89",
   "status": "partial",
   "theorems": [
    "Scisim.Handles.C89_use",
    "Scisim.Handles.C89_files_partial",
    "Scisim.Handles.C89_end_partial",
    "Scisim.Handles.C89_reopen_false",
    "Scisim.Handles.C89_not_open",
    "Scisim.Handles.C89_run"
   ],
   "note": "False of the code for an object that opens a second file: the first is never closed. Proved for all histories in which that does not happen, among them all runs of the programs. Names, data and predefined identifiers are left out; an identifier counts as given back when it has been passed to the closing function."
  },
  {
   "property": "C90",
   "status": "partial",
   "theorems": [
    "Scisim.Handles.C90_noticed_partial",
    "Scisim.Handles.C90_complete",
    "Scisim.Handles.C90_success",
    "Scisim.Handles.C90_status_partial",
    "Scisim.Handles.C90_friction_false",
    "Scisim.Handles.C90_close_false",
    "Scisim.Handles.C90_select_false"
   ],
   "note": "False of the code: results of closing and of selecting a part of a file are not looked at, and with friction a failure in the file of forces is an exception that nobody catches. Proved: all other failures are noticed, success means that every value has been written, a run without failing calls succeeds, and without friction there is always a status."
  },
  {
   "property": "C91",
   "status": "proved",
   "theorems": [
    "Scisim.Copies.C91_ball2d",
    "Scisim.Copies.C91_rb2d",
    "Scisim.Copies.C91_rb3d",
    "Scisim.Copies.C91_defined",
    "Scisim.Copies.C91_reset_ball2d",
    "Scisim.Copies.C91_reset_rb2d",
    "Scisim.Copies.C91_reset_rb3d",
    "Scisim.Copies.C91_members"
   ],
   "note": "Refinement of plain values for all histories. Addresses are not used again, no allocation fails, and what a move leaves behind in members other than the vectors of pointers is not modelled, as nothing reads it."
  },
  {
   "property": "C92",
   "status": "proved",
   "theorems": [
    "Scisim.Sobogus.C92_total",
    "Scisim.Sobogus.C92_measure",
    "Scisim.Sobogus.C92_staggered"
   ],
   "note": "The library's evaluation is an arbitrary function of the problem and the impulses in local coordinates; that it measures the violation of the law is a hypothesis, met by measures_largest. That the matrices N and D and the inverse mass matrix are those of the contacts and bodies is a hypothesis of C92_staggered, met by setUpFor_runFor."
  },
  {
   "property": "C93",
   "status": "proved",
   "theorems": [
    "Scisim.OperatorCopies.C93_clone",
    "Scisim.OperatorCopies.C93_clone_friction",
    "Scisim.OperatorCopies.C93_delete",
    "Scisim.OperatorCopies.C93_write",
    "Scisim.OperatorCopies.C93_parse",
    "Scisim.OperatorCopies.C93_solver"
   ],
   "note": "Null operators are excluded (Whole). Operators read from a file are not checked; a copy of one with an unacceptable list of solvers would end the process (an example shows it), but nothing in the program makes one."
  },
  {
   "property": "C94",
   "status": "proved",
   "theorems": [
    "Scisim.Colours.C94_balls_visible",
    "Scisim.Colours.C94_bodies_visible",
    "Scisim.Colours.C94_bodies_keep",
    "Scisim.Colours.C94_balls_keep",
    "Scisim.Colours.C94_balls_reset",
    "Scisim.Colours.C94_balls_reset_false",
    "Scisim.Colours.C94_ends"
   ],
   "note": "The generator is an arbitrary function of its state; that visible colours keep coming from the real one is the hypothesis Lively of C94_ends. Luminance is computed without rounding."
  },
  {
   "property": "C95",
   "status": "proved",
   "theorems": [
    "Scisim.Products.C95_objective",
    "Scisim.Products.C95_gradient",
    "Scisim.Products.C95_multiply",
    "Scisim.Products.C95_mkl",
    "Scisim.Products.C95_slope",
    "Scisim.Products.C95_symmetry_needed"
   ],
   "note": "Exact arithmetic. The routines of MKL are modelled after their manual; Eigen's product after its algorithm."
  },
  {
   "property": "C96",
   "status": "proved",
   "theorems": [
    "Scisim.PlaneFrames.C96_loaded",
    "Scisim.PlaneFrames.C96_balls",
    "Scisim.PlaneFrames.C96_scripted",
    "Scisim.PlaneFrames.C96_set_normal",
    "Scisim.PlaneFrames.C96_distance",
    "Scisim.PlaneFrames.C96_cylinder_loaded",
    "Scisim.PlaneFrames.C96_cylinders",
    "Scisim.PlaneFrames.C96_space_kept",
    "Scisim.PlaneFrames.C96_zero_false"
   ],
   "note": "Exact real arithmetic. The scripts of ball2d cannot set normals."
  }
 ]
}