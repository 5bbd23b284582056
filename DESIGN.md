# trajectopy-core: formal model and proofs in Lean 4

## Layout

* `properties.jsonl` – the properties (C01, C02, …) in terms of the API.
* `lean/Verif/Model/*.lean` – the model, one file per source area; every definition
  cites the file and lines in `/repo` it models and says what was simplified.
* `lean/Verif/Spec/*.lean` – small specifications that do not use the model's helpers.
* `lean/Verif/Proofs/*.lean` – helper lemmas.
* `lean/Verif/Props/*.lean` – the property theorems (`C01_…`, `C02_…`), each followed by an
  `example` in which a concrete non-trivial case meets its hypotheses.
* `seeded/LOG.jsonl` – wrong-program experiments: one edit of the model per line, the claim
  it breaks and the theorems that stopped compiling. `failed_declarations` are the declarations
  with an error of their own; `theorems_failed` are the property theorems among them or among
  their dependents. A theorem listed only as a dependent lost its proof because a lemma it uses
  failed. This does not by itself show that its statement became false: for that see the
  entries with a `refuted` field, where the negation was proved for the edited model.
* `MANIFEST.json` – property → theorems and status.

## Trusted base

* Lean 4.33.0's kernel. Every property theorem depends on at most `propext`,
  `Classical.choice` and `Quot.sound` (checked with `#print axioms`). No own axioms, no
  `sorry`, no `native_decide`, no `bv_decide`.
* The reading of the Python code: the code was not run. Each model definition cites the lines.
* **Numbers.** Floats are modelled as elements of an ordered field `K` (instantiated with `ℚ`
  in the examples, with `ℝ` where square roots or trigonometry occur). Rounding, overflow,
  `NaN` and `inf` as data are not modelled; "infinite distance" results of search trees are
  modelled as `none`.
* **Exceptions.** Python exceptions are values of `Err`; an operation on mutable state is a
  function `State → Except Err α × State`, so the state *at the raise point* is visible.
* **Objects.** Mutable trajectories live in a heap (a list of records addressed by position);
  `copy()` appends a record. Sharing of numpy arrays *between* trajectories is not modelled.
* **Local coordinates.** `PointSet` is modelled as its list of coordinates with an EPSG code;
  `to_local` is the identity (what it is for EPSG 0). Datum transformations are not modelled.
* **Empty rotation sets**: scipy 1.13 (poetry.lock) rejects an empty stack in `from_quat` and
  `from_matrix` with `ValueError`.
* **`if rot`**: `scipy`'s `Rotation.__bool__` returns `True`, so truth of `rot` is "is not None".
* **Third-party routines** appear as parameters constrained by relations, quantified over
  in the theorems: `argsort` (any sorting permutation – numpy's default sort is not stable),
  `KDTree.query` (any nearest neighbour strictly below the bound, otherwise none),
  `eigh`/`svd`/`solve`/`spsolve` (a decomposition / a solution), `Slerp` (raises for fewer than
  two rotations, or times not strictly increasing, or queries outside; where a theorem needs more,
  a named law: `SlerpEnds`, `SlerpAlongArc`, `SlerpByTurn`, `SlerpDivides`), Delaunay triangulation
  and MST (an arbitrary graph), `scipy.Rotation` (an abstract group, or 3×3 matrices),
  `autograd` (returns the derivative of a differentiable function), `float`/`repr` of numbers in
  text files (reading what was written gives the number back).
* **NaN in the iterative estimation.** The only NaN modelled is the result of `spsolve` for a
  singular matrix; it makes every later number of the adjustment NaN, so the result `none`
  stands for it.
* **Text.** Files are lists of characters; encodings and locale are not modelled, the line ends of
  text files are (`newlines`).
* **JSON.** `Model/Json.lean` writes and reads settings files character by character; the text of a
  float and the value of such a text are given by a library, `NaN` and `Infinity` are left out.
* **Geographic output.** In `Model/Geo.lean` (KML, map) the transformation to latitude and longitude
  is an arbitrary function given as a parameter; nothing is assumed about its accuracy.
* **Plots.** A figure is the list of its curves, points, bars or histogram values with their names,
  labels, subplots and colours (`Model/Plots.lean`, `Model/Mpl.lean`). Layout, fonts, line styles,
  the bins of histograms and the drawing itself are not modelled. `argsort` is any sorting
  permutation, Euler angles are an arbitrary function of the rotation.
* **Disk for reports.** `Model/ShowReport.lean` has directories and files with paths compared as texts.
* **Not modelled:** HTML rendering (except the report data, `Model/Report.lean`), logging, ROS deserialisation, the datum transformations themselves, parallelism inside KDTree, performance, float rounding.


## Per-property plan and outcome

### C01 — Selecting samples keeps every channel in step

*Plan.* apply_index over a heap of trajectories with numpy integer/mask indexing; spec = per-sample projection.

*Outcome (proved).* All equal-length trajectories and all valid index lists, negative positions included.

Theorems: `TC.C01_apply_index_keeps_channels_in_step`

### C02 — A rejected selection changes nothing

*Plan.* state-and-exception semantics that keeps partial updates on error; show the first channel read raises before any write.

*Outcome (proved).* Integer index lists and boolean masks.

Theorems: `TC.C02_apply_index_out_of_range_changes_nothing`, `TC.C02_apply_mask_wrong_length_changes_nothing`

### C03 — Crop keeps exactly the requested time window

*Plan.* crop as mask + apply_index; spec = List.filter on zipped samples; partition by permutation.

*Outcome (proved).* 

Theorems: `TC.C03_crop_keeps_exactly_the_window`, `TC.C03_crop_inverse_keeps_exactly_the_rest`, `TC.C03_crop_and_inverse_partition`

### C04 — Channels never get out of step

*Plan.* invariant by induction over an operation list; counter-example history for interpolate without overlap / failing Slerp; partial theorem for histories whose interpolate calls hit at least one timestamp and do not raise.

*Outcome (partial).* False of the code in three ways, each with a witness: interpolation without a time in the own range leaves one speed for no sample; a failing Slerp and an empty selection raise half way. Proved for every history of calls (in place or on copies, successful or raising, all twelve methods with an inplace flag) in which these three do not occur, and without any condition for histories of selections on trajectories without orientations.

Theorems: `TC.C04_channels_in_step_partial`, `TC.C04_channels_in_step_without_orientations_partial`, `TC.C04_interpolation_outside_range_gets_out_of_step`, `TC.C04_failed_interpolation_gets_out_of_step`, `TC.C04_empty_selection_gets_out_of_step`

### C05 — Interpolation timestamps

*Plan.* model of interpolate; spec by sorted permutation of a filter.

*Outcome (proved).* 

Theorems: `TC.C05_interpolate_timestamps`, `TC.C05_interpolate_succeeds`

### C06 — Interpolation values

*Plan.* np.interp modelled by binary-search index + slope formula; spec as independent relation (exists enclosing interval, convex combination).

*Outcome (proved).* 

Theorems: `TC.C06_interpolate_positions`, `TC.C06_interpolate_arc_lengths`, `TC.C06_interpolate_orientations`, `TC.C06_interpolate_speeds`, `TC.C06_empty_request_one_speed`

### C07 — Interpolating onto own timestamps is the identity on positions

*Plan.* corollary of C05/C06.

*Outcome (proved).* 

Theorems: `TC.C07_interpolate_own_timestamps`

### C08 — A failing interpolation leaves the trajectory untouched

*Plan.* state-keeping error semantics; prove the negation (one-sample trajectory with orientation: positions are already replaced when Slerp raises) and atomicity when there are no orientations.

*Outcome (partial).* The full claim is false for trajectories with orientations; the negation is proved with a concrete witness. Proved: trajectories without orientations.

Theorems: `TC.C08_interpolate_atomic_without_orientations_partial`, `TC.C08_interpolate_not_atomic`

### C09 — Intersect keeps exactly the covered samples

*Plan.* model with searchsorted(right)-1 and indexing as an exception-throwing lookup; spec with consecutive neighbours.

*Outcome (proved).* With orientations: at least one sample is kept (C97 covers the rest).

Theorems: `TC.C09_intersect_without_overlap_raises`, `TC.C09_intersect_keeps_exactly_the_covered_samples`

### C10 — Intersecting twice changes nothing more

*Plan.* corollary of the exact characterisation C09.

*Outcome (proved).* 

Theorems: `TC.C10_intersect_idempotent`

### C11 — match_timestamps keeps each common time once, ascending

*Plan.* np.intersect1d(return_indices) modelled as sorted unique common values with first index; spec via strictly ascending list and membership.

*Outcome (proved).* 

Theorems: `TC.C11_match_timestamps`

### C12 — inplace=False never touches the receiver

*Plan.* object heap, copy allocates; non-interference theorem over an arbitrary operation body, instantiated for each method.

*Outcome (proved).* All methods with an inplace parameter; for apply_alignment only the statement about unchanged objects, since its in-place form always raises (C20).

Theorems: `TC.C12_not_inplace_leaves_objects_alone`, `TC.C12_not_inplace_returns_what_inplace_makes`, `TC.C12_not_inplace_raises_iff_inplace_raises`, `TC.C12_inplace_touches_only_the_receiver`

### C13 — Arc lengths are the travelled distance

*Plan.* lengths_from_xyz over an abstract norm with triangle inequality; induction over the point list.

*Outcome (proved).* 

Theorems: `TC.C13_arc_lengths_are_travelled_distance`, `TC.C13_arc_lengths_never_decrease`, `TC.C13_arc_length_at_least_straight_line`

### C14 — Moving rigidly or scaling a path changes its arc lengths accordingly

*Plan.* induction; isometry as hypothesis on distances.

*Outcome (proved).* 

Theorems: `TC.C14_arc_lengths_rigid_motion`, `TC.C14_arc_lengths_scaling`, `TC.C14_arc_lengths_reversal`

### C15 — The sort-switching index undoes the sorted view

*Plan.* argsort as any sorting permutation; inverse permutation argument.

*Outcome (proved).* 

Theorems: `TC.C15_switching_index_undoes_sorting`, `TC.C15_switching_index_undoes_orientations`

### C16 — Spatial sorting keeps samples attached to their arc length

*Plan.* sort_mls as a parameter returning (index list, arc lengths); prove the sorted/argsort/re-index composition.

*Outcome (proved).* 

Theorems: `TC.C16_sort_spatially`

### C17 — Transformations compose

*Plan.* homogeneous matrices over a field; from_matrix modelled as scipy computes it; group-action theorem.

*Outcome (proved).* 

Theorems: `TC.C17_rigid_motion_moves_every_pose`, `TC.C17_transformations_compose`, `TC.C17_identity_changes_nothing`, `TC.C17_inverse_cancels`

### C18 — A transformation does not invent orientations

*Plan.* negation proved: for every non-empty or empty trajectory without orientations, has_orientation afterwards; partial theorem for those that have them.

*Outcome (partial).* False of the code: the negation is proved for every non-empty trajectory without orientations. Proved: trajectories with orientations keep having them.

Theorems: `TC.C18_transformation_invents_orientations`, `TC.C18_transformation_keeps_orientations_partial`

### C19 — Arc lengths stay the travelled distance after a transformation

*Plan.* proved for rigid motions (partial), negation with a scale-2 witness.

*Outcome (partial).* False of the code for scale other than 1: the negation is proved. Proved: rigid motions.

Theorems: `TC.C19_arc_lengths_after_rigid_motion_partial`, `TC.C19_arc_lengths_after_scaling_wrong`

### C20 — apply_alignment works with its default arguments

*Plan.* local-variable semantics: the right-hand side reads an unbound local; negation for every input; partial theorem for inplace=False.

*Outcome (partial).* False of the code: with the default inplace=True the call raises for every input. Proved: inplace=False returns.

Theorems: `TC.C20_apply_alignment_inplace_always_raises`, `TC.C20_apply_alignment_not_inplace_returns_partial`

### C21 — apply_alignment(inplace=False) applies lever arm, time shift, similarity, sensor rotation in this order

*Plan.* algebra over the modelled formulas.

*Outcome (proved).* 

Theorems: `TC.C21_aligned_positions`, `TC.C21_aligned_positions_without_orientations`, `TC.C21_aligned_orientations_scale_one`, `TC.C21_neutral_alignment_changes_nothing`

### C22 — adopt_first_pose makes first poses agree

*Plan.* negation with witness, theorem that the call never changes any position, partial theorem for already equal first poses.

*Outcome (partial).* False of the code: the parameter is shadowed by the receiver, so the call never changes anything. Proved: it changes nothing; and the property for equal first positions.

Theorems: `TC.C22_adopt_first_pose_partial`, `TC.C22_adopt_first_pose_changes_nothing`, `TC.C22_adopt_first_pose_wrong`, `TC.C22_adopt_first_parts_change_nothing`

### C23 — Construction gives equal-length channels or fails

*Plan.* constructor with numpy broadcasting of diff/t_diff; negation for mismatching timestamps with given speeds; partial theorem when timestamps are omitted or of matching length.

*Outcome (partial).* False of the code for a different number of timestamps together with given speeds, and for no positions. Proved for at least one position and timestamps omitted or one per position.

Theorems: `TC.C23_construction_partial`, `TC.C23_default_timestamps`, `TC.C23_mismatching_timestamps_accepted`, `TC.C23_empty_construction_incoherent`

### C24 — approximate returns smoothed samples in stored order

*Plan.* parametric approximator; inverse permutation argument.

*Outcome (proved).* 

Theorems: `TC.C24_approximate`, `TC.C24_approximate_end_to_end`

### C25 — SE3 view round trip

*Plan.* matrix assembling/disassembling.

*Outcome (proved).* 

Theorems: `TC.C25_se3_round_trip`, `TC.C25_se3_round_trip_matrices`

### C26 — Data rate

*Plan.* telescoping sum over a sorted list.

*Outcome (proved).* 

Theorems: `TC.C26_data_rate`

### C27 — Common time span

*Plan.* model with sort; spec by set of instants.

*Outcome (proved).* 

Theorems: `TC.C27_common_time_span_none_iff`, `TC.C27_common_time_span_exact`, `TC.C27_common_time_span_order_independent`, `TC.C27_common_time_span_symmetric`, `TC.C27_common_time_span_empty`

### C28 — rndodd returns the nearest odd integer

*Plan.* floor arithmetic over an Archimedean/floor field.

*Outcome (proved).* 

Theorems: `TC.C28_rndodd`

### C29 — Gradient integrates back

*Plan.* list model, index-wise spec.

*Outcome (proved).* 

Theorems: `TC.C29_gradient_integrates`, `TC.C29_gradient_of_constant_velocity`

### C30 — Least squares solution is optimal

*Plan.* Mathlib matrices of arbitrary size; solve() as relation "solves the normal equations".

*Outcome (proved).* 

Theorems: `TC.C30_least_squares`, `TC.C30_least_squares_unweighted`, `TC.C30_fit_line_2d`

### C31 — Line projection is the nearest point of the line

*Plan.* algebraic identity of squared distances.

*Outcome (proved).* 

Theorems: `TC.C31_projection_is_nearest`

### C32 — Smoothing and rounding returns a thinned subsequence

*Plan.* np.unique(axis=0, return_index) as first occurrences; subsequence spec.

*Outcome (partial).* False of the code for fewer values than the filter is long: the smoothed vector is then longer than the data and the call raises ValueError (proved for all such inputs). Proved for all other inputs, with the smoothed values as window means.

Theorems: `TC.C32_round_to_precision_partial`, `TC.C32_short_data_raises`

### C33 — Every reported match is a nearest neighbour within the limit

*Plan.* KD tree as any function returning a nearest index strictly below the bound or infinity.

*Outcome (proved).* 

Theorems: `TC.C33_matches_are_nearest_within_limit`

### C34 — Matches are one-to-one and sorted

*Plan.* np.unique first-occurrence model.

*Outcome (proved).* 

Theorems: `TC.C34_matches_are_one_to_one`

### C35 — No reachable reference sample is forgotten and failure is reported

*Plan.* completeness of unique.

*Outcome (proved).* 

Theorems: `TC.C35_raises_iff_nothing_in_reach`, `TC.C35_no_neighbour_is_forgotten`

### C36 — Each reference sample is paired with its closest candidate

*Plan.* negation: the first in storage order is kept; theorem stating which one is kept; partial when no reference sample is shared.

*Outcome (partial).* False of the code: np.unique keeps the first test sample that claims a reference sample, not the closest (negation proved with a witness). Proved: the first claimant is the one kept.

Theorems: `TC.C36_first_candidate_is_kept_partial`, `TC.C36_closest_candidate_is_not_kept`

### C37 — Matching by index leaves test length unchanged

*Plan.* negation with witness; partial: both have equal length, at most the test length and at most the reference length.

*Outcome (partial).* False of the code when two test samples share a nearest reference sample (negation proved with a witness). Proved: the exact length, and equality when nearest samples are distinct.

Theorems: `TC.C37_matched_length_partial`, `TC.C37_test_length_is_not_kept`

### C38 — Temporal matching pairs samples in time

*Plan.* composition of C33-C35 with apply_index.

*Outcome (proved).* 

Theorems: `TC.C38_temporal_matching`

### C39 — Spatial matching pairs samples in space

*Plan.* composition of C33-C35 with apply_index.

*Outcome (proved).* 

Theorems: `TC.C39_spatial_matching`

### C40 — Interpolation matching yields identical sampling

*Plan.* composition of C05, C06, C09.

*Outcome (proved).* 

Theorems: `TC.C40_interpolation_matching`, `TC.C40_orientations`, `TC.C40_speeds`

### C41 — match_trajectories(inplace=False) leaves both inputs unchanged

*Plan.* heap model.

*Outcome (proved).* 

Theorems: `TC.C41_not_inplace_leaves_inputs`, `TC.C41_unknown_method_raises`

### C42 — Line-interpolated spatial matching

*Plan.* KD-k query as relation; line fit as parameter with unit direction.

*Outcome (proved).* With k_nearest = 1 the call never returns a result: it raises for every input (second theorem).

Theorems: `TC.C42_line_interpolated_matching`, `TC.C42_one_neighbour_never_returns`

### C43 — Rough time offset

*Plan.* nearest neighbour of equal sets is itself; median of constant list.

*Outcome (proved).* 

Theorems: `TC.C43_inputs_unchanged`, `TC.C43_rough_offset`, `TC.C43_median`

### C44 — Merging keeps every sample and sorts by time

*Plan.* concatenation + argsort; permutation spec.

*Outcome (proved).* Inputs without samples raise ValueError (second theorem).

Theorems: `TC.C44_merge_keeps_samples_and_sorts`, `TC.C44_empty_input_raises`

### C45 — Merged arc lengths describe the merged path

*Plan.* negation with interleaved inputs; partial when the concatenation is already sorted.

*Outcome (partial).* False for interleaved inputs (second theorem, concrete counterexample): the arc lengths are those of the concatenation, reordered. Proved when the concatenation is already ordered by time.

Theorems: `TC.C45_merged_arc_lengths_partial`, `TC.C45_merged_arc_lengths_wrong`

### C46 — Merged coordinate system

*Plan.* decision logic; the finding (mixed codes are accepted) is recorded.

*Outcome (proved).* Mixed EPSG codes are accepted with a warning only.

Theorems: `TC.C46_merged_epsg`, `TC.C44_empty_input_raises`

### C47 — Spatial sort visits each sample once

*Plan.* breadth-first search with queue over an arbitrary graph: visits exactly the reachable nodes once; insertion and rotation preserve permutation.

*Outcome (proved).* Triangulation, spanning tree and neighbour search are parameters; the first two constrained by TreeOk (Spec/Graph).

Theorems: `TC.C47_sort_visits_each_sample_once`, `TC.C47_sort_mls`, `TC.C47_sort_mls_end_to_end`

### C48 — The lap starts at the highest point

*Plan.* theorem: after the flip the highest point is last; negation witness; partial when no flip occurs.

*Outcome (partial).* False as claimed by the comment in the code: when the direction is corrected the highest point ends up last (counterexample). Proved: it is always at one of the two ends.

Theorems: `TC.C48_highest_point_at_an_end_partial`, `TC.C48_highest_point_first_fails`

### C49 — Rotating an order

*Plan.* list rotation.

*Outcome (proved).* 

Theorems: `TC.C49_begin_with`

### C50 — Inserting missing points keeps indices and coordinates aligned

*Plan.* invariant by induction over insertions.

*Outcome (proved).* 

Theorems: `TC.C50_insertion_keeps_alignment`

### C51 — Travel direction flips under reversal

*Plan.* count of ascents/descents under reversal.

*Outcome (proved).* 

Theorems: `TC.C51_direction_of_reversed_path`

### C52 — Voxel grouping loses no point

*Plan.* fold building an association list; partition theorem.

*Outcome (proved).* 

Theorems: `TC.C52_voxels_partition_points`, `TC.C52_no_points`

### C53 — Points in one voxel are close

*Plan.* negation: decimal cell ids are concatenated without separator (1,11,1 and 11,1,1); partial when all cell ids have the same number of digits.

*Outcome (partial).* False (concrete counterexample): the digits of the three cell numbers are joined without separator, so different cells can share an id. Proved when all cell numbers have the same number of digits.

Theorems: `TC.C53_points_of_a_voxel_are_close_partial`, `TC.C53_points_of_a_voxel_are_close_fails`

### C54 — Iterated smoothing stops and keeps the points in number

*Plan.* fuel-free loop with counter.

*Outcome (proved).* 

Theorems: `TC.C54_smoothing_stops`

### C55 — The line cache does not change results

*Plan.* cache invariant by induction over the points.

*Outcome (proved).* 

Theorems: `TC.C55_cache_does_not_change_a_pass`, `TC.C55_history_does_not_matter`

### C56 — Rotation averaging windows

*Plan.* window index sets; negation at the last sample (exclusive end); partial for all others.

*Outcome (partial).* False for the last sample (counterexample): the window ends before it, so the last orientation is never used. Proved for all other samples.

Theorems: `TC.C56_windows_partial`, `TC.C56_last_sample_never_used`, `TC.C56_window_contains_sample_fails`

### C57 — Cubic approximation reproduces constants and sample count

*Plan.* Hermite basis partition of unity, least squares fit exactness.

*Outcome (proved).* 

Theorems: `TC.C57_sample_count`, `TC.C57_constant_reproduced`, `TC.C57_positions`, `TC.C57_too_few_samples`, `TC.C57_returns`

### C58 — The evaluated approximation is continuously differentiable

*Plan.* calculus over the reals: Hermite segments, gluing of differentiable functions, binary search for the segment.

*Outcome (proved).* 

Theorems: `TC.C58_evaluation_is_smooth`, `TC.C58_knots`

### C59 — Identical trajectories have zero ATE

*Plan.* direct computation for arbitrary lists.

*Outcome (proved).* 

Theorems: `TC.C59_self_comparison`

### C60 — Directed deviations are an orthogonal decomposition

*Plan.* orthogonal matrix preserves the norm.

*Outcome (proved).* 

Theorems: `TC.C60_directed_deviations_have_full_length`

### C61 — ATE does not depend on a common rigid motion

*Plan.* isometry.

*Outcome (proved).* 

Theorems: `TC.C61_common_motion_changes_nothing`, `TC.applyTransformation_movedBy`

### C62 — RPE does not depend on the choice of frames

*Plan.* group computation inv(inv(A i)A j) * inv(B i) B j.

*Outcome (proved).* 

Theorems: `TC.C62_frames_do_not_matter`, `TC.C62_moved_copy_has_no_error`

### C63 — Pose pairs span the requested distance

*Plan.* recursion/induction over the list.

*Outcome (partial).* False in consecutive mode (counterexample): pairs may span less than d, even a sample with itself. Proved for all pairs except that a sample from which exactly d remains starts no pair.

Theorems: `TC.C63_pairs_span_distance_partial`, `TC.C63_consecutive_pairs_partial`, `TC.C63_consecutive_pairs_fail`

### C64 — Requested pair distances stay within the limits

*Plan.* negation witness (1, 2.5, 1); partial when step divides max-min; bound max+step.

*Outcome (partial).* False unless a whole number of steps leads from min to max: then the last distance exceeds max (proved for every such setting). Proved otherwise.

Theorems: `TC.C64_pair_distances_partial`, `TC.C64_pair_distances_exceed_max`

### C65 — RPE rejects unusable input

*Plan.* decision logic of the modelled function.

*Outcome (proved).* 

Theorems: `TC.C65_relative_comparison_errors`, `TC.C65_zero_step`

### C66 — Deviation statistics are consistent

*Plan.* finite-sum inequalities.

*Outcome (proved).* 

Theorems: `TC.C66_position_statistics`, `TC.C66_rotation_statistics`, `TC.C66_order_does_not_matter`, `TC.C66_rms_of_components`, `TC.C66_median`, `TC.C66_without_rotations`

### C67 — RPE result survives its file

*Plan.* file as header + row list; negation for groups with equal means; partial for distinct means.

*Outcome (partial).* False for groups with equal mean distance (they overwrite each other) and for results without pairs; proved for groups whose means differ by more than 1e-12.

Theorems: `TC.C67_round_trip_partial`, `TC.C67_equal_means_merge`, `TC.C67_last_of_equal_means`, `TC.C67_no_pairs_unreadable`

### C68 — ATE result survives its file

*Plan.* table model.

*Outcome (partial).* Times, arc lengths, positions, orientations and all deviations come back; speeds, sorting and the trajectory name do not, and a file written twice cannot be read.

Theorems: `TC.C68_round_trip_partial`, `TC.C68_speed_lost`, `TC.C68_append_unreadable`

### C69 — ATE uses the matched trajectories

*Plan.* heap model of ate; negation for NEAREST_SPATIAL_INTERPOLATED; partial for the in-place methods.

*Outcome (partial).* Proved for the three methods that match in place. False for NEAREST_SPATIAL_INTERPOLATED: the matched copies are discarded and samples at equal indices are compared (C69_line_matching_ignored).

Theorems: `TC.C69_ate_temporal_partial`, `TC.C69_ate_spatial_partial`, `TC.C69_ate_interpolation_partial`, `TC.C69_line_matching_ignored`

### C70 — Reported rotation errors come from real orientations

*Plan.* composition of C18 with the comparison.

*Outcome (partial).* False when only the reference has orientations: rotation deviations from one constant rotation are reported (C70_rotation_deviations_invented). Proved in the other cases.

Theorems: `TC.C70_rotation_deviations_partial`, `TC.C70_rotation_deviations_invented`

### C71 — Rotation error is a metric angle

*Plan.* trace formula and arccos bounds.

*Outcome (proved).* 

Theorems: `TC.C71_rotation_error_is_an_angle`

### C72 — The alignment equations are a similarity of a rotation

*Plan.* trigonometric identities over the reals.

*Outcome (proved).* 

Theorems: `TC.C72_equations_vanish_iff`, `TC.C72_rotation_is_proper`

### C73 — Parameters applied to positions agree with the equations that estimated them

*Plan.* algebra.

*Outcome (proved).* 

Theorems: `TC.C73_transformed_position_solves_equations`, `TC.C73_aligned_sample_solves_equations`

### C74 — Updating enabled parameters leaves disabled ones alone

*Plan.* scatter/gather over arbitrary masks.

*Outcome (proved).* Any set of parameters, any enable pattern.

Theorems: `TC.C74_values_enabled`, `TC.C74_values`, `TC.C74_add_corrections`

### C75 — Settings select the parameters they name

*Plan.* negation: y/z translation follow x; partial; apply_settings proved in full.

*Outcome (partial).* apply_settings in full; from_settings is false for every settings whose translation flags differ.

Theorems: `TC.C75_apply_settings`, `TC.C75_to_settings`, `TC.C75_from_settings_partial`, `TC.C75_from_settings_wrong`

### C76 — Parameter files keep values

*Plan.* table model; negation for enabled flags; partial for values.

*Outcome (partial).* False for all parameters: no written file can be read.

Theorems: `TC.C76_never_readable`

### C77 — Alignment result files can be rewritten

*Plan.* file as row list in append mode; negation for second write; partial for fresh file.

*Outcome (partial).* New files in full; a second write makes the file unreadable, converged=False is lost.

Theorems: `TC.C77_round_trip_partial`, `TC.C77_second_write`, `TC.C77_converged_lost`

### C78 — Observation vector layout

*Plan.* interleave/stride lemma by induction.

*Outcome (proved).* All settings, epoch counts and vectors.

Theorems: `TC.C78_layout`, `TC.C78_without_orientations`, `TC.C78_without_speeds`, `TC.C78_extract`, `TC.C78_set_group`, `TC.C78_rejected`, `TC.C78_whole_epochs`, `TC.C78_variances`

### C79 — Condition matrix layout

*Plan.* row/col index formula vs. block-diagonal spec.

*Outcome (proved).* All layouts and epoch counts. autograd is a parameter with the law that it returns derivatives of differentiable functions, met by Mathlib's deriv.

Theorems: `TC.C79_equations`, `TC.C79_condition_matrix`, `TC.C79_own_epoch`

### C80 — Derivative tables match the equations

*Plan.* argument lists modelled as name tables; derivative proofs for the real functions.

*Outcome (proved).* All settings and epochs, over the reals.

Theorems: `TC.C80_design_matrix`

### C81 — Adjustment always stops

*Plan.* loop model with an arbitrary update function.

*Outcome (proved).* Any linear solver, any data.

Theorems: `TC.C81_iterations`, `TC.C81_runs`, `TC.C81_reported`

### C82 — Convergence means every parameter update is below its threshold

*Plan.* negation: zip of compressed updates with uncompressed thresholds; partial when all parameters are enabled.

*Outcome (partial).* Proved if all parameters are estimated; false otherwise: updates are compared with the thresholds of other parameters (for a time shift alone, always the metric threshold).

Theorems: `TC.C82_settled_partial`, `TC.C82_time_shift_threshold_ignored`, `TC.C82_thresholds`, `TC.C82_no_thresholds`

### C83 — Disabled parameters stay neutral

*Plan.* invariant over the adjustment loop.

*Outcome (proved).* All settings, data and solvers.

Theorems: `TC.C83_disabled_neutral`

### C84 — Direct Helmert maps centroid to centroid

*Plan.* SVD as relation.

*Outcome (partial).* Proved for every singular value decomposition and data with positive determinant; mirrored points map the centroid wrongly, for every singular value decomposition.

Theorems: `TC.C84_centroid_partial`, `TC.C84_centroid_missed`

### C85 — Direct Helmert rotation is proper

*Plan.* negation with mirrored points.

*Outcome (partial).* Proper for positive determinant, improper for every data with negative determinant; undetermined for determinant zero.

Theorems: `TC.C85_proper_partial`, `TC.C85_mirrored`, `TC.C85_degenerate`

### C86 — Estimation settings filters agree

*Plan.* Boolean logic.

*Outcome (partial).* All filters and summaries in full; from_bool_list inverts the filter only if all speed components are used.

Theorems: `TC.C86_filter`, `TC.C86_all_disabled`, `TC.C86_enabled_filter`, `TC.C86_from_bool_list_partial`, `TC.C86_from_bool_list_rejected`, `TC.C86_from_bool_list_flags`, `TC.C86_speed_flags_lost`, `TC.C86_components`, `TC.C86_all`, `TC.C86_description`

### C87 — Settings survive their dictionary

*Plan.* generic record model with encoder/decoder.

*Outcome (proved).* 

Theorems: `TC.Settings.C87_settings_dictionary`, `TC.Settings.C87_settings_file`, `TC.Settings.C87_default_settings`

### C88 — A rejected settings update changes nothing

*Plan.* negation with witness; partial when all keys are known.

*Outcome (partial).* False for rejected updates: the entries before the offending one stay applied (C88_rejected_update_half_applied). Proved for accepted updates.

Theorems: `TC.Settings.C88_accepted_update_complete_partial`, `TC.Settings.C88_rejected_update_half_applied`

### C89 — Header lines are found whatever their order

*Plan.* fold over lines; order independence.

*Outcome (proved).* 

Theorems: `TC.C89_last_value`, `TC.C89_interpretation`, `TC.C89_text_value`, `TC.C89_order`, `TC.C89_text_settings`, `TC.C89_number_settings`, `TC.C89_delimiter`, `TC.C89_defaults`, `TC.C89_unknown`, `TC.C89_refused`, `TC.C89_bad_number`

### C90 — Frame conversion matrix

*Plan.* finite case analysis lifted to all frames.

*Outcome (proved).* 

Theorems: `TC.C90_accepted`, `TC.C90_signed_permutation`

### C91 — Trajectory files keep samples to nine decimals

*Plan.* decimal formatting and parsing modelled on digit strings; column selection by field names; perturbation bound for the quaternion-to-matrix map.

*Outcome (proved).* scipy quaternions enter through IsIoLib, met over the reals by realIo. Files are modelled as character lists; nan and inf entries are outside.

Theorems: `TC.C91_round_trip`, `TC.C91_order`

### C92 — GPS time conversion

*Plan.* arithmetic.

*Outcome (proved).* The time of the GPS epoch is a parameter: the code takes it from a naive datetime, so it depends on the local time zone.

Theorems: `TC.C92_conversion`, `TC.C92_strict_order`

### C93 — Rosbag import groups poses by topic

*Plan.* fold over messages.

*Outcome (proved).* Poses with valid orientations; a zero quaternion rejects the whole bag.

Theorems: `TC.Ros.C93_one_trajectory_per_topic`, `TC.Ros.C93_invalid_pose_rejects_bag`

### C94 — Building a report does not change results

*Plan.* negation with heap semantics: each construction multiplies deviations by 1000.

*Outcome (partial).* False in millimetres: building the report multiplies the deviations of the result by 1000 (C94_millimetres_change_results). Proved in metres.

Theorems: `TC.Report.C94_metres_partial`, `TC.Report.C94_millimetres_change_results`

### C95 — Shrinking report data respects the limit

*Plan.* counting argument.

*Outcome (proved).* 

Theorems: `TC.Report.C95_shrink_limit`, `TC.Report.C95_shrink_returns`

### C96 — KML export keeps the first of equal rounded positions

*Plan.* dedupe spec.

*Outcome (proved).* At least one position.

Theorems: `TC.Geo.C96_distinct_positions_in_order`, `TC.Geo.C96_needs_transformer`

### C97 — A selection that keeps no sample

*Plan.* state-keeping error semantics; scipy rejects an empty set of rotations after timestamps and positions have been replaced: prove the negation for every trajectory with orientations and the claim without orientations.

*Outcome (partial).* False for trajectories with orientations: the negation is proved for every such trajectory. Proved: trajectories without orientations.

Theorems: `TC.C97_empty_selection_without_orientations_partial`, `TC.C97_empty_selection_with_orientations_tears`, `TC.C97_crop_tears`, `TC.C97_match_timestamps_tears`, `TC.C97_intersect_tears`, `TC.C97_other_selections_without_orientations_partial`

### C98 — A similarity turns orientations by its rotation part only

*Plan.* from_matrix modelled as scipy computes it (it does not remove a scale): negation with a scale-2 witness, partial theorem for scale 1.

*Outcome (partial).* False of the code: the negation is proved with scale 2, and exactly which orientations survive a scale other than 1 is determined. Proved: scale 1.

Theorems: `TC.C98_orientations_after_scale_one_partial`, `TC.C98_scaling_corrupts_orientations`, `TC.C98_exactly_these_orientations_survive`

### C99 — A fitted line is the best one

*Plan.* variance decomposition; the principal direction maximises the projected scatter.

*Outcome (proved).* np.linalg.eigh enters through IsEigh (orthonormal eigenvectors, ascending eigenvalues), met over the reals by exists_eigh.

Theorems: `TC.C99_line_is_best_fit`, `TC.C99_direction`, `TC.C99_least_squares`, `TC.C99_order`, `TC.C99_smoothing`

### C100 — The cubic approximation reproduces cubic signals

*Plan.* negation for two intervals (last sample of an interval and first of the next get the same value); partial for one interval.

*Outcome (partial).* False for two or more intervals (counterexample with a straight line). Proved for a single interval.

Theorems: `TC.C100_cubic_reproduced_partial`, `TC.C100_cubic_reproduced_fails`

### C101 — Relative errors are numbers

*Plan.* negation in consecutive mode (pair of a sample with itself); partial for all pairs or small gaps.

*Outcome (partial).* False in consecutive mode across gaps larger than the distance (counterexample, 0/0). Proved for all pairs and for small gaps.

Theorems: `TC.C101_relative_errors_are_numbers_partial`, `TC.C101_relative_errors_fail`

### C102 — Directed deviations account for the whole deviation

*Plan.* negation on a climbing segment; partial when the test sample is not in the vertical plane of the segment.

*Outcome (partial).* False on climbing segments (counterexample).

Theorems: `TC.C102_decomposition_without_orientations_partial`, `TC.C102_decomposition_without_orientations_fails`

### C103 — The along-track deviation is the signed projection

*Plan.* closed form of the nearest point; negation for a last sample far behind.

*Outcome (partial).* False for a last sample far behind (every such sample).

Theorems: `TC.C103_along_track_is_projection_partial`, `TC.C103_last_sample_sign_wrong`

### C104 — One sign convention for directed deviations

*Plan.* compute both paths on the same segment; negation for the vertical component.

*Outcome (partial).* False: the vertical component has the opposite sign, on every level segment; the other two agree (same theorem).

Theorems: `TC.C104_vertical_sign_differs`

### C105 — The summary of a relative comparison is consistent

*Plan.* induction over the groups, statistics of C66.

*Outcome (proved).* 

Theorems: `TC.C105_relative_summary`, `TC.C105_hypotheses`

### C106 — Orientations are converted from the frame of the file

*Plan.* meaning of a frame string as a specification; compare with the matrix the code applies.

*Outcome (partial).* False for four of the six right-handed frames; exact for enu and ned.

Theorems: `TC.C106_frame_conversion_partial`, `TC.C106_not_all_frames`

### C107 — Reading from a string equals reading from a file

*Plan.* compare both paths on the text model.

*Outcome (partial).* False for columns separated by blanks (StringIO is exhausted after the first attempt) and for header entries containing another end of line of str.splitlines (vertical tab, U+2028, ...). Proved for delimiter-separated tables and for every written file.

Theorems: `TC.C107_string_partial`, `TC.C107_written`, `TC.C107_blanks_not_from_string`, `TC.C107_other_line_ends`

### C108 — Every trajectory that can be written can be read back with its name

*Plan.* specification of the words of a text; round trip for every one-line name.

*Outcome (partial).* False for names with runs of white space and for empty trajectories; proved for every one-line name: its words come back, separated by single blanks.

Theorems: `TC.C108_words_partial`, `TC.C108_not_all_names`, `TC.C108_empty_unreadable`

### C109 — Reading a result file gives the result written last

*Plan.* append model of the file; negation for every pair of results with the same group sizes.

*Outcome (partial).* False: the mixture of name and unit of B with the data of A is proved for all results with equal group sizes. With mode "w" the property is C67/C68.

Theorems: `TC.C109_append_mixes`, `TC.C67_round_trip_partial`, `TC.C68_append_unreadable`

### C110 — Covariance matrices of parameters

*Plan.* scatter/gather over arbitrary index lists.

*Outcome (proved).* Any set of parameters and matrix.

Theorems: `TC.C110_enabled`, `TC.C110_full`, `TC.C110_rejected`, `TC.C110_constructed`

### C111 — Unused speed components stay out of the alignment

*Plan.* negation for all settings and data (the assignment in the code selects nothing); positive for no component in use.

*Outcome (partial).* False for all data whenever a time shift is estimated.

Theorems: `TC.C111_speed_components_not_left_out`, `TC.C111_no_component_partial`

### C112 — Direct Helmert transformation is the best one

*Plan.* split of the error into centroid part, trace part and scale part; trace bound for orthogonal matrices.

*Outcome (proved).* Among all orthogonal matrices, scales and translations.

Theorems: `TC.C112_direct_helmert_optimal`

### C113 — Direct lever arm and time shift are the best ones

*Plan.* normal equations (C30) plus regrouping of the three blocks of rows by epoch.

*Outcome (proved).* 

Theorems: `TC.C113_direct_leverarm_optimal`, `TC.C113_direct_timeshift_optimal`, `TC.C113_direct_returns`

### C114 — Constant sensor rotation is recovered

*Plan.* group laws of the rotations.

*Outcome (proved).* 

Theorems: `TC.C114_sensor_rotation_recovered`

### C115 — Every reported alignment consists of numbers

*Plan.* characterise when one pass yields NaN (rank of the derivative matrix), refute the claim for a vehicle that does not turn.

*Outcome (partial).* False in general: for every data set with a constant attitude, estimating translation and lever arm x together gives NaN reported as a result. C115_nan_iff says exactly when a pass gives NaN.

Theorems: `TC.C115_nan_iff`, `TC.C115_constant_attitude_reported`

### C116 — One pass of the estimation is the least-squares step

*Plan.* Gauss-Helmert normal equations; positive definiteness from the structure of the condition matrix.

*Outcome (proved).* Over the reals, for every solver that solves regular systems.

Theorems: `TC.C116_pass_optimal`, `TC.C116_fixpoint`

### C117 — Data without errors give the true transformation

*Plan.* the direct estimate is exact (C112); then the misclosures vanish, so a regular pass changes nothing; rank of the derivatives of scale and rotation.

*Outcome (partial).* Proved, for any choice of the seven parameters that leaves the neutral ones out, unless the rotation turns the x axis onto the z axis and the rotations about x and z are both estimated; false then (NaN reported as result) for all such data. Variance estimation switched off (with errorless data the variance factor is 0).

Theorems: `TC.C117_exact_recovered_partial`, `TC.C117_gimbal_nan`

### C118 — Estimating an alignment has no side effects

*Plan.* heap model of the whole pipeline; frame predicate closed under bind.

*Outcome (proved).* 

Theorems: `TC.C118_estimation_leaves_trajectories`

### C119 — Computing a metric leaves the trajectories unchanged

*Plan.* frame predicate with exceptions for the two arguments; negation for the in-place methods.

*Outcome (partial).* False for the two arguments: they are replaced by their matched versions (C119_ate_replaces_its_inputs). Proved for all other trajectories.

Theorems: `TC.C119_ate_leaves_others_partial`, `TC.C119_rpe_leaves_others_partial`, `TC.C119_ate_replaces_its_inputs`

### C120 — Only complete settings are accepted

*Plan.* inversion of the update by induction on the fields; negation: a nested settings entry that is not a dictionary is accepted.

*Outcome (partial).* False for nested settings: an entry that is not a dictionary is accepted (C120_no_settings_accepted). Proved otherwise.

Theorems: `TC.Settings.C120_accepts_only_complete_partial`, `TC.Settings.C120_result_is_settings_partial`, `TC.Settings.C120_no_settings_accepted`

### C121 — Shrinking keeps arrays of equal length aligned

*Plan.* block means for arrays without zeros; negation: zeros are dropped like NaN.

*Outcome (partial).* False with zeros in the data, which are dropped like NaN (C121_zeros_break_alignment). Proved without zeros.

Theorems: `TC.Report.C121_blocks_partial`, `TC.Report.C121_zeros_break_alignment`

### C122 — Reports show errors in the chosen unit

*Plan.* state-passing model of the report data; positive for the first report, negation for later ones and for a result listed twice.

*Outcome (partial).* False from the second report in millimetres on (C122_later_reports_wrong) and for a result listed twice (C122_listed_twice). Proved for the first report.

Theorems: `TC.Report.C122_first_report_partial`, `TC.Report.C122_later_reports_wrong`, `TC.Report.C122_listed_twice`

### C123 — A report without orientations shows no rotation error

*Plan.* negation: 0.0 is shown; positive with orientations.

*Outcome (partial).* False: 0.0 is shown (C123_zero_without_orientations). With orientations the shown value is proved.

Theorems: `TC.Report.C123_zero_without_orientations`, `TC.Report.C123_rotation_ate_partial`

### C124 — Short names identify the tested trajectory

*Plan.* string splitting; positive for names without the separator, negation for names with it.

*Outcome (partial).* False for names containing the separator (C124_names_confused). Proved for the others.

Theorems: `TC.Report.C124_short_name_partial`, `TC.Report.C124_names_confused`

### C125 — KML export leaves the trajectory unchanged

*Plan.* negation for all trajectories not in geographic coordinates; positive for those that are already in the exported form.

*Outcome (partial).* False: coordinates are converted and rounded, samples dropped (C125_export_changes_trajectory). Proved for trajectories already in the exported form.

Theorems: `TC.Geo.C125_export_changes_trajectory`, `TC.Geo.C125_export_keeps_partial`

### C126 — Rendering a map leaves the trajectories unchanged

*Plan.* heap model; negation for all trajectories in another system; positive for trajectories not drawn and when one has no transformer.

*Outcome (partial).* False: the trajectories drawn are converted to geographic coordinates (C126_rendering_changes_trajectories). Proved for all others and if one has no transformer.

Theorems: `TC.Geo.C126_rendering_changes_trajectories`, `TC.Geo.C126_local_trajectory_keeps_partial`, `TC.Geo.C126_others_keep_partial`

### C127 — The map shows positions at their latitude and longitude

*Plan.* positive for axis orders beginning with xy, negation for yx.

*Outcome (partial).* False for axis orders beginning with yx (C127_axis_order_swaps_map). Proved for xy.

Theorems: `TC.Geo.C127_map_shows_positions_partial`, `TC.Geo.C127_axis_order_swaps_map`

### C128 — The spatial sort never runs against the input direction

*Plan.* sortPoints compares detectDirection of the built order to the input and reverses once if they disagree; reversal negates direction (C51); case split on agreement.

*Outcome (proved).* Direction well defined for both input and result.

Theorems: `TC.C128_sort_keeps_direction`

### C129 — A smoothing pass snaps each point to the best line through its neighbouring voxels

*Plan.* Composition of createVoxels (partition), k-nearest query and projection onto the fitted line (IsPrincipal/C99), for the whole call via C54/C55.

*Outcome (proved).* Assumes that the fitted direction is a principal one of the points and that the neighbour search finds nearest centres; positive voxel size. Existence of principal directions over the reals is proved beside it.

Theorems: `TC.C129_points_move_to_local_lines`, `TC.C129_iterated`

### C130 — A smoothing pass needs enough occupied voxels

*Plan.* Nearest-neighbour structure of the query (IsKNearest) forces none to appear iff there are fewer voxels than k.

*Outcome (proved).* Positive voxel size, at least one point.

Theorems: `TC.C130_pass_needs_enough_voxels`, `TC.C130_sparse_points_cannot_be_smoothed`

### C131 — Variances are estimated from the epochs that vary most

*Plan.* rolling window and first maximum modelled; spec IsBestWindow; negation for all data: the last epoch of the best window is never selected, and for a best window at the start the last epoch of the trajectory is put first; positive: num_obs consecutive epochs in order otherwise.

*Outcome (partial).* False whatever the data: the window is shifted by one, so the last epoch of the best window is never selected (C131_best_epochs_not_selected, for distinct timestamps); if the first epochs vary most, the last epoch of the trajectory is put before them (C131_first_window_tears). Proved: everything is used for few epochs, otherwise num_obs consecutive epochs in order unless the best window comes first. The standard deviation is an arbitrary function of a window; the construction of the new AlignmentData from the two trajectories is not part of the model.

Theorems: `TC.C131_subset_is_consecutive_partial`, `TC.C131_best_epochs_not_selected`, `TC.C131_first_window_tears`

### C132 — A copy that is only moved has no absolute error

*Plan.* matching of equal timestamps keeps every sample (interpolation at the vertices, diagonal nearest pairs); observation vector by C78; C117 for the adjustment; aligned samples by C70; total correctness of the call; negation when the rotation turns x onto z.

*Outcome (partial).* False if the rotation turns the x axis onto the z axis and rotX and rotZ are estimated: no result (C132_gimbal_no_result). Proved for all other rotations, as total correctness of the call, over the real numbers with exact library routines (satisfiable: exactMetricLib_right; every real 3x3 matrix is shown to have a singular value decomposition). The standard deviations are given and not zero, no sensor rotation is estimated or orientations are missing. Rotation deviations are zero for scale 1; for another scale exactly the identity and the half turns about the axes have none (C132_scaled_orientations_deviate).

Theorems: `TC.C132_exact_copy_has_no_error_partial`, `TC.C132_gimbal_no_result`, `TC.C132_orientations_partial`, `TC.C132_scaled_orientations_deviate`, `TC.C132_missing_orientations_compared`

### C133 — A deviation is plotted at its own sample

*Plan.* figures modelled as lists of curves (x, y, name, row); spec: the pairs of a curve are a permutation of the pairs (abscissa, deviation) of the samples; negation for every result not stored in ascending order.

*Outcome (partial).* False for every result whose samples are not stored in ascending order of the abscissa: abscissas (and positions in the report scatter plots) are sorted, deviations are not. Proved for ascending storage, and for scatter_deviations (matplotlib) in any order.

Theorems: `TC.Plot.C133_values`, `TC.Plot.C133_ascending_partial`, `TC.Plot.C133_unsorted_mispairs`, `TC.Plot.C133_scatter_partial`, `TC.Plot.C133_scatter_mispairs`, `TC.Plot.C133_matplotlib_mispairs`, `TC.Plot.C133_matplotlib_scatter`

### C134 — In a comparison every curve carries the name of its result

*Plan.* curves are a flattened Forall2 of the results; negation whenever a result without orientations comes before one with.

*Outcome (partial).* False for the three-component rotation plot whenever a result without orientations comes before one with. Proved for the other plots, and for that one if the results with orientations come first.

Theorems: `TC.Plot.C134_combined`, `TC.Plot.C134_position`, `TC.Plot.C134_rotation_partial`, `TC.Plot.C134_rotation_mispairs`, `TC.Plot.C134_rotation_false`, `TC.Plot.C134_no_results`

### C135 — The cumulative curve shows shares

*Plan.* height i/n over the sorted deviations; spec counts the deviations; sandwich between the two counts, negation at every point.

*Outcome (partial).* False at every point: the height is always too low (C135_too_low). Proved: shape, bounds from the numbers of smaller and of not greater deviations, and whose curves they are.

Theorems: `TC.Plot.C135_shape`, `TC.Plot.C135_between_partial`, `TC.Plot.C135_too_low`, `TC.Plot.C135_figure`

### C136 — A histogram counts the component its label names

*Plan.* list of (label, values); component by name as the specification.

*Outcome (partial).* False for matplotlib: the histograms x and z are exchanged if the deviations are not directed, and small values are not counted. Proved for the rest and for the histograms of the reports.

Theorems: `TC.Plot.C136_directed_partial`, `TC.Plot.C136_labels_swapped`, `TC.Plot.C136_small_values_missing`, `TC.Plot.C136_rotations`, `TC.Plot.C136_reports`

### C137 — plot_deviations draws every result under its own name

*Plan.* lines in order of drawing, legend as zip of names with the lines; negations for each of the three cases.

*Outcome (partial).* False without orientations (no figure at all), for some without orientations (curves for what does not exist) and for results without samples (names shifted). Proved for results with orientations stored in ascending order.

Theorems: `TC.Plot.C137_figure_partial`, `TC.Plot.C137_no_figure_without_rotations`, `TC.Plot.C137_attribute_error`, `TC.Plot.C137_zero_curves`, `TC.Plot.C137_names_shifted`

### C138 — The bar tables hold the statistics of each result

*Plan.* Forall2 of results and blocks of six rows; statistics by C-number specifications of min, max, mean, median, rms, std.

*Outcome (proved).* Every result has deviations.

Theorems: `TC.Plot.C138_position_bars`, `TC.Plot.C138_rotation_bars`, `TC.Plot.C138_bars_exist`

### C139 — Bars of different results do not cover each other

*Plan.* intervals of placed bars; width (1-0.1)/n and linspace offsets; disjointness by induction-free arithmetic over an ordered field.

*Outcome (proved).* Without results there is a division by zero instead of an empty plot.

Theorems: `TC.Plot.C139_bars_do_not_overlap`, `TC.Plot.C139_heights`, `TC.Plot.C139_heights_of_rotations`, `TC.Plot.C139_no_results`

### C140 — Colour limits are the documented ones

*Plan.* limits as numbers; negation for all non-constant values (reports) and for all settings (scatter_deviations ignores them).

*Outcome (partial).* False: the reports use the least value instead of the mean (C140_upper_limit_too_low), scatter_deviations ignores the settings (C140_settings_ignored). Proved: the limits are in order, colours and ticks inside, texts right.

Theorems: `TC.Plot.C140_limits`, `TC.Plot.C140_upper_limit_too_low`, `TC.Plot.C140_colour_bar`, `TC.Plot.C140_settings_ignored`

### C141 — A report has every figure that belongs to it, in order

*Plan.* figure lists as values, membership and multiplicity for all combinations; order negated without a relative evaluation.

*Outcome (partial).* Contents proved for all combinations; the order only with a relative evaluation, it is broken without (C141_order_broken).

Theorems: `TC.Plot.C141_single`, `TC.Plot.C141_multi`, `TC.Plot.C141_order_partial`, `TC.Plot.C141_order_broken`

### C142 — Scatter plots label what they show

*Plan.* axis order as a list of letters; projection of each position along it; labels along it.

*Outcome (partial).* Axes and titles proved; the colour bar names a coordinate axis even for deviations along and across the track (C142_bar_title_wrong).

Theorems: `TC.Plot.C142_axes`, `TC.Plot.C142_component`, `TC.Plot.C142_combined`, `TC.Plot.C142_rotation`, `TC.Plot.C142_bar_title_partial`, `TC.Plot.C142_bar_title_wrong`

### C147 — The abscissa text names the quantity

*Plan.* case distinction on the list of sortings.

*Outcome (proved).* At least one trajectory.

Theorems: `TC.Plot.C147_abscissa`

### C149 — A trajectory plot shows every sample once

*Plan.* sorting index is an argsort of the abscissas; the pairs are a permutation of the samples.

*Outcome (proved).* The Euler angles of a rotation are an arbitrary function.

Theorems: `TC.Plot.C149_positions`, `TC.Plot.C149_orientations`

### C145 — Comparing two results says whether they are equal

*Plan.* comparison as a function to Except; agreement as a separate specification; negations for all pairs that do not agree.

*Outcome (partial).* False: the answer is never no, different results raise AssertionError; relative errors with and without rotations are equal (C145_rpe_rotations_ignored). Proved: results that agree are equal.

Theorems: `TC.C145_alignment_partial`, `TC.C145_alignment_raises`, `TC.C145_alignment_never_no`, `TC.C145_rpe_reflexive`, `TC.C145_rpe_never_no`, `TC.C145_rpe_raises`, `TC.C145_rpe_rotations_ignored`

### C150 — Comparing two trajectories is an equivalence up to a tolerance

*Plan.* numpy allclose with its repetition of single rows and its asymmetric tolerance; sample-wise specification.

*Outcome (partial).* False: different lengths raise, one sample equals any number of copies of it, the coordinate system is not compared, and the order matters. Proved for trajectories of the same length, up to coordinate systems.

Theorems: `TC.C150_same_length_partial`, `TC.C150_reflexive`, `TC.C150_lengths_raise`, `TC.C150_one_equals_many`, `TC.C150_other_system`, `TC.C150_not_symmetric`

### C151 — The table of a trajectory shows its samples, sorted

*Plan.* columns by name as the specification, permutation of samples, pairwise order of the sorting column.

*Outcome (proved).* 

Theorems: `TC.C151_table`

### C152 — Angles belong to the abscissas

*Plan.* zip of abscissas and angles is a permutation of the stored pairs.

*Outcome (partial).* With orientations proved; without, the angles raise while the quaternions are absent (C152_no_angles).

Theorems: `TC.C152_angles`, `TC.C152_no_angles`, `TC.C152_no_samples`

### C153 — Adding and subtracting parameters propagates uncertainty

*Plan.* values by definition of the value in force; variance against the sum, with any square root.

*Outcome (partial).* False for any two uncertain parameters: the variances are added as if they were standard deviations; the unit is lost. Proved for the values, and for the variance if one is zero.

Theorems: `TC.C153_arithmetic_partial`, `TC.C153_variance_too_small`, `TC.C153_unit_lost`

### C155 — The summary of a relative error is that of its pairs

*Plan.* dictionary with ordered keys; extremes over all deviations, lines by bins, negations for median and for equal rounded distances.

*Outcome (partial).* False for the median and the average (of bins, not of pairs) and for bins whose distances agree after rounding. Proved for the extremes, and for the lines at different distances.

Theorems: `TC.C155_extremes_partial`, `TC.C155_lines_partial`, `TC.C155_line_lost`, `TC.C155_median_wrong`, `TC.C155_rotation_extremes_partial`, `TC.C155_rotation_lines_partial`, `TC.C155_no_rotation_lines`, `TC.C155_number_of_pairs`

### C143 — The alignment table shows the parameters that were estimated

*Plan.* fixed-point text, padding and splitting as list functions; a cell is described by number and unit; negation for the time shift.

*Outcome (partial).* False for the time shift: its value is shown in milliseconds with the unit m (C143_time_shift_unit, for every such parameter). Proved for the other cells.

Theorems: `TC.C143_table_partial`, `TC.C143_time_shift_unit`, `TC.C143_time_shift_exists`

### C144 — Correlations lie between -1 and 1

*Plan.* Cauchy-Schwarz from positive semidefiniteness.

*Outcome (proved).* The matrix is symmetric and positive semidefinite; a zero variance gives no correlation at all (example).

Theorems: `TC.C144_correlation`, `TC.C144_correlation_of`, `TC.C144_diagonal`, `TC.C144_covariance`, `TC.C144_all`

### C146 — A report that is shown is also saved

*Plan.* disk as directories and files, dirname as posixpath computes it; negations for plain names and missing parents.

*Outcome (partial).* False for showing a report without a path (the default) or in the current directory (C146_plain_name_fails), and if several directories are missing: FileNotFoundError, nothing is written. Proved for the other paths; links and dots in paths are not modelled.

Theorems: `TC.Report.C146_write`, `TC.Report.C146_show_partial`, `TC.Report.C146_new_directory_partial`, `TC.Report.C146_plain_name_fails`, `TC.Report.C146_missing_parent_fails`

### C148 — The plots of a relative error show its bins in their units

*Plan.* bin-wise specification with mean and standard deviation written out; units for each result.

*Outcome (partial).* False for the units in a report of results over metres and over seconds (C148_units_wrong). Everything else proved: curves, error bars, single results, and the figures of matplotlib.

Theorems: `TC.Plot.C148_curves`, `TC.Plot.C148_single`, `TC.Plot.C148_exists`, `TC.Plot.C148_units_partial`, `TC.Plot.C148_label_of_one`, `TC.Plot.C148_units_wrong`, `TC.Plot.C148_matplotlib`, `TC.Plot.C148_step`, `TC.Plot.C148_width`

### C154 — Axis labels fit all trajectories that are shown

*Plan.* coordinate systems as lists of named axes with units; negation for systems with the same unit and different axes.

*Outcome (partial).* False for coordinate systems with the same unit and other axes: the labels are those of the first trajectory (C154_labels_of_first). Proved for local coordinates, for one system, and for several units.

Theorems: `TC.Plot.C154_local`, `TC.Plot.C154_one_system_partial`, `TC.Plot.C154_several_units`, `TC.Plot.C154_labels_of_first`, `TC.Plot.C154_symbols`

### C156 — A path is drawn along the trajectory

*Plan.* a path is ascending if some ascending abscissas pair with it to the samples of the trajectory.

*Outcome (partial).* False for matplotlib whenever the trajectory is not stored in ascending order (C156_matplotlib_stored_order). Proved for reports.

Theorems: `TC.Plot.C156_report_path`, `TC.Plot.C156_report_path_exists`, `TC.Plot.C156_matplotlib_partial`, `TC.Plot.C156_matplotlib_stored_order`, `TC.Plot.C156_report_figures`, `TC.Plot.C156_report_title`

### C157 — The relative pose error does not depend on coordinate frames

*Plan.* two runs in lockstep: every step keeps the relation "same trajectory seen from another frame"; negation for matching by position.

*Outcome (partial).* False for matching by position (C157_spatial_matching_depends_on_frames, for all library routines). Proved for matching by time, with and without interpolation.

Theorems: `TC.C157_rpe_frames_do_not_matter_partial`, `TC.C157_spatial_matching_depends_on_frames`, `TC.C157_far_away_nothing_is_matched`

### C158 — A relative error is the difference of two motions, per distance

*Plan.* samples as in the trajectory, the two motions written out without 4x4 matrices; the pairs as in C63.

*Outcome (proved).* 

Theorems: `TC.C158_errors_of_all_pairs`, `TC.C158_errors_of_consecutive_pairs`, `TC.C158_rpe_all_pairs`, `TC.C158_rpe_consecutive_pairs`

### C159 — The summary of an absolute error says what its lines say

*Plan.* the text under a key is read back as a number and compared with the statistic, specified by sums and counts; negation for results that were shown in millimetres before.

*Outcome (partial).* False after a report in millimetres: the lines in metres then hold a thousand times the value (C159_unit_wrong). Everything else proved, also from the trajectories to the text (C159_comparison). Roll, pitch, yaw and the mean rotation are functions of scipy.

Theorems: `TC.C159_positions_partial`, `TC.C159_rotations`, `TC.C159_dashes`, `TC.C159_order`, `TC.C159_comparison`, `TC.C159_comparison_full`, `TC.C159_unit_wrong`

### C160 — An error-free estimate has no relative error

*Plan.* matching trajectories with the same timestamps keeps positions and orientations; the comparison then is that of the ground truth with itself.

*Outcome (proved).* Matching by position is excluded: there it is false (C157_far_away_nothing_is_matched).

Theorems: `TC.C160_exact_estimate_has_no_relative_error`, `TC.C160_returns`

### C161 — No relative error means the same trajectory

*Plan.* zero error of a pair means equal motions (C158); one end of the pair then decides about the other; induction along chains of pairs.

*Outcome (proved).* 

Theorems: `TC.C161_no_relative_error_means_same_trajectory`

### C162 — The transformation and the leverarm of an alignment are live views

*Plan.* a memory of parameters and arrays; sets refer into it; each method refines the method on sets that own their parameters; frame conditions

*Outcome (proved).* The refinement theorems say which methods C162_helmert and C162_leverarm apply to; they also justify the model of sets that own their parameters.

Theorems: `TC.Shared.C162_helmert`, `TC.Shared.C162_leverarm`, `TC.Shared.C162_translation`, `TC.Shared.C162_rotation`, `TC.Shared.set_refines`, `TC.Shared.setVariances_refines`, `TC.Shared.setVariancesEnabled_refines`, `TC.Shared.validate_refines`, `TC.Shared.enable_refines`, `TC.Shared.disable_refines`, `TC.Shared.setEnabledBoolList_refines`

### C163 — The covariance matrix of the transformation of an alignment has its variances on the diagonal

*Plan.* negation, for all alignments with a non-zero variance

*Outcome (partial).* The property is violated by the code; the theorems prove the violation for all alignments.

Theorems: `TC.Shared.C163_view_without_covariances`, `TC.Shared.C163_diagonal_is_not_the_variances`, `TC.Shared.C163_matrix_stale`

### C164 — Parameters do not change the covariance matrix a caller gave them

*Plan.* memory of arrays; negation for all matrices and variances; frame theorem for the other case

*Outcome (partial).* Violated for matrices of all parameters (proved for all of them); proved for matrices of the enabled parameters only.

Theorems: `TC.Shared.C164_array_of_the_caller_changes`, `TC.Shared.C164_array_of_the_caller_kept_partial`

### C165 — A rejected assignment to parameters changes nothing

*Plan.* state after the exception; negation for all rejected matrices

*Outcome (partial).* Violated for covariance matrices (proved for all rejected ones); proved for values and variances.

Theorems: `TC.Shared.C165_rejected_matrix_is_kept`, `TC.Shared.C165_rejected_values_change_nothing_partial`

### C166 — The statistics of a relative evaluation are those of the errors of each distance

*Plan.* specification of statistics by their defining equations and of medians by the values in order; one entry for each distance with errors

*Outcome (proved).* Errors that are numbers; C101 says when they are.

Theorems: `TC.C166_position_statistics`, `TC.C166_rotation_statistics`, `TC.C166_pairs`, `TC.C66_median`, `TC.IsMedian.unique`

### C167 — An interrupted save of a trajectory is noticed when reading, and does not lose the old file

*Plan.* relation of the contents the file may have at a crash; beginnings of comment lines hold no data; the file after k rows is the file of the first k samples, so that C91 applies; negations for all trajectories

*Outcome (partial).* Violated by the code: proved that for every trajectory of two or more samples there is an unnoticed interruption, and one that loses the old file. Proved: interruptions before the first row are noticed; after whole rows a beginning is read. After an interruption within the last number another number is read (C167_wrong_number). Missing: rows with fewer cells, which pandas fills with nan (nan is outside the model).

Theorems: `TC.C167_header_only`, `TC.C167_after_rows`, `TC.C167_first_samples_partial`, `TC.C167_unnoticed`, `TC.C167_old_file_lost`, `TC.C167_wrong_number`

### C168 — An interrupted save of a result is noticed when reading, and keeps the results already in the file

*Plan.* relation of the contents the file may have at a crash; the file after k rows is the file of the first k samples (C68); the loop over the groups with fewer rows than announced; negations for all results

*Outcome (partial).* Violated by the code, proved for all results with two or more samples (pairs in the last group). Within the last number of an absolute error another number is read (C168_wrong_number). Missing: rows with fewer cells, which pandas fills with nan.

Theorems: `TC.C168_first_samples_partial`, `TC.C168_unnoticed`, `TC.C168_other_result_relabelled`, `TC.C168_relative_unnoticed`, `TC.C168_wrong_number`

### C169 — A plot in space has axes of equal length and hides nothing

*Plan.* closed form of the radius as the largest half length; minimality by comparison with any other equal axes

*Outcome (proved).* 

Theorems: `TC.Plot.C169_equal_axes`, `TC.Plot.C169_positions`

### C170 — The legend of a matplotlib plot names the right lines, whatever is missing

*Plan.* lines with the number of the subplot; the legend pairs names with lines subplot by subplot; relation between trajectories and entries

*Outcome (partial).* Violated by the code for the text at the abscissa of the plot of orientations (C170_label_of_hidden, for all such lists); everything else proved.

Theorems: `TC.Plot.C170_orientations`, `TC.Plot.C170_label_of_hidden`, `TC.Plot.C170_cumulative`, `TC.Plot.C170_compact_histogram`

### C171 — The columns of a file are found by the names in its header

*Plan.* specification of a file as a table with named columns and of the notation of numbers; inversion of reading; a separate theorem that reading succeeds

*Outcome (proved).* Quoted cells are outside the model. Seconds of the GPS week are in C92.

Theorems: `TC.C171_numbers`, `TC.C171_times`, `TC.C171_no_times`, `TC.C171_dates`, `TC.C171_orientations`, `TC.C171_readable`, `TC.C92_conversion`

### C172 — The sorting given in a file header is used

*Plan.* negation, for every file that can be read

*Outcome (partial).* The property is violated by the code for every file; it holds for files that ask for chronological order.

Theorems: `TC.C172_always_chronological`

### C173 — Preprocessing of an alignment is the same as removing the samples beforehand

*Plan.* relation "restricted to the samples that" between trajectories; equality of the two runs including the objects left behind; negations for all trajectories

*Outcome (partial).* The last sentence is violated by the code (C173_start_without_end, C173_counted_from_source, for all trajectories); the rest is proved, with the span counted from the first sample of the source that is not too slow.

Theorems: `TC.C173_as_if_selected`, `TC.C173_nothing_left`, `TC.C173_start_without_end`, `TC.C173_counted_from_source`

### C174 — Trajectories without a name get different names

*Plan.* a state with the counter; the number of successful constructions before; injectivity of decimal notation. A given name may equal a default name (example).

*Outcome (proved).* 

Theorems: `TC.C174_default_names`, `TC.C174_given_name`, `TC.C174_numbered`

### C175 — Matching what is already matched changes nothing

*Plan.* the partners of the matched samples are the only nearest ones, so all indices are kept; interpolation at its own times is the identity; equality of the objects before and after

*Outcome (partial).* Violated by the code for interpolation along lines (C175_lines_move: witness); proved for the other methods under the conditions named in the statement.

Theorems: `TC.C175_temporal`, `TC.C175_spatial`, `TC.C175_interpolation`, `TC.C175_lines_move`, `TC.C175_single_common_time_raises`

### C176 — Results do not depend on the origin of the time scale

*Plan.* lockstep of two runs on heaps that differ by the origin; for the windows of orientations a counterexample for all roundings and means, and a proof for origins an even number of windows apart

*Outcome (partial).* Violated by the code for approximated orientations (C176_orientations_depend_on_origin). Proved for everything else, with every method of matching.

Theorems: `TC.C176_methods`, `TC.C176_match`, `TC.C176_match_lines`, `TC.C176_alignment`, `TC.C176_ate`, `TC.C176_rpe`, `TC.C176_approximated_positions`, `TC.C176_approximation_partial`, `TC.C176_orientations_depend_on_origin`

### C177 — Comparing in the other direction

*Plan.* inversion of the comparison for both directions; norms of negatives, traces of transposes

*Outcome (proved).* 

Theorems: `TC.C177_deviations`, `TC.C177_statistics`, `TC.C177_both_directions`

### C178 — Results do not depend on the unit of length

*Plan.* Two runs in lockstep, on the trajectories and on the rescaled ones (Spec/Units: rescaled). Searches for nearest positions are any search that scales (UnitFree); the brute-force search is shown to be one. With fitted lines the direction of a line is any function of the points that does not depend on the unit. Not covered: estimation of alignments, spatial sorting, approximations.

*Outcome (proved).* Estimation of alignments (thresholds with units), spatial sorting and approximations are outside the statement.

Theorems: `TC.C178_construct`, `TC.C178_methods`, `TC.C178_match`, `TC.C178_absolute`, `TC.C178_statistics`, `TC.C178_relative`, `TC.C178_rpe`, `TC.C178_match_lines`, `TC.C178_rpe_lines`

### C179 — The numbers at the head of a report

*Plan.* the text parses to a multiple of 1/1000 at most half of that from the number specified; the means are specified independently (IsMean); negations for all results without orientations

*Outcome (partial).* Violated by the code for results without orientations and for units of angles other than degrees (last three theorems, for all such results); proved for results with orientations and degrees.

Theorems: `TC.Report.C179_head_partial`, `TC.Report.C179_relative_only`, `TC.Report.C179_zero_without_orientations`, `TC.Report.C179_nan_without_rotations`, `TC.Report.C179_unit_of_angles_ignored`

### C180 — Saving again changes nothing more

*Plan.* rounding is idempotent; induction over the number of repetitions. The sign of a negative zero is not in the model.

*Outcome (proved).* 

Theorems: `TC.C180_saving_again`, `TC.C180_always_possible`

### C181 — Only the ratios of the standard deviations count

*Plan.* lockstep of the two iterations, the normal equations being multiples of each other; the routines of scipy are any that treat multiples of matrices exactly (ScaleFree, shown for exact solvers)

*Outcome (proved).* 

Theorems: `TC.C181_alignment`, `TC.C181_ate`, `TC.C181_only_ratios_count`, `TC.C181_first_factor`, `TC.C181_variance_estimation`

### C182 — Every curve of a report stands at the axis of its unit

*Plan.* specification of a figure as curves with the text at their axis; closed form of each figure; negation: two settings that differ in the unit give the same numbers

*Outcome (partial).* Curves and axes proved. Violated by the code for any unit of angles other than degrees: the numbers stay the same (C182_unit_ignored).

Theorems: `TC.Plot.C182_combined`, `TC.Plot.C182_directions`, `TC.Plot.C182_axes`, `TC.Plot.C182_several`, `TC.Plot.C182_unit_ignored`, `TC.Plot.C182_bars`, `TC.Plot.C182_bars_unit_ignored`

### C183 — The abscissa of a figure of a report names the quantity its curves are drawn over

*Plan.* closed form of each figure; case distinction on the sortings; negation for every mixture

*Outcome (partial).* Violated by the code for trajectories sorted differently (C183_several_mixed, for every mixture); proved otherwise.

Theorems: `TC.Plot.C183_one`, `TC.Plot.C183_several_partial`, `TC.Plot.C183_several_mixed`

### C184 — The origin of the coordinates of the reference does not matter

*Plan.* lockstep of the two runs through matching, direct solution, adjustment and comparison; derivatives are any that do not notice a common shift of target and translation (shown for true derivatives)

*Outcome (proved).* Exact arithmetic: rounding with large coordinates is outside the model.

Theorems: `TC.C184_ate`, `TC.C184_alignment`, `TC.C184_estimation`, `TC.isGrad_movesTogether`, `TC.C184_exact_arithmetic`

### C185 — The total length is the length of the path

*Plan.* path length as a recursive sum; the arc lengths are partial sums; after a crop the difference is the way to the window

*Outcome (partial).* True after construction. False after cropping: the way from the first sample before the crop is counted as well, so the length is strictly too large whenever a removed earlier sample has another position.

Theorems: `TC.C185_constructed`, `TC.C185_cropped_partial`

### C186 — What a trajectory says about itself

*Plan.* a reader that looks for the line starting with a heading is run on the text

*Outcome (proved).* 

Theorems: `TC.C186_card`

### C187 — A trajectory from arrays consists of these arrays

*Plan.* case analysis of the constructor; negation for two timestamps, for all numbers of poses

*Outcome (partial).* True except that two timestamps are accepted for any number of poses from three on (broadcasting of the difference quotient), which gives a trajectory with fewer timestamps than poses.

Theorems: `TC.C187_arrays`, `TC.C187_refused`, `TC.C187_other_numbers_refused`, `TC.C187_two_timestamps_accepted`

### C188 — Speeds belong to positions

*Plan.* separate relation between positions, timestamps and speeds; for the transformation and the smoothing, exactly when it holds

*Outcome (partial).* True after construction and interpolation. Violated by the code after transformations and smoothing: the speeds stay those before, so they are right exactly if no step of the path changes (translations); after rigid motions their sizes are right.

Theorems: `TC.C188_constructed`, `TC.C188_interpolated`, `TC.C188_transformed_partial`, `TC.C188_rigid_speeds`, `TC.C188_approximated_partial`

### C189 — What a set of parameters says about its parameters

*Plan.* induction over the parameters put into the dictionary

*Outcome (proved).* 

Theorems: `TC.C189_dict`, `TC.C189_negation`, `TC.C189_any_enabled`, `TC.C189_sum`

### C190 — The reported standard deviations of the observations are those set

*Plan.* each column of the variances is constant; the mean of a constant; case distinction on what is estimated

*Outcome (proved).* 

Theorems: `TC.C190_group_stds`

### C191 — The order in which samples are stored does not matter

*Plan.* two trajectories with permuted lists of samples; sorted permutations without ties are equal; negation for samples stored backwards

*Outcome (partial).* True for selecting, the sorted views and the table. Violated by the code for the interpolation and the total length, which take the first and last stored sample for the first and last in time: every trajectory stored backwards loses all requested times and reports the arc length of its first sample.

Theorems: `TC.C191_apply_index`, `TC.C191_crop`, `TC.C191_intersect`, `TC.C191_match_timestamps`, `TC.C191_views`, `TC.C191_table`, `TC.C191_interpolate_drops_all`, `TC.C191_total_length_last`, `TC.C191_negation`

### C192 — Moving and selecting can be done in either order

*Plan.* closed forms of both operations; interpolation is a weighted mean, slerp commutes with a turn from the left

*Outcome (partial).* True of the selections. Violated by the code for the speeds after interpolation: everything but the speeds agrees, the speeds agree exactly if the motion leaves each of them as it is.

Theorems: `TC.C192_select`, `TC.C192_crop`, `TC.C192_match_timestamps`, `TC.C192_intersect`, `TC.C192_interpolate_partial`

### C193 — Several selections one after the other

*Plan.* each selection is a filter on the timestamps; interpolation at a stored time gives the stored value

*Outcome (proved).* C193_order applies to crop, inverse crop and intersect by keeps_crop, keeps_crop_inverse, keeps_intersect.

Theorems: `TC.C193_order`, `TC.C193_crop_intersect`, `TC.C193_crop_twice`, `TC.C193_match_timestamps`, `TC.C193_interpolate_twice`

### C194 — What ate and rpe do without settings

*Plan.* read the typed settings from the default settings object; invariants of the adjustment, matching and relative comparison

*Outcome (proved).* 

Theorems: `TC.C194_ate_moves_rigidly`, `TC.C194_ate_no_sensor_rotation`, `TC.C194_rpe_needs_100_m`

### C195 — Moving and smoothing can be done in either order

*Plan.* fitted values of a least squares problem are unique and linear in the observations, and constants are reproduced; windows of orientations commute with a turn if the mean of rotations does

*Outcome (proved).* That the mean of turned orientations is the turned mean is a hypothesis about scipy. For trajectories without orientations C195_positions.

Theorems: `TC.C195_path`, `TC.C195_either_order`, `TC.C195_positions`, `TC.C195_end_to_end`

### C196 — The directed deviations have the documented signs

*Plan.* sign of the cross product of the way and the offset; a rotation matrix with two known axes has the third

*Outcome (partial).* Violated by the code for every input: without orientations both signs are the opposite of the documented ones; with orientations the documented axes are left-handed, so right and up are never both positive. The along-track direction is C103.

Theorems: `TC.C196_right_is_negative`, `TC.C196_never_with_orientations`

### C197 — What a trajectory keeps through every history of calls

*Plan.* an invariant of the statements of each method, kept also by failing ones; induction over the history

*Outcome (proved).* 

Theorems: `TC.C197_objects`, `TC.C197_origin`

### C198 — Matching keeps the labels of both trajectories

*Plan.* an invariant of all objects for three methods; inversion of the constructor for the fourth

*Outcome (partial).* Violated by the code: matching by interpolation leaves the two sortings as they are, so they differ afterwards exactly if they differed before; matching to fitted lines returns trajectories with EPSG code 0 sorted by time, whatever was given.

Theorems: `TC.C198_labels_partial`, `TC.C198_sortings_differ`, `TC.C198_line_matching_forgets`

### C199 — Adding samples by interpolation does not change the path

*Plan.* each interval of the finer table lies in one interval of the coarser one, on which the interpolation is affine (or one arc)

*Outcome (proved).* That spherical interpolation between two points of an arc runs along that arc is a hypothesis about scipy.

Theorems: `TC.C199_same_path`, `TC.C199_restores`

### C200 — An interrupted save of settings is noticed when reading

*Plan.* the JSON writer and reader character by character; reading is stable when text is appended, so a proper beginning that could be read would leave a rest of the full text

*Outcome (proved).* Hypotheses about Python: the text of a finite float is a JSON number and is read as that float. Characters reach the file in order; the old settings are lost as soon as saving has begun. That the recursion bound of the reader is never reached is TC.Settings.loads_bound.

Theorems: `TC.Settings.C200_settings_file`, `TC.Settings.C200_interrupted`, `TC.Settings.C200_torn_text`

### C201 — A wider matching limit keeps what a narrower one finds

*Plan.* from the promises of C38 and C39 for both limits; counterexample for the partners

*Outcome (partial).* Violated by the code: with a wider limit an earlier, worse test sample takes the place of the exact one, for every reference sample with a test sample of its time and one before it. Proved: no matched reference sample and no pair in number is lost, if no test sample is equally near to two reference samples.

Theorems: `TC.C201_wider_in_time_partial`, `TC.C201_wider_in_space_partial`, `TC.C201_exact_pair_replaced`

### C202 — Interpolation uses the neighbouring samples only

*Plan.* the bracketing interval of a time is the same in both tables, shifted by the number of samples before the stretch

*Outcome (proved).* At the first time of a stretch the interpolation of the whole trajectory ends the preceding arc; that spherical interpolation reaches its ends is a hypothesis about scipy.

Theorems: `TC.C202_stretch`, `TC.C202_crop`

### C203 — Reading and changing the observations of an alignment group by group

*Plan.* the stride of every quantity in the interleaved vectors; a sheet with one column per quantity is refined by the vectors

*Outcome (proved).* The whole-vector setters and getters are the groups ALL.

Theorems: `TC.C203_change`, `TC.C203_histories`, `TC.C203_read`, `TC.C203_adjusted`, `TC.C203_start`

### C204 — Merging in any order and in steps, before or after cropping and moving

*Plan.* the merged samples are the unique sorted arrangement of all samples (C44); cropping and moving act on single samples

*Outcome (proved).* Poses are times, positions and orientations; the arc lengths of a merged trajectory are C45. A trajectory without samples makes merging raise (C44_empty_input_raises).

Theorems: `TC.C204_order`, `TC.C204_steps`, `TC.C204_crop`, `TC.C204_move`

### C205 — A second direct alignment changes nothing

*Plan.* the moment matrix of the moved points is symmetric with positive eigenvalues, so every singular value decomposition gives the identity

*Outcome (proved).* Hypotheses: positive weights, two different source points, moment matrix with positive determinant (points not in a plane and not mirrored; otherwise see C84 and C85).

Theorems: `TC.C205_second_alignment`

### C206 — The direct alignment depends neither on frames nor on the order of points

*Plan.* with positive singular values only one orthogonal matrix reaches the largest trace; from it uniqueness of the optimum and the change under similarities

*Outcome (proved).* Same hypotheses as C205. C206_only_best compares with all orthogonal matrices, also reflections, and all scales.

Theorems: `TC.C206_frames`, `TC.C206_only_best`, `TC.C206_order`

### C207 — The thresholds and groups of an alignment follow its observations and settings

*Plan.* a state machine with the stored values; invariant of the stored values over every history; refinement of C203

*Outcome (partial).* False: both values are cached properties. The first answer for the thresholds stays whatever is changed (C207_first_answer, C207_not_followed), and switching lever arm or time shift on an existing object mixes source and target positions (C207_mixed_up). Proved: without such a switch the groups are always current, and the first answer is that of the current observations and limits.

Theorems: `TC.C207_first_answer`, `TC.C207_groups_partial`, `TC.C207_thresholds_partial`, `TC.C207_not_followed`, `TC.C207_mixed_up`

### C208 — Searching voxels around a position

*Plan.* the voxels partition the points (C52); the tree is assumed to return the numbers of all centres within the radius

*Outcome (partial).* Last sentence violated by the code: the id of a voxel is the concatenation of three cell numbers, so cells far apart share a voxel and its centre is far from its points (C208_own_point_missed). Proved for axes of at most nine voxels. Everything else is proved without restriction.

Theorems: `TC.C208_found`, `TC.C208_all`, `TC.C208_own_point_partial`, `TC.C208_own_point_missed`

### C209 — The named columns of the observations of an alignment

*Plan.* the columns of the table of C203; refinement over every history

*Outcome (proved).* The settings of an existing object do not change (see C207 for what happens otherwise).

Theorems: `TC.C209_column`, `TC.C209_adjusted`, `TC.C209_start`

### C210 — Adding and subtracting sets of orientations

*Plan.* orientations as rotation matrices; the angle of a product by unit quaternions, with the addition theorem of the cosine and the Cauchy-Schwarz inequality

*Outcome (proved).* Orientations are compared by their rotation matrices; the angle is that of the trace of the matrix, as in the model of rotangle. scipy has no empty sets.

Theorems: `TC.C210_rows`, `TC.C210_undo`, `TC.C210_angle`

### C211 — The skew-symmetric matrix of a vector

*Plan.* algebra; a rotation matrix is its own matrix of cofactors

*Outcome (proved).* 

Theorems: `TC.C211_cross`, `TC.C211_turned`

### C212 — The absolute error is a distance of trajectories

*Plan.* triangle inequalities of the pointwise distances (for rotations that of C210), lifted to mean, root mean square (Minkowski) and maximum by induction over the poses

*Outcome (proved).* Over the real numbers with exact square root and arccos; symmetry is C177_statistics.

Theorems: `TC.C212_positions`, `TC.C212_orientations`, `TC.C177_statistics`

### C213 — Small changes of positions have small effects

*Plan.* interpolation is a convex combination, arc lengths by induction over the path, statistics by the triangle inequality of C212 against a constant list

*Outcome (proved).* Interpolation for strictly ascending timestamps. Exact arithmetic.

Theorems: `TC.C213_interpolate`, `TC.C213_arc_lengths`, `TC.C213_transform`, `TC.C213_ate`, `TC.C213_ate_rotations`, `TC.C213_rpe`

### C214 — A constant error is reported as what it is

*Plan.* the deviations are a constant list; statistics of constant lists

*Outcome (proved).* For the rotation biases the mean of equal rotations is assumed to be that rotation.

Theorems: `TC.C214_positions`, `TC.C214_orientations`

### C215 — A scale error and a drift come out as relative errors

*Plan.* from the values of single pairs (C158) and the arc length being at least the straight distance (C13)

*Outcome (proved).* Entries that are nan or inf (pairs without distance, see C101) are not counted. Errors are signed only if a pair distance is negative, hence the absolute values.

Theorems: `TC.C215_scale`, `TC.C215_drift`, `TC.C215_rotations`

### C216 — A relative evaluation by parts

*Plan.* sample-level decomposition before ++ section ++ after; searchsorted and the pair filter on the three parts; pairs of the section are an infix of all pairs

*Outcome (proved).* Sections for use_all_pose_pairs: consecutive pairs start at the first sample, so they are other pairs in a section. Exact arithmetic.

Theorems: `TC.C216_bins`, `TC.C216_sections`

### C217 — An absolute evaluation by parts

*Plan.* deviations of appended lists are appended; pooled means, mean squares and extrema of appended lists

*Outcome (proved).* Without orientations the directed deviations use neighbouring poses, so they can differ where the trajectory is cut; nothing is claimed for them. Exact arithmetic.

Theorems: `TC.C217_positions`, `TC.C217_orientations`

### C218 — No distance is longer than the path

*Plan.* invariant of the sample list (pairwise); sublists keep it, interpolation by the triangle inequality through the neighbouring samples, rigid motion keeps norms

*Outcome (partial).* The code breaks it for enlarging transformations, which leave the arc lengths as they are (C218_not_enlarged, for every trajectory that moves). Proved for rigid motion and the other operations. Exact arithmetic.

Theorems: `TC.C218_constructed`, `TC.C218_crop`, `TC.C218_intersect`, `TC.C218_interpolate`, `TC.C218_rigid`, `TC.C218_any_sequence_partial`, `TC.C218_not_enlarged`

### C219 — Comparing relatively in the other direction

*Plan.* the error pose of a pair is inverted; norm of the translation and trace of the rotation are those of the inverse

*Outcome (partial).* Proved for equal timestamps (seconds) or equal arc lengths (metres). False in metres for different arc lengths (C219_metres_not, for any library routines).

Theorems: `TC.C219_exchange_partial`, `TC.C219_metres_not`

### C220 — The bias is the best shift

*Plan.* sums of squares of shifted vectors; exact square root

*Outcome (proved).* Exact arithmetic and square root.

Theorems: `TC.C220_shifted`, `TC.C220_best_shift`, `TC.C220_bias_le_rms`

### C221 — Relative errors are bounded by absolute errors

*Plan.* error of a pair by samples (C158), triangle inequality of the norm and of rotation angles; a rotation moves a point by at most its angle times the distance

*Outcome (proved).* Rotations over the real numbers, with the real arc cosine. Exact arithmetic.

Theorems: `TC.C221_bounded_by_absolute`, `TC.C221_all_pairs`, `TC.C221_rotations`, `TC.C221_any_orientations`, `TC.C221_orientations_needed`

### C222 — Relative errors add at most

*Plan.* errors of a pair by samples (C158); triangle inequality of the norm and of rotation angles

*Outcome (proved).* Rotations over the real numbers, with the real arc cosine. Exact arithmetic.

Theorems: `TC.C222_positions`, `TC.C222_rotations`, `TC.C222_middle_needs_orientations`

### C223 — Directly aligned, the absolute error is smallest

*Plan.* the sum of squares of C112 is the squared error times the number of samples

*Outcome (proved).* Same assumptions as C112: equal weights, a singular value decomposition, Euler angles that describe the rotation, positive determinant (points that are not mirrored; the code fails for those, see C85). Exact arithmetic.

Theorems: `TC.C223_direct_is_best`, `TC.C223_not_worse`

### C224 — What a wrong clock costs

*Plan.* points between samples (C06); a bound for all pairs of samples carries over to all pairs of points between them

*Outcome (proved).* Top speed: the largest ratio of distance and time of consecutive samples. Exact arithmetic.

Theorems: `TC.C224_positions`, `TC.C224_clock_error`, `TC.C224_matched`, `TC.C224_uniform`

### C225 — What matching costs

*Plan.* pairs of C38 and C39, points of C40; triangle inequality

*Outcome (proved).* Rotations over the real numbers, with the real arc cosine. A limit of 0 means no limit (see C33), so the limits are assumed to be positive. The nearest-neighbour search of scipy is assumed to find nearest neighbours. Exact arithmetic. After interpolation, for orientations: the spherical interpolation of scipy is assumed to divide the turn between two orientations in the given proportion (as in C228).

Theorems: `TC.C225_time_limit`, `TC.C225_sampling`, `TC.C225_interpolation`, `TC.C225_distance_limit`, `TC.C225_line_limit`, `TC.C225_turn_limit`, `TC.C225_turn_sampling`, `TC.C225_turn_interpolation`

### C226 — What matching costs in the relative error

*Plan.* rpe is matching followed by the relative comparison; bounds of C225 for the pairs, bounds of C221 for the relative errors

*Outcome (proved).* Rotations over the real numbers, with the real arc cosine. A limit of 0 means no limit (see C33), so the limits are assumed to be positive. The nearest-neighbour search of scipy is assumed to find nearest neighbours. Exact arithmetic. After interpolation, for orientations: the spherical interpolation of scipy is assumed to divide the turn between two orientations in the given proportion (as in C228).

Theorems: `TC.C226_time_limit`, `TC.C226_sampling`, `TC.C226_interpolation`, `TC.C226_distance_limit`, `TC.C226_turn_limit`, `TC.C226_turn_sampling`, `TC.C226_turn_interpolation`, `TC.C226_posed_limit`, `TC.C226_posed_sampling`, `TC.C226_posed_interpolation`

### C227 — RPE uses the matched trajectories

*Plan.* heap model of rpe; pairs of C38, C39, C40; negation for NEAREST_SPATIAL_INTERPOLATED, for all inputs

*Outcome (partial).* Proved for the three methods that match in place. False for NEAREST_SPATIAL_INTERPOLATED, proved for all inputs: the matched copies are discarded (C227_line_matching_ignored).

Theorems: `TC.C227_temporal_partial`, `TC.C227_spatial_partial`, `TC.C227_interpolation_partial`, `TC.C227_line_matching_ignored`

### C228 — Interpolating the record of a motion

*Plan.* points of C06 on the polygon and on the arcs; triangle inequality for positions and for angles of rotations

*Outcome (proved).* The spherical interpolation of scipy is assumed to divide the turn between two orientations in the given proportion; a function on rotation matrices with this property is constructed beside the theorem. Orientations over the real numbers. Exact arithmetic.

Theorems: `TC.C228_positions`, `TC.C228_orientations`
