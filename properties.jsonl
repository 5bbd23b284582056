{"id": "C01", "title": "Selecting samples keeps every channel in step", "statement": "After trajectory.apply_index(index) with in-range integer positions (negative ones count from the end), the result has len(index) samples, and its i-th timestamp, position, orientation, arc length and speed are all those of the one original sample that index[i] names; name and sorting mode do not change.", "quantifier": "every trajectory whose channels have equal length, with or without orientations, and every finite list of valid positions (repetitions and negative positions allowed; empty lists only without orientations, see C97)", "why_tests_cant": "A test fixes one trajectory and a few index lists; the claim ranges over all lengths, repetitions and negative positions.", "anchors": ["trajectopy_core/trajectory.py:569-604 Trajectory.apply_index"]}
{"id": "C02", "title": "A rejected selection changes nothing", "statement": "If any position handed to apply_index is out of range (or a boolean mask has the wrong length) the call raises IndexError and the trajectory is exactly as before the call, with inplace=True as well.", "quantifier": "every equal-length trajectory and every index list or mask containing an invalid entry", "why_tests_cant": "The position of the first bad entry and all channel contents are unbounded.", "anchors": ["trajectopy_core/trajectory.py:569-604 Trajectory.apply_index"]}
{"id": "C03", "title": "Crop keeps exactly the requested time window", "statement": "crop(t_start,t_end) keeps exactly the samples with t_start <= t <= t_end, in their original order and with all channels unchanged; inverse=True keeps exactly the others; the two results together contain every sample once.", "quantifier": "every equal-length trajectory (sorted or not, possibly empty), all real bounds including t_start > t_end; for a trajectory with orientations, windows that keep at least one sample (see C97)", "why_tests_cant": "Boundary equality, unsorted stamps and empty results form an infinite family.", "anchors": ["trajectopy_core/trajectory.py:408-431 Trajectory.crop"]}
{"id": "C04", "title": "Channels never get out of step", "statement": "After any sequence of public in-place operations (apply_index, crop, intersect, match_timestamps, interpolate, apply_transformation, adopting poses), whether calls succeed or raise, timestamps, positions, arc lengths, speeds and (if present) orientations have the same number of entries.", "quantifier": "every finite history of operations with arbitrary arguments from an equal-length trajectory", "why_tests_cant": "Histories are unbounded and the failing ones need specific interleavings.", "anchors": ["trajectopy_core/trajectory.py:408-619", "trajectopy_core/trajectory.py:433-505 Trajectory.interpolate"]}
{"id": "C05", "title": "Interpolation timestamps", "statement": "interpolate(ts) returns a trajectory whose timestamps are the requested ones in ascending order (with repetitions) restricted to the closed interval from the first to the last own timestamp.", "quantifier": "every non-empty trajectory and every finite list of requested timestamps", "why_tests_cant": "The request list is arbitrary in length and order.", "anchors": ["trajectopy_core/trajectory.py:433-462 Trajectory.interpolate"]}
{"id": "C06", "title": "Interpolation values", "statement": "For strictly increasing timestamps the position (and arc length) reported by interpolate at time t equals the stored one if t is a stored timestamp and otherwise lies on the straight segment between the two stored samples enclosing t, at the proportion of elapsed time.", "quantifier": "every trajectory with strictly increasing timestamps, every request list", "why_tests_cant": "Infinite combinations of sample spacing and query time.", "anchors": ["trajectopy_core/trajectory.py:489-505 Trajectory._interpolate_positions", "trajectopy_core/trajectory.py:457"]}
{"id": "C07", "title": "Interpolating onto own timestamps is the identity on positions", "statement": "Interpolating a trajectory with strictly increasing timestamps onto its own timestamps leaves timestamps, positions and arc lengths unchanged.", "quantifier": "every trajectory with strictly increasing timestamps", "why_tests_cant": "All lengths and spacings.", "anchors": ["trajectopy_core/trajectory.py:433-505"]}
{"id": "C08", "title": "A failing interpolation leaves the trajectory untouched", "statement": "If interpolate raises, the trajectory is as it was before the call.", "quantifier": "every trajectory and request list for which the call raises", "why_tests_cant": "Needs the crash point inside the call to be considered for each input.", "anchors": ["trajectopy_core/trajectory.py:454-458", "trajectopy_core/trajectory.py:464-487"]}
{"id": "C09", "title": "Intersect keeps exactly the covered samples", "statement": "intersect(ts,max_gap) raises ValueError exactly if the time ranges do not overlap; otherwise it keeps, in order and with all channels, exactly the samples inside the common range whose time equals a given timestamp or lies between two consecutive given timestamps at most max_gap apart. No other exception occurs.", "quantifier": "every non-empty equal-length trajectory, every non-empty timestamp list (any order), every max_gap; with orientations, at least one sample is kept (see C97)", "why_tests_cant": "Gap pattern and boundary equality are unbounded; index arithmetic near the last stamp is the risk.", "anchors": ["trajectopy_core/trajectory.py:522-567 Trajectory.intersect"]}
{"id": "C10", "title": "Intersecting twice changes nothing more", "statement": "intersect with the same timestamps and gap a second time returns the same trajectory.", "quantifier": "every trajectory and timestamp list for which the first call keeps at least one sample", "why_tests_cant": "All histories of two calls.", "anchors": ["trajectopy_core/trajectory.py:522-567"]}
{"id": "C11", "title": "match_timestamps keeps each common time once, ascending", "statement": "match_timestamps(ts) leaves exactly one sample per timestamp occurring both in the trajectory and in ts, in ascending time order, each an unmodified original sample.", "quantifier": "every equal-length trajectory and every list of timestamps, with duplicates on either side", "why_tests_cant": "Duplicates and order are unbounded.", "anchors": ["trajectopy_core/trajectory.py:507-520 Trajectory.match_timestamps"]}
{"id": "C12", "title": "inplace=False never touches the receiver", "statement": "Every trajectory method with inplace=False leaves the receiver (and any other trajectory object) unchanged, also when it raises, and returns a new object holding what the in-place call would have produced; the in-place call changes no other object.", "quantifier": "every heap of trajectory objects, every method and argument (apply_alignment has no working in-place form, see C20)", "why_tests_cant": "A statement about all other objects and all exceptional exits.", "anchors": ["trajectopy_core/trajectory.py:408-798 (inplace parameters)"]}
{"id": "C13", "title": "Arc lengths are the travelled distance", "statement": "The arc lengths computed for a new trajectory start at 0, never decrease, grow by the distance between consecutive positions, and end at a value not smaller than the straight-line distance from first to last position.", "quantifier": "every non-empty list of positions", "why_tests_cant": "All lengths; triangle inequality along an arbitrary path.", "anchors": ["trajectopy_core/utils.py:77-100 lengths_from_xyz", "trajectopy_core/trajectory.py:134-135"]}
{"id": "C14", "title": "Moving rigidly or scaling a path changes its arc lengths accordingly", "statement": "Translating or rotating all positions leaves the computed arc lengths unchanged; scaling by s multiplies them by |s|; reversing the path gives total minus arc length.", "quantifier": "every list of positions and every rigid motion or scale", "why_tests_cant": "All paths and motions.", "anchors": ["trajectopy_core/utils.py:77-100"]}
{"id": "C15", "title": "The sort-switching index undoes the sorted view", "statement": "Re-indexing the sorted views (function_of, xyz, quat) with sort_switching_index gives the stored order back, and function_of is ascending.", "quantifier": "every trajectory in either sorting mode, any tie-breaking of argsort", "why_tests_cant": "All permutations of all lengths, with ties.", "anchors": ["trajectopy_core/trajectory.py:186-207, 223-244"]}
{"id": "C16", "title": "Spatial sorting keeps samples attached to their arc length", "statement": "sort_spatially keeps the selected samples in their stored (time) order, switches to arc-length mode, and the view of the positions in arc-length mode lists them in the spatial order that was found (for strictly increasing arc lengths along the path).", "quantifier": "every trajectory and every duplicate-free spatial order returned by the sorter", "why_tests_cant": "Every permutation and selection.", "anchors": ["trajectopy_core/trajectory.py:694-713 Trajectory.sort_spatially"]}
{"id": "C17", "title": "Transformations compose", "statement": "Applying T1 and then T2 with apply_transformation gives the same positions and orientations as applying T2*T1 once; the identity leaves positions and orientations unchanged; T and its inverse cancel. Timestamps and sample count never change.", "quantifier": "every non-empty trajectory with orientations, all rigid motions given as 4x4 matrices (scaling: see C98, no orientations: see C18)", "why_tests_cant": "All matrices and all trajectories.", "anchors": ["trajectopy_core/trajectory.py:339-371 Trajectory.se3", "trajectopy_core/trajectory.py:606-619"]}
{"id": "C18", "title": "A transformation does not invent orientations", "statement": "apply_transformation leaves a trajectory without orientations without orientations.", "quantifier": "every trajectory and matrix", "why_tests_cant": "Needs to hold for each path through the getter and setter.", "anchors": ["trajectopy_core/trajectory.py:350, 371, 606-619"]}
{"id": "C19", "title": "Arc lengths stay the travelled distance after a transformation", "statement": "After apply_transformation the arc lengths are still the travelled distance along the new positions.", "quantifier": "every freshly built trajectory and every 4x4 similarity", "why_tests_cant": "All matrices.", "anchors": ["trajectopy_core/trajectory.py:606-619"]}
{"id": "C20", "title": "apply_alignment works with its default arguments", "statement": "trajectory.apply_alignment(result) returns the aligned trajectory.", "quantifier": "every trajectory and alignment result", "why_tests_cant": "The failure does not depend on data, it is on every path.", "anchors": ["trajectopy_core/trajectory.py:621-653"]}
{"id": "C21", "title": "apply_alignment(inplace=False) applies lever arm, time shift, similarity, sensor rotation in this order", "statement": "The aligned position is trans + scale*R*(p + Rbody*lever + dt*v); orientations become sensor * R * Rbody (for scale 1, other scales: see C98); without orientations the lever arm has no effect; neutral parameters change nothing.", "quantifier": "every non-empty trajectory and every parameter set", "why_tests_cant": "All values.", "anchors": ["trajectopy_core/trajectory.py:656-692", "trajectopy_core/alignment/equations.py:159-201"]}
{"id": "C22", "title": "adopt_first_pose makes first poses agree", "statement": "After a.adopt_first_pose(b) the first position and orientation of a equal those of b.", "quantifier": "every pair of non-empty trajectories", "why_tests_cant": "The target is shadowed; tests with equal first poses pass.", "anchors": ["trajectopy_core/trajectory.py:750-797"]}
{"id": "C23", "title": "Construction gives equal-length channels or fails", "statement": "Trajectory(...) either raises or returns a trajectory with one timestamp, arc length, speed (and orientation) per position; missing timestamps are 0,1,2,...", "quantifier": "every combination of supplied and omitted channels of any length", "why_tests_cant": "Combination of lengths is unbounded.", "anchors": ["trajectopy_core/trajectory.py:47-81"]}
{"id": "C24", "title": "approximate returns smoothed samples in stored order", "statement": "approximate keeps timestamps, arc lengths and sample count, and the i-th stored position becomes the approximation evaluated for the i-th stored sample, in both sorting modes.", "quantifier": "every trajectory, every sorting permutation, every approximator that maps sample lists to equally long lists", "why_tests_cant": "Every permutation.", "anchors": ["trajectopy_core/trajectory.py:715-748"]}
{"id": "C25", "title": "SE3 view round trip", "statement": "Assigning a trajectory its own list of SE3 poses leaves positions and orientations unchanged.", "quantifier": "every trajectory with orientations", "why_tests_cant": "All lengths and values.", "anchors": ["trajectopy_core/trajectory.py:339-371"]}
{"id": "C26", "title": "Data rate", "statement": "data_rate is (n-1)/(latest - earliest timestamp) whatever the storage order.", "quantifier": "every trajectory with n >= 2 and distinct extreme timestamps", "why_tests_cant": "Telescoping over all lengths and all orders.", "anchors": ["trajectopy_core/trajectory.py:373-378"]}
{"id": "C27", "title": "Common time span", "statement": "common_time_span(a,b) returns None exactly if no instant lies in both closed ranges, otherwise the exact intersection of the two closed ranges; it is symmetric and does not depend on order.", "quantifier": "all pairs of non-empty timestamp lists", "why_tests_cant": "All orders and overlaps, four-way disjunction.", "anchors": ["trajectopy_core/utils.py:122-150"]}
{"id": "C28", "title": "rndodd returns the nearest odd integer", "statement": "rndodd(s) is odd and differs from s by at most 1.", "quantifier": "all real s, negative ones included", "why_tests_cant": "Continuum of inputs, boundaries at every integer.", "anchors": ["trajectopy_core/utils.py:153-168"]}
{"id": "C29", "title": "Gradient integrates back", "statement": "gradient_3d returns one vector per position, the last zero; for distinct consecutive times position[i] + gradient[i]*(t[i+1]-t[i]) = position[i+1]; constant velocity gives that velocity.", "quantifier": "every non-empty position list with as many timestamps", "why_tests_cant": "All lengths.", "anchors": ["trajectopy_core/utils.py:103-119", "trajectopy_core/alignment/utils.py:54-70"]}
{"id": "C30", "title": "Least squares solution is optimal", "statement": "The parameters returned by least_squares minimise the weighted sum of squared residuals; the residuals are predicted minus observed and orthogonal (in the weight) to every column of the design matrix.", "quantifier": "every design matrix, observation vector and positive semidefinite weight matrix for which the solver returns a solution of the normal equations", "why_tests_cant": "All dimensions and values.", "anchors": ["trajectopy_core/utils.py:246-304", "trajectopy_core/alignment/utils.py:18-51"]}
{"id": "C31", "title": "Line projection is the nearest point of the line", "statement": "Line3D.evaluate_at(p) lies on the line, is at least as close to p as any other point of the line, and projecting again changes nothing (for a unit direction).", "quantifier": "all lines and points", "why_tests_cant": "Continuum.", "anchors": ["trajectopy_core/utils.py:57-74"]}
{"id": "C32", "title": "Smoothing and rounding returns a thinned subsequence", "statement": "round_to_precision returns, in the original order, entries of the input locations with their smoothed values, at least one entry per distinct (location, rounded value), none twice.", "quantifier": "every data vector and location matrix of equal length", "why_tests_cant": "All lengths and duplicate patterns.", "anchors": ["trajectopy_core/utils.py:171-201"]}
{"id": "C33", "title": "Every reported match is a nearest neighbour within the limit", "statement": "For each pair returned by the nearest-neighbour matcher the reference sample is one of the closest reference samples to the test sample, and if a maximum distance other than 0 is given the distance is strictly below it; 0 means no limit.", "quantifier": "all point lists and limits, any tie-breaking of the search tree", "why_tests_cant": "All point constellations and all tie-breaks.", "anchors": ["trajectopy_core/matching.py:204-233 kd_matcher"]}
{"id": "C34", "title": "Matches are one-to-one and sorted", "statement": "The two index lists returned by the matcher have equal length, neither contains an index twice, reference indices ascend, all are in range.", "quantifier": "all point lists and limits", "why_tests_cant": "All multiplicity patterns.", "anchors": ["trajectopy_core/matching.py:228-233"]}
{"id": "C35", "title": "No reachable reference sample is forgotten and failure is reported", "statement": "The matcher raises ValueError exactly if no test sample has a reference sample within the limit; otherwise every reference sample that is the found neighbour of some test sample appears in the result.", "quantifier": "all non-empty point lists and limits", "why_tests_cant": "Completeness over all inputs.", "anchors": ["trajectopy_core/matching.py:222-233"]}
{"id": "C36", "title": "Each reference sample is paired with its closest candidate", "statement": "When several test samples share the same nearest reference sample, the match keeps the closest of them.", "quantifier": "all point lists", "why_tests_cant": "Requires a multiplicity pattern tests rarely contain.", "anchors": ["trajectopy_core/matching.py:228"]}
{"id": "C37", "title": "Matching by index leaves test length unchanged", "statement": "As documented, after temporal/spatial matching both trajectories have the length of the test trajectory.", "quantifier": "all trajectory pairs", "why_tests_cant": "Depends on multiplicities and limits.", "anchors": ["trajectopy_core/matching.py:92-138 (docstrings)"]}
{"id": "C38", "title": "Temporal matching pairs samples in time", "statement": "match_trajectories with NEAREST_TEMPORAL returns two trajectories of equal length whose i-th timestamps differ by less than max_time_diff (if not 0), each sample being an unmodified original sample, reference in stored order.", "quantifier": "all trajectory pairs, all limits", "why_tests_cant": "All lengths and limits.", "anchors": ["trajectopy_core/matching.py:92-114"]}
{"id": "C39", "title": "Spatial matching pairs samples in space", "statement": "Same with NEAREST_SPATIAL: positions differ by less than max_distance (if not 0) and are nearest neighbours.", "quantifier": "all trajectory pairs, all limits", "why_tests_cant": "All constellations.", "anchors": ["trajectopy_core/matching.py:117-138"]}
{"id": "C40", "title": "Interpolation matching yields identical sampling", "statement": "If match_trajectories with INTERPOLATION succeeds, both trajectories have the same timestamps and the same arc lengths, all taken from the reference, and every test position is an interpolation of original test samples.", "quantifier": "all pairs with strictly increasing timestamps", "why_tests_cant": "Gap patterns in both trajectories interact.", "anchors": ["trajectopy_core/matching.py:65-89"]}
{"id": "C41", "title": "match_trajectories(inplace=False) leaves both inputs unchanged", "statement": "With inplace=False neither input trajectory changes, for every method, also when an exception is raised; an unsupported method raises ValueError without touching anything.", "quantifier": "all pairs, all settings", "why_tests_cant": "Non-interference over every method and error exit.", "anchors": ["trajectopy_core/matching.py:23-62"]}
{"id": "C42", "title": "Line-interpolated spatial matching", "statement": "NEAREST_SPATIAL_INTERPOLATED returns two new trajectories of equal length; test positions are original test positions in order; each reference position is the closest point, on the line fitted to the k neighbours, to its test position; a test sample is used exactly if all k neighbours are within the limit.", "quantifier": "all pairs, limits and k for which the call returns (with k = 1 it always raises)", "why_tests_cant": "All constellations.", "anchors": ["trajectopy_core/matching.py:141-201"]}
{"id": "C43", "title": "Rough time offset", "statement": "rough_timestamp_matching does not modify its inputs and, for a copy of the same path with all timestamps shifted by d and pairwise distinct positions, returns d. For any two trajectories it returns the median of the time differences of the pairs found by matching positions, so the difference that more than half of them have.", "quantifier": "all trajectories, all shifts", "why_tests_cant": "All lengths.", "anchors": ["trajectopy_core/matching.py:236-250"]}
{"id": "C44", "title": "Merging keeps every sample and sorts by time", "statement": "merge_trajectories returns a trajectory whose timestamps ascend and whose samples (time, position, orientation, with identity orientation for inputs without one when some input has orientations) are exactly those of the inputs, each once.", "quantifier": "all non-empty lists of trajectories with a common EPSG code", "why_tests_cant": "All counts, lengths and interleavings.", "anchors": ["trajectopy_core/merging.py:20-61"]}
{"id": "C45", "title": "Merged arc lengths describe the merged path", "statement": "The arc lengths of the merged trajectory are the travelled distance along the merged, time-sorted positions.", "quantifier": "all lists of trajectories", "why_tests_cant": "Holds for already ordered inputs, which is what tests use.", "anchors": ["trajectopy_core/merging.py:52-61"]}
{"id": "C46", "title": "Merged coordinate system", "statement": "merge_trajectories never rejects a non-empty list because of coordinate systems: the EPSG code of the result is that of one of the inputs, so the common code if they agree (mixed codes only cause a warning). An empty list raises KeyError.", "quantifier": "all lists of trajectories", "why_tests_cant": "All lists.", "anchors": ["trajectopy_core/merging.py:20-61"]}
{"id": "C47", "title": "Spatial sort visits each sample once", "statement": "The spatial sort returns each index at most once; with discard_missing=False it returns a permutation of all indices, with True exactly the indices connected by the triangulation (and it raises ValueError if the highest point is not among them). The arc lengths that go with the order are the distance travelled along the smoothed points in that order.", "quantifier": "all spanning trees on the triangulated points, all missing sets", "why_tests_cant": "All tree shapes; loop inserting missing points.", "anchors": ["trajectopy_core/sorting.py:57-79, 164-218, 280-291"]}
{"id": "C48", "title": "The lap starts at the highest point", "statement": "As commented, the sorted lap starts with the position of maximum z.", "quantifier": "all inputs", "why_tests_cant": "Only fails when the direction is flipped.", "anchors": ["trajectopy_core/sorting.py:70-79"]}
{"id": "C49", "title": "Rotating an order", "statement": "_begin_with returns the same cyclic order starting at the requested element and fails exactly if it is not contained.", "quantifier": "all lists", "why_tests_cant": "All lengths.", "anchors": ["trajectopy_core/sorting.py:221-236"]}
{"id": "C50", "title": "Inserting missing points keeps indices and coordinates aligned", "statement": "After inserting any number of missing points the index list and the coordinate list stay aligned entry by entry and the order of the other points is kept.", "quantifier": "all lists of missing points, any neighbour search", "why_tests_cant": "Induction over the number of insertions.", "anchors": ["trajectopy_core/sorting.py:60-68, 108-161"]}
{"id": "C51", "title": "Travel direction flips under reversal", "statement": "detect_direction of a reversed point list is the negative of that of the list.", "quantifier": "all point lists (angles in any order)", "why_tests_cant": "All lengths.", "anchors": ["trajectopy_core/sorting.py:294-311"]}
{"id": "C52", "title": "Voxel grouping loses no point", "statement": "Grouping points into voxels assigns every point to exactly one voxel and each voxel reports exactly its points.", "quantifier": "all point lists and voxel sizes", "why_tests_cant": "All sizes.", "anchors": ["trajectopy_core/approximation/voxelizer.py:63-88"]}
{"id": "C53", "title": "Points in one voxel are close", "statement": "Two points in the same voxel differ by at most the voxel size in every coordinate.", "quantifier": "all point lists and voxel sizes", "why_tests_cant": "Only fails with at least eleven cells per axis.", "anchors": ["trajectopy_core/approximation/voxelizer.py:75-86"]}
{"id": "C54", "title": "Iterated smoothing stops and keeps the points in number", "statement": "mls_iterative performs at most ten passes and returns as many points as it was given; it stops after the first pass whose average movement is not above the threshold.", "quantifier": "all inputs", "why_tests_cant": "Termination for all inputs.", "anchors": ["trajectopy_core/approximation/mls_approximation.py:22-59"]}
{"id": "C55", "title": "The line cache does not change results", "statement": "Smoothing with cached voxel lines gives the same positions as recomputing each line.", "quantifier": "all point lists", "why_tests_cant": "All cache histories.", "anchors": ["trajectopy_core/approximation/mls_approximation.py:62-102"]}
{"id": "C56", "title": "Rotation averaging windows", "statement": "Each smoothed orientation is the average over a window of neighbouring samples that contains the sample itself.", "quantifier": "all sample counts and window sizes", "why_tests_cant": "Boundary windows.", "anchors": ["trajectopy_core/approximation/rot_approximation.py:19-62"]}
{"id": "C57", "title": "Cubic approximation reproduces constants and sample count", "statement": "piecewise_cubic returns as many values as samples and returns a constant signal unchanged; with fewer than min_obs samples it raises IndexError, with enough strictly ascending samples it returns.", "quantifier": "all signals", "why_tests_cant": "All lengths and interval partitions.", "anchors": ["trajectopy_core/approximation/cubic_approximation.py:72-246"]}
{"id": "C58", "title": "The evaluated approximation is continuously differentiable", "statement": "For ascending sample locations CubicApproximation.eval is, between the first and the last sample, a continuously differentiable function that is a cubic polynomial between two interval steps and takes the estimated value and slope at each of them.", "quantifier": "all approximations of strictly ascending samples with min_obs at least 2, all evaluation points between first and last sample", "why_tests_cant": "Continuum.", "anchors": ["trajectopy_core/approximation/cubic_approximation.py:44-70, 155-181"]}
{"id": "C59", "title": "Identical trajectories have zero ATE", "statement": "compare_trajectories_absolute of a trajectory with itself gives zero position deviations, and with orientations zero rotation deviations.", "quantifier": "all trajectories", "why_tests_cant": "All lengths.", "anchors": ["trajectopy_core/evaluation/comparison.py:24-59"]}
{"id": "C60", "title": "Directed deviations are an orthogonal decomposition", "statement": "With orientations available the along-, cross- and vertical-track deviations have the same Euclidean length as the position deviation for each sample.", "quantifier": "all trajectories with orientations", "why_tests_cant": "All rotations.", "anchors": ["trajectopy_core/evaluation/comparison.py:202-253"]}
{"id": "C61", "title": "ATE does not depend on a common rigid motion", "statement": "Applying the same rigid motion to both trajectories leaves every position deviation length (hence ATE) unchanged.", "quantifier": "all pairs and rigid motions", "why_tests_cant": "All motions.", "anchors": ["trajectopy_core/evaluation/comparison.py:24-59"]}
{"id": "C62", "title": "RPE does not depend on the choice of frames", "statement": "Transforming the whole reference by one rigid motion and the whole test trajectory by another leaves all relative errors unchanged; in particular a rigidly moved copy has zero RPE.", "quantifier": "all pairs, all pairs of rigid motions, all pair indices", "why_tests_cant": "All motions and lengths.", "anchors": ["trajectopy_core/evaluation/comparison.py:94-199"]}
{"id": "C63", "title": "Pose pairs span the requested distance", "statement": "Every pose pair used by RPE for distance d is an index pair i < j with distance[j]-distance[i] at least d and j the first such index; pairs do not overlap unless all pairs are requested.", "quantifier": "all non-decreasing distance lists and all d > 0", "why_tests_cant": "Loop invariants over all lengths.", "anchors": ["trajectopy_core/evaluation/comparison.py:62-91"]}
{"id": "C64", "title": "Requested pair distances stay within the limits", "statement": "RPE evaluates pair distances from min to max in steps, none larger than max.", "quantifier": "all min <= max and step > 0", "why_tests_cant": "arange overshoot depends on divisibility.", "anchors": ["trajectopy_core/evaluation/comparison.py:120-140"]}
{"id": "C65", "title": "RPE rejects unusable input", "statement": "compare_trajectories_relative raises ValueError exactly if min > max, the pair unit is unknown, or no pose pair is found for any distance.", "quantifier": "all inputs of equal length", "why_tests_cant": "All inputs.", "anchors": ["trajectopy_core/evaluation/comparison.py:94-171"]}
{"id": "C66", "title": "Deviation statistics are consistent", "statement": "For every non-empty deviation list: min <= mean <= max, min <= median <= max, rms^2 = mean^2 + std^2, rms >= |mean|, rms = 0 iff all deviations are 0; statistics do not depend on sample order.", "quantifier": "all non-empty lists of reals", "why_tests_cant": "All lists.", "anchors": ["trajectopy_core/evaluation/ate_result.py:95-368", "trajectopy_core/evaluation/utils.py:16-26"]}
{"id": "C67", "title": "RPE result survives its file", "statement": "Writing an RPE result and reading it back gives the same groups of pair distances and deviations.", "quantifier": "all results with at least one group", "why_tests_cant": "Depends on group means coinciding.", "anchors": ["trajectopy_core/evaluation/rpe_result.py:238-279"]}
{"id": "C68", "title": "ATE result survives its file", "statement": "Writing an ATE result and reading it back gives the same deviations, directed deviations, rotation deviations and trajectory samples.", "quantifier": "all results", "why_tests_cant": "All lengths and both orientations cases.", "anchors": ["trajectopy_core/evaluation/ate_result.py:371-464"]}
{"id": "C69", "title": "ATE uses the matched trajectories", "statement": "ate(gt, est) reports deviations between matched samples for every matching method.", "quantifier": "all pairs and settings", "why_tests_cant": "Only fails for the one method that returns new objects.", "anchors": ["trajectopy_core/evaluation/metrics.py:13-55"]}
{"id": "C70", "title": "Reported rotation errors come from real orientations", "statement": "ate reports rotation deviations only if both input trajectories have orientations.", "quantifier": "all pairs", "why_tests_cant": "Interaction of alignment and comparison.", "anchors": ["trajectopy_core/evaluation/metrics.py:13-46", "trajectopy_core/trajectory.py:339-371"]}
{"id": "C71", "title": "Rotation error is a metric angle", "statement": "The rotation error of a relative pose is an angle in [0, pi], zero exactly for the identity, and the same for the inverse.", "quantifier": "all rotation matrices", "why_tests_cant": "All rotations.", "anchors": ["trajectopy_core/evaluation/comparison.py:174-199"]}
{"id": "C72", "title": "The alignment equations are a similarity of a rotation", "statement": "The functional relationship is zero exactly if the target position equals trans + scale*R*(from + lever/time part), with R = Rz*Ry*Rx orthogonal with determinant 1 for all angles.", "quantifier": "all angles, scales, positions", "why_tests_cant": "All real parameters.", "anchors": ["trajectopy_core/alignment/equations.py:12-397"]}
{"id": "C73", "title": "Parameters applied to positions agree with the equations that estimated them", "statement": "Applying sim3_matrix (or HelmertTransformation.apply_to) to a position gives the position for which the estimation equations are zero.", "quantifier": "all parameters and positions", "why_tests_cant": "All real parameters.", "anchors": ["trajectopy_core/alignment/parameters.py:318-359, 446-455", "trajectopy_core/alignment/equations.py:204-331"]}
{"id": "C74", "title": "Updating enabled parameters leaves disabled ones alone", "statement": "Assigning values_enabled changes exactly the enabled parameters, in order; disabled ones keep their value; reading back returns what was assigned; a wrong number of values is rejected.", "quantifier": "all enable patterns and value lists", "why_tests_cant": "2^11 patterns times all values.", "anchors": ["trajectopy_core/alignment/parameters.py:204-315"]}
{"id": "C75", "title": "Settings select the parameters they name", "statement": "AlignmentParameters.from_settings enables exactly the parameters the settings enable.", "quantifier": "all settings", "why_tests_cant": "Each flag must be independent.", "anchors": ["trajectopy_core/alignment/parameters.py:457-487"]}
{"id": "C76", "title": "Parameter files keep values", "statement": "Writing alignment parameters to a file and reading them back gives the same values, variances and enabled flags.", "quantifier": "all parameter sets", "why_tests_cant": "All patterns.", "anchors": ["trajectopy_core/alignment/parameters.py:505-551"]}
{"id": "C77", "title": "Alignment result files can be rewritten", "statement": "Writing an alignment result to a file and reading it back succeeds and gives the same parameters, also if the file existed before.", "quantifier": "all results and files", "why_tests_cant": "Depends on history of the file.", "anchors": ["trajectopy_core/alignment/result.py"]}
{"id": "C78", "title": "Observation vector layout", "statement": "Observations are stored epoch by epoch; extracting a component returns what was put in, for every combination of estimated groups.", "quantifier": "all epoch counts and settings", "why_tests_cant": "Index arithmetic over all lengths and layouts.", "anchors": ["trajectopy_core/alignment/data.py:197-337"]}
{"id": "C79", "title": "Condition matrix layout", "statement": "Each observation equation only involves the observations of its own epoch, and each matrix entry is the derivative belonging to that observation.", "quantifier": "all epoch counts and layouts", "why_tests_cant": "Index arithmetic.", "anchors": ["trajectopy_core/alignment/estimation.py:531-661"]}
{"id": "C80", "title": "Derivative tables match the equations", "statement": "Each derivative used to build the design matrix is taken with respect to the parameter of its column.", "quantifier": "all columns", "why_tests_cant": "Argument positions are counted by hand in the code.", "anchors": ["trajectopy_core/alignment/egrad_interface.py:29-165", "trajectopy_core/alignment/estimation.py:367-521"]}
{"id": "C81", "title": "Adjustment always stops", "statement": "The adjustment performs a bounded number of iterations whatever the data (at most 16 per run and 5 runs), and reports non-convergence if the last update was still too large.", "quantifier": "all data, any solver", "why_tests_cant": "Termination for all inputs.", "anchors": ["trajectopy_core/alignment/estimation.py:211-330"]}
{"id": "C82", "title": "Convergence means every parameter update is below its threshold", "statement": "If the adjustment reports convergence, the last update of each estimated parameter is below the threshold of that parameter.", "quantifier": "all settings, any solver", "why_tests_cant": "Only fails if some parameters are disabled.", "anchors": ["trajectopy_core/alignment/estimation.py:299", "trajectopy_core/alignment/data.py:484-507"]}
{"id": "C83", "title": "Disabled parameters stay neutral", "statement": "After estimation every disabled parameter has its neutral value (0, scale 1).", "quantifier": "all settings, any solver, any number of iterations", "why_tests_cant": "Invariant over iterations.", "anchors": ["trajectopy_core/alignment/parameters.py:473-487", "trajectopy_core/alignment/estimation.py:207-245"]}
{"id": "C84", "title": "Direct Helmert maps centroid to centroid", "statement": "The directly estimated Helmert transformation maps the centroid of the source points to the centroid of the target points, with an orthogonal rotation part.", "quantifier": "all point sets, any singular value decomposition", "why_tests_cant": "All point sets.", "anchors": ["trajectopy_core/alignment/direct.py:22-72"]}
{"id": "C85", "title": "Direct Helmert rotation is proper", "statement": "The estimated rotation has determinant +1.", "quantifier": "all point sets", "why_tests_cant": "Only fails for mirrored or degenerate data.", "anchors": ["trajectopy_core/alignment/direct.py:40-60"]}
{"id": "C86", "title": "Estimation settings filters agree", "statement": "The flags, the boolean parameter lists and the enabled/disabled summaries of the estimation settings are consistent: all_lq_disabled iff no least-squares parameter is enabled, from_bool_list inverts the filter. The shortcuts from_components and all select exactly the groups asked for, and short_mode_str names exactly the groups that are estimated.", "quantifier": "all settings", "why_tests_cant": "All combinations; stated and proved for all by case analysis.", "anchors": ["trajectopy_core/settings/alignment.py"]}
{"id": "C87", "title": "Settings survive their dictionary", "statement": "from_dict(to_dict(s)) equals s for every settings object, nested settings included.", "quantifier": "all settings values", "why_tests_cant": "All values and nesting.", "anchors": ["trajectopy_core/settings/base.py:18-76"]}
{"id": "C88", "title": "A rejected settings update changes nothing", "statement": "update_from_dict either applies all entries or raises and leaves the settings unchanged.", "quantifier": "all dictionaries", "why_tests_cant": "Depends on the position of the bad key.", "anchors": ["trajectopy_core/settings/base.py:67-76"]}
{"id": "C89", "title": "Header lines are found whatever their order", "statement": "Parsing a file header gives each known key its last value (text: the words of the line; numbers: the first word; delimiter: the character between the quotation marks; otherwise the documented default), ignores unknown keys and data lines, independent of the order of distinct keys.", "quantifier": "all lists of lines", "why_tests_cant": "All orders.", "anchors": ["trajectopy_core/input_output/header.py:20-187"]}
{"id": "C90", "title": "Frame conversion matrix", "statement": "The navigation-frame conversion matrix has exactly one entry +-1 per row and column, hence is orthogonal, for every permutation string of e/w, n/s, u/d axes.", "quantifier": "all valid frame strings", "why_tests_cant": "All frames; finite but not sampled.", "anchors": ["trajectopy_core/input_output/utils.py:15-40"]}
{"id": "C91", "title": "Trajectory files keep samples to nine decimals", "statement": "Writing a trajectory and reading it back gives the same name and EPSG code, corresponding samples with every number within half of 1e-9, orientations present or absent as before and within 1e-8 per matrix entry; time order is kept.", "quantifier": "all non-empty trajectories with equal-length channels whose name consists of words separated by single blanks", "why_tests_cant": "All lengths and values.", "anchors": ["trajectopy_core/trajectory.py:298-328", "trajectopy_core/trajectory.py:144-184", "trajectopy_core/input_output/trajectory_io.py"]}
{"id": "C92", "title": "GPS time conversion", "statement": "Seconds of week and week number are converted to UTC by the fixed epoch, 604800 seconds per week and 18 leap seconds; conversion is strictly monotone.", "quantifier": "all weeks and seconds", "why_tests_cant": "All values.", "anchors": ["trajectopy_core/input_output/trajectory_io.py:228-244", "trajectopy_core/definitions.py:65"]}
{"id": "C93", "title": "Rosbag import groups poses by topic", "statement": "Importing a bag gives one trajectory per pose topic containing exactly the poses of that topic in message order.", "quantifier": "all message sequences", "why_tests_cant": "All interleavings.", "anchors": ["trajectopy_core/input_output/rosbag.py:27-96"]}
{"id": "C94", "title": "Building a report does not change results", "statement": "Creating report data from an ATE result leaves the result unchanged.", "quantifier": "all results and report settings", "why_tests_cant": "Only fails with one unit setting, and accumulates.", "anchors": ["trajectopy_core/report/data.py:28-45"]}
{"id": "C95", "title": "Shrinking report data respects the limit", "statement": "shrink_data returns at most max_size rows, and returns the data unchanged if it already fits or the limit is negative.", "quantifier": "all data and limits", "why_tests_cant": "All lengths.", "anchors": ["trajectopy_core/report/utils.py:44-71"]}
{"id": "C96", "title": "KML export keeps the first of equal rounded positions", "statement": "create_kml requires a coordinate transformer and emits each distinct rounded horizontal position once, in order of first occurrence.", "quantifier": "all trajectories", "why_tests_cant": "All duplicates patterns.", "anchors": ["trajectopy_core/kml.py:14-54"]}
{"id": "C97", "title": "A selection that keeps no sample", "statement": "A selection (apply_index, crop, intersect, match_timestamps) that keeps no sample yields an empty trajectory, or is rejected without any change to the trajectory.", "quantifier": "every equal-length trajectory and every selection that keeps nothing", "why_tests_cant": "Whether the failing step comes before or after the first assignment depends on the presence of orientations; no finite set of selections settles all trajectories.", "anchors": ["trajectopy_core/trajectory.py:569-604 Trajectory.apply_index"]}
{"id": "C98", "title": "A similarity turns orientations by its rotation part only", "statement": "apply_transformation with a similarity (scaled rotation and translation) turns every orientation by the rotation part, whatever the scale.", "quantifier": "every trajectory with orientations, every rotation, translation and positive scale", "why_tests_cant": "With scale 1, or for orientations close to the identity, nothing shows; the error depends continuously on scale and orientation.", "anchors": ["trajectopy_core/trajectory.py:358-371 setter of Trajectory.se3", "trajectopy_core/trajectory.py:606-619"]}
{"id": "C99", "title": "A fitted line is the best one", "statement": "Line3D.from_points returns a line through the mean of the points whose sum of squared distances to the points is the least among all lines.", "quantifier": "all non-empty point lists, any singular value decomposition", "why_tests_cant": "All point clouds and all competing lines.", "anchors": ["trajectopy_core/utils.py:34-55 Line3D.from_points"]}
{"id": "C100", "title": "The cubic approximation reproduces cubic signals", "statement": "A signal that is a cubic polynomial (for example linear) in the sample location is returned unchanged by the approximation.", "quantifier": "all locations, polynomials and interval sizes", "why_tests_cant": "All partitions into intervals.", "anchors": ["trajectopy_core/approximation/cubic_approximation.py:72-151"]}
{"id": "C101", "title": "Relative errors are numbers", "statement": "Every relative error reported by the relative comparison is a finite number, the position errors are not negative and every pair distance is positive.", "quantifier": "all trajectories with non-decreasing distances and all positive settings, both pair modes", "why_tests_cant": "Depends on gaps between samples relative to the requested distance.", "anchors": ["trajectopy_core/evaluation/comparison.py:62-155"]}
{"id": "C102", "title": "Directed deviations account for the whole deviation", "statement": "Without orientations the along-track, horizontal and vertical cross-track deviations of a sample together have the length of its position deviation.", "quantifier": "all trajectories without orientations", "why_tests_cant": "Fails only for particular geometry.", "anchors": ["trajectopy_core/evaluation/comparison.py:211-330"]}
{"id": "C103", "title": "The along-track deviation is the signed projection", "statement": "Without orientations the along-track deviation is the projection of the deviation onto the local direction of travel: positive ahead, negative behind.", "quantifier": "all trajectories without orientations, every sample including the last", "why_tests_cant": "The last sample is treated by different code.", "anchors": ["trajectopy_core/evaluation/comparison.py:255-275"]}
{"id": "C104", "title": "One sign convention for directed deviations", "statement": "The directed deviations have the same signs whether the reference carries orientations along the track or none.", "quantifier": "all level segments and all test positions", "why_tests_cant": "Two code paths that must agree.", "anchors": ["trajectopy_core/evaluation/comparison.py:202-330"]}
{"id": "C105", "title": "The summary of a relative comparison is consistent", "statement": "The per-distance lists of an RPE result (means, minima, maxima, medians, mean pair distances, pair counts) have one entry for each distance with pairs, in the same order; minimum <= mean, median <= maximum; the counts add up to the length of the result; the reported RPE lies between the smallest minimum and the largest maximum.", "quantifier": "all results whose errors are numbers", "why_tests_cant": "All numbers of groups and pairs, empty groups included.", "anchors": ["trajectopy_core/evaluation/rpe_result.py:42-150"]}
{"id": "C106", "title": "Orientations are converted from the frame of the file", "statement": "Orientations of a file that declares a right-handed navigation frame are converted to east-north-up: a body direction gets the same direction in space.", "quantifier": "all right-handed frame strings, all orientations", "why_tests_cant": "All orientations.", "anchors": ["trajectopy_core/input_output/utils.py:15-40", "trajectopy_core/input_output/trajectory_io.py:81-106"]}
{"id": "C107", "title": "Reading from a string equals reading from a file", "statement": "Reading a trajectory from a text gives the same trajectory, or the same failure, as reading it from a file with that text.", "quantifier": "all texts", "why_tests_cant": "All texts.", "anchors": ["trajectopy_core/input_output/trajectory_io.py:24-78", "trajectopy_core/input_output/header.py:153-186"]}
{"id": "C108", "title": "Every trajectory that can be written can be read back with its name", "statement": "The file of any trajectory with equal-length channels can be read, and the trajectory read has the same name.", "quantifier": "all trajectories with equal-length channels, all names", "why_tests_cant": "All names and lengths, the empty one included.", "anchors": ["trajectopy_core/trajectory.py:298-328", "trajectopy_core/trajectory.py:144-184", "trajectopy_core/input_output/header.py:42-43"]}
{"id": "C109", "title": "Reading a result file gives the result written last", "statement": "After result A and then result B have been written to the same file with default arguments, reading the file gives B (or fails).", "quantifier": "all pairs of RPE results", "why_tests_cant": "The file is silently a mixture exactly when the group sizes agree; depends on history of the file.", "anchors": ["trajectopy_core/evaluation/rpe_result.py:238-279", "trajectopy_core/evaluation/ate_result.py:457-464"]}
{"id": "C110", "title": "Covariance matrices of parameters", "statement": "Assigning a covariance matrix for the enabled parameters puts each entry at its parameters, leaves zeros for disabled ones, and reading the enabled part returns it; assigning a full matrix keeps it; the variances are its diagonal; values do not change; any other shape is rejected.", "quantifier": "all sets of parameters, enable patterns and matrices", "why_tests_cant": "Index arithmetic over all enable patterns.", "anchors": ["trajectopy_core/alignment/parameters.py:160-192"]}
{"id": "C111", "title": "Unused speed components stay out of the alignment", "statement": "If a time shift is estimated with only some of the speed components in use, the other components of the speed do not take part in the estimation.", "quantifier": "all settings, epochs and speeds", "why_tests_cant": "Needs every pattern of the three flags and every speed.", "anchors": ["trajectopy_core/alignment/data.py:197-262"]}
{"id": "C112", "title": "Direct Helmert transformation is the best one", "statement": "No other rotation (or reflection), scale and translation gives a smaller weighted sum of squared distances between transformed source points and target points than the directly estimated one, if the points are not mirrored.", "quantifier": "all point sets with two different points, positive weights, any singular value decomposition, all competing transformations", "why_tests_cant": "Ranges over all point sets and all competitors.", "anchors": ["trajectopy_core/alignment/direct.py:22-72"]}
{"id": "C113", "title": "Direct lever arm and time shift are the best ones", "statement": "No other lever arm and time shift gives a smaller sum of squared distances between the moved source positions and the target positions; equal sizes always give an answer if the equations are solved.", "quantifier": "all positions, angles, speeds and competitors", "why_tests_cant": "Ranges over all data and all competitors.", "anchors": ["trajectopy_core/alignment/direct.py:75-256"]}
{"id": "C114", "title": "Constant sensor rotation is recovered", "statement": "If all target orientations are the source orientations turned by one rotation, the estimated angles describe this rotation and turn each source orientation into its target orientation.", "quantifier": "all rotations and numbers of orientations", "why_tests_cant": "All rotations; order of products matters.", "anchors": ["trajectopy_core/alignment/direct.py:259-271"]}
{"id": "C115", "title": "Every reported alignment consists of numbers", "statement": "If the iterative estimation reports that it has results, the parameters are numbers.", "quantifier": "all observations and settings", "why_tests_cant": "Depends on the rank of a matrix over all data; tests use well conditioned data.", "anchors": ["trajectopy_core/alignment/estimation.py:211-350"]}
{"id": "C116", "title": "One pass of the estimation is the least-squares step", "statement": "A pass changes the parameters and the observations so that the linearised equations hold and the weighted sum of squared corrections of the observations is the smallest possible; a pass that changes nothing leaves observations that satisfy the equations exactly.", "quantifier": "all observations, positive variances, parameters and competitors", "why_tests_cant": "Ranges over all competing corrections.", "anchors": ["trajectopy_core/alignment/estimation.py:296-350"]}
{"id": "C117", "title": "Data without errors give the true transformation", "statement": "If all target positions are the source positions moved by one similarity transformation and do not lie in a plane, the estimation of a similarity transformation returns exactly this transformation.", "quantifier": "all similarity transformations, positions, variances and thresholds", "why_tests_cant": "All rotations, including those where Euler angles degenerate.", "anchors": ["trajectopy_core/alignment/estimation.py:149-250", "trajectopy_core/alignment/direct.py:22-72"]}
{"id": "C118", "title": "Estimating an alignment has no side effects", "statement": "estimate_alignment leaves both trajectories, and every other trajectory, exactly as they were, whether it returns or raises.", "quantifier": "all settings, matching methods, trajectories and outcomes", "why_tests_cant": "Depends on every filter, matching and estimation path copying before it writes.", "anchors": ["trajectopy_core/alignment/estimation.py:30-100", "trajectopy_core/alignment/data.py:30-110", "trajectopy_core/evaluation/metrics.py:13-46"]}
{"id": "C119", "title": "Computing a metric leaves the trajectories unchanged", "statement": "ate and rpe leave the trajectories passed by the caller, and all others, as they were.", "quantifier": "all settings, matching methods, trajectories and outcomes", "why_tests_cant": "Aliasing between caller and callee, for every method and error path.", "anchors": ["trajectopy_core/evaluation/metrics.py:13-55"]}
{"id": "C120", "title": "Only complete settings are accepted", "statement": "Loading settings from a dictionary succeeds only when the dictionary holds a value for every setting, and then yields settings of the requested kind.", "quantifier": "all dictionaries", "why_tests_cant": "Every missing or ill-typed entry at every depth of nesting.", "anchors": ["trajectopy_core/settings/base.py:45-58"]}
{"id": "C121", "title": "Shrinking keeps arrays of equal length aligned", "statement": "Arrays of equal length that are shrunk to the same limit for a report stay of equal length, entry i of each standing for the same samples.", "quantifier": "all arrays and limits", "why_tests_cant": "Depends on the values of the arrays, not only their length.", "anchors": ["trajectopy_core/report/utils.py:44-69"]}
{"id": "C122", "title": "Reports show errors in the chosen unit", "statement": "Every report built from the same result shows the same errors, converted to the chosen unit.", "quantifier": "all results, report settings and numbers of reports built before", "why_tests_cant": "Accumulates with every report built from the same result.", "anchors": ["trajectopy_core/report/data.py:33-36", "trajectopy_core/report/single.py:107-123", "trajectopy_core/report/multi.py:75-90"]}
{"id": "C123", "title": "A report without orientations shows no rotation error", "statement": "When the result has no rotation deviations the report shows no rotation error.", "quantifier": "all results", "why_tests_cant": "All results without orientations.", "anchors": ["trajectopy_core/report/single.py:124"]}
{"id": "C124", "title": "Short names identify the tested trajectory", "statement": "The short name shown in reports is the name of the tested trajectory.", "quantifier": "all names", "why_tests_cant": "All names, including those containing the separator.", "anchors": ["trajectopy_core/report/data.py:38-40"]}
{"id": "C125", "title": "KML export leaves the trajectory unchanged", "statement": "create_kml writes a file and leaves the trajectory as it was.", "quantifier": "all trajectories, coordinate systems and precisions", "why_tests_cant": "The rounded and filtered version replaces the original for every trajectory.", "anchors": ["trajectopy_core/kml.py:14-54"]}
{"id": "C126", "title": "Rendering a map leaves the trajectories unchanged", "statement": "render_trajectories_mapbox draws the trajectories and leaves them as they were.", "quantifier": "all lists of trajectories, coordinate systems and axis orders", "why_tests_cant": "Aliasing between caller and plot, for every subset of trajectories with transformer.", "anchors": ["trajectopy_core/plotting/plotly/scatter_plots.py:32-85"]}
{"id": "C127", "title": "The map shows positions at their latitude and longitude", "statement": "Every position is drawn at its latitude and longitude and the map is centred at their mean.", "quantifier": "all lists of trajectories and axis orders", "why_tests_cant": "Depends on the axis order, for all positions.", "anchors": ["trajectopy_core/plotting/plotly/scatter_plots.py:20-85"]}
{"id": "C128", "title": "The spatial sort never runs against the input direction", "statement": "sort_spatially may reverse the triangulated order so that it agrees with the direction of the given points; it never returns an order whose direction is opposite to that of the input (when both directions are well defined).", "quantifier": "all triangulations, spanning trees, neighbour queries and direction functions, all point sets", "why_tests_cant": "Direction is derived from an angle function applied to arbitrary point sequences; must hold for every triangulation and every order of insertion, not just observed cases.", "anchors": ["trajectopy_core/sorting.py:57-79", "trajectopy_core/sorting.py:294-311"]}
{"id": "C129", "title": "A smoothing pass snaps each point to the best line through its neighbouring voxels", "statement": "In one smoothing pass every point is replaced by the nearest point on a best-fit line through the points of its k nearest occupied voxels; a neighbourhood with a single point leaves the point unchanged.", "quantifier": "all point clouds, voxel sizes, numbers of neighbours and line-fitting results", "why_tests_cant": "Depends on voxel occupancy, neighbour search and fitted lines that vary for every input.", "anchors": ["trajectopy_core/approximation/mls_approximation.py:62-102", "trajectopy_core/approximation/voxelizer.py:63-138"]}
{"id": "C130", "title": "A smoothing pass needs enough occupied voxels", "statement": "mls_single with k neighbours succeeds exactly when 2 ≤ k and the point cloud occupies at least k voxels; otherwise it raises IndexError, TypeError (k=1) or ValueError (k=0).", "quantifier": "all point clouds, voxel sizes and neighbour counts", "why_tests_cant": "The number of occupied voxels depends on the data; the boundary between success and failure must be exact.", "anchors": ["trajectopy_core/approximation/mls_approximation.py:62-84", "trajectopy_core/approximation/voxelizer.py:117-131"]}
{"id": "C131", "title": "Variances are estimated from the epochs that vary most", "statement": "get_variance_estimation_subset(num_obs) returns both trajectories in full if there are at most num_obs epochs, otherwise the num_obs consecutive epochs whose observations vary most, in their order.", "quantifier": "all observation vectors, settings, subset sizes of at least two and trajectories", "why_tests_cant": "The window depends on the data; the off-by-one shows only for particular positions of the maximum.", "anchors": ["trajectopy_core/alignment/data.py:509-544"]}
{"id": "C132", "title": "A copy that is only moved has no absolute error", "statement": "If the ground truth is the estimated trajectory turned, scaled and shifted, at the same timestamps, ate returns a result: the alignment is exactly this transformation and every deviation is zero, one per sample.", "quantifier": "all trajectories whose positions do not lie in one plane, all rotations, scales and shifts that the settings estimate, matching by interpolation or by time, all heaps", "why_tests_cant": "A test shows small numbers for a few rotations; that the whole chain (matching twice, observations, initial values, adjustment, application, comparison) is exact must hold for every trajectory and rotation, and fails for a thin set of rotations a test will not hit.", "anchors": ["trajectopy_core/evaluation/metrics.py:13-46", "trajectopy_core/alignment/estimation.py:42-99", "trajectopy_core/alignment/data.py:33-98", "trajectopy_core/matching.py:23-114", "trajectopy_core/evaluation/comparison.py:24-59"]}
{"id": "C133", "title": "A deviation is plotted at its own sample", "statement": "Whenever a deviation is plotted over time, over length or at a position (reports, plot_deviations, scatter_deviations), the abscissa or position is the one of the sample the deviation belongs to.", "quantifier": "all results with any storage order of the samples, all sorting routines, both plotting backends", "why_tests_cant": "A plot of samples stored in order looks right; the pairing must hold for every storage order.", "anchors": ["trajectopy_core/plotting/plotly/line_plots.py:141-266", "trajectopy_core/report/data.py:66-145", "trajectopy_core/plotting/plotly/scatter_plots.py:87-245", "trajectopy_core/plotting/mpl/deviation_plot.py:214-265", "trajectopy_core/plotting/mpl/deviation_plot.py:394-441"]}
{"id": "C134", "title": "In a comparison every curve carries the name of its result", "statement": "The multi-result deviation plots of a report show for every result its own curves over its own abscissas under its own name.", "quantifier": "all lists of results, with and without orientations in any order", "why_tests_cant": "The wrong pairing appears only for particular orders of results with and without orientations.", "anchors": ["trajectopy_core/plotting/plotly/multi_line_plots.py:102-167"]}
{"id": "C135", "title": "The cumulative curve shows shares", "statement": "The cumulative plot of deviations has one point per deviation, from left to right, and its height at a deviation is the share of deviations that are not greater.", "quantifier": "all lists of deviations", "why_tests_cant": "The error is one sample of many and not visible in a picture.", "anchors": ["trajectopy_core/plotting/plotly/multi_line_plots.py:23-77", "trajectopy_core/plotting/mpl/deviation_plot.py:132-160"]}
{"id": "C136", "title": "A histogram counts the component its label names", "statement": "Every histogram of a deviation component counts exactly the values of the component that its label names, one count per sample.", "quantifier": "all results, all settings", "why_tests_cant": "Labels and data are both strings and numbers; no test compares pictures.", "anchors": ["trajectopy_core/plotting/mpl/deviation_plot.py:27-113", "trajectopy_core/plotting/plotly/histograms.py:14-78"]}
{"id": "C137", "title": "plot_deviations draws every result under its own name", "statement": "plot_deviations returns a figure for every list of results; it shows the position deviation of every result and the rotation deviation of those with orientations, and the legend assigns every name to its own line.", "quantifier": "all non-empty lists of results", "why_tests_cant": "Fails for particular combinations (no orientations at all, some without, no samples).", "anchors": ["trajectopy_core/plotting/mpl/deviation_plot.py:214-265"]}
{"id": "C138", "title": "The bar tables hold the statistics of each result", "statement": "The table behind the bar plots has for every result one row for each statistic with its value and name; results without orientations are left out of the rotation table.", "quantifier": "all lists of results", "why_tests_cant": "Must hold for any number and mixture of results.", "anchors": ["trajectopy_core/plotting/plotly/bar_plots.py:21-68"]}
{"id": "C139", "title": "Bars of different results do not cover each other", "statement": "In plot_bars the bars of one characteristic lie side by side in the order of the results, do not overlap with each other or with those of the next characteristic, and have the height of the statistic of their own result.", "quantifier": "all non-empty lists of results of any length, all three modes", "why_tests_cant": "Placement is arithmetic in the number of results; only a proof covers all numbers.", "anchors": ["trajectopy_core/plotting/mpl/deviation_plot.py:163-211"]}
{"id": "C140", "title": "Colour limits are the documented ones", "statement": "The colour range of a deviation scatter plot is the documented one: from the least value up to the mean plus scatter_max_std standard deviations (reports), or mean plus and minus the sigma factor of the settings within the range of the data (matplotlib); ticks and their texts lie inside it.", "quantifier": "all value lists, all settings", "why_tests_cant": "Shows only as a slightly different colour scale.", "anchors": ["README.md:280", "trajectopy_core/settings/report.py:39", "trajectopy_core/plotting/plotly/scatter_plots.py:147-161", "trajectopy_core/plotting/mpl/deviation_plot.py:394-477"]}
{"id": "C141", "title": "A report has every figure that belongs to it, in order", "statement": "A report of one or several results contains exactly the figures for the evaluations that are present, each once, and the rotation figures follow their position figures.", "quantifier": "all combinations of absolute and relative evaluation, orientations and detail", "why_tests_cant": "The positions are computed from the length of the list; all combinations matter.", "anchors": ["trajectopy_core/report/single.py:24-119", "trajectopy_core/report/multi.py:23-90"]}
{"id": "C142", "title": "Scatter plots label what they show", "statement": "A scatter plot shows the coordinates in the order of the setting, each axis with its own label; the title and the colour bar name the component that is shown.", "quantifier": "all axis orders, results and settings", "why_tests_cant": "Labels and data must agree for every order of the axes.", "anchors": ["trajectopy_core/plotting/plotly/scatter_plots.py:22-245"]}
{"id": "C147", "title": "The abscissa text names the quantity", "statement": "The text at the abscissa of a plot of several trajectories says time if all are sorted by time, length if all are sorted by length, and both if they are mixed.", "quantifier": "all non-empty lists of trajectories", "why_tests_cant": "Quantifies over every mixture.", "anchors": ["trajectopy_core/plotting/mpl/trajectory_plot.py:61-81", "trajectopy_core/plotting/mpl/deviation_plot.py:214-265"]}
{"id": "C149", "title": "A trajectory plot shows every sample once", "statement": "plot_xyz and plot_rpy show for every trajectory three curves with its name, with ascending abscissas, whose points are exactly its samples.", "quantifier": "all lists of trajectories in any storage order, all sorting routines", "why_tests_cant": "Must hold for every storage order.", "anchors": ["trajectopy_core/plotting/mpl/trajectory_plot.py:61-136"]}
{"id": "C145", "title": "Comparing two results says whether they are equal", "statement": "Comparing two alignment results, or two relative errors, answers yes if everything that belongs to them agrees (numbers up to the tolerance) and no otherwise.", "quantifier": "all pairs of results", "why_tests_cant": "Tests compare a result with itself; every kind of difference matters.", "anchors": ["trajectopy_core/alignment/result.py:25-37", "trajectopy_core/evaluation/rpe_result.py:36-40"]}
{"id": "C150", "title": "Comparing two trajectories is an equivalence up to a tolerance", "statement": "Comparing two trajectories answers yes exactly if they have the same name, coordinate system and number of samples and agree sample by sample up to the tolerance; the order of the two does not matter.", "quantifier": "all pairs of trajectories of any length", "why_tests_cant": "numpy broadcasting and relative tolerances matter only for particular pairs.", "anchors": ["trajectopy_core/trajectory.py:116-132"]}
{"id": "C151", "title": "The table of a trajectory shows its samples, sorted", "statement": "The table of a trajectory has one row per sample, each with the time, length, position, orientation and velocity of that sample in the columns with those names, sorted by the requested column (by default the one the trajectory is sorted by); an unknown column raises.", "quantifier": "all trajectories in any storage order, all column names, all sorting routines", "why_tests_cant": "Must hold for every storage order and every column.", "anchors": ["trajectopy_core/trajectory.py:256-296"]}
{"id": "C152", "title": "Angles belong to the abscissas", "statement": "The roll, pitch and yaw angles of a trajectory with orientations are given in the order of the sorted abscissas, each for its own sample; without orientations the angles are absent like the quaternions.", "quantifier": "all trajectories in any storage order", "why_tests_cant": "Must hold for every storage order.", "anchors": ["trajectopy_core/trajectory.py:194-254"]}
{"id": "C153", "title": "Adding and subtracting parameters propagates uncertainty", "statement": "The sum and the difference of two parameters have the sum and the difference of the values in force, the sum of the variances and the common unit.", "quantifier": "all pairs of parameters", "why_tests_cant": "The numbers are plausible for every single pair.", "anchors": ["trajectopy_core/alignment/parameters.py:73-83"]}
{"id": "C155", "title": "The summary of a relative error is that of its pairs", "statement": "The summary of a relative error shows the number of pairs, one line per bin with its mean distance and drift, and the largest, smallest, average and median drift over all pairs, each with its unit.", "quantifier": "all relative errors with any bins", "why_tests_cant": "Depends on how pairs are spread over bins and on rounding of distances.", "anchors": ["trajectopy_core/evaluation/rpe_result.py:53-220"]}
{"id": "C143", "title": "The alignment table shows the parameters that were estimated", "statement": "The table of an alignment has one line per estimated parameter, in order, with its name, its value and its standard deviation, each with the unit the number is in.", "quantifier": "all parameter sets", "why_tests_cant": "Texts with units are taken apart again; depends on every unit and every number of digits.", "anchors": ["trajectopy_core/report/tables.py:8-43", "trajectopy_core/alignment/parameters.py:68-71", "trajectopy_core/alignment/parameters.py:217-225", "trajectopy_core/definitions.py:54-61"]}
{"id": "C144", "title": "Correlations lie between -1 and 1", "statement": "The correlation matrix that is shown for an alignment is symmetric, has the correlations of the estimated parameters, between -1 and 1, beside the diagonal and nothing on it, and rows and columns have the names of the parameters they belong to. The same holds for the matrix of covariances.", "quantifier": "all covariance matrices of any size with positive variances, exact square root", "why_tests_cant": "Must hold for every covariance matrix.", "anchors": ["trajectopy_core/report/alignment.py:23-33", "trajectopy_core/plotting/mpl/alignment_plot.py:142-200"]}
{"id": "C146", "title": "A report that is shown is also saved", "statement": "Writing or showing a report puts exactly its text into the file with the given path, leaves all other files alone, and works for every path in a directory that exists or can be made, with and without a path.", "quantifier": "all texts, paths and states of the disk", "why_tests_cant": "Tests use one temporary directory.", "anchors": ["trajectopy_core/report/utils.py:74-108"]}
{"id": "C148", "title": "The plots of a relative error show its bins in their units", "statement": "In the plots of relative errors every result has a curve under its own name over the mean distances of its bins with pairs, with the mean deviation and the standard deviation of each bin, rotations in degrees if there are some, and the axes have the units of what is shown.", "quantifier": "all lists of relative errors with any bins", "why_tests_cant": "Must hold for every mixture of units, of results with and without rotations, and of empty bins.", "anchors": ["trajectopy_core/plotting/plotly/multi_line_plots.py:170-237", "trajectopy_core/plotting/plotly/line_plots.py:269-322", "trajectopy_core/plotting/mpl/deviation_plot.py:268-369", "trajectopy_core/evaluation/rpe_result.py:45-98"]}
{"id": "C154", "title": "Axis labels fit all trajectories that are shown", "statement": "The labels of the coordinate axes name the axes and units of the coordinate system of every trajectory in the plot; if they do not agree, the labels name no unit.", "quantifier": "all lists of trajectories, all coordinate systems", "why_tests_cant": "Depends on combinations of coordinate systems.", "anchors": ["trajectopy_core/plotting/utils.py:27-55", "trajectopy_core/plotting/mpl/trajectory_plot.py:84-112"]}
{"id": "C156", "title": "A path is drawn along the trajectory", "statement": "A plot of trajectories joins the positions of each trajectory in ascending order of time or length, under its name; a report of trajectories shows all of them, and the angles of those with orientations.", "quantifier": "all lists of trajectories in any storage order, two or three axes", "why_tests_cant": "Must hold for every storage order.", "anchors": ["trajectopy_core/plotting/plotly/scatter_plots.py:248-307", "trajectopy_core/plotting/mpl/trajectory_plot.py:28-58", "trajectopy_core/report/trajectory.py:21-36"]}
{"id": "C157", "title": "The relative pose error does not depend on coordinate frames", "statement": "rpe(gt, est) gives the same result, or raises the same exception, when the estimated trajectory is moved by one rigid motion and the ground truth by another, for every matching method.", "quantifier": "all trajectories, all pairs of rigid motions, all settings, all library routines that are right", "why_tests_cant": "Must hold for every rotation and shift and for the whole chain of matching, interpolation and comparison.", "anchors": ["trajectopy_core/evaluation/metrics.py:49-55", "trajectopy_core/matching.py:23-138", "trajectopy_core/evaluation/comparison.py:94-171", "trajectopy_core/trajectory.py:433-604"]}
{"id": "C158", "title": "A relative error is the difference of two motions, per distance", "statement": "Every entry of a relative comparison is the error of one pair of samples divided by the distance of the pair: the distance between the end points of the two motions, each seen from the pose at its begin (without orientations the difference of the two lengths), and the angle between the two turns.", "quantifier": "all trajectories of equal length with any orientations, all settings, all pairs", "why_tests_cant": "Tests compare a few values; the formula must hold for every pair of poses.", "anchors": ["trajectopy_core/evaluation/comparison.py:94-199"]}
{"id": "C159", "title": "The summary of an absolute error says what its lines say", "statement": "The property dictionary of an absolute error exists whenever there are deviations; each line holds, to four decimals and in the unit it names, the statistic it names: of the lengths of the deviations, of each coordinate, of each directed component, of the rotation angles and of roll, pitch and yaw; lines about rotations are dashes exactly if there are no rotation deviations; rounding keeps minimum, median, mean, RMS and maximum in order.", "quantifier": "all results with at least one deviation, with and without rotations; all pairs of trajectories with equally many samples", "why_tests_cant": "Must hold for every list of deviations and after every history of reports.", "anchors": ["trajectopy_core/evaluation/ate_result.py:41-86", "trajectopy_core/evaluation/ate_result.py:110-368", "trajectopy_core/report/data.py:33-36"]}
{"id": "C160", "title": "An error-free estimate has no relative error", "statement": "If the estimated trajectory is the ground truth in other coordinates, sampled at the same strictly ascending times, and the matching is by time (nearest or interpolated), rpe(gt, est) reports zero for every position and every rotation, apart from nan at pairs of distance zero; and it returns exactly if the unit is metre or second, the smallest distance is not above the largest and two samples of the ground truth are further apart than the smallest distance.", "quantifier": "all ground truths with at least two samples, all rigid motions, all settings with matching by time, with and without orientations", "why_tests_cant": "Must hold for the whole chain of matching, interpolation and comparison, for every trajectory and every coordinate frame.", "anchors": ["trajectopy_core/evaluation/metrics.py:49-55", "trajectopy_core/matching.py:23-138", "trajectopy_core/evaluation/comparison.py:94-199", "trajectopy_core/trajectory.py:433-604"]}
{"id": "C161", "title": "No relative error means the same trajectory", "statement": "Conversely, for trajectories with orientations compared over all pose pairs: if no relative error is reported there is one rigid motion that carries the ground truth onto the estimate at all samples linked with each other by compared pairs.", "quantifier": "all pairs of trajectories of equal length with orientations, all positive distances, all chains of compared pairs", "why_tests_cant": "Quantifies over all trajectories for which a metric is zero.", "anchors": ["trajectopy_core/evaluation/comparison.py:62-199"]}
{"id": "C162", "title": "The transformation and the leverarm of an alignment are live views", "statement": "The objects that an alignment result gives as its similarity transformation and as its leverarm are views: assigning their translation, rotation, values or variances, or enabling and disabling them, does the same to the seven, or three, corresponding parameters of the alignment, and to no other parameter. An assignment to a disabled parameter does not change what it reads as.", "quantifier": "every alignment with eleven parameters in any memory with other parameters and arrays; every assigned vector; every method of a set of parameters", "why_tests_cant": "a test checks one assignment on one object; that nothing else changes needs all memories, and that this holds for every method needs a relation between shared and owned parameters", "anchors": ["trajectopy_core/alignment/parameters.py: AlignmentParameters.helmert, AlignmentParameters.leverarm, HelmertTransformation.translation, HelmertTransformation.rotation, ParameterSet"]}
{"id": "C163", "title": "The covariance matrix of the transformation of an alignment has its variances on the diagonal", "statement": "The covariance matrix of the similarity transformation of an alignment has the variances of the seven parameters on its diagonal, and assigning variances through it keeps the covariance matrix of the alignment in agreement with its variances. (This fails: the covariance matrix of the view is always zero, and the one of the alignment becomes stale.)", "quantifier": "every alignment with eleven parameters, every list of seven variances", "why_tests_cant": "that it fails for every alignment with a variance, not only for one, needs a proof", "anchors": ["trajectopy_core/alignment/parameters.py: AlignmentParameters.helmert, ParameterSet.__post_init__, ParameterSet.variances"]}
{"id": "C164", "title": "Parameters do not change the covariance matrix a caller gave them", "statement": "An array given as covariance matrix belongs to the caller: later assignments to the parameters do not change it. (This fails for a matrix of all parameters, and holds for a matrix of only the enabled ones.)", "quantifier": "every set of parameters, every square matrix, every later assignment", "why_tests_cant": "aliasing shows only when the array is looked at after a later assignment; absence of aliasing needs all later methods", "anchors": ["trajectopy_core/alignment/parameters.py: ParameterSet.set_covariance_matrix, ParameterSet.validate_covariance, ParameterSet.variances"]}
{"id": "C165", "title": "A rejected assignment to parameters changes nothing", "statement": "When an assignment of values, variances or a covariance matrix is rejected with an exception, the parameters are as before. (This holds for values and variances and fails for covariance matrices: the rejected matrix stays.)", "quantifier": "every set of parameters, every list of values, every rejected matrix", "why_tests_cant": "a test that expects the exception does not look at the state afterwards; all sizes of matrices are needed", "anchors": ["trajectopy_core/alignment/parameters.py: ParameterSet.set_covariance_matrix, ParameterSet._set"]}
{"id": "C166", "title": "The statistics of a relative evaluation are those of the errors of each distance", "statement": "For each distance at which there are errors, in order, a relative evaluation reports the mean, least, greatest, median and standard deviation of exactly the errors at that distance, times 100 if distances are metres (per cent) and unchanged if they are seconds; distances without errors are skipped; the overall error is the mean of the means; without rotation errors the rotation statistics are empty. The numbers of pairs and the mean distances are those of the pairs.", "quantifier": "every result of a relative evaluation whose errors are numbers, any number of distances and pairs, both units", "why_tests_cant": "tests look at one result; skipped distances, units and medians of even counts must be right for all", "anchors": ["trajectopy_core/evaluation/rpe_result.py: RPEResult.compute_metric, drift_factor, pos_dev_mean, pos_dev_min, pos_dev_max, pos_dev_median, pos_std, rot_dev_mean, rot_dev_min, rot_dev_max, rot_dev_median, rot_std, pos_rpe, rot_rpe, num_pairs, mean_pair_distances"]}
{"id": "C167", "title": "An interrupted save of a trajectory is noticed when reading, and does not lose the old file", "statement": "If the program is stopped while a trajectory is being saved, reading the file later raises an error or gives the old or the new trajectory. (This fails: the file is written in place. A stop before the first row makes reading raise, at whatever character; a stop after k rows is read, without error, as the first k samples; a stop within the last number is read as another number; and the file that was there before is emptied first.)", "quantifier": "every trajectory, every old content, every point at which the program may stop: any number of characters of the header, any number of rows, within the last number", "why_tests_cant": "a crash can happen at any point; tests do not stop the program between two writes", "anchors": ["trajectopy_core/trajectory.py: Trajectory.to_file, Trajectory.from_file", "trajectopy_core/input_output/trajectory_io.py: read_data"]}
{"id": "C168", "title": "An interrupted save of a result is noticed when reading, and keeps the results already in the file", "statement": "If the program is stopped while an absolute or relative error is being saved, reading the file later raises an error or gives the earlier or the new result. (This fails: a result cut after some rows is read without error as a smaller result of the same name, and a result cut within its last number as a result with another deviation, although the header of relative errors says how many pairs there are; and since saving appends, a stop after the header makes the rows of the earlier result appear under the name and EPSG code of the new one.)", "quantifier": "every result, every earlier result in the file, every number of rows written", "why_tests_cant": "a crash can happen at any point; tests do not stop the program between two writes", "anchors": ["trajectopy_core/evaluation/ate_result.py: ATEResult.to_file, ATEResult.from_file", "trajectopy_core/evaluation/rpe_result.py: RPEResult.to_file, RPEResult.from_file"]}
{"id": "C169", "title": "A plot in space has axes of equal length and hides nothing", "statement": "After the aspect has been made equal, the three axes of a plot in space are equally long, keep their middles and include their old limits, and are no longer than needed. The curves are the positions of each trajectory, each once, in stored order, under its name; other dimensions than 2 and 3 are refused.", "quantifier": "all limits (also reversed ones), all lists of trajectories", "why_tests_cant": "a shape is distorted only for particular extents; tests do not look at plots", "anchors": ["trajectopy_core/plotting/mpl/trajectory_plot.py: set_aspect_equal_3d, plot_pos"]}
{"id": "C170", "title": "The legend of a matplotlib plot names the right lines, whatever is missing", "statement": "In the plots of orientations and of cumulative curves, trajectories and results without orientations are left out of the rotation part only, and every name in the legend stands at a line of its own trajectory. The plot of orientations exists exactly if there are any; the text at the abscissa describes what is shown. (The last part fails: the text also describes trajectories that are not shown.)", "quantifier": "all lists of trajectories and results, any of them without orientations", "why_tests_cant": "the mistake needs a particular mixture of inputs with and without orientations", "anchors": ["trajectopy_core/plotting/mpl/trajectory_plot.py: plot_rpy", "trajectopy_core/plotting/mpl/deviation_plot.py: plot_edf, plot_position_edf, plot_rotation_edf, plot_compact_hist"]}
{"id": "C171", "title": "The columns of a file are found by the names in its header", "statement": "Whatever the order and number of the columns, the delimiter and blanks around numbers: every row of a trajectory file gives one sample, whose position, arc length and speed are the numbers in the columns named px, py, pz, l, vx, vy, vz, whose time is the number in the column t plus the time offset (or the date in the columns t, in the given format and time zone), and whose orientation is the quaternion in qx, qy, qz, qw, otherwise the Euler angles in ex, ey, ez in the given unit, converted from the given frame. Such files are read without error. Without a column t, and with several of them in Unix time, the samples are numbered and the offset is ignored.", "quantifier": "all files of header lines and rows of equally many cells, all headers, all orders of columns, all notations of numbers", "why_tests_cant": "tests read a few files with the default order; a swapped index shows only for other orders and for values that differ", "anchors": ["trajectopy_core/input_output/trajectory_io.py: read_data, extract_trajectory_timestamps, extract_trajectory_pointset, extract_trajectory_arc_lengths, extract_trajectory_speed, extract_trajectory_rotations, extract_quaternions, extract_euler_angles, parse_datetime", "trajectopy_core/trajectory.py: Trajectory.from_file, Trajectory.__init__"]}
{"id": "C172", "title": "The sorting given in a file header is used", "statement": "A trajectory read from a file with the header entry \"#sorting spatial\" is sorted along its arc length. (This fails: the entry is read and never used; all trajectories read are in chronological order.)", "quantifier": "all files and strings", "why_tests_cant": "that no file whatsoever gives a spatially sorted trajectory cannot be tested", "anchors": ["trajectopy_core/trajectory.py: Trajectory.from_file", "trajectopy_core/input_output/header.py: HEADER_KEYS, HeaderData", "README.md"]}
{"id": "C173", "title": "Preprocessing of an alignment is the same as removing the samples beforehand", "statement": "An alignment with a smallest speed and a time span has the same result, or raises the same exception, as the alignment without preprocessing of the two trajectories from which exactly the samples with a smaller speed and the samples outside the time span were removed; when nothing of one of them is left, an exception is raised. The span is counted from the first common time of both, and either of its ends may be left out. (The last sentence fails: it is counted from the first sample of the source, and a start without an end always raises an exception.)", "quantifier": "all pairs of trajectories, all speeds, spans and other settings, all numerical libraries", "why_tests_cant": "tests use the defaults, which select everything; which samples are used is not part of the result", "anchors": ["trajectopy_core/alignment/data.py: AlignmentData.setup", "trajectopy_core/alignment/estimation.py: estimate_alignment", "trajectopy_core/settings/alignment.py: AlignmentPreprocessing", "README.md"]}
{"id": "C174", "title": "Trajectories without a name get different names", "statement": "In a program that constructs any number of trajectories one after the other, with and without names and with constructions that fail, two trajectories constructed without a name have different names, \"Trajectory\" with the number of trajectories constructed before; a trajectory constructed with a name has this name.", "quantifier": "all programs of this form, all arguments, all values of the counter at the start", "why_tests_cant": "depends on everything that was constructed before in the same process", "anchors": ["trajectopy_core/trajectory.py: Trajectory.__init__, Trajectory._counter"]}
{"id": "C175", "title": "Matching what is already matched changes nothing", "statement": "Matching the two trajectories returned by a matching, with the same settings, returns them unchanged. Evaluations rely on it, as they match the trajectories once themselves and again during the alignment. (This fails for matching with interpolation along lines, where the reference moves each time, and for interpolation with a single common time and orientations, where the second matching raises an exception. For the nearest partners it needs that no two candidates are equally near.)", "quantifier": "all pairs of trajectories, all methods and thresholds, copies or in place", "why_tests_cant": "both results are plausible; that they are equal is seen only by comparing two runs, for every pair", "anchors": ["trajectopy_core/matching.py: match_trajectories, match_trajectories_temporal, match_trajectories_spatial, match_trajectories_interpolation, match_trajectories_spatial_interpolation, kd_matcher", "trajectopy_core/evaluation/metrics.py: ate", "trajectopy_core/alignment/data.py: AlignmentData.setup"]}
{"id": "C176", "title": "Results do not depend on the origin of the time scale", "statement": "If all times of all trajectories, and all times given as arguments, are counted from another origin (seconds of a day, of a week or since 1970), then every method leaves the same objects with times counted from that origin, matching pairs the same samples, an alignment has the same parameters, and absolute and relative errors are the same; exceptions are raised in the same cases. (This fails for approximated orientations: the number of samples averaged depends on the origin.)", "quantifier": "all trajectories, all origins, all methods and arguments, all settings", "why_tests_cant": "compares two runs for every input; tests use one origin, mostly zero", "anchors": ["trajectopy_core/trajectory.py: Trajectory", "trajectopy_core/matching.py: match_trajectories", "trajectopy_core/alignment/estimation.py: estimate_alignment", "trajectopy_core/evaluation/metrics.py: ate, rpe", "trajectopy_core/approximation/rot_approximation.py: rot_average_window", "trajectopy_core/approximation/cubic_approximation.py: piecewise_cubic"]}
{"id": "C177", "title": "Comparing in the other direction", "statement": "If the absolute comparison of two trajectories is done with the roles of the two exchanged, then each deviation of positions is the negative and each deviation of orientations the inverse; mean, rms, standard deviation, median, maximum and minimum of the deviations are the same, and the biases along the axes change their sign. If one direction can be computed for two trajectories of equal length, so can the other.", "quantifier": "all pairs of trajectories", "why_tests_cant": "compares two runs for every pair; a wrong side of a product of rotations is visible only in such a comparison", "anchors": ["trajectopy_core/evaluation/comparison.py: compare_trajectories_absolute", "trajectopy_core/evaluation/ate_result.py: ATEResult"]}
{"id": "C178", "title": "Results do not depend on the unit of length", "statement": "Expressing all lengths in another unit (positions, lengths along the trajectory, speeds, and the length settings multiplied by c > 0) gives the same results in that unit: the same exceptions, the same constructed trajectory, the same selected samples and matches, absolute deviations and all their position statistics multiplied by c with orientation deviations unchanged, and relative errors whose position errors per distance are unchanged and whose orientation errors are per the other unit.", "quantifier": "all trajectories with or without orientations, all factors c > 0, all settings; all methods except the spatial sorting and the approximations; all matching methods; all statistics; relative errors for distances and for time differences, all pairs or consecutive ones", "why_tests_cant": "Tests use metres; a constant with a hidden unit shows only for some factor and some input.", "anchors": ["trajectopy_core/trajectory.py: Trajectory", "trajectopy_core/matching.py: match_trajectories", "trajectopy_core/evaluation/comparison.py: compare_trajectories_absolute, compare_trajectories_relative", "trajectopy_core/evaluation/ate_result.py: ATEResult", "trajectopy_core/evaluation/metrics.py: rpe"]}
{"id": "C179", "title": "The numbers at the head of a report", "statement": "The report on one comparison is headed by its name and a table: the mean position deviation in metres or millimetres as labelled, the mean rotation deviation in the unit of angles that is set, and, if there is a relative error, the means of the drifts of positions (per cent or metres per second) and of rotations (degrees per 100 m or per second), each with three decimals; what was not computed is shown by a dash. (This fails for trajectories without orientations, whose rotation error is given as 0.000 or nan, and for units other than degrees, which change the label only.)", "quantifier": "all absolute and relative results, alone or together, all report settings", "why_tests_cant": "a wrong unit, a wrong mean or a value of another row looks like a number", "anchors": ["trajectopy_core/report/single.py: render_single_report", "trajectopy_core/report/utils.py: number_to_string", "trajectopy_core/report/templates/single_template.html"]}
{"id": "C180", "title": "Saving again changes nothing more", "statement": "Saving a trajectory rounds it once: a trajectory that was loaded from a file can be saved and loaded any number of times with exactly the same name, coordinate system, times, positions, arc lengths and speeds; without orientations it is exactly the same trajectory, and orientations change by at most 1e-8 per entry of the rotation matrix each time.", "quantifier": "all trajectories with samples and a clean name, any number of repetitions, files that existed before or not", "why_tests_cant": "the number of repetitions is unbounded, and drift by repeated rounding shows only for particular numbers", "anchors": ["trajectopy_core/trajectory.py: Trajectory.to_file, Trajectory.from_file", "trajectopy_core/input_output/trajectory_io.py: read_data"]}
{"id": "C181", "title": "Only the ratios of the standard deviations count", "statement": "If the standard deviations of all observations of an alignment are multiplied by the same number s, then the estimated parameters are the same and their variances and covariances are multiplied by s squared, and the absolute error is the same; there is a result, a result without convergence or an exception in the same cases. The variance factor is divided by s squared. With variance estimation the variances and covariances are the same as well, as long as the given standard deviations are wrong by more than the tolerance.", "quantifier": "all observations, settings, standard deviations and numbers s > 0; any number of iterations", "why_tests_cant": "compares two runs of an iteration whose length depends on the data, for every factor", "anchors": ["trajectopy_core/alignment/estimation.py: AlignmentEstimation.estimate_parameters, AlignmentEstimation._estimate_parameters, AlignmentEstimation._compute_parameter_deltas, AlignmentEstimation._compute_parameter_variances, AlignmentEstimation.variance_factor", "trajectopy_core/alignment/parameters.py: ParameterSet.set_covariance_matrix"]}
{"id": "C182", "title": "Every curve of a report stands at the axis of its unit", "statement": "In the figures of an evaluation report each curve is drawn in the subplot whose axis names its unit, and its numbers are in that unit: lengths in the unit of lengths, angles in the unit of angles named in the settings. (The second part fails: the unit of angles in the settings is only written at the axis, the numbers are degrees whatever it says.)", "quantifier": "all results with and without orientations, all settings of the report, every number of results in a figure", "why_tests_cant": "depends on whether any of the results has orientations; tests do not look at figures", "anchors": ["trajectopy_core/plotting/plotly/line_plots.py: render_dev_pos_plot, render_dev_rot_plot, render_dev_comb_plot", "trajectopy_core/plotting/plotly/multi_line_plots.py: setup_dev_comb_axis, render_dev_comb_plot", "trajectopy_core/report/data.py: ATEReportData", "trajectopy_core/settings/report.py: ReportSettings"]}
{"id": "C183", "title": "The abscissa of a figure of a report names the quantity its curves are drawn over", "statement": "In the figures of deviations of a report the text at the abscissa says time with seconds or arc length with metres, as each trajectory shown is sorted. (For several trajectories that are sorted differently this fails: the text is that of the first.)", "quantifier": "all results, all mixtures of sortings", "why_tests_cant": "depends on the combination of trajectories; tests do not look at figures", "anchors": ["trajectopy_core/plotting/plotly/line_plots.py: render_dev_comb_plot, render_dev_pos_plot, render_dev_rot_plot", "trajectopy_core/plotting/plotly/multi_line_plots.py: render_dev_comb_plot, render_dev_pos_plot, render_dev_rot_plot", "trajectopy_core/trajectory.py: Trajectory.function_of_label"]}
{"id": "C184", "title": "The origin of the coordinates of the reference does not matter", "statement": "If the coordinates of the reference are given from another origin, then the estimated alignment is the same except for its translation, which differs by exactly the offset (the variances, the covariances, the rotation, the convergence and an exception are the same), and the absolute error is the same: all deviations, whether orientations were compared, and an exception. The trajectories are matched by time, and the offset is zero in those coordinates whose translation is not estimated.", "quantifier": "all pairs of trajectories, all offsets, all settings of the processing with matching by time, any number of iterations", "why_tests_cant": "compares two runs of the whole processing, for every offset; large coordinates are where tests of toy trajectories see nothing", "anchors": ["trajectopy_core/evaluation/metrics.py: ate", "trajectopy_core/alignment/estimation.py: estimate_alignment, AlignmentEstimation", "trajectopy_core/alignment/direct.py", "trajectopy_core/alignment/data.py: AlignmentData", "trajectopy_core/matching.py: match_trajectories", "trajectopy_core/evaluation/comparison.py: compare_trajectories_absolute"]}
{"id": "C185", "title": "The total length is the length of the path", "statement": "total_length is the sum of the distances between consecutive positions, after construction and after cropping.", "quantifier": "all trajectories, all norms, all windows", "why_tests_cant": "the arc lengths survive an operation that removes samples; every trajectory and window", "anchors": ["trajectopy_core/trajectory.py: Trajectory.total_length, Trajectory.crop, Trajectory.apply_index", "trajectopy_core/utils.py: lengths_from_xyz"]}
{"id": "C186", "title": "What a trajectory says about itself", "statement": "The text of a trajectory (str) shows, under the respective heading, its name, its number of poses, whether it has orientations, its EPSG code, the length of its path and its data rate to three decimals, and what it is a function of. The name holds no line break, the arc lengths are the travelled ones and there are at least two samples that span time.", "quantifier": "all trajectories", "why_tests_cant": "every name, number and combination; a reader finds the entry by its heading, not by its position", "anchors": ["trajectopy_core/trajectory.py: Trajectory.__str__, Trajectory.function_of_label, Trajectory.data_rate, Trajectory.total_length"]}
{"id": "C187", "title": "A trajectory from arrays consists of these arrays", "statement": "from_numpy returns a trajectory with exactly the given positions, orientations and timestamps; arrays of different lengths, no poses and zero quaternions are refused.", "quantifier": "all arrays of positions, quaternions and timestamps, all EPSG codes", "why_tests_cant": "all lengths; numpy broadcasting accepts some wrong lengths", "anchors": ["trajectopy_core/trajectory.py: Trajectory.from_numpy", "trajectopy_core/utils.py: gradient_3d"]}
{"id": "C188", "title": "Speeds belong to positions", "statement": "At every sample of a trajectory the speed is the one that leads, within the time to the next sample, to the position of the next sample: after construction without speeds, after interpolation, after a transformation and after smoothing.", "quantifier": "all trajectories, timestamps, requested times, transformations and approximations", "why_tests_cant": "several arrays have to stay consistent through every operation; tests look at the positions only", "anchors": ["trajectopy_core/trajectory.py: Trajectory.__init__, Trajectory.speed_3d, Trajectory.interpolate, Trajectory.apply_transformation, Trajectory.se3, Trajectory.approximate", "trajectopy_core/utils.py: gradient_3d"]}
{"id": "C189", "title": "What a set of parameters says about its parameters", "statement": "The dictionary of a set of parameters has, for each parameter asked for and no other, under its name the value in force and its variance, in order (names differ). Negating a parameter changes the sign of the value in force and of the neutral value and nothing else. any_enabled holds exactly if some parameter is enabled. Sums and differences of two alignments are those of the values in force.", "quantifier": "all sets of parameters with different names, all subsets that are enabled", "why_tests_cant": "every combination of enabled parameters; disabled parameters answer with their neutral value", "anchors": ["trajectopy_core/alignment/parameters.py: ParameterSet.to_dict, ParameterSet.any_enabled, Parameter.__neg__, AlignmentParameters.__add__, AlignmentParameters.__sub__"]}
{"id": "C190", "title": "The reported standard deviations of the observations are those set", "statement": "group_stds has an entry for each kind of observations that takes part in the adjustment and no other; it is the standard deviation of the settings, multiplied by g after all variances were multiplied by the square of g.", "quantifier": "all settings with standard deviations that are not negative, any number of epochs", "why_tests_cant": "the groups sit at positions that depend on what is estimated; every combination and number of epochs", "anchors": ["trajectopy_core/alignment/data.py: AlignmentData.group_stds, AlignmentData.variance_groups, AlignmentData.get_var_group, AlignmentData.build_var_vector"]}
{"id": "C191", "title": "The order in which samples are stored does not matter", "statement": "For the same samples stored in another order: crop and intersect keep the same samples, match_timestamps gives the same trajectory, xyz, quat, function_of and the table are equal (no two samples with the same sorting number), and so are the results of interpolation and the total length.", "quantifier": "all trajectories, all permutations of their samples, all windows and requested times", "why_tests_cant": "all permutations; tests use data in the order of time", "anchors": ["trajectopy_core/trajectory.py: Trajectory.apply_index, Trajectory.crop, Trajectory.intersect, Trajectory.match_timestamps, Trajectory.interpolate, Trajectory.xyz, Trajectory.quat, Trajectory.function_of, Trajectory.to_dataframe, Trajectory.total_length"]}
{"id": "C192", "title": "Moving and selecting can be done in either order", "statement": "Transforming a trajectory and then selecting samples (by index, crop, intersect, match_timestamps) or interpolating gives the same trajectory as selecting or interpolating first and then transforming.", "quantifier": "all trajectories, all matrices (rigid motions for the interpolation), all selections that keep a sample, all requested times", "why_tests_cant": "all combinations of two operations, on all inputs", "anchors": ["trajectopy_core/trajectory.py: Trajectory.apply_transformation, Trajectory.apply_index, Trajectory.crop, Trajectory.intersect, Trajectory.match_timestamps, Trajectory.interpolate"]}
{"id": "C193", "title": "Several selections one after the other", "statement": "Any two of crop, crop(inverse=True), intersect and match_timestamps give the same trajectory in either order; cropping twice is cropping to the common window; interpolating onto some times and then onto some of these equals interpolating onto the latter at once.", "quantifier": "all trajectories, windows, timestamps; something is kept", "why_tests_cant": "all combinations of two operations, on all inputs", "anchors": ["trajectopy_core/trajectory.py: Trajectory.crop, Trajectory.intersect, Trajectory.match_timestamps, Trajectory.interpolate"]}
{"id": "C194", "title": "What ate and rpe do without settings", "statement": "Called without settings, ate interpolates the estimated trajectory at the times of the ground truth that both cover and moves it as a rigid body: it is not scaled, not shifted in time, and neither leverarm nor sensor rotation is applied. Called without settings, rpe has no result if no two samples of the ground truth are more than 100 m of path apart; otherwise a result has the distances 100 m, 200 m, ..., 800 m.", "quantifier": "all trajectories with ascending timestamps, any solver and library routines", "why_tests_cant": "about all results of whole evaluations, whatever the adjustment does", "anchors": ["trajectopy_core/evaluation/metrics.py: ate, rpe", "trajectopy_core/settings/processing.py: ProcessingSettings", "trajectopy_core/settings/base.py: Settings"]}
{"id": "C195", "title": "Moving and smoothing can be done in either order", "statement": "Transforming a trajectory and then approximating it gives the same trajectory as approximating it first and then transforming it: positions, orientations, timestamps, arc lengths, speeds and metadata. This holds for every 4x4 matrix, also scaled or sheared ones.", "quantifier": "all trajectories, all transformation matrices, all window and interval sizes, any exact solver of the normal equations", "why_tests_cant": "all paths and all matrices; the approximation solves a system whose size depends on the input", "anchors": ["trajectopy_core/trajectory.py: Trajectory.approximate, Trajectory.apply_transformation", "trajectopy_core/approximation/cubic_approximation.py: piecewise_cubic, CubicApproximation", "trajectopy_core/approximation/rot_approximation.py: rot_average_window"]}
{"id": "C196", "title": "The directed deviations have the documented signs", "statement": "The horizontal cross-track deviation of a position is positive to the right of the direction of travel and the vertical cross-track deviation is positive above the track, with and without orientations.", "quantifier": "all pairs of trajectories of equal length, all samples, all orientations", "why_tests_cant": "all positions beside all tracks; a test fixes one side of one track", "anchors": ["README.md: ATE Frame Definition", "trajectopy_core/evaluation/comparison.py: get_directed_deviations, derive_dev_directions_no_rot, derive_dev_directions_with_rot, _cross_track_dev"]}
{"id": "C197", "title": "What a trajectory keeps through every history of calls", "statement": "However many methods are called on trajectory objects, in place or on copies, and whether they return or raise: every object stays there, with its name and its coordinate system. It is sorted as before unless sort_spatially was called. Orientations never disappear, and appear only by a transformation or an alignment. Every timestamp was there before or was asked for by an interpolation. Every object comes from one that was there at the beginning.", "quantifier": "all sets of trajectory objects, all finite histories of calls of the twelve methods with an inplace argument, all arguments, all library routines", "why_tests_cant": "histories of any length over any number of objects, with failing calls in between", "anchors": ["trajectopy_core/trajectory.py: Trajectory.apply_index, crop, interpolate, match_timestamps, intersect, apply_transformation, apply_alignment, sort_spatially, approximate, adopt_first_position, adopt_first_orientation, adopt_first_pose"]}
{"id": "C198", "title": "Matching keeps the labels of both trajectories", "statement": "The two trajectories returned by match_trajectories have the names, the coordinate systems and the sortings of the given ones; after matching by interpolation both are sorted in the same way, as documented.", "quantifier": "all pairs of trajectories, all matching methods and limits, in place or on copies", "why_tests_cant": "all combinations of labels with all data for which matching returns", "anchors": ["trajectopy_core/matching.py: match_trajectories, match_trajectories_interpolation, match_trajectories_temporal, match_trajectories_spatial, match_trajectories_spatial_interpolation"]}
{"id": "C199", "title": "Adding samples by interpolation does not change the path", "statement": "If a trajectory is interpolated onto times that include all of its own, every further interpolation gives exactly the trajectory it would have given before: positions, orientations, timestamps, arc lengths and speeds. In particular, going back to the own timestamps restores every sample.", "quantifier": "all trajectories with ascending timestamps, with and without orientations, all finer sets of times in any order, all times asked for afterwards", "why_tests_cant": "all paths, all refinements and all later requests at once", "anchors": ["trajectopy_core/trajectory.py: Trajectory.interpolate, _interpolate_positions, _interpolate_rotations"]}
{"id": "C200", "title": "An interrupted save of settings is noticed when reading", "statement": "Settings written to a file are read back as they were, from the characters of the file. If the program stops at any moment while settings are being saved, the file holds what it held before, or reading it gives the new settings, or reading it raises ValueError. A file that breaks off anywhere is never read as other settings.", "quantifier": "all settings classes, all values that can be written (including any text in strings), all moments at which saving stops, all earlier contents of the file", "why_tests_cant": "every break-off point of every text; strings with quotation marks, line breaks and characters beyond ASCII", "anchors": ["trajectopy_core/settings/base.py: Settings.to_dict, from_dict, to_file, from_file"]}
{"id": "C201", "title": "A wider matching limit keeps what a narrower one finds", "statement": "If matching by time or by position succeeds with a limit, it succeeds with every wider one (0 means none), and every pair found with the narrower limit is still found.", "quantifier": "all pairs of trajectories, all pairs of limits of which the second is wider, all search trees", "why_tests_cant": "all data and all limits at once", "anchors": ["trajectopy_core/matching.py: match_trajectories_temporal, match_trajectories_spatial, kd_matcher"]}
{"id": "C202", "title": "Interpolation uses the neighbouring samples only", "statement": "Interpolating a trajectory and interpolating a stretch of it (for example after cropping) give the same trajectory, in all channels, for all times between the first and the last sample of the stretch. Samples outside have no influence.", "quantifier": "all trajectories with ascending timestamps, with and without orientations, all stretches of at least two samples, all sets of times within", "why_tests_cant": "all data outside the stretch, all windows and all times", "anchors": ["trajectopy_core/trajectory.py: Trajectory.interpolate, crop, _interpolate_positions, _interpolate_rotations"]}
{"id": "C203", "title": "Reading and changing the observations of an alignment group by group", "statement": "The observations, variances and residuals of an alignment can be read and replaced by group (source positions, target positions, speeds, orientations or all). A replacement either fits the group and the vector and then changes exactly the named quantities of every epoch in the named vector, or raises ValueError and changes nothing. After any history of replacements every quantity is what the last accepted replacement covering it says. Reading a group gives its quantities column by column, and the adjusted observations are observations plus residuals.", "quantifier": "all constructions of the observations, all histories of replacements and all groups", "why_tests_cant": "histories of replacements are unbounded and each can touch overlapping groups", "anchors": ["trajectopy_core/alignment/data.py: AlignmentData.get_obs_group, get_var_group, get_res_group, get_est_obs_group, set_obs_group, set_var_group, set_res_group, est_obs_vector"]}
{"id": "C204", "title": "Merging in any order and in steps, before or after cropping and moving", "statement": "If no two samples have the same time, merging trajectories gives the same poses whatever the order in which they are listed, and whether they are merged at once or group by group. Cropping every trajectory before merging (each keeping a sample) or the merged one after gives the same poses; likewise for a transformation, also if only some trajectories have orientations.", "quantifier": "all lists of trajectories without common times, all groupings, all windows and all transformations", "why_tests_cant": "numbers of trajectories, groupings and interleavings of their times are unbounded", "anchors": ["trajectopy_core/merging.py: merge_trajectories", "trajectopy_core/trajectory.py: Trajectory.crop, apply_transformation"]}
{"id": "C205", "title": "A second direct alignment changes nothing", "statement": "After the source points have been moved by the directly estimated similarity, estimating again with the same target points and weights returns the similarity that leaves every point where it is: scale one, no rotation, no translation.", "quantifier": "all points and weights whose moment matrix has a positive determinant, every correct singular value decomposition", "why_tests_cant": "the numbers of points and their positions are unbounded; a test shows one set up to rounding", "anchors": ["trajectopy_core/alignment/direct.py: direct_helmert_transformation"]}
{"id": "C206", "title": "The direct alignment depends neither on frames nor on the order of points", "statement": "If the source points, the target points or both are given in another frame (turned, scaled and shifted), the directly estimated similarity takes every moved source point to the moved image of that point. No other similarity is as good, so the result does not depend on the order of the points, nor on which correct singular value decomposition or which angles of the rotation are used.", "quantifier": "all points and positive weights whose moment matrix has a positive determinant, all changes of frame, all orders and all correct decompositions", "why_tests_cant": "frames, orders and decompositions are infinitely many", "anchors": ["trajectopy_core/alignment/direct.py: direct_helmert_transformation", "trajectopy_core/alignment/parameters.py: HelmertTransformation.apply_to"]}
{"id": "C207", "title": "The thresholds and groups of an alignment follow its observations and settings", "statement": "The limits at which the iterative estimation stops, and the groups of observations read from an alignment, are those of the observations and settings the object holds at that moment, whatever was changed before.", "quantifier": "all histories of changes of observations, variances, residuals and settings, of readings and of questions for the thresholds", "why_tests_cant": "the answer depends on the whole history of calls, which is unbounded", "anchors": ["trajectopy_core/alignment/data.py: AlignmentData.thresholds, observation_groups, get_obs_group, set_obs_group, num_obs_per_epoch"]}
{"id": "C208", "title": "Searching voxels around a position", "statement": "After points have been divided into voxels, searching around any position with any radius never raises and returns the ids of exactly the voxels whose centre is within the radius, each once; the points of the returned set are exactly the points of these voxels. A radius that reaches all centres returns all points. A search around one of the points with a radius of at least the diagonal of a voxel returns, among others, that point.", "quantifier": "all non-empty lists of points, positive voxel sizes, query positions and radii, every correct search tree and every order of sets", "why_tests_cant": "points, sizes, positions and radii are unbounded, and which cells share a voxel depends on all of them", "anchors": ["trajectopy_core/approximation/voxelizer.py: Voxelizer.ball_query, index_to_id, points_from_voxel_set"]}
{"id": "C209", "title": "The named columns of the observations of an alignment", "statement": "The columns x_from, y_from, z_from, x_to, y_to, z_to, speed_x, speed_y, speed_z, euler_x, euler_y and euler_z of an alignment have one number per epoch. Each holds the quantity it is named after, as the trajectories given at the construction and all later replacements left it; quantities that are no observations under the settings are zero. The adjusted column of the same name is the column plus its residuals.", "quantifier": "all constructions of the observations, all histories of replacements and all settings of the estimation", "why_tests_cant": "numbers of epochs and histories are unbounded; which stride of the stored vector a column is depends on the settings", "anchors": ["trajectopy_core/alignment/data.py: AlignmentData.x_from, y_from, z_from, x_to, y_to, z_to, speed_x, speed_y, speed_z, euler_x, euler_y, euler_z, est_x_from, est_xyz_from, rpy_from, speed, __len__"]}
{"id": "C210", "title": "Adding and subtracting sets of orientations", "statement": "Two sets of orientations can be added and subtracted exactly if they have equally many orientations or one of them has one, which is then used for all; otherwise ValueError. Subtracting a set that was added gives the first set back, and vice versa. The angles of a difference are a distance: between 0 and 180 degrees, zero exactly for equal orientations, the same in both directions, never larger than the detour over a third set, and unchanged if both sets are turned by the same rotation or the same set is added to both.", "quantifier": "all sets of orientations and all rotations", "why_tests_cant": "sets have any size and orientations any values; the triangle inequality quantifies over all triples", "anchors": ["trajectopy_core/rotationset.py: RotationSet.__add__, __sub__, rotangle"]}
{"id": "C211", "title": "The skew-symmetric matrix of a vector", "statement": "The skew-symmetric matrix of a vector v times any vector w is the cross product of v and w; no other matrix has this property. Its transpose is its negative, and the matrix of a turned vector is the turned matrix.", "quantifier": "all vectors and all rotation matrices", "why_tests_cant": "identities over all numbers; a sign error can be invisible for vectors with zeros", "anchors": ["trajectopy_core/utils.py: skew_symmetric_matrix"]}
{"id": "C212", "title": "The absolute error is a distance of trajectories", "statement": "For matched trajectories the absolute error is a distance, in position and (with orientations) in rotation, and this for its mean, its root mean square and its maximum: it is zero exactly if all positions (orientations) agree, it is the same in both directions, and the error between two trajectories is never larger than the sum of their errors against any third trajectory.", "quantifier": "all triples of matched trajectories with at least one pose", "why_tests_cant": "a triangle inequality over all triples of trajectories of any length", "anchors": ["trajectopy_core/evaluation/comparison.py: compare_trajectories_absolute", "trajectopy_core/evaluation/ate_result.py: ATEResult.pos_ate, rot_ate, pos_dev_rms, rot_dev_rms, pos_dev_max, rot_dev_max, pos_dev_comb, rot_dev_comb"]}
{"id": "C213", "title": "Small changes of positions have small effects", "statement": "If every position changes by at most e, then every interpolated position (at the same times) changes by at most e, the arc length at the i-th position by at most 2 i e, the positions after a rigid motion by at most e, and mean, root mean square and maximum of the absolute position error by at most e. The relative comparison has the same bins and pairs, and each of its position errors changes by at most 2 e per distance of the pair. If every orientation is turned by at most e, mean, root mean square and maximum of the rotation error change by at most e.", "quantifier": "all trajectories of any length, all bounds e, all requested times, all rigid motions", "why_tests_cant": "a bound over all perturbations of all trajectories; tests sample single perturbations", "anchors": ["trajectopy_core/trajectory.py: Trajectory.interpolate, apply_transformation", "trajectopy_core/utils.py: lengths_from_xyz", "trajectopy_core/evaluation/comparison.py: compare_trajectories_absolute", "trajectopy_core/evaluation/ate_result.py: ATEResult.pos_ate, pos_dev_rms, pos_dev_max"]}
{"id": "C214", "title": "A constant error is reported as what it is", "statement": "If the reference is the estimate moved by a vector v, every deviation of the comparison is v; mean, root mean square, maximum, minimum and median of the position error are the length of v, their standard deviation is zero and the biases are the components of v. If the reference is turned against the estimate by the same rotation q everywhere, the same holds for the rotation error with the angle of q, and the rotation biases are the Euler angles of q.", "quantifier": "all matched trajectories with at least one pose, all vectors and all rotations", "why_tests_cant": "all lengths and all displacements; a swapped sign or order of factors is invisible for symmetric examples", "anchors": ["trajectopy_core/evaluation/comparison.py: compare_trajectories_absolute", "trajectopy_core/evaluation/ate_result.py: ATEResult.pos_ate, rot_ate, pos_bias_x, pos_bias_y, pos_bias_z, rot_bias_xyz, rot_dev_xyz, pos_dev_std, pos_dev_median"]}
{"id": "C215", "title": "A scale error and a drift come out as relative errors", "statement": "If the estimate is the reference enlarged by a factor c (and moved), with the same orientations or none, no relative position error per metre is larger than |c - 1|, and on a straight path all are exactly that. If the estimate drifts away by w per second, with right orientations, all relative position errors per second are the length of w. If the orientations agree, all relative rotation errors are zero.", "quantifier": "all pairs of trajectories of equal length, all factors c that are not negative, all drifts, all settings of pose pairs", "why_tests_cant": "numbers of pairs and paths are unbounded; the bound compares straight distance and travelled distance on every path", "anchors": ["trajectopy_core/evaluation/comparison.py: compare_trajectories_relative, translation_error, rotation_error", "trajectopy_core/evaluation/rpe_result.py: RPEResult"]}
{"id": "C216", "title": "A relative evaluation by parts", "statement": "What a relative comparison reports for one pair distance does not depend on which other distances are asked for. With all pose pairs, comparing a section of both trajectories (for example after cropping both) gives, for each pair distance, a stretch of the distances, position errors and rotation errors that comparing the whole trajectories gives: leaving out the beginning or the end removes errors and changes none.", "quantifier": "all pairs of trajectories of any length, all sections, all settings of pose pairs with positive distances; sections for all pose pairs and ascending times or arc lengths", "why_tests_cant": "sections, lengths and pair distances are unbounded; an index that is off by one at the edge of a section shows only for some of them", "anchors": ["trajectopy_core/evaluation/comparison.py: compare_trajectories_relative, _get_pair_indices", "trajectopy_core/evaluation/rpe_result.py: RPEResult", "trajectopy_core/trajectory.py: Trajectory.crop"]}
{"id": "C217", "title": "An absolute evaluation by parts", "statement": "If two matched trajectories are compared in two parts, the position deviations of the whole are those of the parts one after the other; mean and mean square of the position errors are the means of the parts weighted by their numbers of poses, the largest (smallest) error is the larger (smaller) of the two. With orientations the same holds for the rotation errors, and the directed deviations are those of the parts one after the other.", "quantifier": "all matched trajectories with at least one pose in each part, all ways to cut them in two", "why_tests_cant": "an identity over all trajectories and all places to cut", "anchors": ["trajectopy_core/evaluation/comparison.py: compare_trajectories_absolute, derive_dev_directions_with_rot", "trajectopy_core/evaluation/ate_result.py: ATEResult.pos_ate, rot_ate, pos_dev_rms, rot_dev_rms, pos_dev_max, pos_dev_min, rot_dev_max, rot_dev_min"]}
{"id": "C218", "title": "No distance is longer than the path", "statement": "In a trajectory constructed without arc lengths the arc lengths of any two samples differ by at least their straight-line distance. This stays so over every sequence of cropping, intersecting with timestamps, interpolating onto any times and transformations, of any length and in any order.", "quantifier": "all trajectories, all sequences of these operations that return, all windows, timestamps and transformations; interpolation for strictly ascending timestamps", "why_tests_cant": "an invariant over histories of any length; points between samples are reached by chains of any number of legs", "anchors": ["trajectopy_core/trajectory.py: Trajectory.__init__, crop, intersect, interpolate, apply_transformation"]}
{"id": "C219", "title": "Comparing relatively in the other direction", "statement": "If a relative comparison is done with the roles of the two trajectories exchanged, it raises in the same cases and gives the same bins, pair distances, position errors and rotation errors; only the name is the other one. (True for pair distances in seconds and equal timestamps, and in metres for equal arc lengths. False in metres otherwise: the pairs are those of the reference.)", "quantifier": "all pairs of trajectories, with and without orientations, also of different length, all settings of pose pairs", "why_tests_cant": "compares two runs for every pair; a wrong side of a product of poses is visible only in such a comparison", "anchors": ["trajectopy_core/evaluation/comparison.py: compare_trajectories_relative, se3_inv, rotation_error, translation_error"]}
{"id": "C220", "title": "The bias is the best shift", "statement": "If the estimate is shifted by a vector v, every position deviation and the reported bias b change by v, and the squared rms of the position errors becomes its old value minus the squared length of b plus the squared length of b - v. So no shift gives a smaller rms than the shift by the bias, every other shift gives a larger one, and after that shift the bias is zero. The rms is never smaller than the length of the bias.", "quantifier": "all matched trajectories with samples, all shifts", "why_tests_cant": "compares the results of all shifts with each other; a wrong sign of the bias makes it the worst instead of the best of two shifts", "anchors": ["trajectopy_core/trajectory.py: Trajectory.apply_transformation", "trajectopy_core/evaluation/comparison.py: compare_trajectories_absolute", "trajectopy_core/evaluation/ate_result.py: ATEResult.pos_bias_x, pos_bias_y, pos_bias_z, pos_dev_rms"]}
{"id": "C221", "title": "Relative errors are bounded by absolute errors", "statement": "A relative position error times the distance of its pose pair is at most twice the largest absolute position error of the same two trajectories, if both have the same orientations or one has none; over all pose pairs no error of a bin is larger than twice that error divided by the distance of the bin. A relative rotation error times the distance of its pair is at most twice the largest absolute rotation error, for any orientations. For other orientations, in metres, the position error times the distance is at most that plus the distance times the largest absolute rotation error. (Without the last term it would be false: an estimate that is at the right places but faces backwards has no absolute position error and relative ones of two metres per second.)", "quantifier": "all matched trajectories, all settings of pose pairs, all bins and pairs", "why_tests_cant": "links every number of one report to every number of the other; holds for all pairs of samples or not at all", "anchors": ["trajectopy_core/evaluation/comparison.py: compare_trajectories_absolute, compare_trajectories_relative, rotation_error, translation_error", "trajectopy_core/evaluation/ate_result.py: ATEResult.pos_dev_max, rot_dev_max"]}
{"id": "C222", "title": "Relative errors add at most", "statement": "If three trajectories are compared relatively over the same pose pairs, the error of the first against the third is, pair by pair and bin by bin, at most the sum of the errors of the first against the second and of the second against the third, in position and in rotation; where the first is a number the other two are numbers as well. (Positions: unless only the second one lacks orientations. Then it can be false, because two trajectories facing in opposite directions both agree with one that has no orientations.)", "quantifier": "all triples of trajectories with the same number of samples and the same timestamps (pairs in seconds) or arc lengths (pairs in metres), all settings of pose pairs, all bins and pairs", "why_tests_cant": "a relation of three results for every pair of samples, which single expected values cannot show", "anchors": ["trajectopy_core/evaluation/comparison.py: compare_trajectories_relative, rotation_error, translation_error"]}
{"id": "C223", "title": "Directly aligned, the absolute error is smallest", "statement": "If the similarity returned by the direct alignment of the positions of a trajectory to those of a reference is applied to the trajectory, the root mean square position error of the result is not larger than that of the original trajectory, and not larger than that after any other rotation or reflection, scaling and translation.", "quantifier": "all matched trajectories whose positions are not all the same and are not mirrored, all competing similarities", "why_tests_cant": "a minimum over all similarities cannot be tested by trying some", "anchors": ["trajectopy_core/alignment/direct.py: direct_helmert_transformation", "trajectopy_core/alignment/parameters.py: AlignmentParameters.sim3_matrix", "trajectopy_core/trajectory.py: Trajectory.apply_transformation", "trajectopy_core/evaluation/comparison.py: compare_trajectories_absolute", "trajectopy_core/evaluation/ate_result.py: ATEResult.pos_dev_rms"]}
{"id": "C224", "title": "What a wrong clock costs", "statement": "If a trajectory and a copy of it whose clock is wrong by a constant are interpolated onto the same times and compared, no absolute position error is larger than the top speed of the trajectory times the error of the clock. The same holds if the two are matched by interpolation and the trajectory has no gaps of more than two seconds. In a uniform motion all of them are exactly that.", "quantifier": "all trajectories with strictly ascending timestamps, all clock errors of both signs, all requested times inside both spans, all states before the matching", "why_tests_cant": "a bound for all trajectories and offsets; a wrong interval of the interpolation shows only for some of them", "anchors": ["trajectopy_core/trajectory.py: Trajectory.interpolate", "trajectopy_core/evaluation/comparison.py: compare_trajectories_absolute", "trajectopy_core/evaluation/ate_result.py: ATEResult.pos_dev_comb"]}
{"id": "C225", "title": "What matching costs", "statement": "If an estimate and a reference record the same motion of bounded speed, each up to an error, no absolute position error after matching is larger than the sum of the two errors and the way that can be driven within the allowed time difference (nearest in time), within half the sampling interval of the reference (nearest in time, for an estimate inside its span), or within half the sampling interval of the estimate (interpolation, reference without gaps of more than two seconds). After matching nearest in space no absolute position error reaches the allowed distance, however wrong the estimate is; with a line through neighbouring positions none exceeds it. The bounds for the nearest samples in time hold for absolute rotation errors as well, with the angle turned in place of the way driven. After interpolation no absolute rotation error is larger than the error of the reference, twice the error of the estimate and the angle that can be turned within the sampling interval of the estimate.", "quantifier": "all motions with a top speed, all pairs of trajectories that record them, all time differences, distances and sampling intervals, all states before the call, in place or not", "why_tests_cant": "a bound for all motions and samplings; a wrongly paired sample shows only for some of them", "anchors": ["trajectopy_core/matching.py: match_trajectories, match_trajectories_temporal, match_trajectories_spatial, match_trajectories_spatial_interpolation, match_trajectories_interpolation, kd_matcher", "trajectopy_core/evaluation/comparison.py: compare_trajectories_absolute", "trajectopy_core/evaluation/ate_result.py: ATEResult.pos_dev_comb"]}
{"id": "C226", "title": "What matching costs in the relative error", "statement": "If an estimate and a reference record the same motion of bounded speed, each up to an error, and one of them has no orientations, every relative position error reported by rpe, times the distance of its pair, is at most twice the sum of the two errors and the way that can be driven within the allowed time difference (nearest in time), within half the sampling interval of the reference (nearest in time, for an estimate inside its span), or within half the sampling interval of the estimate (interpolation, reference without gaps of more than two seconds). With matching nearest in space it is at most twice the allowed distance, however wrong the estimate is. If both have orientations, the bounds for the nearest samples in time hold for relative rotation errors, with the angle turned in place of the way driven; in metres, relative position errors are then bounded by the bound for the positions plus the distance times the one for the orientations. After interpolation, relative rotation errors times the distance of their pair are at most twice the bound for absolute rotation errors (C225). Relative position errors in metres are then bounded in the same way, with the bounds of C225 for interpolation.", "quantifier": "all motions with a top speed, all pairs of trajectories that record them, all time differences, distances and sampling intervals, all settings for the pairs, all states before the call", "why_tests_cant": "a bound for all motions, samplings and pairs; on a few examples the errors are small anyway", "anchors": ["trajectopy_core/evaluation/metrics.py: rpe", "trajectopy_core/matching.py: match_trajectories, match_trajectories_temporal, match_trajectories_spatial, match_trajectories_interpolation, kd_matcher", "trajectopy_core/evaluation/comparison.py: compare_trajectories_relative"]}
{"id": "C227", "title": "RPE uses the matched trajectories", "statement": "rpe(gt, est) reports the relative errors of the matched trajectories, for every matching method. (This fails for matching with lines through neighbouring positions: the matched trajectories are new objects, which rpe drops, so it reports the relative errors of the unmatched trajectories.)", "quantifier": "all pairs of trajectories, all settings, all states before the call", "why_tests_cant": "holds for all data or not at all; trajectories that are matched already show no difference", "anchors": ["trajectopy_core/evaluation/metrics.py: rpe", "trajectopy_core/matching.py: match_trajectories, match_trajectories_spatial_interpolation"]}
{"id": "C228", "title": "Interpolating the record of a motion", "statement": "If a trajectory records a motion of bounded speed and turn rate up to errors, interpolating it at any times gives a trajectory that records the same motion: positions are off by at most the old error and half the way that can be driven between two samples, orientations by at most twice the old error and the angle that can be turned between two samples.", "quantifier": "all motions with a top speed and a top turn rate, all trajectories that record them, all errors and sampling intervals, all times asked for", "why_tests_cant": "a bound for all motions, samplings and times; tests see single motions at single times", "anchors": ["trajectopy_core/trajectory.py: Trajectory.interpolate, _interpolate_positions, _interpolate_rotations"]}
