# Formal model of facebookincubator/momentum in Lean 4

## 1. Approach

The C++ is read as text and re-stated as small total Lean functions, one per C++
function, with a comment giving file and lines.  Properties are theorems about those
functions, each compared with a separately written specification.

* `lean/Verif/Model/*.lean`   – the model (definitions only, each citing /repo).
* `lean/Verif/Spec/*.lean`    – specifications, written without the model's helpers.
* `lean/Verif/Lemmas/*.lean`  – helper lemmas (not part of the claims).
* `lean/Verif/Props/*.lean`   – the property theorems, with a non-vacuity example beside each.

## 2. Trusted base

* Lean 4.33.0 kernel and Mathlib (installed copy), with at most the axioms `propext`,
  `Classical.choice`, `Quot.sound` (`vcheck` prints
  them per theorem; no axiom is declared, no `sorry`, no `native_decide`/`bv_decide`).
* That the Lean definitions transcribe the cited C++ lines.  This is by reading; there is no
  extraction.
* **Arithmetic.**  Floating-point numbers are modelled by exact numbers: an arbitrary linearly
  ordered field `K` where only + - * / and comparison occur, and `ℝ` where square roots,
  trigonometric functions or logarithms occur.  Rounding, overflow, infinities and NaN are not modelled
  (except where a property is about bit patterns).
* `size_t`/`uint32_t` indices are modelled by `Nat`; `kInvalidIndex` (SIZE_MAX) by `none`.  Wrap-around
  is not modelled except where it matters (rightOffset counters).
* Undefined behaviour (out-of-range access, fixed array overflow) is a distinct outcome of the model
  (`Option`/`Except`), and "never happens" is a theorem or is refuted by a witness.
* MT_CHECK / XR_CHECK / MT_THROW are modelled as an error outcome.
* Parallel loops (dispenso) write disjoint outputs; the model executes chunks in an arbitrary order
  where schedule independence is claimed.
* Modelled: exactly the functions whose lines are cited above the definitions in `lean/Verif/Model/`; the rows of
  section 3 say what is left out of each.  Of the files of the repository, 176 of 311 (without tests) are cited.
* Not modelled: Eigen's own algorithms (SVD, LLT, LDLT, sparse storage) other than by their defining
  equations, drjit lane intrinsics other than lane-wise semantics, the libraries that parse FBX, JSON and C3D (the code
  that turns what they give into characters, motions and markers is, as far as section 3 says), renderers, logging.
* Files of which nothing is modelled, apart from headers that only declare what is modelled elsewhere:
  axel: `BvhEmbree`, `BvhFactory`, `TriBvhEmbree`, `Checks`, `Log`, `Profile`;
  momentum/common: `exception.h`, `filesystem.h`, `log`, `progress_bar`, `profile.h`;
  momentum/diff_ik: `fully_differentiable_pose_prior_error_function`;
  momentum/examples and momentum/gui: all;
  momentum/io: `character_io.cpp`, `fbx_io.cpp`, `gsl_utils.h`, `stream_utils.h`, `json_utils`, `parameters_io`;
  momentum/marker_tracking: `app_utils`; momentum/math: `fmt_eigen.h`, `random`;
  momentum/solver: `solver_function.cpp`;
  pymomentum: `geometry` bindings, `momentum_geometry`, `momentum_io`, `python_utility`, the other `_pybind` files,
  `tensor_momentum_utility`, `tensor_mppca`, `autograd_utility.h`.

## 3. Properties and plan

| Id | Modelled | Proof idea |
|----|----------|------------|
| C01 | Vec3, Quat (Hamilton product, Eigen `_transformVector`), Transform over a field | ring identities after unit-norm rewriting |
| C02 | Transform.inverse | same, with field_simp on scale and norm |
| C03 | toMatrix as 4x4 function matrix | entrywise ring |
| C04 | Skeleton as list of joints, FK as a fold over the list | induction on prefix; spec = product over the ancestor chain computed from parent links |
| C05 | transformAtoB loop as well-founded recursion on indices | invariant: world(a) = world(ancA) * A_to_ancA |
| C06 | isAncestor loop | spec = `Relation.ReflTransGen` of the parent relation |
| C07 | commonAncestor loop | invariant: common ancestors preserved; for forests the code returns a wrong joint: refutation + partial theorem for a single tree |
| C08 | getChildrenJoints distance vector | invariant of the scan |
| C09 | JointState over ℝ | HasDerivAt along the chain, induction on chain |
| C10 | same | trigonometric identities |
| C11 | Euler conversions over ℝ | trig identities by ring |
| C12 | Euler extraction with atan2 = Complex.arg, asin | case split on gimbal lock branch as coded |
| C13 | dense row-map model of the sparse matrix | linear algebra |
| C14 | splitParameters | linearity |
| C15 | subsetParameterTransform on lists of triplets | reindexing sums |
| C16 | mapParameterTransformJoints | reindexing |
| C17 | add*Parameters | list reasoning |
| C18 | applyPassiveJointParameterLimits, with index check as coded | fold invariant; off-by-one check refuted |
| C19 | limit error terms | HasDerivAt of piecewise quadratics; linear/half-plane gradient misses the weight: refutation + partial |
| C20 | eight-slot rows | fold invariants, sortedness |
| C21 | simplifySkeleton | invariants of the scan; FK equality by induction |
| C22 | removeJoints | invariants of the scan |
| C23 | replaceSkeletonHierarchy skinning loop | non-termination witness; validity of merged skeleton |
| C24 | scaleCharacter | induction on FK |
| C25 | applySSD per vertex, chunk schedule | linear algebra, permutation of chunks |
| C26 | OnlineHouseholderQR over ℝ | each reflection is orthogonal and zeroes a column |
| C27 | triangular back substitution | completing the square |
| C28 | block / banded QR | refinement to the dense normal equations |
| C29 | LowRankCovarianceMatrix | from C26 |
| C30 | GeneralizedLoss | calculus |
| C31 | updateNormals | norm reasoning |
| C32 | solve loop over an arbitrary iteration oracle | loop invariant |
| C33 | subset Gauss-Newton step with arbitrary linear solver | frame property |
| C34 | line search loop | loop invariant |
| C35 | Bvh::build, with its explicit stack | refinement to a recursive tree builder |
| C36 | Bvh::query | loop invariant over stack; stack bound as explicit outcome |
| C37 | traverseCollision / traverseSelfCollision | induction on trees |
| C38 | queryClosestHelper, rayQueryClosestHit | induction on trees with pruning |
| C39 | refit | induction on trees |
| C40 | slab tests | ordered-field reasoning |
| C41 | projectOnTriangle | case analysis, convexity |
| C42 | rayTriangleIntersect | Cramer's rule |
| C43 | closestPointsOnSegments | convex minimisation; parallel early-out refuted |
| C44 | overlaps, updateAabb | convexity |
| C45 | SimdKdTree split/query | tree induction, lane-wise SIMD model |
| C46 | extrapolateModelParameters | pointwise |
| C47 | SkinWeights::set | list reasoning |
| C48 | mapMotionToCharacter, mapIdentityToCharacter | fold reasoning |
| C49 | constants, IsNanNoOpt on BitVec 32 | bit-vector arithmetic without bv_decide |
| C50 | quaternionToEuler over ℝ | trig identities; gimbal branch refuted |
| C51 | quaternionToRotationVector / rotationVectorToQuaternion | trig identities |
| C52 | computeShape, skinWithBlendShapes, bakeBlendShape | reduction to C25 |
| C53 | transformSkeleton/Mesh/InverseBindPose | induction on FK, linear algebra |
| C54 | the three Gauss-Newton iterations over an arbitrary list of error functions | both are the unique solution of the same normal equations; QR by C27 |
| C55 | `getJacobian`, `getJtJR`, `getError` over an arbitrary list of error functions | induction on the list; padding rows are zero |
| C56 | trust region iteration and inner loop on the modelled QR solver | loop invariant; predicted decrease is positive |
| C57 | constraint error functions: error, gradient and Jacobian loops with the walk up the hierarchy, and the nine `evalFunction`s | total derivative of forward kinematics along a chain by induction; sums tracked through the loops; chain rule |
| C58 | state error function: `getError`, `getGradient`, `getJacobian`, `getJacobianSize` with the walk up the hierarchy | closed forms of the loops; derivative of a joint's position and rotation matrix along its chain |
| C59 | model parameters error function, all methods | closed forms of the loops; derivative of a sum of squares |
| C60 | `MppcaT::set` on top of the covariance model of C29; the pose prior error function with its name maps, all methods, as a function of the history of `setPosePrior` | back substitution inverts the factor, so `Cinv` is the inverse covariance and `exp(score)` the weighted density; loop invariant for the maps and for the best mode; a strict maximum persists nearby, then the derivative of a quadratic form |
| C61 | streams with `std::istream::read` including the fail bit and buffers with undefined bytes; the writers and loaders of motion, blend shape and mixture model files; `mapMotionToCharacter`, `getAuxilaryDataFromMotion` | little-endian numbers invert, reading an appended block returns it, column-major matrices are determined by their entries; invariants for the loops over names. Blend shape and mixture model files that are cut off are not characterised; findings in §4 |
| C62 | `SequenceSolverFunctionT`: parameter sets, joining and splitting, error, gradient, Jacobian with the matrices that are passed in, adding error functions; error functions are arbitrary | every term becomes an error function of the joined vector, the loops become folds over the terms; a term's columns are the derivative along the direction in which an entry moves the frames |
| C63 | `Model/SequenceErrors.lean`: both sequence error functions, with gradient segments and Jacobian blocks per frame; states computed from the parameters of each frame. | The walk up the hierarchy gives sums over the chain that are linear in the rates of the joint parameters; derivatives along a line in the parameters of both frames from the forward kinematics lemmas; combined with C62 for a concrete clip. |
| C64 | The pipeline as a transition system: a program counter per task, explicit mutexes, a step per column of the QR update, schedules as lists (`Model/SequencePipeline.lean`); number type without laws | Invariant in three parts (phases of the frames and their rows of the solver; the reorder buffer; the queue and the last stage), a measure for termination, lock order for progress; that jobs touch disjoint parts is proved of the banded solver |
| C65 | `doIteration` of the sequence solver: per-frame and sequence Jacobians, merging of universal columns, the calls of the banded solver, step and line search (`Model/SequenceSolver.lean`) | The rows given to the banded solver are those of the sequence's Jacobian up to order and zero rows (sums over rows agree for every function of a row); C28 gives the minimiser; C64 gives the threads |
| C66 | The multipose solver function and `doIteration` of the multipose solver (`Model/Multipose.lean`) | Refinement: the poses are a sequence (C62) without terms between frames; the temporary Jacobian of a pose moved column by column is the fill of C62. The calls of the block solver have the rows of the Jacobian; C28 (block) gives the minimiser |
| C67 | The collision error function with its state (`Model/CollisionError.lean`) | Invariant over all histories (`Kept`): the excluded pairs are those not watched, the boxes have the numbers of the capsules. Pair traversal by C37, boxes by C44, closest points by C43. The distance of two segments as the minimum over the unit square, differentiated along the motion (`Lemmas/SegmentDistance.lean`); the part of the chains above the common ancestor moves both capsules rigidly |
| C68 | The vertex error function with its meshes (`Model/VertexError.lean`) | Invariant over all histories (`Kept`). Meshes by C52, C31 and C25. The walk over several bones: each joint receives the weight and the weighted point of the bones below it, by induction over the sorted list (`Lemmas/VertexError2`–`4`). Then derivatives along the motion (C09) of the skinned point, and of the normal for rigid vertices |
| C69 | The three stores with threads interleaved at every atomic operation and every assignment (`Model/SimdConstraints.lean`; sequentially consistent: the counters are accessed with relaxed order, but nothing is read from the arrays before the threads are joined) | Invariant of all interleavings: which thread has obtained which entry, how many calls are about to undo (`Lemmas/SimdConstraints`, `2`, `3`); then induction over the history |
| C70 | The kernels of the three error functions and of their AVX versions with lanes as functions on `Fin W`, the walk to the root, the rows of each joint, and the threads: each update of the gradient is a read and a write, and a schedule interleaves them (`Model/SimdError.lean`) | One lemma for all kernels: a kernel that measures `r` and emits the velocities of `r` gives `Σ r²` and its derivatives (`Lemmas/SimdError`…`10`); rows of different joints are disjoint, so the schedule does not matter for the Jacobian |
| C71 | `ceres::Jet<T,1>` as dual numbers, `computeLocalTransform` on them, the walk to the root with the accumulated transform, the skip of joints whose incoming gradient `isZero()`, and the walk of `d_jointParametersToPositions`, per element of the batch (`Model/TensorState.lean`). Tensor shapes, devices and the squeezing of batches are not modelled | A Jet follows a function when it holds value and derivative; this is closed under the operations used. Induction along the chain of joints: the world transform is that of the current joint times the accumulated one, so only the current joint's parameters contribute at each step |
| C72 | `skin_points`, blend shapes, parameter transforms and the inverse parameter transform, forward and backward, per element of the batch (`Model/TensorLinear.lean`). The sparse QR is a structure `A P = Q R` whose factors are given; tensor shapes and devices are not modelled | The outputs are affine in each input, so the gradient is an exact identity on differences over a commutative ring; induction over the weights of a vertex and over the vertices. The inverse: `P R⁻¹ Qᵀ` against `(R⁻¹ Qᵀ)ᵀ`, and an equivalence saying when they agree |
| C73 | the ellipsoid case of the limit error function: error, gradient, Jacobian (`Model/EllipsoidLimit.lean`), on the forward kinematics of C04/C09 | Walk of the code along the chain as an inductive path; the velocity of a point along a chain; derivative of the radial projection onto a ball. Counterexamples on a three joint skeleton |
| C74 | the constructor with its simplified character, one pose, a sequence of poses (`Model/TransformPose.lean`); the inner Gauss-Newton solver and the random numbers are arbitrary functions | The simplified character's transform is the full one's on its joints (C15, C16), so its forward kinematics is a prefix of the full one's; writing back changes rigid parameters only, which do not reach the joints after the last rigid one. Counterexamples on characters with one and three joints |
| C75 | all functions of tracker_utils.cpp (`Model/TrackerUtils.lean`) | Closed form of the loop over locators and axes by induction; the coefficients of the new rows are found from the order of the free axes; forward kinematics of the original joints is a prefix of the new one's (C74's lemma); the inverse of the parent's transform gives back the moved offset |
| C76 | CoplanarityCheck.cpp and ContinuousCollisionDetection.cpp over the reals (`Model/Coplanarity.lean`), on top of the models of C41 and C43 | Cardano's and the trigonometric factorisation of the depressed cubic; the coefficients are those of the determinant of the differences (`ring`), which vanishes exactly when a common normal exists; soundness and completeness of the tests at one time from C41 and C43 |
| C77 | tensor_quaternion.cpp for one row (`Model/TensorQuat.lean`): all functions, the backward pass with Jets; the eigenvalue solvers are parameters with the contracts `IsEig` and `IsEigh` | `ring` for products and matrices; a vector that does not move is on the axis, eigenvalues of rotations have modulus one, so the largest real part is the eigenvalue one; four orthonormal rows are a basis, so the last eigenvector maximises the agreement |
| C78 | tensor_transforms.cpp (`Model/TensorTransform.lean`): the functions of rows, and tensors as leading dimensions with a row for each index | the rows are identified with the transforms of C01 to C03; induction over the dimensions shows which index the expanded tensor reads; the blend with C77 |
| C79 | diff_ik/fully_differentiable_*_error_function.cpp (`Model/DiffConstraints.lean`): inputs by name, gradients and their derivatives in the inputs (with jets, dual numbers in the input) | the gradient times the vector is a sum over constraints of the chain walk; each jet carries the derivative of its value; normalisation of quaternions included |
| C80 | diff_ik/union_error_function.cpp (`Model/UnionError.lean`) over members with the virtual functions the union calls; the solver function with the vector all error functions share | the index is the positions of the members with the name, so every loop is a recursion over the members; induction over the members; instantiated with the error functions of C79 |
| C81 | diff_ik/fully_differentiable_body_ik.cpp (`Model/BodyIk.lean`) over error functions with the virtual functions of C80 and the solver function of C55; the singular value decomposition is a parameter with the specification of one | eigenvectors of `JᵀJ` characterise `hessianInverseTimes`; differentiating `gradient = 0` along the curve of solutions; the Gauss-Newton Hessian is shown exact for zero residuals and for affine residuals |
| C82 | character_solver/collision_error_function_stateless.cpp (`Model/CollisionStateless.lean`), with the capsules of C44 and the transform and skeleton of C67 | every evaluation is shown to be that of a C67 object with the same pairs (`twin`); an invariant over histories of evaluations keeps the pairs; the C67 lemmas on overlaps and derivatives then apply |
| C83 | character_solver/simd_collision_error_function.{h,cpp} (`Model/SimdCollision.lean`) with packets of `W` lanes, masks and lane sums, on the broad phase and walks of C67 | the closest point formula is proved optimal by convexity in each parameter (`simdSegments_closest`); the packet loops are shown to visit every stored pair once (`forCandidates_mirror`); boxes of overlapping capsules intersect, so the stored pairs contain all that take part; the C67 lemmas on derivatives then apply |
| C84 | io/skeleton/parameter_limits_io.cpp (`Model/LimitsText.lean`): tokenizer on lists of characters, all parsers, writer; printing and reading of a number are parameters, the polar decomposition of an ellipsoid too | each written piece is read back by the tokenizer up to a boundary character (`Lemmas/LimitsText.lean`), then lines, then induction over the list with the open linear limit as state (`writeLoop_open`, `roundtrip`); for arbitrary texts by inversion of the parsers and fixpoint induction over the loop of segments |
| C85 | io/skeleton/parameter_transform_io.cpp and common/string.cpp (`Model/TransformText.lean`): tokenize, trim, both levels of the parser, the copying loop as a fixpoint (a run that does not end is `none`), sets and pose constraints; reading of a number is a parameter; loadMomentumModel and the file access are not modelled | grammar of texts as inductive relations (`Spec/TransformText.lean`, `Spec/TransformSets.lean`), meaning as a program of additions; invariant that the triplets give the values of that program for all valuations, induction over summands, lines and texts; equations from the order of definitions; fixpoint induction for runs that do not end |
| C86 | locator_io.cpp `saveLocators`, `loadLocatorsFromBuffer`, `firstDuplicate`, `svtoi`, `svtof` over texts as lists of characters (Model/LocatorText.lean); printing and reading of floats are parameters | round trip in both spaces by reading the written lines one by one, the rest pose inverted; for every text: different names, origin of the limit; counterexamples for colons, unnamed locators and unchecked joint numbers |
| C87 | stream_utils.cpp `GetLineCrossPlatform` over streams with their two flags, parameter_transform_io.cpp `loadMomentumModelCommon` and the reading part of `loadModelDefinitionFromStream` (Model/LineReader.lean) | induction over the lines of the text, with decompositions that exist for every text; exact characterisation of the files on which reading does not end, by fixpoint induction |
| C88 | conversions.cpp `toUnit`, `toMomentumVector3`; trc_io.cpp `loadTrc` over texts (Model/TrcText.lean); `std::stod` and `std::stoi` are parameters | algebra for the rotation; induction over lines and rows for the reader; general theorems for the wrong unit, the lost last line and the file that is read for ever |
| C89 | polygon_data.cpp `triangulate`, `errorMessage`, `warnMessage` with 32-bit wrap-around; the loop of openfbx_io.cpp that reads polygons (Model/Polygons.lean) | induction over polygons; accepted arrays are exactly prefix sums of polygons; a discrete Stokes theorem over any commutative group for the boundary |
| C90 | c3d_io.cpp `findSubjectName`, `loadC3d` on what ezc3d returns, with the order of the hash table as a parameter; marker_io.cpp `findMainSubjectIndex` (Model/MarkerSubjects.lean) | invariants of the table of subjects and of the map from points to markers; induction over points and frames; the main subject by induction over the list |
| C91 | marker_tracker.cpp `trackPosesPerframe`, `trackSequence`, the stride of `calibrateModel` and `calibrateLocators`; process_markers.cpp `processMarkers` without calibration (Model/MarkerTracker.lean). The solvers are parameters of the model | invariant of the loop over strides with the written columns; induction over the first frames of strides; C62 for the joined parameter vector; least fixed point for strides of zero |
| C92 | `Model/GltfBuffers.lean`: elements are lists of bytes, a document has accessors, views and buffers; sizes wrap at 2^32 as in the code; reading past a buffer is `ub`. Marker channels in an ordered field. | `C92_read_back`, `C92_stored` by induction on the history of calls; `C92_aligned`; `C92_starts_partial`, `C92_read_partial` for accessors of any file inside their views; `C92_reads_past_end_counterexample`; `C92_markers` by induction on events and names; `C92_frames_lost`, `C92_times_counterexample`. |
| C93 | `Model/GltfHierarchy.lean`: nodes with children, flags and type; the recursion with a bound on its depth, `none` if it is deeper; objects are named by their nodes. Gathering roots from skins is C95; sorting capsules is not modelled. | `C93_hierarchy` by induction on the depth with the invariant `WellFormed`; `C93_tree` with a rank; `C93_skeleton` from the nodes that `addSkeleton` makes; counterexamples for cycles, for an index equal to the number of nodes, for the order of joints and for several roots. |
| C94 | `Model/FbxStream.lean`: buffer, integer position and error code, each call as a step; the conversion to unsigned of the newer SDK is modelled, `memcpy` outside of the buffer is `ub`. | `C94_history_partial` and `C94_reads` by induction on the calls against a small file specification; `C94_error`; `C94_outside_counterexample` for all buffers and positions behind the end; `C94_error_counterexample`, `C94_seek_end`. |
| C95 | `Model/GltfRoots.lean`: the map of parents level by level, ancestors, closest common ancestors, the roots of each skin and the merging of skins, with and without compiled checks; indices out of range are `ub`, endless loops `none`. | `C95_parents`, `C95_skin` (covering, closest, one root for each tree), `C95_gather_partial` and `C95_loaded_partial` by induction on the lists and on the rank of nodes against `Below`, `Closest` of `Spec/GltfRoots.lean`; `C95_ends`; `C95_shared_counterexample` for all files whose skins share their closest node; `C95_cycle_counterexample`. |
| C96 | `Model/PoseShape.lean`: the coefficients, the matrix by rows, accesses outside of lists and uninitialised coefficients as `ub`. Loading of pose shapes is C100. | `C96_value` against a sum over joints in `Spec/PoseShape.lean`, `C96_fits` (its converse), `C96_turned`, `C96_base` for all sizes; `C96_sign_counterexample` with `C96_full_turn`, and `C96_empty_counterexample` for all shapes. |
| C97 | `Model/Aligned.lean`: sizes modulo 2^64, the system as an arbitrary predicate on sizes. The memory itself is not modelled. | `C97_round_partial` (smallest multiple), `C97_alloc_partial` by arithmetic for all sizes; `C97_wrap_counterexample` for all requests less than one alignment below 2^64 bytes; `C97_zero`. |
| C98 | `Model/TensorCheck.lean`: the checker as a state, its bound sizes as a partial function, tensors by their sizes; histories of calls with errors in between. | `C98_together` by induction on the calls with the invariant that bound sizes are kept; `C98_unchanged`; `C98_accepted_partial` (completeness); `C98_order_counterexample` for all tensors. |
| C99 | `Model/TensorClosest.lean`: results as a function of batch and point, one step for each source point in an arbitrary order; the search in the tree is that of C45, taken as a parameter. Points with normals are not modelled. | `C99_closest_partial` by induction on the order of the steps for every search that satisfies the specification of C45; `C99_dimension_counterexample` for all points of other dimensions; `C99_negative`. |
| C100 | `Model/PoseShapeIo.lean`: a file is a list of bytes, memory may be undefined (`Model/BinaryIo.lean`), floats are bit patterns with an arbitrary addition. Allocation failures are not modelled. | `C100_load`, `C100_refused` for all files of the format in `Spec/PoseShapeIo.lean`, `C100_fits` for all lists of bytes; `C100_missing`; `C100_truncated_counterexample`, `C100_short_counterexample`. |
| C101 | `Model/JointParamsIo.lean`: a file is a list of bytes, memory may be undefined (`Model/BinaryIo.lean`), numbers of frames and parameters are signed and the counter is an `int`. Allocation failures are not modelled. | `C101_load` by induction on the frames, `C101_shape` for all lists of bytes; `C101_truncated_counterexample` for every number of frames that are missing, `C101_short_counterexample`. |
| C102 | `Model/SimdLoss.lean`: packets as functions on lanes, real numbers; the formulas of the packet version are transcribed separately from those of C30. | `C102_lanes` by cases of the loss against the model of C30, `C102_independent`, `C102_deriv` from C30. |

## 4. Findings (places where the code violates the English property)

Each is a proved theorem about the model; the property is then claimed `partial` in MANIFEST.json.

* C07 `commonAncestor` of joints in different trees returns a wrong joint (`C07_forest_counterexample`).
* C12 Euler extraction is inexact inside its gimbal tolerance band (`C12_band_counterexample`).
* C16 `mapParameterTransformJoints` drops blend-shape and face-expression parameter indices.
* C18 `applyPassiveJointParameterLimits` accepts index = size (`C18_out_of_bounds_counterexample`).
* C19 gradient of linear and half-plane limits misses the limit weight; `getGradient` counts disabled
  linear limits; the Jacobian of a repeated parameter is overwritten instead of added.
* C22 `removeJoints` loses the constant offsets and the activity flags of the parameter transform
  (`C22_offsets_lost`, `C22_active_flags_lost`); pose constraints and face shapes are dropped too (not modelled).
* C23 `replaceSkeletonHierarchy` loops forever when neither a target joint's name nor its parent's name
  survives (`C23_endless_loop`), and a joint named like its parent becomes its own parent (`C23_own_parent`).
* C21 `simplifySkeleton` keeps only the pre-rotations and the reference position of the joints it skips.  A constant
  rotation (or scale) offset of a disabled joint is lost (`C21_rotation_offset_lost`), and the pre-rotation moved to the
  kept child no longer turns that child's translation parameters (`C21_translation_turned`).
* C24 `scaleCharacter` passes blend shapes on unscaled, so a character with blend shapes is not skinned to the scaled
  vertices (`C24_blend_shape_not_scaled`); the radii of ellipsoid limits and translation offsets of the parameter
  transform are not scaled either (not modelled).
* C25 skinning a mesh with vertices but without normals reads normals out of range (`C25_mesh_without_normals`).
* C26 `OnlineHouseholderQR::reset()` without arguments sets the regularisation to zero instead of keeping it
  (`C26_reset_forgets_lambda`), and `transpose_times` of a column selection reads the unselected columns
  (`C26_transpose_times_wrong_column`).
* C28 the banded solver is wrong when a later block ends before an earlier block it shares columns with
  (`C28_banded_order_counterexample`).  The block solver drops columns whose entries are all below Eigen's absolute
  `isZero` tolerance (`C28_block_tolerance_counterexample`), `At_times_b_i` adds the common unknowns' term to the block's
  (`C28_block_atTimesBI_counterexample`), and the read-outs fail their checks after a skipped block index
  (`C28_block_gap_counterexample`).
* C29 `logDeterminant` fails its check for a negative `sigma` and a column without entries, although the covariance is
  that of `-sigma` (`C29_negative_sigma_counterexample`).
* C30 (beside the property) `kWelsch` is `-1e-9`, so every negative `alpha` is treated as minus infinity
  (`C30_negative_alpha`); the loss jumps by a factor of two at `alpha = 2` (`C30_jump_at_two`).
* C31 (beside the property) the NaN test of `updateNormals` looks at the first component only, so a NaN `x` coordinate
  spreads to the neighbours' normals (`C31_nan_counterexample`).
* C32 `solve` returns the error before its last step, although it is documented as the final value
  (`C32_returned_error_counterexample`).  With `maxIterations = 0` it returns `DBL_MAX`.  On an early stop the iteration
  count in the history is one less than the number of iterations done (`C32_reported_count`).
* C34 when none of the ten steps passes the test, the last and smallest one is kept, although it may increase the error.
  The theorems say so: the result is a passing step, or the last of ten failing ones.
* C56 (beside the property) `lambda > 0` always holds, since `lambda` starts at `1e-10`; so the radius also grows when
  the step is inside the region.  `1e-10` is passed to `reset`, which wants the square root of the regularisation.
* (beside C55) `getDimensions` adds eight rows when the number of rows is already a multiple of eight.
* C35 129 points at powers of two overflow the 128-entry stack of `Bvh::build`.
* C36 65 points overflow the 64-entry stack of the queries; the buffered query overruns its buffer for
  leaf capacity 4 or 8; the ray query reads node 0 of an empty tree.
* C37 the callback's request to stop is ignored; pairs inside one leaf are never reported.
* C41 (outside its range) a triangle with two equal corners makes `projectOnTriangle` divide zero by zero
  (`C41_degenerate_counterexample`).
* C42 (beside the property) the tolerance is absolute, so a short direction vector, or a small triangle, never hits
  (`C42_short_direction_counterexample`).
* C43 `closestPointsOnSegments` compares the distance of the origins, not of the segments, with the bound when the
  segments are parallel (`C43_parallel_reject_counterexample`), reports the origin of the first segment when the second is
  a point (`C43_point_counterexample`), and takes short segments at a right angle to be parallel
  (`C43_short_counterexample`); `distanceEdgeEdge` does the last too (`C43_edge_short_counterexample`).
* C44 (beside the property) capsules whose axes cross are not reported to overlap (`C44_crossing_axes_counterexample`),
  nor are tapered capsules that meet away from the closest points of their axes (`C44_tapered_counterexample`).
* C45 packets are filled up with points at a far value (`1e10` in every coordinate) and index `INT_MAX`. A query nearer to
  that point than to the real ones (`C45_far_counterexample`), an acceptance function that accepts `INT_MAX` and rejects the
  real points in reach (`C45_accept_counterexample`), and a sphere reaching it (`C45_sphere_counterexample`) fail an
  internal check. A colour query on a tree with normals but no colours reads absent memory (`C45_color_counterexample`).
* C46 a negative bound is undefined behaviour in `std::clamp`; C47 short weight lists are read out of bounds.
* C50 `quaternionToEuler` at 90 degrees pitch returns the angles of another rotation.
* C52 posing a baked character ignores the baked mesh: the blend shape stays attached (`C52_baking_ignored`).
* C53 `transformCharacter` moves only the first root (`C53_second_root`), and the root's translation parameters keep
  acting along the old axes (`C53_root_translation`).
* C57 `getGradient` leaves out a constraint whose function is within `isZero`'s tolerance of zero, both from the gradient
  and from the error it returns, although `getError` and `getJacobian` count it (`C57_small_values_dropped`).
* C58 `getGradient` of the state error function multiplies the parameter difference with the parameter's weight once
  instead of twice: the gradient is the derivative only for weights 0 and 1, or on target (`C58_gradient_partial`, an
  equivalence, and `C58_gradient_wrong`).  The Jacobian is right.  `getJacobian` leaves `usedRows` as it was when the target
  is missing (`C58_rows_unset`); the callers in skeleton_error_function.h:94, multipose_solver.cpp:83 and
  sequence_solver.cpp:119,159 pass an uninitialized variable.
* C59 `getJacobian` of the model parameters error function leaves out parameters with a negative weight, `getError` and
  `getGradient` count them (`C59_jacobian_wrong`).
* C60 `setPosePrior` resizes the two index maps without clearing them, so entries of an earlier prior survive: the new prior
  reads and pulls parameters it has no name for (`C60_stale_map`; for priors with the same names the history does not
  matter, `C60_history_partial`). `setPosePrior(nullptr)` dereferences the null pointer although the constructor accepts it
  (`C60_null_prior`). With no modes the error is `numeric_limits::max()` times the weights while the gradient reports 0
  (`C60_no_modes`). The error jumps where the likeliest mode changes (`C60_error_jumps`). With a name occurring twice in the
  prior the Jacobian covers only the last occurrence (`C60_duplicate_names`).
* C61: a motion file that is cut off is loaded without complaint, with matrices of full size whose missing numbers are uninitialised memory (`C61_truncation_unnoticed`). `loadBlendShape` overruns the base shape for a file whose number of rows is not a multiple of three, and uses uninitialised dimensions for a file that is too short (`C61_blend_shape_malformed`). An additional parameter with the empty name is saved but not found again (`C61_empty_name`). Additional parameters with rows but without columns pass the checks of `saveMmo` and then violate the precondition of an Eigen block assignment (`C61_no_columns`).
* C62: `SequenceSolverFunctionT::getJacobian` sets its matrices to zero only if their size has to change, but adds the universal columns of sequence error functions to what is there. `GaussNewtonSolverT` passes the same matrix in every iteration, so from the second iteration on these columns are wrong (`C62_jacobian_reused_counterexample`). With universal parameters and no frames the joined vector reads frame 0 of none (`C62_no_frames_counterexample`).
* C64: holds. Two remarks. The pool's guarantee that each frame is handed out once is trusted. An error function that is added for all frames (`kAllFrames`) is one object called from several threads at once; functions with caches of their own (collision, vertex) then race. The model takes the Jacobian of a frame to be a function of that frame.
* C65: fails without per-frame parameters: the banded solver rejects the bandwidth 0 (`C65_no_per_frame_counterexample`). With line search the shortest step is kept even if it increases the error (`C65_line_search_increase_counterexample`). Remarks: `int rows;` is passed uninitialised to `getJacobian`; rows after those used stay zero and change nothing.
* C66: `doIteration` fails a size check if some pose has no error function with positive weight (`C66_idle_pose_counterexample`). `setEnabledParameters` leaves enabled universal parameters outside the actual parameters if the last enabled parameter is generic, and reports 0 actual parameters if only the first is enabled (`C66_enabled_counterexample`). `getUniversalParameters` reads the first pose, `getJoinedParameterVector` the last (`C66_universal_counterexample`). Matrices that are used again keep the rows of error functions whose weight has become zero (`C66_jacobian_reused_counterexample`). `getUniversalParameterSet` throws beyond 2048 joined parameters (part of `C66_universal_set`).
* C67: the entries of the Jacobian are twice the derivative of the residual (`C67_jacobian_twice`, `C67_jacobian_counterexample`); the gradient is right, so `JᵀR` is the gradient and not half of it (`C67_jacobian_residual`). The gradient ignores that capsules grow with a joint that is scaled (`C67_scale_counterexample`), and the change of the radius along tapered capsules. The constructor reads past the joints for a skeleton with several roots (`C67_forest_counterexample`). For parallel or tapered capsules the reported depth depends on the order in which the hierarchy visits the pair, so it can differ between evaluations (`C67_error` therefore leaves the order open). `getJacobian` on an empty state leaves the number of used rows unset.
* C68: for constraints along vertex normals the gradient leaves out that the normals turn with the blend shape (`C68_shape_gradient_wrong`), and treats the normal of a vertex on several joints as if it were not normalised after blending (`C68_two_bones_gradient_wrong`). `getJacobian` dereferences a null blend shape when the character has blend-shape parameters but no blend shape (`C68_missing_blend_shape`). Its check of the number of rows asks for one row per constraint where position constraints write three. Gradients of shape parameters are also written for disabled parameters. The skinning stops at the first zero weight and takes negative weights, the iterator skips both, so `Valid` asks for non-negative weights, the non-zero ones first.
* C69: `addConstraint` checks the joint index against 512 and not against the number of joints there is room for, so a constraint for another joint overwrites numbers of other constraints and runs out of the block (`C69_joint_range_wrong`). The position and plane versions drop constraints beyond the 4096th without telling the caller (`C69_full_dropped`). The constructor of the normal version does not set its counters, which before C++20 leaves them undetermined.
* C70: `SimdPositionErrorFunction::getGradient` and `SimdNormalErrorFunction::getGradient` leave out the weight of the error function (`C70_gradient_weight_wrong`, `C70_gradient_position_weight_wrong`). The threads of `SimdPositionErrorFunction::getGradient` add to the same entries without synchronisation, so updates are lost (`C70_gradient_race_wrong`). `SimdPlaneErrorFunction` turns the plane with the joint, unlike its AVX version (`C70_plane_error_wrong`); its gradient has the square of the distance where the derivative has the distance (`C70_plane_gradient_wrong`), and its Jacobian leaves out the change of the turning normal (`C70_plane_jacobian_wrong`). `SimdPlaneErrorFunctionAVX::getJacobian` skips the last packet when its block ends with the matrix (`C70_plane_avx_rows_wrong`). `SimdNormalErrorFunctionAVX` normalises the normal in `getJacobian` but not in the inherited `getError` (`C70_normal_avx_wrong`). The AVX versions of positions write behind their block when it does not start at a multiple of eight rows (`C70_avx_offset_wrong`).
* C71: `isZero()` has a tolerance (1e-5 for float, 1e-12 for double), so the backward passes of the skeleton states ignore a joint whose incoming gradient is small but not zero (`C71_small_weights_dropped`); the theorems say exactly which weights are replaced by zero.
* C72: `ApplyInverseParameterTransformFunction::backward` applies `Q R⁻ᵀ` and omits the column permutation of Eigen's `SparseQR` (COLAMD ordering), which `solve` applies in the forward pass. The gradient is right only when the permutation is the identity (`C72_inverse_gradient_iff`).
* C73: the gradient of an ellipsoid limit treats the projected point as fixed. It is wrong for ellipsoids that are not balls (`C73_ellipsoid_wrong`), for parameters that scale the ellipsoid (`C73_scale_wrong`) and for parameters that move an ellipsoid on another branch (`C73_other_branch_wrong`).
* C73: the projection is along the ray to the centre, not to the closest surface point as the comment says (`C73_not_closest`); a point exactly at the centre has error zero (`C73_error_zero_iff`).
* C74: joints that hang from a joint above the last rigid one need not move with the character (`C74_other_branch_wrong`).
* C74: when no restart gives the orientation, the last random placement is returned with only a warning in the log (`C74_gives_up_random`); the position is never checked (`C74_position_unchecked`).
* C75: the locators can only be read back from a character built for calibration: a movable locator on the root makes the code look up the root's parent (`C75_extract_root_wrong`). `removeIdentity` does not check the sizes that `fillIdentity` checks.
* C76: `timesCoplanar` compares coefficients with absolute tolerances, so the outcome depends on the unit of length: a vertex that falls through a half-millimetre triangle, in metres, is missed (`C76_small_missed`), and a quadratic with a small discriminant has its two roots replaced by one far from both (`C76_quadratic_wrong`). If all coefficients vanish the code reports time 0, which both callers skip, so that motion within a plane is never detected (`C76_in_plane_missed`). A vertex that meets the boundary of a triangle is not reported (`C76_boundary_missed`), nor are two edges shorter than 1e-2 (`C76_short_edges`).
* C77: at a pitch of ±90° `quaternionToXYZEuler` evaluates atan2(0, 0) and loses the remaining rotation, as does `quaternionToEuler` in C50 (`C77_toEuler_wrong`). With exact numbers every unit quaternion has Euler angles (`C77_toEuler_defined`); with rounding, the argument of the arc sine is not clamped and can exceed one.
* C78: `inverseSkeletonStates` divides the quaternion by its squared length but rotates the translation without normalising, so that the result is not the inverse if the quaternion does not have length one (`C78_inverse_wrong`). `multiplySkeletonStates` and `transformPointsWithSkeletonState` repeat the left tensor only: many states cannot be applied to a single point (`C78_transform_tensors`).
* C79: `d_gradient_d_input_dot` of the fully differentiable motion error function ignores the enabled parameters, which its `getGradient` leaves at zero: with a vector that is not zero at a disabled parameter the reported derivative is wrong (`C79_motion_wrong`).
* C80: `UnionErrorFunctionT::getGradient` multiplies the whole vector it is given with the weight of the union, while every other error function only adds to it. In a solver, the gradients of the error functions that come before a union are multiplied with its weight (`C80_shared_wrong`, `C80_shared_partial` says exactly when the result is right).
* C81: the derivatives use `2 JᵀJ` in place of the Hessian of the error, as the comment in the code says. With residuals that do not vanish at the solution and are not affine, the result is wrong by a factor that has no bound in general: in the example of `C81_curvature_wrong` the code gives 7/5 and the derivative is 1.
* C81: for an error function of weight zero the gradient (which is then zero) is not divided by the weight, so the reported derivative in the weight is zero whatever the error function is; the derivative as the weight grows from zero is in general not zero (`C81_weight_wrong`).
* C82: as for C67, the rows of the Jacobian are twice the derivative of the residual (`C82_jacobian_twice`), so that the product of the Jacobian and the residual is the full gradient (`C82_jacobian_residual`), and the gradient leaves out the change of the radii under scaling (`C82_gradient_partial`).
* C82: construction reads past the joints for every two capsules that are apart at rest and have no common ancestor (`C82_forest`, `C82_forest_counterexample`).
* C83: when the axes of two watched capsules meet, getGradient and getJacobian divide by a distance of zero and return NaN, although getError is fine (`C83_crossing`, `C83_crossing_counterexample`); the other two collision error functions leave out such pairs.
* C83: getJacobianSize counts every pair that does not overlap at rest, also pairs on neighbouring joints that are never evaluated (`C83_size`); the rows not filled stay as they were. As for C67 the rows are twice the derivative of the residual (`C83_jacobian_twice`, `C83_jacobian_residual`).
* C84: writeParameterLimits puts consecutive pieces of a linear limit in one line with the weight of the first; other weights are lost (`C84_weight_counterexample`). The start of the range of the first piece is not written either (`C84_start_counterexample`).
* C84: a half plane with a normal that is no unit vector comes back normalised, so the error of the limit changes (`C84_normal`). A minmax limit of a model parameter whose name contains a dot cannot be read back (`C84_dotted_counterexample`).
* C85: a reference to a joint parameter copies its weights but not its constant, so `a.tx = 2*p + 1`, `b.ry = 3*a.tx` gives 6*p (`C85_reference_counterexample`); a reference to a joint parameter that is defined later gives zero (`C85_order_counterexample`); of several constants only the last counts (`C85_constants_counterexample`).
* C85: a definition that refers to itself after a weighted parameter makes parseParameterTransform append to the list it walks over for ever (`C85_self_reference`).
* C85: `1*p - 2*q` is passed over in silence because it has three parts at `*` (`C85_product_ignored`), and the plus sign of an exponent splits a number (`Props/TransformTextEx.lean`).
* C86: `loadLocatorsFromBuffer` splits lines at every colon. A locator on a joint with a colon in its name (a namespace, as in `rig:arm`) is written by `saveLocators` and silently dropped when the file is loaded; a colon in the name of a locator loses the name, and two such locators make the file unreadable ("Duplicated locator uninitialized found").
* C86: `firstDuplicate` returns the repeated name, and an empty result means no duplicate: two unnamed locators are accepted, and with them any repeated names after them. The number after `"parent":` is not compared with the number of joints. A number without digits, or outside `int`, leaves the result uninitialised; a file with only some of the global coordinates uses uninitialised ones; a blank line inside a locator reads the first character of an empty text.
* C87: `GetLineCrossPlatform` returns a stream with `failbit` for a last line without a line end, so `while (GetLineCrossPlatform(…))` never sees that line: the last line of model, definition and TRC files without a final line end is lost. After a final `\r` the stream has `eofbit` only and converts to `true` for ever: the same loops do not end on files that end with `\r` (as written on classic Mac systems).
* C88: `loadTrc` passes `tokens[4]` as the unit after `tokens` has been assigned the fields of the data line: the unit of the header is never used and every file is read as centimetres (`C88_units_counterexample`; files in millimetres come out ten times too large).
* C88: the documentation of `toMomentumVector3` says that y is up in the result. The up direction becomes +z for `X` and `Z`, and -z for `Y` and `YNeg` (`C88_up_counterexample`).
* C89: `errorMessage` and `warnMessage` accept missing texture indices (`kInvalidTexCoord`), `triangulate` turns them into -1, and `parseSkinnedModel` adds the number of texture coordinates of the meshes before: for all but the first mesh the missing coordinate becomes the last one of the previous mesh (`C89_missing_texture_counterexample`).
* C90: `loadC3d` asks for `points / 255` further sections of labels, so a file whose points fill its sections exactly (255, 510, ...) makes ezc3d throw for a missing section, and the result is empty (`C90_full_section_lost`). The documentation of `loadMarkersForMainSubject` speaks of the first frame; the code takes the maximum over all frames. A single sequence is the main one whatever its name.
* C91: a stride of zero makes `trackPosesPerframe` loop forever (`C91_zero_stride_never_ends`) and `trackSequence` divide by zero (`C91_sequence_zero_stride`). `processMarkers` adds the first frame and the number of frames without a check: asking for all frames after the first with the largest number wraps around (`C91_window_wraps`). `calibFrames` is documented as the number of frames used in a calibration; up to twice as many are solved (`C91_calibration_twice_counterexample`).
* C92: `copyAccessorBuffer` checks only that the first byte of each element is inside the view, and copies the rest unchecked: an accessor with too many elements reads past the buffer (`C92_reads_past_end_counterexample`). An accessor of another element size gives an empty array without an error, and one of another type but the same size is reinterpreted (`C92_wrong_type`).
* C92: `loadMarkerSequence` sizes the sequence by the last time of each channel: frames at the end without visible markers are lost (`C92_frames_lost`), and a file whose times do not increase, or a channel without entries, is undefined behaviour (`C92_times_counterexample`).
* C86: a locator file's parent -1 means none, but every other negative number is converted to an unsigned index of about 2^64 (`C86_lines`).
* C93: `loadHierarchyRecursive` checks `nodeId > model.nodes.size()`, so an index equal to the number of nodes is read out of bounds (`C93_index`); a file with a cycle recurses without end (`C93_cycle_counterexample`).
* C93: `addSkeletonToModel` puts only joint 0 into the scene: other roots and all below them are lost when the file is loaded (`C93_roots_counterexample`). Joints are loaded depth first, so a skeleton listed in another order comes back with other joint indices (`C93_order_counterexample`).
* C94: `FbxMemoryStream` never checks positions. With FBX SDK 2020.3.2 and later, `count > remaining` compares unsigned numbers, so a read behind the end of the buffer is not refused and copies memory outside of it; so does a read at a negative position with any SDK (`C94_outside_counterexample`). `errorCode_` is not initialised (`C94_error_counterexample`), and `eEnd` counts backwards (`C94_seek_end`).
* C95: a file with two skins on the same skeleton, such as two meshes that are skinned to the same joints by skins of their own, cannot be loaded: `gatherSkeletonRoots` compares the root of a skin with the ancestors of that of another *including itself*, so each of the two is dropped in favour of the other and none is left; `MT_CHECK` fails, and without checks the first element of an empty list is read (`C95_shared_counterexample`). A cycle of nodes makes the loop endless (`C95_cycle_counterexample`).
* C96: `PoseShape::compute` uses the four numbers of quaternions as they are. The quaternions q and -q are the same rotation, and a full turn of a joint leads from one to the other, but they move the vertices away from the base shape in opposite directions (`C96_sign_counterexample`, `C96_full_turn`). For a mesh without vertices `&output[0][0]` is taken of an empty list (`C96_empty_counterexample`).
* C97: `alignedAlloc` checks that the product of number and size does not overflow, but not that rounding it up does not: every request of less than one alignment below 2^64 bytes is rounded to zero bytes, and succeeds if the system gives out blocks of no bytes (`C97_wrap_counterexample`).
* C98: a tensor without a batch that is checked first binds the batch size to one, so that no later argument may have a batch of another size, although in the other order the same arguments are accepted and the first is expanded (`C98_order_counterexample`).
* C99: `findClosestPoints` accepts points of any number of dimensions, but for other than two or three nothing is searched: all results are index 0 and marked as valid, with coordinates zero (`C99_dimension_counterexample`). A negative distance acts as a positive one (`C99_negative`).
* C100: `loadPoseShape` never checks the stream: a file that ends inside the vectors is loaded without an error and with uninitialised numbers (`C100_truncated_counterexample`), and for a file of fewer than sixteen bytes uninitialised dimensions are used (`C100_short_counterexample`). A file that cannot be opened gives an empty shape without an error (`C100_missing`).
* C101: `loadJointParamsBinary` checks neither that the file exists nor that it is read: without a file, or with fewer than sixteen bytes, uninitialised numbers are used as sizes (`C101_short_counterexample`), and frames missing at the end are loaded with undefined numbers and without an error (`C101_truncated_counterexample`).
